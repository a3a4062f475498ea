import Verif.Lemmas.GoStr
import Mathlib.Tactic.Common

/-! Facts about `strings.Index`. -/

namespace Xmp.GoStr

theorem index_none_iff {sub s : Str} (hsub : sub ≠ []) :
    index sub s = none ↔ ∀ j, hasPrefix (s.drop j) sub = false := by
  induction s with
  | nil =>
    simp only [index, hsub, if_false, true_iff]
    intro j
    cases h : hasPrefix (([] : Str).drop j) sub with
    | false => rfl
    | true =>
      obtain ⟨t, ht⟩ := hasPrefix_iff.1 h
      simp only [List.drop_nil] at ht
      cases sub with
      | nil => exact absurd rfl hsub
      | cons a b => simp at ht
  | cons x xs ih =>
    unfold index
    constructor
    · intro h
      split at h
      · simp at h
      · rename_i hp
        have h' : index sub xs = none := by simpa using h
        intro j
        cases j with
        | zero => simpa using hp
        | succ j => exact ih.1 h' j
    · intro h
      have h0 := h 0
      simp only [List.drop_zero] at h0
      rw [if_neg (by simp [h0])]
      rw [ih.2 (fun j => h (j + 1))]
      rfl

theorem index_some_iff {sub s : Str} (hsub : sub ≠ []) {i : Nat} :
    index sub s = some i ↔ hasPrefix (s.drop i) sub = true ∧ ∀ j < i, hasPrefix (s.drop j) sub = false := by
  induction s generalizing i with
  | nil =>
    simp only [index, hsub, if_false]
    constructor
    · intro h; simp at h
    · rintro ⟨h, _⟩
      obtain ⟨t, ht⟩ := hasPrefix_iff.1 h
      simp only [List.drop_nil] at ht
      cases sub with
      | nil => exact absurd rfl hsub
      | cons a b => simp at ht
  | cons x xs ih =>
    unfold index
    by_cases hp : hasPrefix (x :: xs) sub = true
    · rw [if_pos hp]
      constructor
      · intro h
        injection h with h
        subst h
        exact ⟨hp, by intro j hj; omega⟩
      · rintro ⟨_, h2⟩
        cases i with
        | zero => rfl
        | succ i =>
          have := h2 0 (by omega)
          rw [List.drop_zero, hp] at this
          simp at this
    · rw [if_neg hp]
      constructor
      · intro h
        cases hi : index sub xs with
        | none => rw [hi] at h; simp at h
        | some k =>
          rw [hi] at h
          simp only [Option.map_some, Option.some.injEq] at h
          subst h
          obtain ⟨h1, h2⟩ := ih.1 hi
          refine ⟨h1, ?_⟩
          intro j hj
          cases j with
          | zero => simpa using hp
          | succ j => exact h2 j (by omega)
      · rintro ⟨h1, h2⟩
        cases i with
        | zero => exact absurd (by simpa using h1) hp
        | succ i =>
          rw [ih.2 ⟨h1, fun j hj => h2 (j + 1) (by omega)⟩]
          rfl

theorem hasPrefix_append_right {s t sub : Str} (h : hasPrefix s sub = true) : hasPrefix (s ++ t) sub = true := by
  obtain ⟨u, hu⟩ := hasPrefix_iff.1 h
  exact hasPrefix_iff.2 ⟨u ++ t, by rw [hu, List.append_assoc]⟩

/-- A prefix that fits into the first part is a prefix of it. -/
theorem hasPrefix_of_append {s t sub : Str} (h : hasPrefix (s ++ t) sub = true) (hl : sub.length ≤ s.length) :
    hasPrefix s sub = true := by
  obtain ⟨u, hu⟩ := hasPrefix_iff.1 h
  have : sub <+: s := by
    apply List.prefix_of_prefix_length_le ⟨u, hu.symm⟩ (List.prefix_append s t) hl
  obtain ⟨v, hv⟩ := this
  exact hasPrefix_iff.2 ⟨v, hv.symm⟩

theorem hasPrefix_length {s sub : Str} (h : hasPrefix s sub = true) : sub.length ≤ s.length := by
  obtain ⟨u, hu⟩ := hasPrefix_iff.1 h
  rw [hu]; simp

theorem index_le {sub s : Str} (hsub : sub ≠ []) {i : Nat} (h : index sub s = some i) : i + sub.length ≤ s.length := by
  obtain ⟨h1, _⟩ := (index_some_iff hsub).1 h
  have := hasPrefix_length h1
  have hpos : 0 < sub.length := List.length_pos_iff.2 hsub
  simp only [List.length_drop] at this
  omega

theorem index_append {sub d f : Str} (hsub : sub ≠ []) {i : Nat} (h : index sub d = some i) :
    index sub (d ++ f) = some i := by
  have hle := index_le hsub h
  obtain ⟨h1, h2⟩ := (index_some_iff hsub).1 h
  rw [index_some_iff hsub]
  refine ⟨?_, ?_⟩
  · rw [List.drop_append_of_le_length (by omega)]
    exact hasPrefix_append_right h1
  · intro j hj
    rw [List.drop_append_of_le_length (by omega)]
    cases hp : hasPrefix (d.drop j ++ f) sub with
    | false => rfl
    | true =>
      have := hasPrefix_of_append hp (by simp only [List.length_drop]; omega)
      rw [h2 j hj] at this
      simp at this

theorem index_drop {sub s : Str} (hsub : sub ≠ []) {k : Nat} (h : ∀ j < k, hasPrefix (s.drop j) sub = false) :
    index sub s = (index sub (s.drop k)).map (· + k) := by
  cases hi : index sub (s.drop k) with
  | none =>
    rw [Option.map_none, index_none_iff hsub]
    intro j
    by_cases hj : j < k
    · exact h j hj
    · have := (index_none_iff hsub).1 hi (j - k)
      rw [List.drop_drop] at this
      have e : k + (j - k) = j := by omega
      rwa [e] at this
  | some i =>
    obtain ⟨h1, h2⟩ := (index_some_iff hsub).1 hi
    rw [Option.map_some, index_some_iff hsub]
    refine ⟨?_, ?_⟩
    · rw [List.drop_drop] at h1
      rwa [Nat.add_comm]
    · intro j hj
      by_cases hjk : j < k
      · exact h j hjk
      · have := h2 (j - k) (by omega)
        rw [List.drop_drop] at this
        have e : k + (j - k) = j := by omega
        rwa [e] at this

end Xmp.GoStr
