import Verif.Model.Array
import Verif.Model.Xml
import Verif.Lemmas.GoStr
import Verif.Props.AltString

/-! C16 - C19 and C37: arrays. -/

namespace Xmp.Props

open GoStr

/-! ### C17 -/

/-- Additions to a string array. -/
inductive ListOp where
  | add (v : Str)
  | addUnique (v : Str)

/-- The value added. -/
def ListOp.val : ListOp → Str
  | .add v => v
  | .addUnique v => v

/-- Run one addition. -/
def ListOp.run (x : StringList) : ListOp → StringList
  | .add v => x.add v
  | .addUnique v => x.addUnique v

theorem contains_iff (x : StringList) (v : Str) : x.contains v = true ↔ v ≠ [] ∧ v ∈ x := by
  unfold StringList.contains StringList.index
  by_cases hv : v = []
  · simp [hv]
  · simp [hv]

/-- One addition in terms of lists. -/
theorem listOp_run_eq (x : StringList) (op : ListOp) :
    op.run x = match op with
      | .add v => if v = [] then x else x ++ [v]
      | .addUnique v => if v = [] ∨ v ∈ x then x else x ++ [v] := by
  cases op with
  | add v => rfl
  | addUnique v =>
    show StringList.addUnique x v = _
    unfold StringList.addUnique
    by_cases hv : v = []
    · simp [hv]
    · have hc := contains_iff x v
      by_cases hm : v ∈ x
      · rw [if_neg hv, hc.2 ⟨hv, hm⟩]
        simp [hm]
      · have : StringList.contains x v = false := by
          rw [Bool.eq_false_iff]
          intro h
          exact hm (hc.1 h).2
        rw [if_neg hv, this]
        simp [hm, hv, StringList.add]

/-- C17: `Add` appends every non-empty value, in order. -/
theorem add_all (x : StringList) (vs : List Str) :
    vs.foldl StringList.add x = x ++ vs.filter (fun v => v ≠ []) := by
  induction vs generalizing x with
  | nil => simp
  | cons v vs ih =>
    rw [List.foldl_cons, ih, StringList.add]
    by_cases hv : v = [] <;> simp [hv]

example : ["a".toList, [], "b".toList, "a".toList].foldl StringList.add [] =
    ["a".toList, "b".toList, "a".toList] := by decide

/-- C17: after any additions exactly the earlier elements and the non-empty added values are contained,
the earlier elements come first, unchanged and in order. -/
theorem list_contains (x : StringList) (ops : List ListOp) :
    (∀ v, (ops.foldl ListOp.run x).contains v = true ↔ v ≠ [] ∧ (v ∈ x ∨ v ∈ ops.map ListOp.val)) ∧
    (∀ v, v ∈ ops.foldl ListOp.run x → v ∈ x ∨ v ≠ []) ∧
    ∃ t, ops.foldl ListOp.run x = x ++ t ∧ t.Sublist ((ops.map ListOp.val).filter (fun v => v ≠ [])) := by
  induction ops generalizing x with
  | nil => exact ⟨fun v => by simp [contains_iff], fun v h => Or.inl h, [], by simp, by simp⟩
  | cons op ops ih =>
    have hrun := listOp_run_eq x op
    have hcases : (op.run x = x ∧ (op.val = [] ∨ op.val ∈ x)) ∨ (op.run x = x ++ [op.val] ∧ op.val ≠ []) := by
      rw [hrun]
      cases op with
      | add v => by_cases hv : v = [] <;> simp [ListOp.val, hv]
      | addUnique v =>
        by_cases hv : v = []
        · simp [ListOp.val, hv]
        · by_cases hm : v ∈ x <;> simp [ListOp.val, hv, hm]
    obtain ⟨h1, h2, t, h3, h4⟩ := ih (op.run x)
    rw [List.foldl_cons]
    rcases hcases with ⟨he, hv⟩ | ⟨he, hv⟩
    · rw [he] at h1 h2 h3
      refine ⟨?_, ?_, t, ?_, ?_⟩
      · intro v
        rw [he, h1]
        simp only [List.map_cons, List.mem_cons]
        constructor
        · rintro ⟨a, b | b⟩
          · exact ⟨a, Or.inl b⟩
          · exact ⟨a, Or.inr (Or.inr b)⟩
        · rintro ⟨a, b | b | b⟩
          · exact ⟨a, Or.inl b⟩
          · rcases hv with hv | hv
            · exact absurd (b.trans hv) a
            · exact ⟨a, Or.inl (b ▸ hv)⟩
          · exact ⟨a, Or.inr b⟩
      · rw [he]; exact h2
      · rw [he]; exact h3
      · refine h4.trans ?_
        rw [List.map_cons, List.filter_cons]
        split <;> simp
    · rw [he] at h1 h2 h3
      refine ⟨?_, ?_, op.val :: t, ?_, ?_⟩
      · intro v
        rw [he, h1]
        simp only [List.map_cons, List.mem_cons, List.mem_append, List.not_mem_nil, or_false]
        tauto
      · rw [he]
        intro v hm
        rcases h2 v hm with h | h
        · rcases List.mem_append.1 h with h | h
          · exact Or.inl h
          · simp at h; exact Or.inr (h ▸ hv)
        · exact Or.inr h
      · rw [he, h3]; simp
      · rw [List.map_cons, List.filter_cons]
        simp [hv]
        simpa using h4

example : ([ListOp.add "a".toList, .addUnique "a".toList, .addUnique "b".toList].foldl ListOp.run []) =
    ["a".toList, "b".toList] := by decide

/-- C17: `AddUnique` never introduces a duplicate. -/
theorem addUnique_nodup (x : StringList) (h : x.Nodup) (vs : List Str) :
    (vs.foldl StringList.addUnique x).Nodup := by
  induction vs generalizing x with
  | nil => exact h
  | cons v vs ih =>
    rw [List.foldl_cons]
    apply ih
    have := listOp_run_eq x (.addUnique v)
    rw [show StringList.addUnique x v = ListOp.run x (.addUnique v) from rfl, this]
    simp only
    split
    · exact h
    · rename_i hn
      rw [List.nodup_append]
      refine ⟨h, by simp, ?_⟩
      intro a ha b hb hab
      simp at hb
      subst hb
      subst hab
      exact hn (Or.inr ha)

example : (["a".toList, "b".toList, "a".toList].foldl StringList.addUnique []).Nodup ∧
    (["a".toList, "b".toList, "a".toList].foldl StringList.addUnique []).length = 2 :=
  ⟨addUnique_nodup _ (by decide) _, by decide⟩

/-- C17: the count of every value other than the one added stays the same, so `AddUnique` changes the
number of occurrences only from zero to one. -/
theorem addUnique_count (x : StringList) (v w : Str) :
    (x.addUnique v).count w = if w = v ∧ v ≠ [] ∧ v ∉ x then 1 else x.count w := by
  rw [show StringList.addUnique x v = ListOp.run x (.addUnique v) from rfl, listOp_run_eq]
  simp only
  by_cases hc : v = [] ∨ v ∈ x
  · rw [if_pos hc, if_neg]
    tauto
  · rw [if_neg hc]
    rw [not_or] at hc
    by_cases hw : w = v
    · subst hw
      simp [hc, List.count_eq_zero_of_not_mem hc.2]
    · rw [if_neg (by tauto), List.count_append]
      simp [Ne.symm hw]

example : (StringList.addUnique ["a".toList] "b".toList).count "b".toList = 1 := by decide

/-- The constructor keeps exactly the non-empty arguments: it agrees with adding them one by one. -/
theorem newStringList_eq (items : List Str) : StringList.new items = items.foldl StringList.add [] := by
  rw [add_all]; simp [StringList.new]

example : StringList.new ["a".toList, []] = ["a".toList] := by decide

/-! ### C18 -/

/-- C18 is false: removing the middle element of three duplicates the first and drops the last. -/
theorem remove_full_statement_false :
    ¬ ∀ (x : StringList) (v : Str), v ≠ [] → x.remove v = x.erase v := by
  intro h
  have := h ["a".toList, "b".toList, "c".toList] "b".toList (by decide)
  revert this
  decide

/-- What `Remove` does: the value is *never* removed, everything behind its first occurrence is lost
and everything before it is there twice. -/
theorem remove_exact (p q : StringList) (v : Str) (hv : v ≠ []) (hp : v ∉ p) :
    StringList.remove (p ++ v :: q) v = p ++ p ++ [v] := by
  have hidx : StringList.index (p ++ v :: q) v = some p.length := by
    unfold StringList.index
    rw [if_neg hv, List.findIdx?_append]
    have : List.findIdx? (fun w => decide (w = v)) p = none := by
      rw [List.findIdx?_eq_none_iff]
      intro x hx
      simp only [decide_eq_false_iff_not]
      rintro rfl
      exact hp hx
    rw [this]
    simp [List.findIdx?_cons]
  rw [StringList.remove, if_neg hv, hidx]
  simp [List.take_append, List.take_of_length_le]

example : StringList.remove ["a".toList, "b".toList, "c".toList] "b".toList =
    ["a".toList, "a".toList, "b".toList] := by decide

/-- Removing a contained value leaves it contained. -/
theorem remove_never_removes (x : StringList) (v : Str) (h : x.contains v = true) :
    (x.remove v).contains v = true := by
  rw [contains_iff] at h ⊢
  obtain ⟨hv, hm⟩ := h
  obtain ⟨p, q, rfl, hp⟩ := List.eq_append_cons_of_mem hm
  rw [remove_exact p q v hv hp]
  simp [hv]

example : (StringList.remove ["a".toList] "a".toList).contains "a".toList = true := by decide

/-- C18, partial: `Remove` is correct only when there is nothing to remove.  Missing: contained values,
for which the statement is false (`remove_full_statement_false`). -/
theorem remove_absent_partial (x : StringList) (v : Str) (h : x.contains v = false) (hv : v ≠ []) :
    x.remove v = x ∧ x.remove v = x.erase v := by
  have hm : v ∉ x := by
    intro hm
    have := (contains_iff x v).2 ⟨hv, hm⟩
    rw [h] at this
    cases this
  have hr : x.remove v = x := by
    unfold StringList.remove
    rw [if_neg hv]
    unfold StringList.contains at h
    cases hi : x.index v with
    | none => rfl
    | some i => rw [hi] at h; cases h
  exact ⟨hr, by rw [hr, List.erase_of_not_mem hm]⟩

example : StringList.remove ["a".toList] "b".toList = ["a".toList] := by decide

/-! ### C37 -/

theorem dropCR_cons_ne (c : Char) (s : Str) (hc : c ≠ '\r') :
    StringList.dropCR (c :: s) = c :: StringList.dropCR s := by
  conv => lhs; unfold StringList.dropCR
  split
  · rename_i h1; simp at h1; exact absurd h1.1 hc
  · rename_i h1; simp at h1; rw [← h1.1, ← h1.2]
  · rename_i h1; simp at h1

theorem dropCR_no_cr (s : Str) (h : '\r' ∉ s) : StringList.dropCR s = s := by
  induction s with
  | nil => rfl
  | cons c s ih =>
    have hc : c ≠ '\r' := by rintro rfl; simp at h
    rw [dropCR_cons_ne _ _ hc, ih (by simp at h; exact h.2)]

theorem dropCR_append (l s : Str) (h : '\r' ∉ l) : StringList.dropCR (l ++ s) = l ++ StringList.dropCR s := by
  induction l with
  | nil => rfl
  | cons c l ih =>
    have hc : c ≠ '\r' := by rintro rfl; simp at h
    rw [List.cons_append, dropCR_cons_ne _ _ hc, ih (by simp at h; exact h.2), List.cons_append]

theorem dropCR_join_crlf (x : StringList) (h : ∀ s ∈ x, '\r' ∉ s) :
    StringList.dropCR (join ['\r', '\n'] x) = join ['\n'] x := by
  induction x with
  | nil => rfl
  | cons s xs ih =>
    cases xs with
    | nil => exact dropCR_no_cr s (h s (by simp))
    | cons t ts =>
      have h1 : join ['\r', '\n'] (s :: t :: ts) = s ++ ('\r' :: '\n' :: join ['\r', '\n'] (t :: ts)) := by
        simp [join]
      have h2 : join ['\n'] (s :: t :: ts) = s ++ ('\n' :: join ['\n'] (t :: ts)) := by simp [join]
      rw [h1, h2, dropCR_append _ _ (h s (by simp))]
      congr 1
      rw [show StringList.dropCR ('\r' :: '\n' :: join ['\r', '\n'] (t :: ts)) =
        '\n' :: StringList.dropCR (join ['\r', '\n'] (t :: ts)) by rw [StringList.dropCR]]
      rw [ih (fun s hs => h s (by simp [hs]))]

/-- C37: joining a non-empty list of strings without line breaks to text and reading the text gives the
same strings (the reader appends to what it already holds). -/
theorem list_text_roundtrip (x out : StringList) (hx : x ≠ [])
    (h : ∀ s ∈ x, '\n' ∉ s ∧ '\r' ∉ s) :
    ∃ t, x.marshalText = some t ∧ out.unmarshalText t = out ++ x := by
  refine ⟨join ['\n'] x, ?_, ?_⟩
  · unfold StringList.marshalText
    rw [if_neg]
    simpa using hx
  · unfold StringList.unmarshalText
    have hcr : '\r' ∉ join ['\n'] x := by
      clear hx
      induction x with
      | nil => simp [join]
      | cons s xs ih =>
        cases xs with
        | nil => exact (h s (by simp)).2
        | cons t ts =>
          have h2 : join ['\n'] (s :: t :: ts) = s ++ ('\n' :: join ['\n'] (t :: ts)) := by simp [join]
          rw [h2]
          have := ih (fun s hs => h s (by simp [hs]))
          simp only [List.mem_append, List.mem_cons]
          rintro (h1 | h1 | h1)
          · exact (h s (by simp)).2 h1
          · exact absurd h1 (by decide)
          · exact this h1
    rw [dropCR_no_cr _ hcr, split_join hx (fun s hs => (h s hs).1)]

example : StringList.unmarshalText [] "a\nb".toList = ["a".toList, "b".toList] := by decide

/-- C37: DOS and Unix line endings are read the same. -/
theorem list_text_line_endings (x out : StringList) (h : ∀ s ∈ x, '\r' ∉ s) :
    out.unmarshalText (join ['\r', '\n'] x) = out.unmarshalText (join ['\n'] x) := by
  unfold StringList.unmarshalText
  rw [dropCR_join_crlf x h]
  congr 2
  symm
  apply dropCR_no_cr
  induction x with
  | nil => simp [join]
  | cons s xs ih =>
    cases xs with
    | nil => exact h s (by simp)
    | cons t ts =>
      have h2 : join ['\n'] (s :: t :: ts) = s ++ ('\n' :: join ['\n'] (t :: ts)) := by simp [join]
      rw [h2]
      have := ih (fun s hs => h s (by simp [hs]))
      simp only [List.mem_append, List.mem_cons]
      rintro (h1 | h1 | h1)
      · exact h s (by simp) h1
      · exact absurd h1 (by decide)
      · exact this h1

example : StringList.unmarshalText [] "a\r\nb".toList = ["a".toList, "b".toList] := by decide

/-- Old Macintosh line endings are not line endings: C37 covers `\n` and `\r\n` only. -/
theorem list_text_lone_cr : StringList.unmarshalText [] "a\rb".toList = ["a\rb".toList] := by decide

/-- The empty list does not survive: it is not written, and reading empty text gives one empty string. -/
theorem list_text_empty : StringList.marshalText [] = none ∧ StringList.unmarshalText [] [] = [[]] := by
  decide

end Xmp.Props
