import Verif.Model.GoFields
import Verif.Lemmas.GoStr
import Mathlib.Tactic.Common

/-! Helper for C54: the words of a text. -/

namespace Xmp.Props

open GoStr

/-- A text without spaces (in the sense of Unicode). -/
def NoSpace (s : Str) : Prop := ∀ w ∈ spaces, ¬ w <:+: s

/-- A word. -/
def IsWord (s : Str) : Prop := s ≠ [] ∧ NoSpace s

theorem noSpace_tail {c : Char} {cs : Str} (h : NoSpace (c :: cs)) : NoSpace cs :=
  fun w hw hi => h w hw (hi.trans (List.suffix_cons c cs).isInfix)

theorem blank_in : ∀ w ∈ spaces, ' ' ∈ w → w = [' '] := by decide

theorem fieldsSpace_none {u : Str} (hne : u ≠ []) (h : NoSpace u) (r : Str) (hr : r = [] ∨ ∃ r', r = ' ' :: r') :
    spaces.find? (fun w => hasPrefix (u ++ r) w) = none := by
  rw [List.find?_eq_none]
  intro w hw hp
  obtain ⟨t, ht⟩ := hasPrefix_iff.mp hp
  have hwne := spaces_ne_nil w hw
  rcases List.append_eq_append_iff.1 ht.symm with ⟨a, ha, hb⟩ | ⟨a, ha, hb⟩
  · exact h w hw ⟨[], a, by rw [List.nil_append, ← ha]⟩
  · -- `w` is longer than the word: it contains the separator
    cases a with
    | nil =>
      rw [List.append_nil] at ha
      exact h w hw ⟨[], [], by rw [List.nil_append, List.append_nil, ha]⟩
    | cons x a =>
      rcases hr with rfl | ⟨r', rfl⟩
      · cases hb
      · simp only [List.cons_append, List.cons.injEq] at hb
        have hin : ' ' ∈ w := by rw [ha, ← hb.1]; simp
        rw [blank_in w hw hin] at ha
        cases u with
        | nil => exact hne rfl
        | cons y u => simp at ha

theorem fieldsAux_word (u : Str) (h : NoSpace u) (r : Str) (hr : r = [] ∨ ∃ r', r = ' ' :: r') (cur : Str) :
    fieldsAux 0 cur (u ++ r) = fieldsAux 0 (cur ++ u) r := by
  induction u generalizing cur with
  | nil => simp
  | cons c cs ih =>
    have hf := fieldsSpace_none (u := c :: cs) (by simp) h r hr
    rw [List.cons_append, fieldsAux]
    rw [List.cons_append] at hf
    rw [hf]
    simp only
    rw [ih (noSpace_tail h), List.append_assoc, List.singleton_append]

theorem fieldsAux_blank (cur r : Str) : fieldsAux 0 cur (' ' :: r) = flush cur ++ fieldsAux 0 [] r := by
  rw [fieldsAux]
  have : spaces.find? (fun w => hasPrefix (' ' :: r) w) = some [' '] := by
    have hl : spaces = [['\t'], ['\n'], ['\u000b'], ['\u000c'], ['\r']] ++ [' '] :: spaces.drop 6 := by decide
    rw [hl]
    simp [List.find?, hasPrefix, List.isPrefixOf]
  rw [this]
  rfl

theorem fields_join {ws : List Str} (h : ∀ w ∈ ws, IsWord w) : fields (join [' '] ws) = ws := by
  unfold fields
  induction ws with
  | nil => rfl
  | cons w ws ih =>
    have hw := h w (List.mem_cons_self ..)
    have ih := ih (fun x hx => h x (List.mem_cons_of_mem _ hx))
    cases ws with
    | nil =>
      rw [join]
      have := fieldsAux_word w hw.2 [] (Or.inl rfl) []
      rw [List.append_nil, List.nil_append] at this
      rw [this, fieldsAux, flush, if_neg hw.1]
    | cons w' ws =>
      rw [join, List.append_assoc]
      · rw [List.singleton_append, fieldsAux_word w hw.2 _ (Or.inr ⟨_, rfl⟩), List.nil_append]
        rw [fieldsAux_blank, ih, flush, if_neg hw.1]; rfl
      all_goals simp

theorem noSpace_of_visible {s : Str} (h : ∀ c ∈ s, Visible c) : NoSpace s := by
  intro w hw hi
  obtain ⟨c, hc, hv, _⟩ := spaces_not_visible w hw
  exact hv (h c (hi.subset hc))

theorem word_natToStr (n : Nat) : IsWord (natToStr n) := ⟨natToStr_ne_nil n, noSpace_of_visible (visible_natToStr n)⟩

theorem word_itoa (i : Int) : IsWord (itoa i) := by
  refine ⟨?_, noSpace_of_visible (visible_itoa i)⟩
  unfold itoa
  split
  · simp
  · exact natToStr_ne_nil _

theorem fields_nil_of_blank : fields [] = [] := rfl

end Xmp.Props
