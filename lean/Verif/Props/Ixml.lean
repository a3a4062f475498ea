import Verif.Model.Ixml
import Verif.Lemmas.GoStr
import Mathlib.Data.List.Nodup
import Mathlib.Data.List.Forall2
import Mathlib.Tactic.Common

/-!
# C56: iXML truth values, sets and lists
-/

namespace Xmp.Props

open Xmp Xmp.GoStr Xmp.Ixml

/-! ### Truth values -/

/-- A character is a letter, small or capital; `d` is the small one. -/
def IxmlLetter (c d : Char) : Prop := c = d ∨ c.toNat + 32 = d.toNat

theorem ixml_lower {c d : Char} (hd : 97 ≤ d.toNat ∧ d.toNat ≤ 122) :
    lowerChar c = d ↔ IxmlLetter c d := by
  unfold lowerChar IxmlLetter
  by_cases h : 65 ≤ c.toNat ∧ c.toNat ≤ 90
  · rw [if_pos h]
    have hv : (Char.ofNat (c.toNat + 32)).toNat = c.toNat + 32 := by
      unfold Char.ofNat
      rw [dif_pos (Or.inl (by omega))]
      rfl
    constructor
    · intro he; right; rw [← he, hv]
    · rintro (he | he)
      · subst he; omega
      · apply Char.toNat_inj.mp; rw [hv, he]
  · rw [if_neg h]
    constructor
    · exact Or.inl
    · rintro (he | he)
      · exact he
      · omega

theorem ixml_toLower {w : Str} (hw : ∀ d ∈ w, 97 ≤ d.toNat ∧ d.toNat ≤ 122 ∧ d ≠ 'i' ∧ d ≠ 'k') :
    ∀ s : Str, toLower s = w ↔ List.Forall₂ IxmlLetter s w := by
  induction w with
  | nil =>
    intro s
    constructor
    · intro h
      match s, h with
      | [], _ => exact .nil
      | c :: cs, h =>
        rw [toLower.eq_def] at h
        split at h <;> simp_all
    · intro h; cases h; rfl
  | cons d w ih =>
    have hd := hw d (by simp)
    have ihw := ih (fun e he => hw e (by simp [he]))
    intro s
    constructor
    · intro h
      rw [toLower.eq_def] at h
      split at h
      · cases h
      · injection h with h1 _; exact absurd h1.symm hd.2.2.1
      · injection h with h1 _; exact absurd h1.symm hd.2.2.2
      · injection h with h1 h2
        exact .cons ((ixml_lower ⟨hd.1, hd.2.1⟩).mp h1) ((ihw _).mp h2)
    · intro h
      cases h with
      | cons h1 h2 =>
        rename_i c cs
        have hc : c.toNat < 128 := by
          rcases h1 with h1 | h1
          · rw [h1]; omega
          · omega
        have e : toLower (c :: cs) = lowerChar c :: toLower cs := by
          rw [toLower.eq_def]
          split
          · rename_i heq; cases heq
          · rename_i heq; injection heq with h3 _; subst h3; exact absurd hc (by decide)
          · rename_i heq; injection heq with h3 _; subst h3; exact absurd hc (by decide)
          · rename_i heq; injection heq with h3 h4; rw [h3, h4]
        rw [e, (ixml_lower ⟨hd.1, hd.2.1⟩).mpr h1, (ihw cs).mpr h2]

/-- **C56.** A truth value is read as true exactly for the word `true`, and as false exactly for the
word `false`, each letter small or capital; every other text is refused. -/
theorem ixml_bool_iff (s : Str) (b : Bool) :
    boolParse s = some b ↔
      List.Forall₂ IxmlLetter s (if b then "true".toList else "false".toList) := by
  have ht := ixml_toLower (w := "true".toList) (by decide) s
  have hf := ixml_toLower (w := "false".toList) (by decide) s
  unfold boolParse
  cases b
  · simp only [Bool.false_eq_true, if_false]
    rw [← hf]
    by_cases h1 : toLower s = "true".toList
    · rw [if_pos h1, h1]; simp
    · rw [if_neg h1]
      by_cases h2 : toLower s = "false".toList
      · rw [if_pos h2]; simp [h2]
      · rw [if_neg h2]; simp at h2; simp [h2]
  · simp only [if_true]
    rw [← ht]
    by_cases h1 : toLower s = "true".toList
    · rw [if_pos h1]; simp [h1]
    · rw [if_neg h1]
      by_cases h2 : toLower s = "false".toList
      · rw [if_pos h2, h2]; simp
      · rw [if_neg h2]; simp at h1; simp [h1]

example : List.Forall₂ IxmlLetter "tRuE".toList "true".toList := by
  refine .cons (.inl rfl) (.cons (.inr rfl) (.cons (.inl rfl) (.cons (.inr rfl) .nil)))

/-- **C56.** A truth value that is written is read again. -/
theorem ixml_bool_roundtrip (b : Bool) : boolParse (boolText b) = some b := by
  cases b <;> decide

/-- **C56.** What counts as true elsewhere, such as `1` or `yes`, is refused. -/
theorem ixml_bool_refuses : boolParse "1".toList = none ∧ boolParse "yes".toList = none ∧
    boolParse [] = none ∧ boolParse " TRUE".toList = none := by decide

/-! ### Sets -/

theorem ixml_contains (x : List Str) (t : Str) : Ixml.contains x t = true ↔ t ∈ x := by
  simp [Ixml.contains, List.any_eq_true]

theorem ixml_add_mem (x : List Str) (t u : Str) : u ∈ Ixml.add x t ↔ u ∈ x ∨ u = t := by
  unfold Ixml.add
  by_cases h : Ixml.contains x t = true
  · rw [if_pos h]
    rw [ixml_contains] at h
    constructor
    · exact Or.inl
    · rintro (hu | hu)
      · exact hu
      · rw [hu]; exact h
  · rw [if_neg h]; simp

theorem ixml_add_nodup {x : List Str} (hx : x.Nodup) (t : Str) : (Ixml.add x t).Nodup := by
  unfold Ixml.add
  by_cases h : Ixml.contains x t = true
  · rw [if_pos h]; exact hx
  · rw [if_neg h]
    rw [ixml_contains] at h
    simp [List.nodup_append, hx]
    intro a ha he; exact h (he ▸ ha)

/-- What the loop of `Del` finds. -/
theorem lastIdx_found (t : Str) : ∀ (x : List Str) (i : Nat) (idx : Option Nat),
    (t ∉ x ∧ lastIdx t x i idx = idx) ∨
    ∃ a b, x = a ++ t :: b ∧ t ∉ b ∧ lastIdx t x i idx = some (i + a.length)
  | [], _, _ => Or.inl ⟨by simp, rfl⟩
  | v :: l, i, idx => by
    rw [lastIdx]
    rcases lastIdx_found t l (i + 1) (if v = t then some i else idx) with ⟨h, e⟩ | ⟨a, b, h1, h2, e⟩
    · by_cases hv : v = t
      · right
        refine ⟨[], l, by simp [hv], h, ?_⟩
        rw [e, if_pos hv]; simp
      · left
        refine ⟨by simp [h, Ne.symm hv], ?_⟩
        rw [e, if_neg hv]
    · right
      refine ⟨v :: a, b, by simp [h1], h2, ?_⟩
      rw [e]; simp; omega

/-- `Del` removes the last place at which the text stands. -/
theorem ixml_del_eq (x : List Str) (t : Str) :
    (t ∉ x ∧ Ixml.del x t = x) ∨ ∃ a b, x = a ++ t :: b ∧ t ∉ b ∧ Ixml.del x t = a ++ b := by
  unfold Ixml.del
  rcases lastIdx_found t x 0 none with ⟨h, e⟩ | ⟨a, b, h1, h2, e⟩
  · left; rw [e]; exact ⟨h, rfl⟩
  · right
    refine ⟨a, b, h1, h2, ?_⟩
    rw [e, h1]
    simp

theorem ixml_del_mem {x : List Str} (hx : x.Nodup) (t u : Str) :
    u ∈ Ixml.del x t ↔ u ∈ x ∧ u ≠ t := by
  rcases ixml_del_eq x t with ⟨h, e⟩ | ⟨a, b, h1, h2, e⟩
  · rw [e]
    constructor
    · intro hu; exact ⟨hu, fun he => h (he ▸ hu)⟩
    · exact And.left
  · rw [e]
    subst h1
    rw [List.nodup_append] at hx
    have hta : t ∉ a := fun h => hx.2.2 t h t (by simp) rfl
    simp only [List.mem_append, List.mem_cons]
    constructor
    · rintro (hu | hu)
      · exact ⟨Or.inl hu, fun he => hta (he ▸ hu)⟩
      · exact ⟨Or.inr (Or.inr hu), fun he => h2 (he ▸ hu)⟩
    · rintro ⟨hu | hu | hu, hne⟩
      · exact Or.inl hu
      · exact absurd hu hne
      · exact Or.inr hu

theorem ixml_del_sublist (x : List Str) (t : Str) : (Ixml.del x t).Sublist x := by
  rcases ixml_del_eq x t with ⟨_, e⟩ | ⟨a, b, h1, _, e⟩
  · rw [e]
  · rw [e, h1]; simp

/-- Operations on a set. -/
inductive IxmlOp where
  | add (t : Str)
  | del (t : Str)
  | merge (l : List Str)
  | sub (l : List Str)

/-- The code for an operation. -/
def IxmlOp.run (x : List Str) : IxmlOp → List Str
  | .add t => Ixml.add x t
  | .del t => Ixml.del x t
  | .merge l => Ixml.merge x l
  | .sub l => Ixml.sub x l

/-- What an operation means: the members afterwards, from the members before. -/
def IxmlOp.meant (S : Str → Prop) : IxmlOp → Str → Prop
  | .add t => fun u => S u ∨ u = t
  | .del t => fun u => S u ∧ u ≠ t
  | .merge l => fun u => S u ∨ u ∈ l
  | .sub l => fun u => S u ∧ u ∉ l

theorem ixml_merge (l : List Str) : ∀ {x : List Str}, x.Nodup →
    (Ixml.merge x l).Nodup ∧ ∀ u, u ∈ Ixml.merge x l ↔ u ∈ x ∨ u ∈ l := by
  induction l with
  | nil => intro x hx; exact ⟨hx, by simp [Ixml.merge]⟩
  | cons a l ih =>
    intro x hx
    have := ih (ixml_add_nodup hx a)
    refine ⟨this.1, fun u => ?_⟩
    have h2 := this.2 u
    unfold Ixml.merge at h2 ⊢
    rw [List.foldl_cons, h2, ixml_add_mem, List.mem_cons]
    tauto

theorem ixml_sub (l : List Str) : ∀ {x : List Str}, x.Nodup →
    (Ixml.sub x l).Nodup ∧ ∀ u, u ∈ Ixml.sub x l ↔ u ∈ x ∧ u ∉ l := by
  induction l with
  | nil => intro x hx; exact ⟨hx, by simp [Ixml.sub]⟩
  | cons a l ih =>
    intro x hx
    have := ih (hx.sublist (ixml_del_sublist x a))
    refine ⟨this.1, fun u => ?_⟩
    have h2 := this.2 u
    unfold Ixml.sub at h2 ⊢
    rw [List.foldl_cons, h2, ixml_del_mem hx, List.mem_cons]
    tauto

theorem ixml_op_step {x : List Str} (hx : x.Nodup) (o : IxmlOp) :
    (o.run x).Nodup ∧ ∀ u, u ∈ o.run x ↔ o.meant (· ∈ x) u := by
  cases o with
  | add t => exact ⟨ixml_add_nodup hx t, ixml_add_mem x t⟩
  | del t => exact ⟨hx.sublist (ixml_del_sublist x t), ixml_del_mem hx t⟩
  | merge l => exact ixml_merge l hx
  | sub l => exact ixml_sub l hx

theorem IxmlOp.meant_congr {S T : Str → Prop} (h : ∀ u, S u ↔ T u) (o : IxmlOp) (u : Str) :
    o.meant S u ↔ o.meant T u := by
  cases o <;> simp [IxmlOp.meant, h]

theorem IxmlOps.meant_congr (os : List IxmlOp) : ∀ {S T : Str → Prop}, (∀ u, S u ↔ T u) →
    ∀ u, os.foldl IxmlOp.meant S u ↔ os.foldl IxmlOp.meant T u := by
  induction os with
  | nil => intro S T h u; exact h u
  | cons o os ih =>
    intro S T h u
    exact ih (fun v => IxmlOp.meant_congr h o v) u

/-- **C56.** Whatever is added, deleted, merged and subtracted, in any order, a list without
repetitions stays one, and contains exactly what a set would contain.  (The lists given as arguments
have memory of their own.) -/
theorem ixml_sets_partial (os : List IxmlOp) : ∀ {x : List Str}, x.Nodup →
    (os.foldl IxmlOp.run x).Nodup ∧
    ∀ u, Ixml.contains (os.foldl IxmlOp.run x) u = true ↔ os.foldl IxmlOp.meant (· ∈ x) u := by
  induction os with
  | nil => intro x hx; exact ⟨hx, fun u => ixml_contains x u⟩
  | cons o os ih =>
    intro x hx
    have hs := ixml_op_step hx o
    refine ⟨(ih hs.1).1, fun u => ?_⟩
    exact ((ih hs.1).2 u).trans (IxmlOps.meant_congr os hs.2 u)

example : (["INT".toList, "EXT".toList] : List Str).Nodup := by decide

/-- **C56.** Adding puts a new member at the end; the order of the others never changes. -/
theorem ixml_set_order (x : List Str) (t : Str) :
    (t ∉ x → Ixml.add x t = x ++ [t]) ∧ (t ∈ x → Ixml.add x t = x) ∧
    (Ixml.del x t).Sublist x := by
  refine ⟨fun h => ?_, fun h => ?_, ixml_del_sublist x t⟩
  · unfold Ixml.add; rw [if_neg (by rw [ixml_contains]; exact h)]
  · unfold Ixml.add; rw [if_pos (by rw [ixml_contains]; exact h)]

/-- **C56.** A text that stands several times in a list, as in `NO_GOOD,NO_GOOD`, is deleted once
only: it is still contained afterwards. -/
theorem ixml_del_repeated (x : List Str) (t : Str) :
    (Ixml.del x t).count t = x.count t - 1 := by
  rcases ixml_del_eq x t with ⟨h, e⟩ | ⟨a, b, h1, _, e⟩
  · rw [e, List.count_eq_zero_of_not_mem h]
  · rw [e, h1]; simp

/-- **C56.** So a take read as `NO_GOOD,NO_GOOD` stays no good after that is deleted. -/
theorem ixml_still_contained {x : List Str} {t : Str} (h : 2 ≤ x.count t) :
    Ixml.contains (Ixml.del x t) t = true := by
  rw [ixml_contains, ← List.count_pos_iff, ixml_del_repeated]
  omega

example : 2 ≤ (listParse "NO_GOOD,NO_GOOD".toList).count "NO_GOOD".toList := by decide

/-! ### Texts of lists -/

/-- **C56.** A list with members free of commas is read as it was written. -/
theorem ixml_list_roundtrip {x : List Str} (hne : x ≠ []) (h : ∀ s ∈ x, ',' ∉ s) :
    listParse (listText x) = x := by
  unfold listParse listText
  rw [if_neg (by simpa using hne)]
  exact split_join hne h

example : ∀ s ∈ ["NO_GOOD".toList, "PICKUP".toList], ',' ∉ s := by decide

/-- **C56.** Every text that is read is written again. -/
theorem ixml_list_text (s : Str) : listText (listParse s) = s := by
  unfold listParse listText
  rw [if_neg (by simpa using split_ne_nil ',' s)]
  exact join_split ',' s

/-- **C56.** The empty list is written as the empty text, which is read as a list with one empty
member: the default take is not the default take after that. -/
theorem ixml_empty_list : listText [] = [] ∧ listParse [] = [[]] ∧
    isDefault [] = true ∧ isDefault (listParse (listText [])) = false := by decide

/-- **C56.** Blanks after the commas are kept, so that the member is not found. -/
theorem ixml_list_blank (a b : Str) (ha : ',' ∉ a) (hb : ',' ∉ b) :
    listParse (a ++ ",".toList ++ ' ' :: b) = [a, ' ' :: b] ∧
    (b ≠ a → Ixml.contains (listParse (a ++ ",".toList ++ ' ' :: b)) b = false) := by
  have e : listParse (a ++ ",".toList ++ ' ' :: b) = [a, ' ' :: b] := by
    have := split_join (c := ',') (l := [a, ' ' :: b]) (by simp) (by simp [ha, hb])
    simpa [listParse, join] using this
  refine ⟨e, fun hne => ?_⟩
  rw [e]
  rw [Bool.eq_false_iff]
  intro hc
  rw [ixml_contains] at hc
  rcases List.mem_cons.mp hc with hc | hc
  · exact hne hc
  · have := congrArg List.length (List.mem_singleton.mp hc)
    simp at this

example : ',' ∉ "INT".toList ∧ ',' ∉ "EXT".toList ∧ "EXT".toList ≠ "INT".toList := by decide

/-- **C56.** A take marked both as default and as no good counts as default. -/
theorem ixml_default_and_bad (x : List Str) (h : "DEFAULT".toList ∈ x) (t : Str) :
    isDefault (Ixml.add x t) = true := by
  unfold isDefault
  split
  · rfl
  · rw [ixml_contains, ixml_add_mem]; exact Or.inl h

/-- **C56.** The function of the first track of an X/Y pair is named with a blank at the end, so the
name used in files is not in the predefined set. -/
theorem ixml_xy_blank : Ixml.contains functionXY "X-X_Y".toList = false ∧
    Ixml.contains functionXY (trimSpace (functionXY.headD [])) = false ∧
    Ixml.contains functionXY "Y-X_Y".toList = true := by
  refine ⟨?_, ?_, ?_⟩ <;> decide

/-- **C56.** A timecode flag is `DF` or `NDF`, kept as it is; all else is refused. -/
theorem ixml_flag_iff (s f : Str) :
    flagParse s = some f ↔ f = s ∧ (s = "DF".toList ∨ s = "NDF".toList) := by
  unfold flagParse
  by_cases h1 : s = "DF".toList
  · subst h1; simp; exact eq_comm
  · by_cases h2 : s = "NDF".toList
    · subst h2; simp; exact eq_comm
    · simp at h1 h2; simp [h1, h2]

/-! ### Shared memory -/

/-- **C56.** Deleting through a slice gives that slice the right members. -/
theorem ixml_del_cells (cells : List Str) (n : Nat) (hn : n ≤ cells.length) (t : Str) :
    view (delCells cells n t).1 (delCells cells n t).2 = Ixml.del (view cells n) t := by
  unfold delCells Ixml.del view
  rcases lastIdx_found t (cells.take n) 0 none with ⟨h, e⟩ | ⟨a, b, h1, h2, e⟩
  · rw [e]
  · rw [e]
    simp only [Nat.zero_add]
    have hl := congrArg List.length h1
    simp at hl
    have hlt : a.length < n := by omega
    have e1 : cells.take a.length = (cells.take n).take a.length := by
      rw [List.take_take, Nat.min_eq_left (by omega)]
    rw [e1, h1]
    rw [← List.append_assoc, List.take_append_of_le_length (by simp; omega)]
    rw [List.take_of_length_le (by simp; omega)]

/-- The two parts of a list around a member without repetition. -/
theorem ixml_delCells_found {cells : List Str} {n : Nat} (hn : n ≤ cells.length) {t : Str}
    {a b : List Str} (h : cells.take n = a ++ t :: b) (hb : t ∉ b) :
    delCells cells n t = (a ++ b ++ cells.drop (n - 1), n - 1) := by
  unfold delCells
  rcases lastIdx_found t (cells.take n) 0 none with ⟨h', _⟩ | ⟨a', b', h1, h2, e⟩
  · exact absurd (by rw [h]; simp) h'
  · have hab : a' = a ∧ b' = b := by
      rw [h] at h1
      rcases List.append_eq_append_iff.mp h1 with ⟨c, hc1, hc2⟩ | ⟨c, hc1, hc2⟩
      · cases c with
        | nil => simp at hc1 hc2; exact ⟨hc1, hc2.symm⟩
        | cons y c =>
          injection hc2 with _ h3
          exact absurd (by rw [h3]; simp) hb
      · cases c with
        | nil => simp at hc1 hc2; exact ⟨hc1.symm, hc2⟩
        | cons y c =>
          injection hc2 with _ h3
          exact absurd (by rw [h3]; simp) h2
    obtain ⟨rfl, rfl⟩ := hab
    rw [e]
    simp only [Nat.zero_add]
    have hl := congrArg List.length h
    simp at hl
    have e1 : cells.take a'.length = (cells.take n).take a'.length := by
      rw [List.take_take, Nat.min_eq_left (by omega)]
    rw [e1, h]
    simp

/-- **C56.** Deleting through a copy of a set changes the set itself: the member disappears from the
original and the last member stands twice. -/
theorem ixml_copy_changed {cells : List Str} {n : Nat} (hn : n ≤ cells.length) {t l : Str}
    {a b : List Str} (h : view cells n = a ++ t :: (b ++ [l])) (hx : (view cells n).Nodup) :
    view (delCells cells n t).1 n = a ++ b ++ [l, l] := by
  unfold view at *
  have htb : t ∉ b ++ [l] := by
    rw [h, List.nodup_append] at hx
    exact (List.nodup_cons.mp hx.2.1).1
  rw [ixml_delCells_found hn h htb]
  have hl := congrArg List.length h
  simp at hl
  have hd : (cells.take n).drop (n - 1) = [l] := by
    rw [h]
    have : n - 1 = (a ++ t :: b).length := by simp; omega
    rw [this, show a ++ t :: (b ++ [l]) = (a ++ t :: b) ++ [l] by simp, List.drop_left]
  have hd2 : (cells.drop (n - 1)).take 1 = [l] := by
    rw [List.drop_take] at hd
    rw [show n - (n - 1) = 1 by omega] at hd
    exact hd
  simp only
  rw [List.take_append, List.take_of_length_le (by simp; omega)]
  have : n - (a ++ (b ++ [l])).length = 1 := by simp; omega
  rw [this, hd2]
  simp

example : view functionLCR 3 = ["L-LCR".toList] ++ "C-LCR".toList :: ([] ++ ["R-LCR".toList]) := rfl

/-- **C56.** So taking a copy of the predefined mid/side set and deleting the mid function from the
copy leaves the predefined set without it, and with the side function twice. -/
theorem ixml_predefined_changed :
    view (delCells functionMS 2 "M-MID_SIDE".toList).1 2 =
      ["S-MID_SIDE".toList, "S-MID_SIDE".toList] ∧
    view (delCells functionMS 2 "M-MID_SIDE".toList).1
      (delCells functionMS 2 "M-MID_SIDE".toList).2 = ["S-MID_SIDE".toList] := by
  refine ⟨?_, ?_⟩ <;> decide +kernel

/-- **C56.** And what is then added to the copy replaces the last member of the original. -/
theorem ixml_copy_added {cells : List Str} {n : Nat} (hn : n ≤ cells.length) {t u : Str}
    (ht : t ∈ view cells n)
    (hu : Ixml.contains (view (delCells cells n t).1 (delCells cells n t).2) u = false) :
    ∃ c m, addCells (delCells cells n t).1 (delCells cells n t).2 u = some (c, m) ∧
      m = n ∧ (view c n).getLast? = some u := by
  unfold view at ht
  rcases lastIdx_found t (cells.take n) 0 none with ⟨h', _⟩ | ⟨a, b, h1, h2, _⟩
  · exact absurd ht h'
  · have e := ixml_delCells_found hn h1 h2
    have hl := congrArg List.length h1
    simp at hl
    rw [e] at hu ⊢
    have hlt : n - 1 < (a ++ b ++ cells.drop (n - 1)).length := by simp; omega
    refine ⟨(a ++ b ++ cells.drop (n - 1)).set (n - 1) u, n - 1 + 1, ?_, ?_, ?_⟩
    · unfold addCells
      simp only at hu ⊢
      rw [hu, if_pos hlt]
      simp
    · omega
    · unfold view
      rw [List.getLast?_eq_getElem?, List.length_take, List.length_set]
      have : min n (a ++ b ++ cells.drop (n - 1)).length - 1 = n - 1 := by omega
      rw [this, List.getElem?_take, if_pos (by omega), List.getElem?_set, if_pos rfl, if_pos hlt]

example : "M-MID_SIDE".toList ∈ view functionMS 2 := by decide

/-- One step of a subtraction of a set from itself, after the first. -/
theorem ixml_sub_self_step {a : Str} {l : List Str} {n : Nat} (hn : n ≤ (a :: l).length) (h1 : 1 ≤ n)
    (hal : a ∉ l) {t : Str} (ht : t ∈ l) :
    ∃ l' n', delCells (a :: l) n t = (a :: l', n') ∧ l'.length = l.length ∧ 1 ≤ n' ∧ n' ≤ n ∧
      a ∉ l' := by
  have hta : t ≠ a := fun h => hal (h ▸ ht)
  by_cases hm : t ∈ (a :: l).take n
  · rcases lastIdx_found t ((a :: l).take n) 0 none with ⟨h', _⟩ | ⟨p, q, e1, e2, _⟩
    · exact absurd hm h'
    · have e := ixml_delCells_found hn e1 e2
      have hl := congrArg List.length e1
      simp only [List.length_take, List.length_append, List.length_cons] at hl hn
      cases p with
      | nil =>
        obtain ⟨m, rfl⟩ : ∃ m, n = m + 1 := ⟨n - 1, by omega⟩
        simp at e1
        exact absurd e1.1.symm hta
      | cons p0 p =>
        obtain ⟨m, rfl⟩ : ∃ m, n = m + 1 := ⟨n - 1, by omega⟩
        simp only [List.take_succ_cons, List.cons_append, List.cons.injEq] at e1
        obtain ⟨e0, e1⟩ := e1
        subst e0
        simp only [List.length_cons] at hl
        obtain ⟨k, rfl⟩ : ∃ k, m = k + 1 := ⟨m - 1, by omega⟩
        have hsub : ∀ z ∈ p ++ q, z ∈ l := by
          intro z hz
          apply List.mem_of_mem_take (i := k + 1)
          rw [e1]
          simp only [List.mem_append, List.mem_cons] at hz ⊢
          tauto
        refine ⟨p ++ q ++ l.drop k, k + 1, ?_, ?_, by omega, by omega, ?_⟩
        · rw [e]; simp
        · simp only [List.length_append, List.length_drop]
          omega
        · intro hm'
          rcases List.mem_append.mp hm' with hm' | hm'
          · exact hal (hsub _ hm')
          · exact hal (List.mem_of_mem_drop hm')
  · refine ⟨l, n, ?_, rfl, h1, Nat.le_refl _, hal⟩
    unfold delCells
    rcases lastIdx_found t ((a :: l).take n) 0 none with ⟨_, e⟩ | ⟨p, q, e1, _, _⟩
    · rw [e]
    · exact absurd (by rw [e1]; simp) hm

theorem ixml_sub_self_rest (k : Nat) : ∀ (i : Nat) (a : Str) (l : List Str) (n : Nat),
    1 ≤ i → i + k ≤ (a :: l).length → n ≤ (a :: l).length → 1 ≤ n → a ∉ l →
    ∃ l' n', subCells k i (a :: l) n = (a :: l', n') ∧ 1 ≤ n' := by
  induction k with
  | zero => intro i a l n _ _ _ h1 _; exact ⟨l, n, rfl, h1⟩
  | succ k ih =>
    intro i a l n hi hik hn h1 hal
    obtain ⟨j, rfl⟩ : ∃ j, i = j + 1 := ⟨i - 1, by omega⟩
    have hj : j < l.length := by simp at hik; omega
    have ht : (a :: l).getD (j + 1) [] ∈ l := by
      simp [List.getD, List.getElem?_eq_getElem hj]
    obtain ⟨l', n', e, hl, hn1, hn2, ha⟩ := ixml_sub_self_step hn h1 hal ht
    rw [subCells]
    simp only [e]
    refine ih (j + 1 + 1) a l' n' (by omega) ?_ ?_ hn1 ha
    · simp at hik ⊢; omega
    · simp at hn ⊢; omega

/-- **C56.** A set of at least three members subtracted from itself keeps its second member: the
loop runs over the memory that it changes. -/
theorem ixml_sub_self {a b c : Str} {l : List Str} (h : (a :: b :: c :: l).Nodup) :
    b ∈ view (subCells (l.length + 3) 0 (a :: b :: c :: l) (l.length + 3)).1
      (subCells (l.length + 3) 0 (a :: b :: c :: l) (l.length + 3)).2 := by
  rw [subCells]
  have e := ixml_delCells_found (cells := a :: b :: c :: l) (n := l.length + 3) (t := a) (a := [])
    (b := b :: c :: l) (by simp) (by simp) (List.nodup_cons.mp h).1
  have hg : (a :: b :: c :: l).getD 0 [] = a := rfl
  simp only [hg, e, List.nil_append, List.cons_append]
  have hb : b ∉ c :: l := (List.nodup_cons.mp (List.nodup_cons.mp h).2).1
  have hd : List.drop (l.length + 3 - 1) (a :: b :: c :: l) = (c :: l).drop l.length := by
    simp
  rw [hd]
  obtain ⟨l', n', e', h'⟩ := ixml_sub_self_rest (l.length + 2) 1 b
    (c :: l ++ (c :: l).drop l.length) (l.length + 3 - 1) (by omega)
    (by simp; omega) (by simp) (by omega)
    (by
      intro hm
      rcases List.mem_append.mp hm with hm | hm
      · exact hb hm
      · exact hb (List.mem_of_mem_drop hm))
  simp only [List.cons_append] at e'
  rw [e']
  obtain ⟨m, rfl⟩ : ∃ m, n' = m + 1 := ⟨n' - 1, by omega⟩
  simp [view]

example : functionLCR.Nodup := by decide

/-- **C56.** The predefined set for left, center and right minus itself is not empty. -/
theorem ixml_sub_self_lcr :
    view (subCells 3 0 functionLCR 3).1 (subCells 3 0 functionLCR 3).2 = ["C-LCR".toList] := by
  decide +kernel

end Xmp.Props
