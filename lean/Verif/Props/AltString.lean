import Verif.Model.AltString
import Verif.Lemmas.GoStr
import Mathlib.Tactic.Common
import Mathlib.Data.List.Nodup

/-! C14 and C15: language alternatives. -/

namespace Xmp.Props

open GoStr

/-- Specification: empty, or one default item which comes first. -/
def OneDefault (a : AltString) : Prop :=
  a = [] ∨ ∃ d r, a = d :: r ∧ d.isDefault = true ∧ ∀ x ∈ r, x.isDefault = false

/-- Additions and updates of a text alternative. -/
inductive AltOp where
  | addDefault (lang value : Str)
  | add (lang value : Str)
  | addUnique (lang value : Str)
  | set (lang value : Str)

/-- Run one operation; `none` is a panic. -/
def AltOp.run (a : AltString) : AltOp → Option AltString
  | .addDefault l v => some (a.addDefault l v)
  | .add l v => a.add l v
  | .addUnique l v => (a.addUnique l v).map (·.1)
  | .set l v => a.set l v

/-! ### Helper lemmas -/

theorem clearLater_some (i k : Nat) (a : AltString) :
    AltString.clearLater i (some k) a = (some k, a.map (fun x => { x with isDefault := false })) := by
  induction a generalizing i with
  | nil => rfl
  | cons x xs ih =>
    cases x with
    | mk v l d => cases d <;> simp [AltString.clearLater, ih]

theorem clearLater_none (i : Nat) (a : AltString) (h : ∀ x ∈ a, x.isDefault = false) :
    AltString.clearLater i none a = (none, a) := by
  induction a generalizing i with
  | nil => rfl
  | cons x xs ih =>
    have hx := h x (by simp)
    simp [AltString.clearLater, hx, ih _ (fun y hy => h y (by simp [hy]))]

theorem clearLater_first (i : Nat) (p r : AltString) (d : AltItem)
    (hp : ∀ x ∈ p, x.isDefault = false) (hd : d.isDefault = true) :
    AltString.clearLater i none (p ++ d :: r) =
      (some (i + p.length), p ++ d :: r.map (fun x => { x with isDefault := false })) := by
  induction p generalizing i with
  | nil => simp [AltString.clearLater, hd, clearLater_some]
  | cons x xs ih =>
    have hx := hp x (by simp)
    simp [AltString.clearLater, hx, ih (i + 1) (fun y hy => hp y (by simp [hy]))]
    omega

theorem map_clear_of_not {a : AltString} (h : ∀ x ∈ a, x.isDefault = false) :
    a.map (fun x => { x with isDefault := false }) = a := by
  conv => rhs; rw [← List.map_id a]
  apply List.map_congr_left
  intro x hx
  have := h x hx
  cases x
  simp_all

/-- A list with a default splits at the first one. -/
theorem exists_first_default {a : AltString} (h : ∃ x ∈ a, x.isDefault = true) :
    ∃ p d r, a = p ++ d :: r ∧ (∀ x ∈ p, x.isDefault = false) ∧ d.isDefault = true := by
  induction a with
  | nil => simp at h
  | cons x xs ih =>
    by_cases hx : x.isDefault = true
    · exact ⟨[], x, xs, rfl, by simp, hx⟩
    · obtain ⟨y, hy, hyd⟩ := h
      have : y ∈ xs := by
        rcases List.mem_cons.1 hy with rfl | h
        · exact absurd hyd hx
        · exact h
      obtain ⟨p, d, r, rfl, hp, hd⟩ := ih ⟨y, this, hyd⟩
      refine ⟨x :: p, d, r, rfl, ?_, hd⟩
      intro z hz
      rcases List.mem_cons.1 hz with rfl | h
      · simpa using hx
      · exact hp z h

theorem ensureDefault_wf {d : AltItem} {r : AltString} (hd : d.isDefault = true)
    (hr : ∀ x ∈ r, x.isDefault = false) : AltString.ensureDefault (d :: r) = some (d :: r) := by
  cases r with
  | nil => cases d; simp_all [AltString.ensureDefault]
  | cons y ys =>
    have := clearLater_first 0 [] (y :: ys) d (by simp) hd
    simp only [List.nil_append, List.length_nil, Nat.add_zero] at this
    rw [map_clear_of_not hr] at this
    simp [AltString.ensureDefault, this]

theorem add_wf {d : AltItem} {r : AltString} (hd : d.isDefault = true)
    (hr : ∀ x ∈ r, x.isDefault = false) (l v : Str) (hv : v ≠ []) :
    AltString.add (d :: r) l v = some (d :: (r ++ [{ value := v, lang := l }])) := by
  rw [AltString.add, if_neg hv, List.cons_append]
  apply ensureDefault_wf hd
  intro x hx
  rcases List.mem_append.1 hx with h | h
  · exact hr x h
  · simp at h; simp [h]

theorem add_nil (l v : Str) (hv : v ≠ []) :
    AltString.add [] l v = some [{ value := v, lang := l, isDefault := true }] := by
  simp [AltString.add, AltString.ensureDefault, hv]

theorem oneDefault_add {a : AltString} (h : OneDefault a) (l v : Str) :
    ∃ b, a.add l v = some b ∧ OneDefault b := by
  by_cases hv : v = []
  · exact ⟨a, by simp [AltString.add, hv], h⟩
  · rcases h with rfl | ⟨d, r, rfl, hd, hr⟩
    · exact ⟨_, add_nil l v hv, Or.inr ⟨_, _, rfl, rfl, by simp⟩⟩
    · refine ⟨_, add_wf hd hr l v hv, Or.inr ⟨_, _, rfl, hd, ?_⟩⟩
      intro x hx
      rcases List.mem_append.1 hx with h | h
      · exact hr x h
      · simp at h; simp [h]

theorem oneDefault_modify {a : AltString} (h : OneDefault a) (i : Nat) (v : Str) :
    OneDefault (a.modify i (fun x => { x with value := v })) := by
  rcases h with rfl | ⟨d, r, rfl, hd, hr⟩
  · left; simp
  · cases i with
    | zero =>
      rw [List.modify_zero_cons]
      exact Or.inr ⟨_, r, rfl, hd, hr⟩
    | succ i =>
      right
      refine ⟨d, _, by rw [List.modify_succ_cons], hd, ?_⟩
      intro x hx
      rw [List.mem_iff_getElem?] at hx
      obtain ⟨j, hj⟩ := hx
      rw [List.getElem?_modify] at hj
      cases hr' : r[j]? with
      | none => simp [hr'] at hj
      | some y =>
        have := hr y (List.mem_of_getElem? hr')
        rw [hr'] at hj
        by_cases hij : i = j
        · simp [hij] at hj; rw [← hj]; exact this
        · simp [hij] at hj; rw [← hj]; exact this

/-! ### C14 -/

/-- C14, one step: no addition or update of a well formed alternative panics, and the result is well
formed again. -/
theorem alt_step (a : AltString) (h : OneDefault a) (op : AltOp) :
    ∃ b, op.run a = some b ∧ OneDefault b := by
  cases op with
  | addDefault l v =>
    refine ⟨_, rfl, ?_⟩
    by_cases hv : v = []
    · simpa [AltString.addDefault, hv] using h
    · right
      refine ⟨_, _, by rw [AltString.addDefault, if_neg hv], rfl, ?_⟩
      intro x hx
      simp only [List.mem_map] at hx
      obtain ⟨y, _, rfl⟩ := hx
      rfl
  | add l v => exact oneDefault_add h l v
  | addUnique l v =>
    by_cases hv : v = []
    · exact ⟨a, by simp [AltOp.run, AltString.addUnique, hv], h⟩
    · obtain ⟨b, hb, hw⟩ := oneDefault_add h l v
      simp only [AltOp.run, AltString.addUnique, if_neg hv]
      cases hi : a.index l with
      | none => exact ⟨b, by simp [hb], hw⟩
      | some i =>
        by_cases he : (a[i]?).map (·.value) = some v
        · exact ⟨a, by simp [he], h⟩
        · exact ⟨b, by simp only [if_neg he]; simp [hb], hw⟩
  | set l v =>
    by_cases hv : v = []
    · exact ⟨a, by simp [AltOp.run, AltString.set, hv], h⟩
    · simp only [AltOp.run, AltString.set, if_neg hv]
      cases hi : a.index l with
      | none => simpa using oneDefault_add h l v
      | some i => exact ⟨_, rfl, oneDefault_modify h i v⟩

/-- C14: after any sequence of additions and updates of an empty or well formed alternative there is
exactly one default, it comes first, and nothing panics. -/
theorem alt_one_default (a : AltString) (h : OneDefault a) (ops : List AltOp) :
    ∃ b, ops.foldlM AltOp.run a = some b ∧ OneDefault b := by
  induction ops generalizing a with
  | nil => exact ⟨a, rfl, h⟩
  | cons op ops ih =>
    obtain ⟨b, hb, hw⟩ := alt_step a h op
    obtain ⟨c, hc, hcw⟩ := ih b hw
    refine ⟨c, ?_, hcw⟩
    rw [List.foldlM_cons, hb]
    exact hc

example : ∃ b, [AltOp.add "de".toList "x".toList, AltOp.addDefault "en".toList "y".toList].foldlM
      AltOp.run [] = some b ∧ b.length = 2 ∧ OneDefault b := by
  refine ⟨_, rfl, rfl, Or.inr ⟨_, _, rfl, rfl, by decide⟩⟩

/-- The default text is never empty after a successful addition: no operation stores an empty text. -/
theorem alt_no_empty_text (a b : AltString) (h : OneDefault a) (hn : ∀ x ∈ a, x.value ≠ []) (op : AltOp)
    (hb : op.run a = some b) : ∀ x ∈ b, x.value ≠ [] := by
  have hadd : ∀ l v b, a.add l v = some b → ∀ x ∈ b, x.value ≠ [] := by
    intro l v b hb
    by_cases hv : v = []
    · simp [AltString.add, hv] at hb; subst hb; exact hn
    · rcases h with rfl | ⟨d, r, rfl, hd, hr⟩
      · rw [add_nil l v hv] at hb
        cases hb
        intro x hx
        simp at hx; simp [hx, hv]
      · rw [add_wf hd hr l v hv] at hb
        cases hb
        intro x hx
        simp only [List.mem_cons, List.mem_append, List.not_mem_nil, or_false] at hx
        rcases hx with rfl | hx | rfl
        · exact hn _ (by simp)
        · exact hn x (by simp [hx])
        · simpa using hv
  cases op with
  | addDefault l v =>
    simp only [AltOp.run, Option.some.injEq] at hb
    subst hb
    by_cases hv : v = []
    · simpa [AltString.addDefault, hv] using hn
    · rw [AltString.addDefault, if_neg hv]
      intro x hx
      rcases List.mem_cons.1 hx with rfl | hx
      · simpa using hv
      · simp only [List.mem_map] at hx
        obtain ⟨y, hy, rfl⟩ := hx
        exact hn y hy
  | add l v => exact hadd l v b hb
  | addUnique l v =>
    simp only [AltOp.run, AltString.addUnique] at hb
    by_cases hv : v = []
    · simp [hv] at hb; subst hb; exact hn
    · rw [if_neg hv] at hb
      cases hi : a.index l with
      | none =>
        rw [hi] at hb
        simp only [Option.map_map, Option.map_eq_some_iff, Function.comp] at hb
        obtain ⟨c, hc, rfl⟩ := hb
        exact hadd l v _ hc
      | some i =>
        rw [hi] at hb
        simp only at hb
        split at hb
        · simp at hb; subst hb; exact hn
        · simp only [Option.map_map, Option.map_eq_some_iff, Function.comp] at hb
          obtain ⟨c, hc, rfl⟩ := hb
          exact hadd l v _ hc
  | set l v =>
    simp only [AltOp.run, AltString.set] at hb
    by_cases hv : v = []
    · simp [hv] at hb; subst hb; exact hn
    · rw [if_neg hv] at hb
      cases hi : a.index l with
      | none => rw [hi] at hb; exact hadd l v b hb
      | some i =>
        rw [hi] at hb
        simp only [Option.some.injEq] at hb
        subst hb
        intro x hx
        rw [List.mem_iff_getElem?] at hx
        obtain ⟨j, hj⟩ := hx
        rw [List.getElem?_modify] at hj
        cases hr' : a[j]? with
        | none => simp [hr'] at hj
        | some y =>
          have := hn y (List.mem_of_getElem? hr')
          rw [hr'] at hj
          by_cases hij : i = j
          · simp [hij] at hj; rw [← hj]; simpa using hv
          · simp [hij] at hj; rw [← hj]; exact this

example : ∀ x ∈ [({ value := "b".toList, lang := "en".toList, isDefault := true } : AltItem)], x.value ≠ [] :=
  alt_no_empty_text [{ value := "a".toList, lang := "en".toList, isDefault := true }] _
    (Or.inr ⟨_, [], rfl, rfl, by simp⟩) (by decide) (.set "en".toList "b".toList) (by decide)

/-- Exact behaviour of `EnsureDefault` on any list: it panics exactly when there are two or more items
and none of them is the default; otherwise the first default is kept, moved to the front, and the
items (up to the default mark) are the same ones. -/
theorem ensureDefault_spec (a : AltString) :
    (AltString.ensureDefault a = none ↔ 2 ≤ a.length ∧ ∀ x ∈ a, x.isDefault = false) ∧
    (∀ b, AltString.ensureDefault a = some b →
      OneDefault b ∧
      (b.map (fun x => (x.value, x.lang))).Perm (a.map (fun x => (x.value, x.lang))) ∧
      (a ≠ [] → (∃ x ∈ a, x.isDefault = true) → b.default = a.default)) := by
  by_cases hl : a.length > 1
  · by_cases hd : ∃ x ∈ a, x.isDefault = true
    · obtain ⟨p, d, r, rfl, hp, hdd⟩ := exists_first_default hd
      have hcl := clearLater_first 0 p r d hp hdd
      simp only [Nat.zero_add] at hcl
      have hdefa : AltString.default (p ++ d :: r) = d.value := by
        have : (p ++ d :: r).find? (·.isDefault) = some d := by
          rw [List.find?_append, List.find?_eq_none.2 (by simpa using hp)]
          simp [hdd]
        simp [AltString.default, this]
      constructor
      · constructor
        · intro h
          rw [AltString.ensureDefault, if_pos hl, hcl] at h
          cases h
        · rintro ⟨_, h⟩
          exact absurd hdd (by simp [h d (by simp)])
      · intro b hb
        rw [AltString.ensureDefault, if_pos hl, hcl] at hb
        simp only [Option.some.injEq] at hb
        cases p with
        | nil =>
          simp only [List.length_nil, ne_eq, not_true_eq_false, if_false, List.nil_append] at hb
          subst hb
          refine ⟨Or.inr ⟨_, _, rfl, hdd, ?_⟩, ?_, ?_⟩
          · simp
          · simp [List.map_map, Function.comp_def]
          · intro _ _
            rw [hdefa]
            simp [AltString.default, hdd]
        | cons x xs =>
          have hsw : b = d :: (xs ++ x :: r.map (fun x => { x with isDefault := false })) := by
            rw [← hb]
            have h1 : ((x :: xs) ++ d :: r.map (fun x => { x with isDefault := false }))[(x :: xs).length]? = some d := by
              simp
            simp only [List.length_cons, ne_eq, Nat.add_eq_zero_iff, Nat.succ_ne_self, and_false,
              not_false_eq_true, if_true]
            unfold AltString.swap
            simp only [List.length_cons] at h1
            rw [h1]
            simp
          subst hsw
          have hnx := hp x (by simp)
          refine ⟨Or.inr ⟨_, _, rfl, hdd, ?_⟩, ?_, ?_⟩
          · intro y hy
            simp only [List.mem_append, List.mem_cons, List.mem_map] at hy
            rcases hy with h | rfl | ⟨z, _, rfl⟩
            · exact hp y (by simp [h])
            · exact hnx
            · rfl
          · simp only [List.map_cons, List.map_append, List.map_map, Function.comp_def, List.cons_append]
            refine List.Perm.trans ?_ (List.perm_middle (l₁ := (x.value, x.lang) :: _)).symm
            refine List.Perm.cons _ ?_
            exact List.perm_middle
          · intro _ _
            rw [hdefa]
            simp [AltString.default, hdd]
    · have hn : ∀ x ∈ a, x.isDefault = false := by
        intro x hx
        by_contra h
        exact hd ⟨x, hx, by simpa using h⟩
      have : AltString.ensureDefault a = none := by
        simp [AltString.ensureDefault, hl, clearLater_none 0 a hn]
      exact ⟨⟨fun _ => ⟨hl, hn⟩, fun _ => this⟩, fun b hb => by rw [this] at hb; cases hb⟩
  · have : AltString.ensureDefault a = some (a.map (fun x => { x with isDefault := true })) := by
      simp [AltString.ensureDefault, hl]
    constructor
    · rw [this]; simp; omega
    · intro b hb
      rw [this] at hb
      cases hb
      match a, hl with
      | [], _ => exact ⟨Or.inl rfl, by simp, by simp⟩
      | [x], _ =>
        refine ⟨Or.inr ⟨_, _, rfl, rfl, by simp⟩, by simp, ?_⟩
        intro _ h
        simp at h
        simp [AltString.default, h]
      | x :: y :: l, h => exact absurd (by simp) h

example : AltString.ensureDefault [{ value := "a".toList }, { value := "b".toList, isDefault := true }] =
    some [{ value := "b".toList, isDefault := true }, { value := "a".toList }] := by decide

/-- Constructing an alternative from two plain strings panics, although the constructor documents no
restriction. -/
theorem newAltString_panics : AltString.new [.str "a".toList, .str "b".toList] = none := by decide

/-- C14 for the constructor: it panics exactly when two or more non-empty texts are given and none is
marked as default; otherwise the result is well formed. -/
theorem newAltString_spec (items : List AltString.Arg) :
    (AltString.new items = none ↔
      2 ≤ (items.flatMap AltString.Arg.toItems).length ∧
        ∀ x ∈ items.flatMap AltString.Arg.toItems, x.isDefault = false) ∧
    ∀ b, AltString.new items = some b → OneDefault b := by
  cases items with
  | nil => simp [AltString.new, OneDefault]
  | cons i is =>
    simp only [AltString.new, List.length_cons, Nat.add_eq_zero_iff, Nat.succ_ne_self, and_false, if_false]
    exact ⟨(ensureDefault_spec _).1, fun b hb => ((ensureDefault_spec _).2 b hb).1⟩

example : ∃ b, AltString.new [.str "a".toList, .item { value := "b".toList, isDefault := true }] = some b := ⟨_, rfl⟩

/-- Removing the language of the default from a well formed alternative with three or more languages
panics: C14 does not extend to removals. -/
theorem removeLang_panics :
    AltString.removeLang [{ value := "a".toList, lang := "en".toList, isDefault := true },
      { value := "b".toList, lang := "de".toList }, { value := "c".toList, lang := "fr".toList }]
      "en".toList = none := by decide

/-- Removing a language from a well formed alternative panics exactly when the removed item is the
default and two or more items remain; otherwise the result is well formed. -/
theorem removeLang_spec (d : AltItem) (r : AltString) (hd : d.isDefault = true)
    (hr : ∀ x ∈ r, x.isDefault = false) (lang : Str) :
    (AltString.removeLang (d :: r) lang = none ↔ d.lang = lang ∧ 2 ≤ r.length) ∧
    ∀ b, AltString.removeLang (d :: r) lang = some b → OneDefault b := by
  unfold AltString.removeLang AltString.index
  by_cases hl : d.lang = lang
  · simp only [List.findIdx?_cons, hl, decide_true, if_true, List.take_zero, List.nil_append,
      Nat.zero_add, List.drop_succ_cons, List.drop_zero, true_and]
    refine ⟨?_, fun b hb => ((ensureDefault_spec _).2 b hb).1⟩
    rw [(ensureDefault_spec r).1]
    exact ⟨fun h => h.1, fun h => ⟨h, hr⟩⟩
  · simp only [List.findIdx?_cons, hl, decide_false, Bool.false_eq_true, if_false, false_and, iff_false]
    cases hi : List.findIdx? (fun v => decide (v.lang = lang)) r with
    | none =>
      simp only [Option.map_none]
      exact ⟨by simp, fun b hb => by cases hb; exact Or.inr ⟨d, r, rfl, hd, hr⟩⟩
    | some k =>
      simp only [Option.map_some, List.take_succ_cons, List.drop_succ_cons, List.cons_append]
      have hr' : ∀ x ∈ r.take k ++ r.drop (k + 1), x.isDefault = false := by
        intro x hx
        rcases List.mem_append.1 hx with h | h
        · exact hr x (List.mem_of_mem_take h)
        · exact hr x (List.mem_of_mem_drop h)
      rw [ensureDefault_wf hd hr']
      refine ⟨by simp, fun b hb => ?_⟩
      cases hb
      exact Or.inr ⟨d, _, rfl, hd, hr'⟩

example : AltString.removeLang [{ value := "a".toList, lang := "en".toList, isDefault := true },
    { value := "b".toList, lang := "de".toList }] "en".toList =
    some [{ value := "b".toList, lang := "de".toList, isDefault := true }] := by decide

/-! ### C15 -/

theorem find?_modify_value (a : AltString) (i : Nat) (v : Str) (p : AltItem → Bool)
    (hp : ∀ x : AltItem, p { x with value := v } = p x) :
    (a.modify i (fun x => { x with value := v })).find? p =
      if a.findIdx? p = some i then (a.find? p).map (fun x => { x with value := v }) else a.find? p := by
  induction a generalizing i with
  | nil => simp
  | cons x xs ih =>
    cases i with
    | zero =>
      rw [List.modify_zero_cons, List.find?_cons, List.find?_cons, List.findIdx?_cons, hp]
      cases p x <;> simp
    | succ i =>
      rw [List.modify_succ_cons, List.find?_cons, List.find?_cons, List.findIdx?_cons]
      cases h : p x
      · simp only [Bool.false_eq_true, if_false]
        rw [ih]
        cases List.findIdx? p xs <;> simp
      · simp

theorem findIdx?_eq_none_find? (a : AltString) (p : AltItem → Bool) :
    a.findIdx? p = none ↔ a.find? p = none := by
  simp [List.findIdx?_eq_none_iff, List.find?_eq_none]

theorem find?_some_of_findIdx? {a : AltString} {p : AltItem → Bool} {i : Nat}
    (h : a.findIdx? p = some i) : ∃ x, a.find? p = some x ∧ a[i]? = some x := by
  induction a generalizing i with
  | nil => simp at h
  | cons x xs ih =>
    rw [List.findIdx?_cons] at h
    cases hp : p x
    · rw [hp] at h
      simp only [Bool.false_eq_true, if_false, Option.map_eq_some_iff] at h
      obtain ⟨k, hk, rfl⟩ := h
      obtain ⟨y, hy, hyk⟩ := ih hk
      exact ⟨y, by simp [List.find?_cons, hp, hy], by simpa using hyk⟩
    · rw [hp] at h
      simp only [if_true, Option.some.injEq] at h
      exact ⟨x, by simp [hp], by simp [← h]⟩

/-- The default text after an update; spelled out for the specification of C15. -/
def defaultAfterSet (a : AltString) (lang value : Str) : Str :=
  match a with
  | [] => value
  | d :: _ => if d.lang = lang then value else d.value

/-- C15: after setting the text of a language, looking the language up returns that text, every other
language has its text unchanged, and the default text changes only if the default item carries that
language (or the alternative was empty). -/
theorem alt_get_set (a : AltString) (h : OneDefault a) (lang value : Str) (hl : lang ≠ [])
    (hv : value ≠ []) :
    ∃ b, a.set lang value = some b ∧ b.get lang = value ∧
      (∀ l, l ≠ lang → l ≠ [] → b.get l = a.get l) ∧ b.get [] = defaultAfterSet a lang value := by
  rw [AltString.set, if_neg hv]
  cases hi : a.index lang with
  | none =>
    have hn : a.find? (fun v => decide (v.lang = lang)) = none := (findIdx?_eq_none_find? a _).1 hi
    rcases h with rfl | ⟨d, r, rfl, hd, hr⟩
    · refine ⟨_, add_nil lang value hv, by simp [AltString.get, hl], ?_, ?_⟩
      · intro l h1 h2
        simp [AltString.get, h2, Ne.symm h1]
      · simp [AltString.get, AltString.default, defaultAfterSet]
    · refine ⟨_, add_wf hd hr lang value hv, ?_, ?_, ?_⟩
      · rw [← List.cons_append, AltString.get, if_neg hl, List.find?_append, hn]
        simp
      · intro l h1 h2
        rw [← List.cons_append, AltString.get, AltString.get, if_neg h2, if_neg h2, List.find?_append]
        cases hf : List.find? (fun v => decide (v.lang = l)) (d :: r) with
        | none => simp [Ne.symm h1]
        | some x => simp
      · have : d.lang ≠ lang := by
          intro h
          simp [h] at hn
        simp [AltString.get, AltString.default, hd, defaultAfterSet, this]
  | some i =>
    refine ⟨_, rfl, ?_, ?_, ?_⟩
    · obtain ⟨x, hx, _⟩ := find?_some_of_findIdx? hi
      rw [AltString.get, if_neg hl, find?_modify_value _ _ _ _ (fun _ => rfl), hx]
      rw [AltString.index] at hi
      rw [if_pos hi]
      simp
    · intro l h1 h2
      rw [AltString.get, if_neg h2, find?_modify_value _ _ _ _ (fun _ => rfl), AltString.get, if_neg h2]
      by_cases hh : List.findIdx? (fun v => decide (v.lang = l)) a = some i
      · exfalso
        obtain ⟨x, hx, hxi⟩ := find?_some_of_findIdx? hi
        obtain ⟨y, hy, hyi⟩ := find?_some_of_findIdx? hh
        rw [hxi] at hyi
        cases hyi
        have h3 := List.find?_some hx
        have h4 := List.find?_some hy
        simp only [decide_eq_true_eq] at h3 h4
        exact h1 (h4.symm.trans h3)
      · rw [if_neg hh]
    · rcases h with rfl | ⟨d, r, rfl, hd, hr⟩
      · simp [AltString.index] at hi
      · cases i with
        | zero =>
          have : d.lang = lang := by
            rw [AltString.index, List.findIdx?_cons] at hi
            by_contra hne
            simp [hne] at hi
          simp [AltString.get, AltString.default, hd, defaultAfterSet, this]
        | succ i =>
          have : d.lang ≠ lang := by
            intro hne
            rw [AltString.index, List.findIdx?_cons] at hi
            simp [hne] at hi
          simp [AltString.get, AltString.default, hd, defaultAfterSet, this]

example : ∃ b, AltString.set [{ value := "a".toList, lang := "en".toList, isDefault := true }]
    "de".toList "x".toList = some b ∧ b.get "de".toList = "x".toList ∧ b.get "en".toList = "a".toList := by
  refine ⟨_, rfl, ?_, ?_⟩ <;> decide

/-- C15 for `AddDefault`: the new default is found both under its language and as the default; other
languages keep their text. -/
theorem alt_get_addDefault (a : AltString) (lang value : Str) (hv : value ≠ []) :
    (a.addDefault lang value).get [] = value ∧ (lang ≠ [] → (a.addDefault lang value).get lang = value) ∧
    ∀ l, l ≠ lang → l ≠ [] → (a.addDefault lang value).get l = a.get l := by
  rw [AltString.addDefault, if_neg hv]
  refine ⟨by simp [AltString.get, AltString.default], fun hl => by simp [AltString.get, hl], ?_⟩
  intro l h1 h2
  rw [AltString.get, AltString.get, if_neg h2, if_neg h2, List.find?_cons]
  simp only [Ne.symm h1, decide_false]
  rw [List.find?_map]
  simp only [Function.comp_def]
  cases List.find? (fun v => decide (v.lang = l)) a <;> simp

example : (AltString.addDefault [{ value := "a".toList, lang := "en".toList, isDefault := true }]
    "de".toList "b".toList).get "en".toList = "a".toList := by decide

/-- C15 for `Add`: a new language is found with its text, a language that is already present keeps the
text it had (lookups see the oldest text), other languages and the default are unchanged. -/
theorem alt_get_add (a : AltString) (h : OneDefault a) (hne : a ≠ []) (lang value : Str) (hl : lang ≠ [])
    (hv : value ≠ []) :
    ∃ b, a.add lang value = some b ∧
      ((∀ x ∈ a, x.lang ≠ lang) → b.get lang = value) ∧
      ((∃ x ∈ a, x.lang = lang) → b.get lang = a.get lang) ∧
      (∀ l, l ≠ lang → b.get l = a.get l) := by
  rcases h with rfl | ⟨d, r, rfl, hd, hr⟩
  · exact absurd rfl hne
  · refine ⟨_, add_wf hd hr lang value hv, ?_, ?_, ?_⟩
    · intro hn
      have : List.find? (fun v => decide (v.lang = lang)) (d :: r) = none := by
        rw [List.find?_eq_none]; simpa using hn
      rw [← List.cons_append, AltString.get, if_neg hl, List.find?_append, this]
      simp
    · rintro ⟨x, hx, hxl⟩
      rw [← List.cons_append, AltString.get, AltString.get, if_neg hl, if_neg hl, List.find?_append]
      cases hf : List.find? (fun v => decide (v.lang = lang)) (d :: r) with
      | none =>
        rw [List.find?_eq_none] at hf
        exact absurd (by simpa using hxl) (hf x hx)
      | some y => simp
    · intro l h1
      by_cases h2 : l = []
      · subst h2
        simp [AltString.get, AltString.default, hd]
      · rw [← List.cons_append, AltString.get, AltString.get, if_neg h2, if_neg h2, List.find?_append]
        cases hf : List.find? (fun v => decide (v.lang = l)) (d :: r) with
        | none => simp [Ne.symm h1]
        | some x => simp

example : (AltString.add [{ value := "a".toList, lang := "en".toList, isDefault := true }]
    "en".toList "b".toList).map (fun b => b.get "en".toList) = some "a".toList := by decide

/-- `EnsureDefault` changes no lookup by language when every language occurs once. -/
theorem get_ensureDefault {a b : AltString} (hnd : (a.map (·.lang)).Nodup) (hb : a.ensureDefault = some b)
    (l : Str) (hl : l ≠ []) : b.get l = a.get l := by
  have hp := ((ensureDefault_spec a).2 b hb).2.1
  have key : ∀ c : AltString, (c.map (·.lang)).Nodup → ∀ x y : AltItem, x ∈ c → y ∈ c → x.lang = y.lang →
      x.value = y.value := by
    intro c hc x y hx hy hxy
    have := List.inj_on_of_nodup_map hc hx hy hxy
    rw [this]
  have hndb : (b.map (·.lang)).Nodup := by
    have h2 : (b.map (·.lang)).Perm (a.map (·.lang)) := by
      have := hp.map (fun z => z.2)
      simpa [List.map_map, Function.comp_def] using this
    exact h2.nodup_iff.2 hnd
  rw [AltString.get, AltString.get, if_neg hl, if_neg hl]
  cases hfa : a.find? (fun v => decide (v.lang = l)) with
  | none =>
    have : b.find? (fun v => decide (v.lang = l)) = none := by
      rw [List.find?_eq_none] at hfa ⊢
      intro x hx hxl
      have : (x.value, x.lang) ∈ b.map (fun x => (x.value, x.lang)) := List.mem_map.2 ⟨x, hx, rfl⟩
      rw [hp.mem_iff] at this
      obtain ⟨y, hy, hyx⟩ := List.mem_map.1 this
      simp only [Prod.mk.injEq] at hyx
      exact hfa y hy (by rw [hyx.2]; exact hxl)
    rw [this]
  | some x =>
    have hx := List.mem_of_find?_eq_some hfa
    have hxl := List.find?_some hfa
    simp only [decide_eq_true_eq] at hxl
    have : (x.value, x.lang) ∈ a.map (fun x => (x.value, x.lang)) := List.mem_map.2 ⟨x, hx, rfl⟩
    rw [← hp.mem_iff] at this
    obtain ⟨y, hy, hyx⟩ := List.mem_map.1 this
    simp only [Prod.mk.injEq] at hyx
    cases hfb : b.find? (fun v => decide (v.lang = l)) with
    | none =>
      rw [List.find?_eq_none] at hfb
      exact absurd (by simp [hyx.2, hxl]) (hfb y hy)
    | some z =>
      have hz := List.mem_of_find?_eq_some hfb
      have hzl := List.find?_some hfb
      simp only [decide_eq_true_eq] at hzl
      have := key b hndb z y hz hy (by rw [hzl, hyx.2, hxl])
      simp [this, hyx.1]

/-- C15 for removal: when every language occurs once and the removal does not panic, the removed
language has no text any more and all other languages keep theirs. -/
theorem alt_get_removeLang (a b : AltString) (hnd : (a.map (·.lang)).Nodup) (lang : Str) (hl : lang ≠ [])
    (hb : a.removeLang lang = some b) :
    b.get lang = [] ∧ b.index lang = none ∧ ∀ l, l ≠ lang → l ≠ [] → b.get l = a.get l := by
  rw [AltString.removeLang] at hb
  cases hi : a.index lang with
  | none =>
    rw [hi] at hb
    cases hb
    have hn := (findIdx?_eq_none_find? a _).1 hi
    exact ⟨by simp only [AltString.get, if_neg hl, hn], hi, fun _ _ _ => rfl⟩
  | some i =>
    rw [hi] at hb
    simp only at hb
    obtain ⟨x, hx, hxi⟩ := find?_some_of_findIdx? hi
    have hxl := List.find?_some hx
    simp only [decide_eq_true_eq] at hxl
    obtain ⟨hlt, hxe⟩ := List.getElem?_eq_some_iff.1 hxi
    have hsplit : a = a.take i ++ x :: a.drop (i + 1) := by
      rw [← hxe, List.getElem_cons_drop, List.take_append_drop]
    generalize a.take i = p at *
    generalize a.drop (i + 1) = q at *
    subst hsplit
    have hpq : ∀ y ∈ p ++ q, y.lang ≠ lang := by
      intro y hy hyl
      rw [List.map_append, List.map_cons, List.nodup_middle] at hnd
      have := (List.nodup_cons.1 hnd).1
      apply this
      rw [hxl, ← List.map_append, ← hyl]
      exact List.mem_map.2 ⟨y, hy, rfl⟩
    have hndpq : ((p ++ q).map (·.lang)).Nodup := by
      rw [List.map_append, List.map_cons, List.nodup_middle] at hnd
      rw [List.map_append]
      exact (List.nodup_cons.1 hnd).2
    have hg := fun l hl => get_ensureDefault hndpq hb l hl
    have hfn : (p ++ q).find? (fun v => decide (v.lang = lang)) = none := by
      rw [List.find?_eq_none]; simpa using hpq
    refine ⟨?_, ?_, ?_⟩
    · rw [hg lang hl, AltString.get, if_neg hl, hfn]
    · rw [AltString.index, findIdx?_eq_none_find?, List.find?_eq_none]
      intro y hy hyl
      have hp := ((ensureDefault_spec _).2 b hb).2.1
      have : (y.value, y.lang) ∈ b.map (fun x => (x.value, x.lang)) := List.mem_map.2 ⟨y, hy, rfl⟩
      rw [hp.mem_iff] at this
      obtain ⟨z, hz, hzy⟩ := List.mem_map.1 this
      simp only [Prod.mk.injEq] at hzy
      exact hpq z hz (by rw [hzy.2]; simpa using hyl)
    · intro l h1 h2
      rw [hg l h2, AltString.get, AltString.get, if_neg h2, if_neg h2, List.find?_append, List.find?_append,
        List.find?_cons]
      have : x.lang ≠ l := by rw [hxl]; exact Ne.symm h1
      simp [this]

example : (AltString.removeLang [{ value := "a".toList, lang := "en".toList, isDefault := true },
    { value := "b".toList, lang := "de".toList }] "de".toList).map (fun b => (b.get "de".toList, b.get "en".toList)) =
    some ([], "a".toList) := by decide

/-- Without the restriction to distinct languages the removal part of C15 is false: `Add` accepts a
language twice and `RemoveLang` removes one of the two. -/
theorem removeLang_keeps_duplicates :
    ∃ a b : AltString, [AltOp.add "en".toList "a".toList, AltOp.add "de".toList "b".toList,
        AltOp.add "de".toList "c".toList].foldlM AltOp.run [] = some a ∧
      a.removeLang "de".toList = some b ∧ b.get "de".toList = "c".toList := by
  refine ⟨_, _, rfl, rfl, ?_⟩
  decide

/-- Setting the text for the empty language does not change the text returned for it when the default
item has a language: the text is appended as an item that no lookup returns. -/
theorem set_empty_lang_ineffective :
    ∃ b, AltString.set [{ value := "a".toList, lang := "en".toList, isDefault := true }] [] "b".toList = some b ∧
      b.get [] = "a".toList := by
  refine ⟨_, rfl, ?_⟩
  decide

end Xmp.Props
