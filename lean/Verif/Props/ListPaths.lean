import Verif.Model.ListPaths
import Verif.Props.ModelPath

/-! C47: the path listing of a typed model names exactly its texts, and every listed path reads back. -/

namespace Xmp.Props

open GoStr

/-! ### Specification -/

/-- The name of a field in a path that started in the namespace `pre`. -/
def shownName (pre n : Str) : Str := if hasNsPrefix n = true ∧ getPrefix n ≠ pre then n else stripPrefix n

/-- A field takes part in listings: no nil pointer, not omitted, and not empty unless it is written when empty. -/
def Shown (f : FieldInfo) (t : Ty) (v : Val) : Prop :=
  v ≠ .nil ∧ f.omitted = false ∧ (f.empty = true ∨ isEmptyValue t v = false)

/-- `InField infos tys vals f t v`: the struct with these fields has the shown field `f` of type `t` with value `v`. -/
def InField (infos : List FieldInfo) (tys : List Ty) (vals : List Val) (f : FieldInfo) (t : Ty) (v : Val) : Prop :=
  ∃ i : Nat, infos[i]? = some f ∧ tys[i]? = some t ∧ vals[i]? = some v ∧ Shown f t v

/-- `Below pre t v suf segs x`: in the value `v` of a field, the text `x` (`none`: it can not be written, `some none`: it
is nil) is found behind the name of the field followed by `suf`, and the further path segments `segs`.  `pre` is the
namespace of the path.  Byte slices in arrays do not count, neither do arrays and alternatives in arrays. -/
inductive Below (pre : Str) : Ty → Val → Str → List Str → Option (Option Str) → Prop
  | leaf {t v} (hl : IsLeaf t) : Below pre t v [] [] (leafText t v)
  | ptr {t v suf segs x} (h : Below pre t v suf segs x) : Below pre (.ptr t) (.ptr v) suf segs x
  | lang {a : AltString} {x} (h : x ∈ a) : Below pre .alt (.alt a) (['['] ++ x.getLang ++ [']']) [] (some (some x.value))
  | item {ty ety items sp} {k : Nat} {e} (h : items[k]? = some e) (hl : IsLeaf ety.deref)
      (hb : ety.deref ≠ .bytes) :
      Below pre (.slice ty ety) (.slice items sp) (['['] ++ itoa k ++ [']']) [] (leafText ety.deref (derefVal ety e).2)
  | struct {z infos tys vals f t v suf segs x} (he : isEmptyValue (.struct z infos tys) (.struct vals) = false)
      (hf : InField infos tys vals f t v) (h : Below pre t v suf segs x) :
      Below pre (.struct z infos tys) (.struct vals) [] ((shownName pre f.name ++ suf) :: segs) x
  | elem {ty ety items sp} {k : Nat} {e z infos tys vals f t v suf segs x} (hk : items[k]? = some e)
      (hd : derefVal ety e = (.struct z infos tys, .struct vals))
      (he : isEmptyValue (.struct z infos tys) (.struct vals) = false)
      (hf : InField infos tys vals f t v) (h : Below pre t v suf segs x) :
      Below pre (.slice ty ety) (.slice items sp) (['['] ++ itoa k ++ [']']) ((shownName pre f.name ++ suf) :: segs) x

/-- `ModelHolds ty v p x`: the model `v` holds the text `x` at the path `p`.  The namespace of the path is the one of the
field it starts with. -/
def ModelHolds (ty : Ty) (v : Val) (p : Path) (x : Option (Option Str)) : Prop :=
  ∃ z infos tys vals f t fv suf segs, ty = .struct z infos tys ∧ v = .struct vals ∧
    isEmptyValue ty v = false ∧ InField infos tys vals f t fv ∧ Below (getPrefix f.name) t fv suf segs x ∧
    p = Path.new (getPrefix f.name) ((stripPrefix f.name ++ suf) :: segs)

/-- Names of fields that can be part of a path. -/
def FieldNameOk (n : Str) : Prop :=
  stripPrefix n ≠ [] ∧ ':' ∉ stripPrefix n ∧ '/' ∉ n ∧ '[' ∉ n ∧ ']' ∉ n

mutual
/-- All field names of a type, at any depth, can be part of a path. -/
def NamesOk : Ty → Prop
  | .slice _ t => NamesOk t
  | .ptr t => NamesOk t
  | .struct _ infos tys => (∀ f ∈ infos, FieldNameOk f.name) ∧ NamesOkAll tys
  | _ => True
/-- `NamesOk` of all types of a list. -/
def NamesOkAll : List Ty → Prop
  | [] => True
  | t :: ts => NamesOk t ∧ NamesOkAll ts
end

mutual
/-- No two fields of a struct have the same local name. -/
def NamesApart : Ty → Prop
  | .slice _ t => NamesApart t
  | .ptr t => NamesApart t
  | .struct _ infos tys => (infos.map (fun f => stripPrefix f.name)).Nodup ∧ NamesApartAll tys
  | _ => True
/-- `NamesApart` of all types of a list. -/
def NamesApartAll : List Ty → Prop
  | [] => True
  | t :: ts => NamesApart t ∧ NamesApartAll ts
end

/-- Language alternatives all of whose texts can be named: every item has a language that can be part of a path and
does not read as a number, and no language occurs twice. -/
def LangsOk (a : AltString) : Prop :=
  (∀ x ∈ a, x.lang ≠ [] ∧ ':' ∉ x.lang ∧ '/' ∉ x.lang ∧ atoi x.lang = none) ∧ (a.map (·.lang)).Nodup

mutual
/-- All language alternatives in a value are `LangsOk`, and no slice is longer than an index can count. -/
def Addressable : Ty → Val → Prop
  | .alt, v => match v with
    | .alt a => LangsOk a
    | _ => True
  | .slice _ t, v => match v with
    | .slice l _ => l.length < 2 ^ 63 ∧ ∀ e ∈ l, Addressable t e
    | _ => True
  | .ptr t, v => match v with
    | .ptr x => Addressable t x
    | _ => True
  | .struct _ _ tys, v => match v with
    | .struct vals => AddressableAll tys vals
    | _ => True
  | _, _ => True
/-- `Addressable` field by field. -/
def AddressableAll : List Ty → List Val → Prop
  | t :: ts, v :: vs => Addressable t v ∧ AddressableAll ts vs
  | _, _ => True
end

/-! ### Listing: helper lemmas -/

/-- A listing against the texts it should name: only those, and all of them if each of them is a text. -/
def Exact (r : Option (Option PathValueList)) (R : Path → Option (Option Str) → Prop) : Prop :=
  (∀ l, r = some (some l) → ∀ e ∈ l, ∃ p s, e = { path := p, value := s } ∧ s ≠ [] ∧ R p (some (some s))) ∧
  ((∀ p x, R p x → ∃ s, x = some (some s)) →
    ∃ l, r = some (some l) ∧ ∀ p s, s ≠ [] → R p (some (some s)) → { path := p, value := s } ∈ l)

theorem exact_congr {r : Option (Option PathValueList)} {R R' : Path → Option (Option Str) → Prop} (h : Exact r R)
    (e : ∀ p x, R p x ↔ R' p x) : Exact r R' := by
  constructor
  · intro l hl a ha
    obtain ⟨p, s, h1, h2, h3⟩ := h.1 l hl a ha
    exact ⟨p, s, h1, h2, (e _ _).1 h3⟩
  · intro hR
    obtain ⟨l, h1, h2⟩ := h.2 (fun p x hx => hR p x ((e _ _).1 hx))
    exact ⟨l, h1, fun p s hs hx => h2 p s hs ((e _ _).2 hx)⟩

theorem exact_nil {R : Path → Option (Option Str) → Prop} (h : ∀ p x, ¬ R p x) : Exact (some (some [])) R := by
  constructor
  · intro l hl a ha
    cases hl; simp at ha
  · intro _
    exact ⟨[], rfl, fun p s _ hx => absurd hx (h p _)⟩

theorem exact_append {r r' : Option (Option PathValueList)} {R R' : Path → Option (Option Str) → Prop} (h : Exact r R)
    (h' : Exact r' R') :
    Exact (listSeq r r') (fun p x => R p x ∨ R' p x) := by
  constructor
  · intro l hl a ha
    match r, r', hl with
    | some (some l1), some (some l2), hl =>
      simp only [listSeq, Option.some.injEq] at hl
      subst hl
      rcases List.mem_append.1 ha with ha | ha
      · obtain ⟨p, s, h1, h2, h3⟩ := h.1 l1 rfl a ha
        exact ⟨p, s, h1, h2, Or.inl h3⟩
      · obtain ⟨p, s, h1, h2, h3⟩ := h'.1 l2 rfl a ha
        exact ⟨p, s, h1, h2, Or.inr h3⟩
  · intro hR
    obtain ⟨l1, rfl, h2⟩ := h.2 (fun p x hx => hR p x (Or.inl hx))
    obtain ⟨l2, rfl, h3⟩ := h'.2 (fun p x hx => hR p x (Or.inr hx))
    refine ⟨l1 ++ l2, rfl, ?_⟩
    intro p s hs hx
    rcases hx with hx | hx
    · exact List.mem_append_left _ (h2 p s hs hx)
    · exact List.mem_append_right _ (h3 p s hs hx)

theorem exact_text (path : Path) (x : Option (Option Str)) :
    Exact (listText path x) (fun p y => p = path ∧ y = x) := by
  constructor
  · intro l hl a ha
    match x, hl with
    | some (some s), hl =>
      simp only [listText, Option.some.injEq] at hl
      subst hl
      unfold PathValueList.add at ha
      split at ha
      · simp at ha
      · rename_i hs
        simp only [List.nil_append, List.mem_singleton] at ha
        exact ⟨path, s, ha, hs, rfl, rfl⟩
  · intro hR
    obtain ⟨s, rfl⟩ := hR path x ⟨rfl, rfl⟩
    refine ⟨_, rfl, ?_⟩
    intro p t ht h
    obtain ⟨rfl, h⟩ := h
    simp only [Option.some.injEq] at h
    subst h
    unfold PathValueList.add
    rw [if_neg ht]; simp

theorem exact_items {item : Val → Path → Option (Option PathValueList)} {path : Path} {items : List Val}
    {R : Nat → Path → Option (Option Str) → Prop} (i : Nat)
    (h : ∀ (k : Nat) v, items[k]? = some v → Exact (item v (path.appendIndex ((i + k : Nat) : Int))) (R (i + k))) :
    Exact (listItems item path i items) (fun p x => ∃ k, k < items.length ∧ R (i + k) p x) := by
  induction items generalizing i with
  | nil => exact exact_nil (by simp)
  | cons v vs ih =>
    unfold listItems
    have h0 := h 0 v rfl
    simp only [Nat.add_zero] at h0
    have h1 := ih (i + 1) (fun k w hw => by
      have := h (k + 1) w (by simpa using hw)
      rw [show i + (k + 1) = i + 1 + k by omega] at this
      exact this)
    refine exact_congr (exact_append h0 h1) ?_
    intro p x
    constructor
    · rintro (hx | ⟨k, hk, hx⟩)
      · exact ⟨0, by simp, hx⟩
      · exact ⟨k + 1, by simpa using hk, by rw [show i + (k + 1) = i + 1 + k by omega]; exact hx⟩
    · rintro ⟨k, hk, hx⟩
      cases k with
      | zero => exact Or.inl hx
      | succ k =>
        refine Or.inr ⟨k, by simpa using hk, ?_⟩
        rw [show i + 1 + k = i + (k + 1) by omega]; exact hx

theorem namesOk_get {tys : List Ty} (h : NamesOkAll tys) {i : Nat} {t : Ty} (ht : tys[i]? = some t) : NamesOk t := by
  induction tys generalizing i with
  | nil => simp at ht
  | cons a as ih =>
    rw [NamesOkAll] at h
    cases i with
    | zero => simp only [List.getElem?_cons_zero, Option.some.injEq] at ht; exact ht ▸ h.1
    | succ i => simp only [List.getElem?_cons_succ] at ht; exact ih h.2 ht

theorem stripPrefix_sub {n : Str} {c : Char} (h : c ∉ n) : c ∉ stripPrefix n := by
  unfold stripPrefix
  split
  · exact fun hc => h (List.mem_of_mem_drop hc)
  · exact h

theorem name_ne_nil {n : Str} (h : FieldNameOk n) : n ≠ [] := by
  rintro rfl; exact h.1 rfl

theorem shownName_ok {pre n : Str} (h : FieldNameOk n) :
    shownName pre n ≠ [] ∧ '/' ∉ shownName pre n ∧ '[' ∉ shownName pre n ∧ ']' ∉ shownName pre n := by
  unfold shownName
  split
  · exact ⟨name_ne_nil h, h.2.2.1, h.2.2.2.1, h.2.2.2.2⟩
  · exact ⟨h.1, stripPrefix_sub h.2.2.1, stripPrefix_sub h.2.2.2.1, stripPrefix_sub h.2.2.2.2⟩

theorem new_append (pre : Str) (l : List Str) (n t : Str) :
    Path.new pre (l ++ [n]) ++ t = Path.new pre (l ++ [n ++ t]) := by
  rw [Path.new_eq, Path.new_eq, List.append_assoc, List.cons_append, join_snoc_append]

theorem appendIndex_new {pre : Str} {l : List Str} {n : Str} (hn : n ≠ []) (hb : ']' ∉ n) (k : Int) :
    (Path.new pre (l ++ [n])).appendIndex k = Path.new pre (l ++ [n ++ (['['] ++ itoa k ++ [']'])]) := by
  unfold Path.appendIndex
  rw [new_not_bracket pre l n hn hb, if_neg (by simp), ← new_append]
  simp

theorem appendIndexString_new {pre : Str} {l : List Str} {n : Str} (hn : n ≠ []) (hb : ']' ∉ n) (k : Str) :
    (Path.new pre (l ++ [n])).appendIndexString k = Path.new pre (l ++ [n ++ (['['] ++ k ++ [']'])]) := by
  unfold Path.appendIndexString
  rw [new_not_bracket pre l n hn hb, if_neg (by simp), ← new_append]
  simp

theorem segsOk_of {l : List Str} (h : ∀ s ∈ l, s ≠ [] ∧ '/' ∉ s) : SegsOk l :=
  ⟨fun s hs => (h s hs).2, fun s hs => (h s (List.mem_of_mem_head? hs)).1⟩

theorem push_new {pre : Str} {l : List Str} (hp : ':' ∉ pre) (hl : ∀ s ∈ l, s ≠ [] ∧ '/' ∉ s) (s : List Str) :
    (Path.new pre l).push s = Path.new pre (l ++ s) := by
  unfold Path.push
  obtain ⟨h1, h2, -⟩ := path_fields_new pre l hp (segsOk_of hl)
  rw [h1, h2]

theorem len_new {pre : Str} {l : List Str} (hp : ':' ∉ pre) (hl : ∀ s ∈ l, s ≠ [] ∧ '/' ∉ s) :
    (Path.new pre l).len = l.length := by
  rw [len_eq_length_fields, (path_fields_new pre l hp (segsOk_of hl)).1]

theorem listed_iff {f : FieldInfo} {t : Ty} {v : Val} : fieldListed f t v = true ↔ Shown f t v := by
  unfold fieldListed Shown
  have : (v.isNil = false) ↔ v ≠ .nil := by cases v <;> simp [Val.isNil]
  simp only [Bool.and_eq_true, Bool.not_eq_true', Bool.or_eq_true]
  rw [this]
  tauto

theorem listSub_exact {r : Option (Option PathValueList)} {sort : PathValueList → PathValueList}
    (hsort : ∀ l, (sort l).Perm l) {R : Path → Option (Option Str) → Prop} (h : Exact r R) :
    Exact (listSub (listEnd sort r)) R := by
  constructor
  · intro l hl a ha
    match r, hl with
    | some none, hl =>
      simp only [listSub, listEnd, Option.some.injEq] at hl
      subst hl; simp at ha
    | some (some l'), hl =>
      simp only [listSub, listEnd, Option.some.injEq] at hl
      subst hl
      exact h.1 l' rfl a ((hsort l').mem_iff.1 ha)
  · intro hR
    obtain ⟨l, rfl, h2⟩ := h.2 hR
    exact ⟨sort l, rfl, fun p s hs hx => (hsort l).mem_iff.2 (h2 p s hs hx)⟩

/-- What is listed for a field of type `t` whose name is the last segment `n` of the path. -/
def FieldR (pre : Str) (l : List Str) (n : Str) (t : Ty) (v : Val) (p : Path) (x : Option (Option Str)) : Prop :=
  ∃ suf segs, Below pre t v suf segs x ∧ p = Path.new pre (l ++ (n ++ suf) :: segs)

/-- What is listed for the fields of a struct below the path `l`. -/
def FieldsR (pre : Str) (l : List Str) (infos : List FieldInfo) (tys : List Ty) (vals : List Val) (p : Path)
    (x : Option (Option Str)) : Prop :=
  ∃ f t v, InField infos tys vals f t v ∧ FieldR pre l (shownName pre f.name) t v p x

/-- What is listed for an array element at the path `l`. -/
def ItemR (pre : Str) (l : List Str) (t : Ty) (v : Val) (p : Path) (x : Option (Option Str)) : Prop :=
  ((IsLeaf t.deref ∧ t.deref ≠ .bytes) ∧ x = leafText t.deref (derefVal t v).2 ∧ p = Path.new pre l) ∨
  (∃ z infos tys vals, derefVal t v = (.struct z infos tys, .struct vals) ∧
    isEmptyValue (.struct z infos tys) (.struct vals) = false ∧ FieldsR pre l infos tys vals p x)

theorem inField_nil {infos : List FieldInfo} {tys : List Ty} {vals : List Val} {f : FieldInfo} {t : Ty} {v : Val}
    (h : infos = [] ∨ tys = [] ∨ vals = []) : ¬ InField infos tys vals f t v := by
  rintro ⟨i, h1, h2, h3, -⟩
  rcases h with rfl | rfl | rfl
  · simp at h1
  · simp at h2
  · simp at h3

theorem inField_cons {g : FieldInfo} {infos : List FieldInfo} {u : Ty} {tys : List Ty} {w : Val} {vals : List Val}
    {f : FieldInfo} {t : Ty} {v : Val} :
    InField (g :: infos) (u :: tys) (w :: vals) f t v ↔
      (f = g ∧ t = u ∧ v = w ∧ Shown f t v) ∨ InField infos tys vals f t v := by
  constructor
  · rintro ⟨i, h1, h2, h3, h4⟩
    cases i with
    | zero =>
      simp only [List.getElem?_cons_zero, Option.some.injEq] at h1 h2 h3
      exact Or.inl ⟨h1.symm, h2.symm, h3.symm, h4⟩
    | succ i =>
      simp only [List.getElem?_cons_succ] at h1 h2 h3
      exact Or.inr ⟨i, h1, h2, h3, h4⟩
  · rintro (⟨rfl, rfl, rfl, h⟩ | ⟨i, h1, h2, h3, h4⟩)
    · exact ⟨0, rfl, rfl, rfl, h⟩
    · exact ⟨i + 1, by simpa using h1, by simpa using h2, by simpa using h3, h4⟩

theorem exact_alt (pre : Str) (l : List Str) {n : Str} (hn : n ≠ []) (hb : ']' ∉ n) (a : AltString) :
    Exact (some (some (a.foldl (fun r x => PathValueList.add r
      ((Path.new pre (l ++ [n])).appendIndexString x.getLang) x.value) []))) (FieldR pre l n .alt (.alt a)) := by
  have key : ∀ (a : AltString) (r : PathValueList) (e : PathValue),
      e ∈ a.foldl (fun r x => PathValueList.add r ((Path.new pre (l ++ [n])).appendIndexString x.getLang) x.value) r ↔
        e ∈ r ∨ ∃ x ∈ a, x.value ≠ [] ∧
          e = { path := Path.new pre (l ++ [n ++ (['['] ++ x.getLang ++ [']'])]), value := x.value } := by
    intro a
    induction a with
    | nil => simp
    | cons x xs ih =>
      intro r e
      rw [List.foldl_cons, ih]
      rw [appendIndexString_new hn hb]
      unfold PathValueList.add
      split
      · rename_i hx
        constructor
        · rintro (h | ⟨y, hy, h⟩)
          · exact Or.inl h
          · exact Or.inr ⟨y, List.mem_cons_of_mem _ hy, h⟩
        · rintro (h | ⟨y, hy, h1, h2⟩)
          · exact Or.inl h
          · rcases List.mem_cons.1 hy with rfl | hy
            · exact absurd hx h1
            · exact Or.inr ⟨y, hy, h1, h2⟩
      · rename_i hx
        rw [List.mem_append, List.mem_singleton]
        constructor
        · rintro ((h | h) | ⟨y, hy, h⟩)
          · exact Or.inl h
          · exact Or.inr ⟨x, List.mem_cons_self, hx, h⟩
          · exact Or.inr ⟨y, List.mem_cons_of_mem _ hy, h⟩
        · rintro (h | ⟨y, hy, h1, h2⟩)
          · exact Or.inl (Or.inl h)
          · rcases List.mem_cons.1 hy with rfl | hy
            · exact Or.inl (Or.inr h2)
            · exact Or.inr ⟨y, hy, h1, h2⟩
  constructor
  · intro r hr e he
    simp only [Option.some.injEq] at hr
    subst hr
    rcases (key a [] e).1 he with h | ⟨x, hx, h1, h2⟩
    · simp at h
    · exact ⟨_, _, h2, h1, _, _, .lang hx, rfl⟩
  · intro _
    refine ⟨_, rfl, ?_⟩
    rintro p s hs ⟨suf, segs, hb', rfl⟩
    refine (key a [] _).2 (Or.inr ?_)
    generalize hx : some (some s) = x at hb'
    cases hb' with
    | leaf hl => simp [IsLeaf] at hl
    | lang h =>
      simp only [Option.some.injEq] at hx
      subst hx
      exact ⟨_, h, hs, rfl⟩

theorem exact_leaf {pre : Str} {l : List Str} {n : Str} {t : Ty} {v : Val} (hl : IsLeaf t) :
    Exact (listText (Path.new pre (l ++ [n])) (leafText t v)) (FieldR pre l n t v) := by
  refine exact_congr (exact_text _ _) ?_
  intro p x
  constructor
  · rintro ⟨rfl, rfl⟩
    exact ⟨[], [], .leaf hl, by simp⟩
  · rintro ⟨suf, segs, h, rfl⟩
    cases h with
    | leaf _ => exact ⟨by simp, rfl⟩
    | _ => simp [IsLeaf] at hl

theorem exact_leaf_item {pre : Str} {l : List Str} {t : Ty} {v : Val} (hl : IsLeaf t) (hb : t ≠ .bytes) :
    Exact (listText (Path.new pre l) (leafText t v)) (ItemR pre l t v) := by
  refine exact_congr (exact_text _ _) ?_
  have hd : t.deref = t := by cases t <;> simp [IsLeaf] at hl <;> rfl
  intro p x
  unfold ItemR
  rw [leaf_deref hl, hd]
  constructor
  · rintro ⟨rfl, rfl⟩
    exact Or.inl ⟨⟨hl, hb⟩, rfl, rfl⟩
  · rintro (⟨-, rfl, rfl⟩ | ⟨z, infos, tys, vals, h, -⟩)
    · exact ⟨rfl, rfl⟩
    · simp only [Prod.mk.injEq] at h
      rw [h.1] at hl
      simp [IsLeaf] at hl

theorem listBase_nested {pre : Str} {l : List Str} (hp : ':' ∉ pre) (hl : ∀ s ∈ l, s ≠ [] ∧ '/' ∉ s) (hne : l ≠ [])
    (f : FieldInfo) : listBase (Path.new pre l) f = Path.new pre l := by
  unfold listBase
  rw [len_new hp hl, if_neg]
  rintro ⟨h, -⟩
  exact hne (List.length_eq_zero_iff.1 h)

theorem listName_new {pre : Str} {l : List Str} (hp : ':' ∉ pre) (f : FieldInfo) :
    listName (Path.new pre l) f = shownName pre f.name := by
  unfold listName shownName
  rw [Path.namespacePrefix_new l hp]

theorem item_none {pre : Str} {l : List Str} {t : Ty} {v : Val} (h1 : ¬ (IsLeaf t.deref ∧ t.deref ≠ .bytes)) (h2 : ∀ z i ty, t.deref ≠ .struct z i ty)
    (hv : HasTy t v) : ∀ p x, ¬ ItemR pre l t v p x := by
  rintro p x (⟨hl, -⟩ | ⟨z, infos, tys, vals, h, -⟩)
  · exact h1 hl
  · have := derefVal_fst hv
    rw [h] at this
    exact h2 _ _ _ this.symm

theorem derefVal_flat {t : Ty} {v : Val} (h : t.deref = t) (hv : HasTy t v) : derefVal t v = (t, v) := by
  cases t with
  | ptr t =>
    have := congrArg sizeOf h
    simp [Ty.deref] at this
  | _ => cases v <;> rfl

theorem itemR_ptr {pre : Str} {l : List Str} {t : Ty} {v w : Val} {p : Path} {x : Option (Option Str)} (h : t.deref = t)
    (h1 : derefVal t v = (t, v)) (h2 : derefVal (.ptr t) w = (t, v)) :
    ItemR pre l t v p x ↔ ItemR pre l (.ptr t) w p x := by
  unfold ItemR
  rw [h1, h2, h]
  rfl

mutual
theorem exact_field {sort : PathValueList → PathValueList} (hsort : ∀ l, (sort l).Perm l) {pre : Str} (hp : ':' ∉ pre)
    (t : Ty) (v : Val) (l : List Str) (n : Str) (hl : ∀ s ∈ l, s ≠ [] ∧ '/' ∉ s) (hn : n ≠ []) (hn' : '/' ∉ n)
    (hb : ']' ∉ n) (hw : t.Wf) (hk : NamesOk t) (hv : HasTy t v) (hnil : v ≠ .nil) :
    Exact (listField sort t v (Path.new pre (l ++ [n]))) (FieldR pre l n t v) := by
  have hl1 : ∀ s ∈ l ++ [n], s ≠ [] ∧ '/' ∉ s := by
    intro s hs
    rcases List.mem_append.1 hs with hs | hs
    · exact hl s hs
    · rw [List.mem_singleton] at hs; subst hs; exact ⟨hn, hn'⟩
  match t, v with
  | .int b, v => rw [listField]; exact exact_leaf trivial
  | .uint b, v => rw [listField]; exact exact_leaf trivial
  | .bool, v => rw [listField]; exact exact_leaf trivial
  | .str, v => rw [listField]; exact exact_leaf trivial
  | .bytes, v => rw [listField]; exact exact_leaf trivial
  | .text c, v => rw [listField]; exact exact_leaf trivial
  | .alt, .alt a => rw [listField]; exact exact_alt pre l hn hb a
  | .ptr t, .nil => exact absurd rfl hnil
  | .ptr t, .ptr x =>
    rw [listField]
    rw [Ty.Wf] at hw
    rw [NamesOk] at hk
    rw [HasTy] at hv
    have hx : x ≠ .nil := by
      rintro rfl
      cases t <;> simp [HasTy] at hv
      have := congrArg sizeOf hw.2
      simp [Ty.deref] at this
    refine exact_congr (exact_field hsort hp t x l n hl hn hn' hb hw.1 hk hv hx) ?_
    intro p y
    constructor
    · rintro ⟨suf, segs, h, e⟩
      exact ⟨suf, segs, .ptr h, e⟩
    · rintro ⟨suf, segs, h, e⟩
      cases h with
      | leaf hl => simp [IsLeaf] at hl
      | ptr h => exact ⟨suf, segs, h, e⟩
  | .slice ty ety, .slice items sp =>
    rw [listField]
    rw [Ty.Wf] at hw
    rw [NamesOk] at hk
    rw [HasTy] at hv
    refine exact_congr (exact_items (R := fun k p x => ∃ e, items[k]? = some e ∧
      ItemR pre (l ++ [n ++ (['['] ++ itoa k ++ [']'])]) ety e p x) 0 ?_) ?_
    · intro k e he
      rw [appendIndex_new hn hb]
      have hl2 : ∀ s ∈ l ++ [n ++ (['['] ++ itoa ((0 + k : Nat) : Int) ++ [']'])], s ≠ [] ∧ '/' ∉ s := by
        intro s hs
        rcases List.mem_append.1 hs with hs | hs
        · exact hl s hs
        · rw [List.mem_singleton] at hs; subst hs
          refine ⟨by simp, ?_⟩
          have := itoa_not_mem (c := '/') (by decide) (by decide) ((0 + k : Nat) : Int)
          simp only [List.mem_append, List.mem_singleton, not_or]
          exact ⟨hn', ⟨by decide, this⟩, by decide⟩
      have h := exact_item hsort hp ety e _ hl2 (by simp) hw hk (hv.1 e (List.mem_of_getElem? he))
      refine exact_congr h ?_
      intro p x
      constructor
      · intro hx; exact ⟨e, by simpa using he, hx⟩
      · rintro ⟨e', he', hx⟩
        rw [Nat.zero_add, he] at he'
        cases he'
        exact hx
    · intro p x
      constructor
      · rintro ⟨k, -, e, he, hx⟩
        rw [Nat.zero_add] at he hx
        rcases hx with ⟨h1, rfl, rfl⟩ | ⟨z, infos, tys, vals, h1, h2, f, t, w, h3, suf, segs, h4, rfl⟩
        · exact ⟨_, _, .item he h1.1 h1.2, by simp⟩
        · exact ⟨_, _, .elem he h1 h2 h3 h4, by simp⟩
      · rintro ⟨suf, segs, h, rfl⟩
        cases h with
        | leaf h => simp [IsLeaf] at h
        | @item _ _ _ _ k e he h1 h1' =>
          refine ⟨k, (List.getElem?_eq_some_iff.mp he).1, e, by simpa using he, Or.inl ⟨⟨h1, h1'⟩, rfl, ?_⟩⟩
          simp
        | @elem _ _ _ _ k e z infos tys vals f t w suf segs x he h1 h2 h3 h4 =>
          refine ⟨k, (List.getElem?_eq_some_iff.mp he).1, e, by simpa using he,
            Or.inr ⟨z, infos, tys, vals, h1, h2, f, t, w, h3, suf, segs, h4, ?_⟩⟩
          simp
  | .struct z infos tys, .struct vals =>
    rw [listField]
    rw [Ty.Wf] at hw
    rw [NamesOk] at hk
    rw [HasTy] at hv
    cases he : isEmptyValue (.struct z infos tys) (.struct vals) with
    | true =>
      simp only [listStruct, if_true]
      refine exact_nil ?_
      rintro p x ⟨suf, segs, h, -⟩
      cases h with
      | leaf h => simp [IsLeaf] at h
      | struct h => rw [he] at h; cases h
    | false =>
      simp only [listStruct, Bool.false_eq_true, if_false]
      have h := exact_fields hsort hp tys infos vals (l ++ [n]) hl1 (by simp) hw.2 hk.1 hk.2 hv
      refine exact_congr (listSub_exact hsort h) ?_
      intro p x
      constructor
      · rintro ⟨f, t, w, h3, suf, segs, h4, rfl⟩
        exact ⟨_, _, .struct he h3 h4, by simp⟩
      · rintro ⟨suf, segs, h, rfl⟩
        cases h with
        | leaf h => simp [IsLeaf] at h
        | @struct _ _ _ _ f t w suf segs _ h2 h3 h4 => exact ⟨f, t, w, h3, suf, segs, h4, by simp⟩
theorem exact_item {sort : PathValueList → PathValueList} (hsort : ∀ l, (sort l).Perm l) {pre : Str} (hp : ':' ∉ pre)
    (t : Ty) (v : Val) (l : List Str) (hl : ∀ s ∈ l, s ≠ [] ∧ '/' ∉ s) (hne : l ≠ [])
    (hw : t.Wf) (hk : NamesOk t) (hv : HasTy t v) :
    Exact (listItem sort t v (Path.new pre l)) (ItemR pre l t v) := by
  match t, v with
  | .int b, v => rw [listItem]; exact exact_leaf_item trivial (by simp)
  | .uint b, v => rw [listItem]; exact exact_leaf_item trivial (by simp)
  | .bool, v => rw [listItem]; exact exact_leaf_item trivial (by simp)
  | .str, v => rw [listItem]; exact exact_leaf_item trivial (by simp)
  | .text c, v => rw [listItem]; exact exact_leaf_item trivial (by simp)
  | .bytes, v => rw [listItem]; exact exact_nil (item_none (by simp [Ty.deref]) (by simp [Ty.deref]) hv)
  | .alt, v => rw [listItem]; exact exact_nil (item_none (by simp [IsLeaf, Ty.deref]) (by simp [Ty.deref]) hv)
  | .slice a t, v => rw [listItem]; exact exact_nil (item_none (by simp [IsLeaf, Ty.deref]) (by simp [Ty.deref]) hv)
  | .ptr t, .nil =>
    rw [listItem]
    · rw [Ty.Wf] at hw
      rw [NamesOk] at hk
      refine exact_congr (exact_item hsort hp t t.zero l hl hne hw.1 hk (hasTy_zero t)) ?_
      intro p x
      exact itemR_ptr (w := .nil) hw.2 (derefVal_flat hw.2 (hasTy_zero t)) rfl
    · simp
  | .ptr t, .ptr x =>
    rw [listItem]
    rw [Ty.Wf] at hw
    rw [NamesOk] at hk
    rw [HasTy] at hv
    refine exact_congr (exact_item hsort hp t x l hl hne hw.1 hk hv) ?_
    intro p y
    exact itemR_ptr (w := .ptr x) hw.2 (derefVal_flat hw.2 hv) rfl
  | .struct z infos tys, .struct vals =>
    rw [listItem]
    rw [Ty.Wf] at hw
    rw [NamesOk] at hk
    rw [HasTy] at hv
    have hr : ∀ p x, ItemR pre l (.struct z infos tys) (.struct vals) p x ↔
        isEmptyValue (.struct z infos tys) (.struct vals) = false ∧ FieldsR pre l infos tys vals p x := by
      intro p x
      constructor
      · rintro (⟨h, -⟩ | ⟨z', infos', tys', vals', h1, h2, h3⟩)
        · simp [IsLeaf, Ty.deref] at h
        · cases h1
          exact ⟨h2, h3⟩
      · rintro ⟨h2, h3⟩
        exact Or.inr ⟨z, infos, tys, vals, rfl, h2, h3⟩
    cases he : isEmptyValue (.struct z infos tys) (.struct vals) with
    | true =>
      simp only [listStruct, if_true]
      refine exact_nil ?_
      intro p x h
      have := ((hr p x).1 h).1
      rw [he] at this
      cases this
    | false =>
      simp only [listStruct, Bool.false_eq_true, if_false]
      have h := exact_fields hsort hp tys infos vals l hl hne hw.2 hk.1 hk.2 hv
      refine exact_congr (listSub_exact hsort h) ?_
      intro p x
      rw [hr, he]; simp
theorem exact_fields {sort : PathValueList → PathValueList} (hsort : ∀ l, (sort l).Perm l) {pre : Str} (hp : ':' ∉ pre)
    (tys : List Ty) (infos : List FieldInfo) (vals : List Val) (l : List Str) (hl : ∀ s ∈ l, s ≠ [] ∧ '/' ∉ s)
    (hne : l ≠ []) (hw : Ty.WfAll tys) (hi : ∀ f ∈ infos, FieldNameOk f.name) (hk : NamesOkAll tys) (hv : HasTys tys vals) :
    Exact (listFields sort tys infos vals (Path.new pre l)) (FieldsR pre l infos tys vals) := by
  match tys, infos, vals with
  | [], infos, vals =>
    rw [listFields]
    · exact exact_nil (fun p x ⟨f, t, v, h, _⟩ => inField_nil (Or.inr (Or.inl rfl)) h)
    · simp
  | t :: ts, [], vals =>
    rw [listFields]
    · exact exact_nil (fun p x ⟨f, t, v, h, _⟩ => inField_nil (Or.inl rfl) h)
    all_goals simp
  | t :: ts, f :: fs, [] => simp [HasTys] at hv
  | t :: ts, f :: fs, v :: vs =>
    rw [listFields]
    rw [Ty.WfAll] at hw
    rw [NamesOkAll] at hk
    rw [HasTys] at hv
    have ih := exact_fields hsort hp ts fs vs l hl hne hw.2 (fun g hg => hi g (List.mem_cons_of_mem _ hg)) hk.2 hv.2
    have hf := hi f List.mem_cons_self
    obtain ⟨o1, o2, o3, o4⟩ := shownName_ok (pre := pre) hf
    split
    · rename_i hs
      rw [listed_iff] at hs
      simp only [listBase_nested hp hl hne, listName_new hp, push_new hp hl]
      have h1 := exact_field hsort hp t v l (shownName pre f.name) hl o1 o2 o4 hw.1 hk.1 hv.1 hs.1
      refine exact_congr (exact_append h1 ih) ?_
      intro p x
      constructor
      · rintro (h | ⟨g, u, w, h, h'⟩)
        · exact ⟨f, t, v, inField_cons.2 (Or.inl ⟨rfl, rfl, rfl, hs⟩), h⟩
        · exact ⟨g, u, w, inField_cons.2 (Or.inr h), h'⟩
      · rintro ⟨g, u, w, h, h'⟩
        rcases inField_cons.1 h with ⟨rfl, rfl, rfl, -⟩ | h
        · exact Or.inl h'
        · exact Or.inr ⟨g, u, w, h, h'⟩
    · rename_i hs
      rw [listed_iff] at hs
      refine exact_congr ih ?_
      intro p x
      constructor
      · rintro ⟨g, u, w, h, h'⟩
        exact ⟨g, u, w, inField_cons.2 (Or.inr h), h'⟩
      · rintro ⟨g, u, w, h, h'⟩
        rcases inField_cons.1 h with ⟨rfl, rfl, rfl, h4⟩ | h
        · exact absurd h4 hs
        · exact ⟨g, u, w, h, h'⟩
end

/-- What is listed for the fields of a model. -/
def RootR (infos : List FieldInfo) (tys : List Ty) (vals : List Val) (p : Path) (x : Option (Option Str)) : Prop :=
  ∃ f t v, InField infos tys vals f t v ∧ FieldR (getPrefix f.name) [] (stripPrefix f.name) t v p x

theorem colon_getPrefix (n : Str) : ':' ∉ getPrefix n := by
  rcases split_at_first_colon n with h | h
  · rw [h.2.1]; exact h.1
  · exact h.2.1

theorem shownName_self (n : Str) : shownName (getPrefix n) n = stripPrefix n := by
  unfold shownName; rw [if_neg]; simp

theorem listBase_root {pre : Str} (hp : ':' ∉ pre) (f : FieldInfo) :
    listBase (Path.new pre []) f = Path.new (getPrefix f.name) [] := by
  unfold listBase
  rw [len_new hp (by simp), Path.namespacePrefix_new [] hp]
  split
  · rfl
  · rename_i h
    have : pre = getPrefix f.name := by
      by_contra hh; exact h ⟨rfl, hh⟩
    rw [this]

theorem exact_root {sort : PathValueList → PathValueList} (hsort : ∀ l, (sort l).Perm l)
    (tys : List Ty) (infos : List FieldInfo) (vals : List Val) {pre : Str} (hp : ':' ∉ pre)
    (hw : Ty.WfAll tys) (hi : ∀ f ∈ infos, FieldNameOk f.name) (hk : NamesOkAll tys) (hv : HasTys tys vals) :
    Exact (listFields sort tys infos vals (Path.new pre [])) (RootR infos tys vals) := by
  induction tys generalizing infos vals pre with
  | nil =>
    rw [listFields]
    · exact exact_nil (fun p x ⟨f, t, v, h, _⟩ => inField_nil (Or.inr (Or.inl rfl)) h)
    · simp
  | cons t ts ih =>
    match infos, vals with
    | [], vals =>
      rw [listFields]
      · exact exact_nil (fun p x ⟨f, t, v, h, _⟩ => inField_nil (Or.inl rfl) h)
      all_goals simp
    | f :: fs, [] => simp [HasTys] at hv
    | f :: fs, v :: vs =>
      rw [listFields]
      rw [Ty.WfAll] at hw
      rw [NamesOkAll] at hk
      rw [HasTys] at hv
      have ih' := fun pre hp => ih fs vs (pre := pre) hp hw.2 (fun g hg => hi g (List.mem_cons_of_mem _ hg)) hk.2 hv.2
      have hf := hi f List.mem_cons_self
      obtain ⟨o1, o2, o3, o4⟩ := shownName_ok (pre := getPrefix f.name) hf
      rw [shownName_self] at o1 o2 o3 o4
      have hpf := colon_getPrefix f.name
      split
      · rename_i hs
        rw [listed_iff] at hs
        simp only [listBase_root hp, listName_new hpf, push_new hpf (l := []) (by simp), shownName_self]
        have h1 := exact_field hsort hpf t v [] (stripPrefix f.name) (by simp) o1 o2 o4 hw.1 hk.1 hv.1 hs.1
        refine exact_congr (exact_append h1 (ih' _ hpf)) ?_
        intro p x
        constructor
        · rintro (h | ⟨g, u, w, h, h'⟩)
          · exact ⟨f, t, v, inField_cons.2 (Or.inl ⟨rfl, rfl, rfl, hs⟩), h⟩
          · exact ⟨g, u, w, inField_cons.2 (Or.inr h), h'⟩
        · rintro ⟨g, u, w, h, h'⟩
          rcases inField_cons.1 h with ⟨rfl, rfl, rfl, -⟩ | h
          · exact Or.inl h'
          · exact Or.inr ⟨g, u, w, h, h'⟩
      · rename_i hs
        rw [listed_iff] at hs
        refine exact_congr (ih' pre hp) ?_
        intro p x
        constructor
        · rintro ⟨g, u, w, h, h'⟩
          exact ⟨g, u, w, inField_cons.2 (Or.inr h), h'⟩
        · rintro ⟨g, u, w, h, h'⟩
          rcases inField_cons.1 h with ⟨rfl, rfl, rfl, h4⟩ | h
          · exact absurd h4 hs
          · exact ⟨g, u, w, h, h'⟩

theorem exact_model {sort : PathValueList → PathValueList} (hsort : ∀ l, (sort l).Perm l) (z : Option (List Val → Bool))
    (infos : List FieldInfo) (tys : List Ty) (vals : List Val) {pre : Str} (hp : ':' ∉ pre)
    (hw : (Ty.struct z infos tys).Wf) (hk : NamesOk (.struct z infos tys)) (hv : HasTy (.struct z infos tys) (.struct vals)) :
    Exact (listSub (listPaths sort (.struct z infos tys) (.struct vals) (Path.new pre [])))
      (ModelHolds (.struct z infos tys) (.struct vals)) := by
  rw [listPaths]
  rw [Ty.Wf] at hw
  rw [NamesOk] at hk
  rw [HasTy] at hv
  have hr : ∀ p x, ModelHolds (.struct z infos tys) (.struct vals) p x ↔
      isEmptyValue (.struct z infos tys) (.struct vals) = false ∧ RootR infos tys vals p x := by
    intro p x
    constructor
    · rintro ⟨z', infos', tys', vals', f, t, fv, suf, segs, h1, h2, h3, h4, h5, rfl⟩
      cases h1
      cases h2
      exact ⟨h3, f, t, fv, h4, suf, segs, h5, rfl⟩
    · rintro ⟨h3, f, t, fv, h4, suf, segs, h5, rfl⟩
      exact ⟨z, infos, tys, vals, f, t, fv, suf, segs, rfl, rfl, h3, h4, h5, rfl⟩
  cases he : isEmptyValue (.struct z infos tys) (.struct vals) with
  | true =>
    simp only [listStruct, if_true]
    refine exact_nil ?_
    intro p x h
    have := ((hr p x).1 h).1
    rw [he] at this
    cases this
  | false =>
    simp only [listStruct, Bool.false_eq_true, if_false]
    have h := exact_root hsort tys infos vals hp hw.2 hk.1 hk.2 hv
    refine exact_congr (listSub_exact hsort h) ?_
    intro p x
    rw [hr, he]; simp

/-! ### Reading: helper lemmas -/

theorem namesApart_get {tys : List Ty} (h : NamesApartAll tys) {i : Nat} {t : Ty} (ht : tys[i]? = some t) :
    NamesApart t := by
  induction tys generalizing i with
  | nil => simp at ht
  | cons a as ih =>
    rw [NamesApartAll] at h
    cases i with
    | zero => simp only [List.getElem?_cons_zero, Option.some.injEq] at ht; exact ht ▸ h.1
    | succ i => simp only [List.getElem?_cons_succ] at ht; exact ih h.2 ht

theorem addressable_get {tys : List Ty} {vals : List Val} (h : AddressableAll tys vals) {i : Nat} {t : Ty} {v : Val}
    (ht : tys[i]? = some t) (hv : vals[i]? = some v) : Addressable t v := by
  induction tys generalizing i vals with
  | nil => simp at ht
  | cons a as ih =>
    cases vals with
    | nil => simp at hv
    | cons w ws =>
      rw [AddressableAll] at h
      cases i with
      | zero =>
        simp only [List.getElem?_cons_zero, Option.some.injEq] at ht hv
        subst ht hv
        exact h.1
      | succ i =>
        simp only [List.getElem?_cons_succ] at ht hv
        exact ih h.2 ht hv

theorem findField_apart {infos : List FieldInfo} (h : (infos.map (fun f => stripPrefix f.name)).Nodup) {i : Nat}
    {f : FieldInfo} (hf : infos[i]? = some f) (hn : FieldNameOk f.name) : findField infos (stripPrefix f.name) = some i := by
  have h1 : hasNsPrefix (stripPrefix f.name) = false := hasNsPrefix_none hn.2.1
  have h2 : infos.findIdx? (fieldMatches (stripPrefix f.name)) = some i := by
    rw [List.findIdx?_eq_some_iff_getElem]
    obtain ⟨hi, e⟩ := List.getElem?_eq_some_iff.mp hf
    refine ⟨hi, ?_, ?_⟩
    · unfold fieldMatches; rw [h1, e]; simp
    · intro j hj
      unfold fieldMatches; rw [h1]
      simp only [Bool.false_eq_true, if_false, decide_eq_true_eq]
      intro hh
      have := (List.nodup_iff_injective_get.1 h) (a₁ := ⟨j, by simp; omega⟩) (a₂ := ⟨i, by simpa using hi⟩)
        (by simp [hh, e])
      simp at this
      omega
  unfold findField
  rw [h2]

/-- Popping a segment with a name and an index or language. -/
theorem popFront_shown {q pre n suf : Str} {segs : List Str} (hq : ':' ∉ q) (hn : FieldNameOk n) (hs : '/' ∉ suf)
    (hc : ':' ∉ suf) (hsegs : ∀ s ∈ segs, s ≠ [] ∧ '/' ∉ s) :
    ∃ q', ':' ∉ q' ∧ (Path.new q ((shownName pre n ++ suf) :: segs)).popFront = (stripPrefix n ++ suf, Path.new q' segs) := by
  obtain ⟨o1, o2, o3, o4⟩ := shownName_ok (pre := pre) hn
  have hl : ∀ s ∈ (shownName pre n ++ suf) :: segs, s ≠ [] ∧ '/' ∉ s := by
    intro s h
    rcases List.mem_cons.1 h with rfl | h
    · exact ⟨by simp [o1], by simp [o2, hs]⟩
    · exact hsegs s h
  obtain ⟨h1, h2, -⟩ := path_fields_new q _ hq (segsOk_of hl)
  unfold Path.popFront
  rw [h1, h2]
  simp only
  unfold shownName
  by_cases hpre : hasNsPrefix n = true ∧ getPrefix n ≠ pre
  · rw [if_pos hpre]
    rcases split_at_first_colon n with h | h
    · rw [h.2.2.2] at hpre; simp at hpre
    · obtain ⟨e, e1, e2⟩ := h
      have hns : n ++ suf = getPrefix n ++ ':' :: (stripPrefix n ++ suf) := by
        conv => lhs; rw [e]
        simp
      refine ⟨getPrefix n, e1, ?_⟩
      rw [hns, hasNsPrefix_append e1, stripPrefix_append e1, getPrefix_append e1]
      simp [e2.1 hpre.1]
  · rw [if_neg hpre]
    refine ⟨q, hq, ?_⟩
    rw [hasNsPrefix_none (by simp [hn.2.1, hc])]
    simp

theorem leaf_res {t : Ty} {v : Val} {s : Str} (h : leafText t v = some (some s)) : leafRes t v = .ok s := by
  unfold leafRes; rw [h]

theorem get_lang {a : AltString} (h : LangsOk a) {x : AltItem} (hx : x ∈ a) : a.get x.getLang = x.value := by
  have h1 := h.1 x hx
  have hg : x.getLang = x.lang := by unfold AltItem.getLang; rw [if_neg]; simp [h1.1]
  rw [hg]
  unfold AltString.get
  rw [if_neg h1.1]
  have : a.find? (fun v => v.lang = x.lang) = some x := by
    have hnd := h.2
    clear h1 hg h
    induction a with
    | nil => simp at hx
    | cons y ys ih =>
      simp only [List.map_cons, List.nodup_cons] at hnd
      rcases List.mem_cons.1 hx with rfl | hx
      · simp
      · rw [List.find?_cons_of_neg, ih hx hnd.2]
        simp only [decide_eq_true_eq]
        intro hh
        exact hnd.1 (List.mem_map.2 ⟨x, hx, hh.symm⟩)
  rw [this]

theorem inI64_nat {k : Nat} (h : k < 2 ^ 63) : InI64 (k : Int) := by
  unfold InI64
  constructor <;> omega

theorem wf_struct_field {z : Option (List Val → Bool)} {infos : List FieldInfo} {tys : List Ty} (hw : (Ty.struct z infos tys).Wf) :
    Ty.WfAll tys := by
  rw [Ty.Wf] at hw; exact hw.2

/-- What reading needs to know of a text below a field. -/
def ReadsAt (t : Ty) (v : Val) (suf : Str) (segs : List Str) (s : Str) : Prop :=
  ':' ∉ suf ∧ '/' ∉ suf ∧ (∀ x ∈ segs, x ≠ [] ∧ '/' ∉ x) ∧
  ∃ idx lang, (∀ n, FieldName n → parsePathSegment (n ++ suf) = (n, idx, lang)) ∧ -1 ≤ idx ∧
    ∀ fuel q, segs.length ≤ fuel → ':' ∉ q →
      getDeref (fun t v => getModelPathF fuel t v (Path.new q segs)) (derefVal t v).1 (derefVal t v).2 segs.length idx lang = .ok s

theorem getField_shown {recur : Ty → Val → GetRes} {f : FieldInfo} {t : Ty} {v : Val} {plen : Nat} {idx : Int} {lang : Str}
    (h : Shown f t v) :
    getField recur f t v plen idx lang = getDeref recur (derefVal t v).1 (derefVal t v).2 plen idx lang := by
  unfold getField
  split
  · exact absurd rfl h.1
  · rw [if_neg]
    rw [h.2.1]
    rcases h.2.2 with h | h <;> simp [h]

/-- One step of reading, through the field of a struct. -/
theorem read_step {z : Option (List Val → Bool)} {infos : List FieldInfo} {tys : List Ty} {vals : List Val} {f : FieldInfo}
    {t : Ty} {v : Val} {pre suf : Str} {segs : List Str} {s : Str} (hi : ∀ f ∈ infos, FieldNameOk f.name)
    (ha : (infos.map (fun f => stripPrefix f.name)).Nodup) (hf : InField infos tys vals f t v) (h : ReadsAt t v suf segs s)
    {fuel : Nat} (hfuel : segs.length < fuel) {q : Str} (hq : ':' ∉ q) :
    getModelPathF fuel (.struct z infos tys) (.struct vals) (Path.new q ((shownName pre f.name ++ suf) :: segs)) = .ok s := by
  obtain ⟨i, h1, h2, h3, h4⟩ := hf
  have hn := hi f (List.mem_of_getElem? h1)
  obtain ⟨r1, r2, r3, idx, lang, r4, r5, r6⟩ := h
  obtain ⟨q', hq', hpop⟩ := popFront_shown (pre := pre) hq hn r2 r1 r3
  obtain ⟨g, rfl⟩ : ∃ g, fuel = g + 1 := ⟨fuel - 1, by omega⟩
  have hfn : FieldName (stripPrefix f.name) := ⟨hn.1, stripPrefix_sub hn.2.2.2.1⟩
  have hnm : Names infos tys (Path.new q ((shownName pre f.name ++ suf) :: segs)) i f t idx lang := by
    refine ⟨?_, r5, ⟨stripPrefix f.name, ?_, findField_apart ha h1 hn⟩, h1, h2⟩
    · rw [hpop]; simp [hn.1]
    · rw [hpop]; exact r4 _ hfn
  rw [get_step hnm h3, hpop, getField_shown h4]
  simp only
  rw [len_new hq' r3]
  exact r6 g q' (by omega) hq'

theorem derefVal_slice (ty : ArrayType) (ety : Ty) (items sp : List Val) :
    derefVal (.slice ty ety) (.slice items sp) = (.slice ty ety, .slice items sp) := rfl

theorem getDeref_slice (recur : Ty → Val → GetRes) (ty : ArrayType) (ety : Ty) (items sp : List Val) (plen : Nat) (idx : Int)
    (lang : Str) : getDeref recur (.slice ty ety) (.slice items sp) plen idx lang =
      match items[idx.toNat]? with
      | none => .notFound
      | some e =>
        if plen > 0 then recur (derefVal ety e).1 (derefVal ety e).2
        else leafRes (derefVal ety e).1 (derefVal ety e).2 := rfl

mutual
theorem addressable_zero (t : Ty) : Addressable t t.zero := by
  cases t with
  | alt => rw [Ty.zero, Addressable]; exact ⟨by simp, by simp⟩
  | slice a t => rw [Ty.zero, Addressable]; exact ⟨by simp, by simp⟩
  | ptr t => rw [Ty.zero, Addressable] <;> simp
  | struct z infos tys => rw [Ty.zero, Addressable]; exact addressable_zeros tys
  | _ => rw [Addressable] <;> simp
theorem addressable_zeros (ts : List Ty) : AddressableAll ts (Ty.zeros ts) := by
  cases ts with
  | nil => rw [AddressableAll] <;> simp
  | cons t ts => rw [Ty.zeros, AddressableAll]; exact ⟨addressable_zero t, addressable_zeros ts⟩
end

theorem addressable_deref {t : Ty} {v : Val} (hv : HasTy t v) (h : Addressable t v) :
    Addressable (derefVal t v).1 (derefVal t v).2 := by
  cases t with
  | ptr t =>
    cases v with
    | nil => exact addressable_zero t
    | ptr x => rw [Addressable] at h; exact h
    | _ => simp [HasTy] at hv
  | _ => cases v <;> exact h

theorem reads_below {pre : Str} {t : Ty} {v : Val} {suf : Str} {segs : List Str} {x : Option (Option Str)}
    (h : Below pre t v suf segs x) : ∀ {s}, x = some (some s) → t.Wf → NamesOk t → NamesApart t → Addressable t v →
      HasTy t v → ReadsAt t v suf segs s := by
  induction h with
  | @leaf t v hl =>
    intro s hx hw hk ha had hv
    refine ⟨by simp, by simp, by simp, -1, [], ?_, by decide, ?_⟩
    · intro n hn
      rw [List.append_nil]; exact segment_plain n hn.2
    · intro fuel q _ _
      rw [leaf_deref hl, leaf_getDeref hl]
      exact leaf_res hx
  | @ptr t v suf segs x h ih =>
    intro s hx hw hk ha had hv
    rw [Ty.Wf] at hw
    rw [NamesOk] at hk
    rw [NamesApart] at ha
    rw [Addressable] at had
    rw [HasTy] at hv
    have := ih hx hw.1 hk ha had hv
    unfold ReadsAt at this ⊢
    rw [derefVal_flat hw.2 hv] at this
    exact this
  | @lang a x hmem =>
    intro s hx hw hk ha had hv
    rw [Addressable] at had
    have h1 := had.1 x hmem
    have hg : x.getLang = x.lang := by unfold AltItem.getLang; rw [if_neg]; simp [h1.1]
    refine ⟨by simp [hg, h1.2.1], by simp [hg, h1.2.2.1], by simp, -1, x.lang, ?_, by decide, ?_⟩
    · intro n hn
      have := segment_lang_roundtrip n x.lang hn h1.1 h1.2.2.2
      rw [hg]
      simpa using this
    · intro fuel q _ _
      simp only [derefVal, getDeref]
      rw [if_pos h1.1]
      have := get_lang had hmem
      rw [hg] at this
      rw [this]
      simp only [Option.some.injEq] at hx
      rw [hx]
  | @item ty ety items sp k e he hl hb =>
    intro s hx hw hk ha had hv
    rw [Addressable] at had
    rw [HasTy] at hv
    have hklt : k < items.length := (List.getElem?_eq_some_iff.mp he).1
    have hi := inI64_nat (k := k) (by omega)
    have hve := hv.1 e (List.mem_of_getElem? he)
    refine ⟨?_, ?_, by simp, k, [], ?_, by omega, ?_⟩
    · have := itoa_not_mem (c := ':') (by decide) (by decide) (k : Int)
      simp [this]
    · have := itoa_not_mem (c := '/') (by decide) (by decide) (k : Int)
      simp [this]
    · intro n hn
      have := segment_index_roundtrip n k hn hi
      simpa using this
    · intro fuel q _ _
      rw [derefVal_slice, getDeref_slice]
      simp only [Int.toNat_natCast, he, List.length_nil, Nat.lt_irrefl, if_false, gt_iff_lt]
      rw [derefVal_fst hve]
      exact leaf_res hx
  | @struct z infos tys vals f t v suf segs x he hf h ih =>
    intro s hx hw hk ha had hv
    rw [NamesOk] at hk
    rw [NamesApart] at ha
    rw [Addressable] at had
    rw [HasTy] at hv
    have hf' := hf
    obtain ⟨i, h1, h2, h3, h4⟩ := hf'
    have hr := ih hx (wf_get (wf_struct_field hw) h2) (namesOk_get hk.2 h2) (namesApart_get ha.2 h2)
      (addressable_get had h2 h3) (hasTys_get hv h2 h3)
    have hn := hk.1 f (List.mem_of_getElem? h1)
    obtain ⟨o1, o2, o3, o4⟩ := shownName_ok (pre := pre) hn
    refine ⟨by simp, by simp, ?_, -1, [], ?_, by decide, ?_⟩
    · intro y hy
      rcases List.mem_cons.1 hy with rfl | hy
      · exact ⟨by simp [o1], by simp [o2, hr.2.1]⟩
      · exact hr.2.2.1 y hy
    · intro n hn
      rw [List.append_nil]; exact segment_plain n hn.2
    · intro fuel q hfu hq
      simp only [derefVal, getDeref, List.length_cons, Nat.zero_lt_succ, gt_iff_lt, if_true]
      exact read_step hk.1 ha.1 hf hr (Nat.lt_of_succ_le (by simpa using hfu)) hq
  | @elem ty ety items sp k e z infos tys vals f t v suf segs x hk' hd he hf h ih =>
    intro s hx hw hk ha had hv
    rw [Ty.Wf] at hw
    rw [NamesOk] at hk
    rw [NamesApart] at ha
    rw [Addressable] at had
    rw [HasTy] at hv
    have hklt : k < items.length := (List.getElem?_eq_some_iff.mp hk').1
    have hi64 := inI64_nat (k := k) (by omega)
    have hve := hv.1 e (List.mem_of_getElem? hk')
    have hde : ety.deref = .struct z infos tys := by
      rw [← derefVal_fst hve, hd]
    have hw2 := wf_deref hw
    rw [hde] at hw2
    have hk2 : NamesOk (.struct z infos tys) := by
      rw [← hde]; cases ety <;> exact hk
    have ha2 : NamesApart (.struct z infos tys) := by
      rw [← hde]; cases ety <;> exact ha
    have hv2 := hasTy_deref hve
    rw [hd, hde] at hv2
    have had2 : Addressable (.struct z infos tys) (.struct vals) := by
      have := addressable_deref hve (had.2 e (List.mem_of_getElem? hk'))
      rw [hd] at this
      exact this
    rw [NamesOk] at hk2
    rw [NamesApart] at ha2
    rw [Addressable] at had2
    rw [HasTy] at hv2
    have hf' := hf
    obtain ⟨i, h1, h2, h3, h4⟩ := hf'
    have hr := ih hx (wf_get (wf_struct_field hw2) h2) (namesOk_get hk2.2 h2) (namesApart_get ha2.2 h2)
      (addressable_get had2 h2 h3) (hasTys_get hv2 h2 h3)
    have hn := hk2.1 f (List.mem_of_getElem? h1)
    obtain ⟨o1, o2, o3, o4⟩ := shownName_ok (pre := pre) hn
    refine ⟨?_, ?_, ?_, k, [], ?_, by omega, ?_⟩
    · have := itoa_not_mem (c := ':') (by decide) (by decide) (k : Int)
      simp [this]
    · have := itoa_not_mem (c := '/') (by decide) (by decide) (k : Int)
      simp [this]
    · intro y hy
      rcases List.mem_cons.1 hy with rfl | hy
      · exact ⟨by simp [o1], by simp [o2, hr.2.1]⟩
      · exact hr.2.2.1 y hy
    · intro n hn
      have := segment_index_roundtrip n k hn hi64
      simpa using this
    · intro fuel q hfu hq
      rw [derefVal_slice, getDeref_slice]
      simp only [Int.toNat_natCast, hk', List.length_cons, Nat.zero_lt_succ, gt_iff_lt, if_true]
      rw [hd]
      exact read_step hk2.1 ha2.1 hf hr (Nat.lt_of_succ_le (by simpa using hfu)) hq

end Xmp.Props
