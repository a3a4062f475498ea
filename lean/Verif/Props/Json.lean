import Verif.Model.Json
import Verif.Lemmas.GoMap
import Verif.Props.ArrayXmp
import Mathlib.Data.List.Perm.Basic
import Mathlib.Data.List.Forall2

/-! C34: node trees survive their JSON form. -/

namespace Xmp.Props

open GoStr List

/-! ### Specification -/

/-- What a node tree says: a text, an array, texts in several languages, or a struct with named fields. -/
inductive Tree where
  | text (s : Str)
  | array (l : List Tree)
  | alt (l : List (Str × Str))
  | struct (fs : List (Str × Tree))

/-- The text in a language. -/
def langText (l : List (Str × Str)) (lang : Str) : Option Str := (l.find? (fun p => p.1 = lang)).map (·.2)

mutual
/-- Two trees say the same: fields of structs may be in another order, alternatives give the same text for each
language. -/
def Tree.Same : Tree → Tree → Prop
  | .text s, t => t = .text s
  | .array l, t => ∃ l', t = .array l' ∧ Tree.SameList l l'
  | .alt l, t => ∃ l', t = .alt l' ∧ ∀ lang, langText l' lang = langText l lang
  | .struct fs, t => ∃ fs' fs'', t = .struct fs' ∧ fs'' ~ fs' ∧ Tree.SameFields fs fs''
/-- Item by item. -/
def Tree.SameList : List Tree → List Tree → Prop
  | [], l => l = []
  | t :: ts, l => ∃ t' ts', l = t' :: ts' ∧ t.Same t' ∧ Tree.SameList ts ts'
/-- Field by field. -/
def Tree.SameFields : List (Str × Tree) → List (Str × Tree) → Prop
  | [], l => l = []
  | (k, t) :: fs, l => ∃ t' fs', l = (k, t') :: fs' ∧ t.Same t' ∧ Tree.SameFields fs fs'
end

/-- What an attribute says; an empty one is an empty struct, as an empty element is. -/
def attrTree (s : Str) : Tree := if s = [] then .struct [] else .text s

/-- The items of an alternative: `rdf:li` with a language. -/
def AltLi (r : Registry) (p : Str × Str) (n : Node) : Prop :=
  n.fullName r = "rdf:li".toList ∧ n.nodes = [] ∧ n.value = p.2 ∧
    ∃ a, n.attrs = [a] ∧ stripPrefix a.name.loc = "lang".toList ∧ a.value = p.1

/-- The first item has child elements. -/
def FirstNested : List Node → Prop
  | n :: _ => n.nodes ≠ []
  | [] => False

mutual
/-- A node says a tree. -/
def Says (r : Registry) : Tree → Node → Prop
  | .text s, n => s ≠ [] ∧ n.attrs = [] ∧ n.value = s ∧ n.nodes = []
  | .array l, n => ∃ a, n.attrs = [] ∧ n.value = [] ∧ n.nodes = [a] ∧ a.attrs = [] ∧ a.value = [] ∧
      (a.fullName r ∈ ["rdf:Bag".toList, "rdf:Seq".toList] ∨ a.fullName r = "rdf:Alt".toList ∧ FirstNested a.nodes) ∧
      SaysItems r l a.nodes
  | .alt l, n => ∃ a, n.attrs = [] ∧ n.value = [] ∧ n.nodes = [a] ∧ a.attrs = [] ∧ a.value = [] ∧
      a.fullName r = "rdf:Alt".toList ∧ Forall₂ (AltLi r) l a.nodes
  | .struct fs, n => n.value = [] ∧ SaysFields r fs (n.attrs.filter (fun a => a.name.loc ≠ "rdf:parseType".toList)) n.nodes
/-- The items of an array. -/
def SaysItems (r : Registry) : List Tree → List Node → Prop
  | [], ns => ns = []
  | t :: ts, ns => ∃ n ns', ns = n :: ns' ∧ n.fullName r = "rdf:li".toList ∧ Says r t n ∧ SaysItems r ts ns'
/-- The fields of a struct: attributes first, then elements. -/
def SaysFields (r : Registry) : List (Str × Tree) → List Attr → List Node → Prop
  | [], as, ns => as = [] ∧ ns = []
  | (k, t) :: fs, as, ns =>
      (∃ a as', as = a :: as' ∧ a.name.loc = k ∧ t = attrTree a.value ∧ SaysFields r fs as' ns) ∨
      (as = [] ∧ ∃ n ns', ns = n :: ns' ∧ n.fullName r = k ∧ Says r t n ∧ SaysFields r fs [] ns')
end

/-- Names of fields: with a prefix, and not those with a meaning of their own. -/
def JsonName (k : Str) : Prop :=
  ':' ∈ k ∧ k ∉ ["rdf:value".toList, "rdf:parseType".toList, "rdf:Bag".toList, "rdf:Seq".toList, "rdf:Alt".toList]

/-- Alternatives whose default text is kept: it is also given in another language, or is the only text, or is
empty. -/
def AltKept (l : List (Str × Str)) : Prop :=
  l ≠ [] ∧ (∀ p ∈ l, p.1 ≠ []) ∧ (l.map (·.1)).Nodup ∧
  ∀ v, (Json.xDefault, v) ∈ l → v = [] ∨ l.length = 1 ∨ ∃ lang, lang ≠ Json.xDefault ∧ (lang, v) ∈ l

/-- Texts and structs. -/
def IsItem : Tree → Prop
  | .text _ => True
  | .struct _ => True
  | _ => False

mutual
/-- The documented shapes: no arrays of arrays, distinct field names. -/
def Shape : Tree → Prop
  | .text _ => True
  | .array l => ShapeItems l
  | .alt l => AltKept l
  | .struct fs => (fs.map (·.1)).Nodup ∧ ShapeFields fs
/-- The items of an array. -/
def ShapeItems : List Tree → Prop
  | [] => True
  | t :: ts => IsItem t ∧ Shape t ∧ ShapeItems ts
/-- The fields of a struct. -/
def ShapeFields : List (Str × Tree) → Prop
  | [] => True
  | (k, t) :: fs => JsonName k ∧ Shape t ∧ ShapeFields fs
end

mutual
/-- Equal JSON values: entries of objects may be visited in another order. -/
def JSame : Json → Json → Prop
  | .arr l, j => ∃ l', j = .arr l' ∧ JSameList l l'
  | .obj m, j => ∃ m' m'', j = .obj m' ∧ m'' ~ m' ∧ JSameFields m m''
  | .str s, j => j = .str s
  | .num s, j => j = .num s
  | .bool b, j => j = .bool b
  | .null, j => j = .null
/-- Item by item. -/
def JSameList : List Json → List Json → Prop
  | [], l => l = []
  | t :: ts, l => ∃ t' ts', l = t' :: ts' ∧ JSame t t' ∧ JSameList ts ts'
/-- Entry by entry. -/
def JSameFields : List (Str × Json) → List (Str × Json) → Prop
  | [], l => l = []
  | (k, t) :: fs, l => ∃ t' fs', l = (k, t') :: fs' ∧ JSame t t' ∧ JSameFields fs fs'
end

/-! ### The JSON forms of a tree -/

/-- The JSON form of an item of an alternative. -/
def ItemJson (x : AltItem) (j : Json) : Prop :=
  ∃ m, j = .obj m ∧ m ~ [("value".toList, .str x.value), ("lang".toList, .str x.lang), ("isDefault".toList, .bool x.isDefault)]

/-- The languages and texts that an item stands for. -/
def expandItem (x : AltItem) : List (Str × Str) :=
  if x.isDefault then (Json.xDefault, x.value) :: (if x.lang = [] then [] else [(x.lang, x.value)])
  else [(x.lang, x.value)]

mutual
/-- A JSON value is a form of a tree. -/
def JForm : Tree → Json → Prop
  | .text s, j => s ≠ [] ∧ j = .str s
  | .array l, j => ∃ l', j = .arr l' ∧ JFormItems l l'
  | .alt l, j => ∃ l' items, j = .arr l' ∧ Forall₂ ItemJson items l' ∧ items ≠ [] ∧
      (∀ x ∈ items, x.isDefault = true ∨ x.lang ≠ []) ∧ ∀ lang, langText (items.flatMap expandItem) lang = langText l lang
  | .struct fs, j => (fs = [] ∧ j = .str []) ∨ ∃ m m', j = .obj m ∧ m' ~ m ∧ JFormFields fs m'
/-- Item by item. -/
def JFormItems : List Tree → List Json → Prop
  | [], l => l = []
  | t :: ts, l => ∃ j l', l = j :: l' ∧ JForm t j ∧ JFormItems ts l'
/-- Field by field. -/
def JFormFields : List (Str × Tree) → List (Str × Json) → Prop
  | [], l => l = []
  | (k, t) :: fs, l => ∃ j l', l = (k, j) :: l' ∧ JForm t j ∧ JFormFields fs l'
end

theorem sameFields_iff (l : List (Str × Tree)) : ∀ l', Tree.SameFields l l' ↔ Forall₂ (fun a b => a.1 = b.1 ∧ a.2.Same b.2) l l' := by
  induction l with
  | nil => intro l'; rw [Tree.SameFields, forall₂_nil_left_iff]
  | cons a l ih =>
    intro l'
    obtain ⟨k, t⟩ := a
    rw [Tree.SameFields, forall₂_cons_left_iff]
    constructor
    · rintro ⟨t', fs', rfl, h1, h2⟩
      exact ⟨(k, t'), fs', ⟨rfl, h1⟩, (ih _).1 h2, rfl⟩
    · rintro ⟨⟨k', t'⟩, fs', ⟨rfl, h1⟩, h2, rfl⟩
      exact ⟨t', fs', rfl, h1, (ih _).2 h2⟩

theorem jsameFields_iff (l : List (Str × Json)) : ∀ l', JSameFields l l' ↔ Forall₂ (fun a b => a.1 = b.1 ∧ JSame a.2 b.2) l l' := by
  induction l with
  | nil => intro l'; rw [JSameFields, forall₂_nil_left_iff]
  | cons a l ih =>
    intro l'
    obtain ⟨k, t⟩ := a
    rw [JSameFields, forall₂_cons_left_iff]
    constructor
    · rintro ⟨t', fs', rfl, h1, h2⟩
      exact ⟨(k, t'), fs', ⟨rfl, h1⟩, (ih _).1 h2, rfl⟩
    · rintro ⟨⟨k', t'⟩, fs', ⟨rfl, h1⟩, h2, rfl⟩
      exact ⟨t', fs', rfl, h1, (ih _).2 h2⟩

theorem jformFields_iff (l : List (Str × Tree)) : ∀ l', JFormFields l l' ↔ Forall₂ (fun a b => a.1 = b.1 ∧ JForm a.2 b.2) l l' := by
  induction l with
  | nil => intro l'; rw [JFormFields, forall₂_nil_left_iff]
  | cons a l ih =>
    intro l'
    obtain ⟨k, t⟩ := a
    rw [JFormFields, forall₂_cons_left_iff]
    constructor
    · rintro ⟨t', fs', rfl, h1, h2⟩
      exact ⟨(k, t'), fs', ⟨rfl, h1⟩, (ih _).1 h2, rfl⟩
    · rintro ⟨⟨k', t'⟩, fs', ⟨rfl, h1⟩, h2, rfl⟩
      exact ⟨t', fs', rfl, h1, (ih _).2 h2⟩

theorem sameList_iff (l : List Tree) : ∀ l', Tree.SameList l l' ↔ Forall₂ Tree.Same l l' := by
  induction l with
  | nil => intro l'; rw [Tree.SameList, forall₂_nil_left_iff]
  | cons a l ih =>
    intro l'
    rw [Tree.SameList, forall₂_cons_left_iff]
    constructor
    · rintro ⟨t', fs', rfl, h1, h2⟩
      exact ⟨t', fs', h1, (ih _).1 h2, rfl⟩
    · rintro ⟨t', fs', h1, h2, rfl⟩
      exact ⟨t', fs', rfl, h1, (ih _).2 h2⟩

theorem jformItems_iff (l : List Tree) : ∀ l', JFormItems l l' ↔ Forall₂ JForm l l' := by
  induction l with
  | nil => intro l'; rw [JFormItems, forall₂_nil_left_iff]
  | cons a l ih =>
    intro l'
    rw [JFormItems, forall₂_cons_left_iff]
    constructor
    · rintro ⟨t', fs', rfl, h1, h2⟩
      exact ⟨t', fs', h1, (ih _).1 h2, rfl⟩
    · rintro ⟨t', fs', h1, h2, rfl⟩
      exact ⟨t', fs', rfl, h1, (ih _).2 h2⟩

/-! ### The JSON forms are closed under `JSame` -/

theorem jsame_str {s : Str} {j : Json} : JSame (.str s) j ↔ j = .str s := by rw [JSame]
theorem jsame_bool {b : Bool} {j : Json} : JSame (.bool b) j ↔ j = .bool b := by rw [JSame]

/-- The entries of a simple object are only reordered. -/
theorem jsame_simple {m m' : List (Str × Json)} (hs : ∀ e ∈ m, (∃ s, e.2 = .str s) ∨ ∃ b, e.2 = .bool b) (h : JSameFields m m') : m' = m := by
  rw [jsameFields_iff] at h
  induction h with
  | nil => rfl
  | cons h1 h2 ih =>
    rename_i a b l l'
    rw [ih (fun e he => hs e (mem_cons_of_mem _ he))]
    congr 1
    rcases hs a (by simp) with ⟨s, hs⟩ | ⟨s, hs⟩
    · have := h1.2; rw [hs, jsame_str] at this
      exact Prod.ext h1.1.symm (by rw [this, hs])
    · have := h1.2; rw [hs, jsame_bool] at this
      exact Prod.ext h1.1.symm (by rw [this, hs])

theorem itemJson_same {x : AltItem} {j j' : Json} (h : ItemJson x j) (hs : JSame j j') : ItemJson x j' := by
  obtain ⟨m, rfl, hp⟩ := h
  rw [JSame] at hs
  obtain ⟨m', m'', rfl, hp', hf⟩ := hs
  have := jsame_simple (m := m) (fun e he => by
    have := hp.mem_iff.1 he
    simp only [mem_cons, not_mem_nil, or_false] at this
    rcases this with rfl | rfl | rfl
    · exact Or.inl ⟨_, rfl⟩
    · exact Or.inl ⟨_, rfl⟩
    · exact Or.inr ⟨_, rfl⟩) hf
  subst this
  exact ⟨m', rfl, hp'.symm.trans hp⟩

theorem jsameList_items {items : List AltItem} {l : List Json} (h : Forall₂ ItemJson items l) :
    ∀ l', JSameList l l' → Forall₂ ItemJson items l' := by
  induction h with
  | nil => intro l' h; rw [JSameList] at h; rw [h]; exact .nil
  | cons h1 h2 ih =>
    intro l' h
    rw [JSameList] at h
    obtain ⟨t', ts', rfl, h3, h4⟩ := h
    exact .cons (itemJson_same h1 h3) (ih _ h4)

mutual
theorem jform_same : ∀ (t : Tree) (j j' : Json), JForm t j → JSame j j' → JForm t j'
  | .text s, j, j', h, hs => by
    rw [JForm] at h ⊢
    obtain ⟨h0, rfl⟩ := h
    rw [jsame_str] at hs
    exact ⟨h0, hs⟩
  | .array l, j, j', h, hs => by
    rw [JForm] at h ⊢
    obtain ⟨l', rfl, h⟩ := h
    rw [JSame] at hs
    obtain ⟨l'', rfl, hs⟩ := hs
    exact ⟨l'', rfl, jformItems_same l l' l'' h hs⟩
  | .alt l, j, j', h, hs => by
    rw [JForm] at h ⊢
    obtain ⟨l', items, rfl, h1, h2⟩ := h
    rw [JSame] at hs
    obtain ⟨l'', rfl, hs⟩ := hs
    exact ⟨l'', items, rfl, jsameList_items h1 _ hs, h2⟩
  | .struct fs, j, j', h, hs => by
    rw [JForm] at h ⊢
    rcases h with ⟨h0, rfl⟩ | ⟨m, m', rfl, hp, h⟩
    · rw [jsame_str] at hs
      exact Or.inl ⟨h0, hs⟩
    · right
      rw [JSame] at hs
      obtain ⟨n, n', rfl, hp', hs⟩ := hs
      rw [jsameFields_iff] at hs
      obtain ⟨m2, h1, h2⟩ := perm_comp_forall₂ hp hs
      exact ⟨n, m2, rfl, h2.trans hp', jformFields_same fs m' m2 h ((jsameFields_iff _ _).2 h1)⟩
theorem jformItems_same : ∀ (l : List Tree) (a b : List Json), JFormItems l a → JSameList a b → JFormItems l b
  | [], a, b, h, hs => by
    rw [JFormItems] at h ⊢
    subst h
    rw [JSameList] at hs
    exact hs
  | t :: ts, a, b, h, hs => by
    rw [JFormItems] at h ⊢
    obtain ⟨j, l', rfl, h1, h2⟩ := h
    rw [JSameList] at hs
    obtain ⟨j', l'', rfl, h3, h4⟩ := hs
    exact ⟨j', l'', rfl, jform_same t j j' h1 h3, jformItems_same ts l' l'' h2 h4⟩
theorem jformFields_same : ∀ (l : List (Str × Tree)) (a b : List (Str × Json)), JFormFields l a → JSameFields a b → JFormFields l b
  | [], a, b, h, hs => by
    rw [JFormFields] at h ⊢
    subst h
    rw [JSameFields] at hs
    exact hs
  | (k, t) :: ts, a, b, h, hs => by
    rw [JFormFields] at h ⊢
    obtain ⟨j, l', rfl, h1, h2⟩ := h
    rw [JSameFields] at hs
    obtain ⟨j', l'', rfl, h3, h4⟩ := hs
    exact ⟨j', l'', rfl, jform_same t j j' h1 h3, jformFields_same ts l' l'' h2 h4⟩
end

/-! ### Reading a form -/

theorem getPrefix_value (m : List (Str × Json)) (h : ∀ e ∈ m, ':' ∈ e.1) : Json.isItem m = false := by
  have : GoMap.get m "value".toList = none := by
    unfold GoMap.get
    rw [Option.map_eq_none_iff, List.find?_eq_none]
    intro e he
    simp only [decide_eq_true_eq]
    intro hc
    have := h e he
    rw [hc] at this
    revert this; decide
  unfold Json.isItem
  rw [this, Option.isSome_none, Bool.and_false, Bool.false_and, Bool.false_and]

theorem shapeFields_iff (fs : List (Str × Tree)) : ShapeFields fs ↔ ∀ e ∈ fs, JsonName e.1 ∧ Shape e.2 := by
  induction fs with
  | nil => simp [ShapeFields]
  | cons a fs ih =>
    obtain ⟨k, t⟩ := a
    rw [ShapeFields, ih]
    simp [and_assoc]

theorem jsonName_ne_nil {k : Str} (h : JsonName k) : k ≠ [] := by
  intro e; rw [e] at h; exact absurd h.1 (by simp)

theorem appendNode_setNodes (node : Node) (n : Node) : node.appendNode n = node.setNodes (node.nodes ++ [n]) := rfl

theorem fullName_plain (r : Registry) (name : Str) (a : List Attr) (v : Str) (l : List Node) :
    (Node.mk ⟨[], name⟩ a v l).fullName r = name := by simp [Node.fullName, Node.xmlName]

theorem fullName_rdf (r : Registry) (hr : r.getPrefix Json.nsRdf = "rdf".toList) (s : Str) (a : List Attr) (v : Str) (l : List Node) :
    (Node.mk ⟨Json.nsRdf, s⟩ a v l).fullName r = "rdf:".toList ++ s := by
  simp only [Node.fullName, Node.xmlName, Registry.short, hr]
  rw [if_pos (by decide), if_pos (by decide)]
  rfl

/-- A node says the same as a tree, up to the order of fields. -/
def Tells (r : Registry) (t : Tree) (n : Node) : Prop := ∃ t', t.Same t' ∧ Says r t' n

theorem item_reads {x : AltItem} {j : Json} (r : Registry) (hr : r.getPrefix Json.nsRdf = "rdf".toList) (h : ItemJson x j) (hx : x.isDefault = true ∨ x.lang ≠ []) :
    (∃ m, j = .obj m ∧ Json.isItem m = true) ∧ ∃ l, Json.altNodes j = .ok l ∧ Forall₂ (AltLi r) (expandItem x) l := by
  obtain ⟨m, rfl, hp⟩ := h
  have hw : GoMap.Wf m := by
    unfold GoMap.Wf
    rw [(hp.map _).nodup_iff]
    simp only [List.map_cons, List.map_nil]
    decide
  have g1 : GoMap.get m "value".toList = some (.str x.value) := (GoMap.get_eq_some hw).2 (hp.mem_iff.2 (by simp))
  have g2 : GoMap.get m "lang".toList = some (.str x.lang) := (GoMap.get_eq_some hw).2 (hp.mem_iff.2 (by simp))
  have g3 : GoMap.get m "isDefault".toList = some (.bool x.isDefault) := (GoMap.get_eq_some hw).2 (hp.mem_iff.2 (by simp))
  refine ⟨⟨m, rfl, ?_⟩, ?_⟩
  · have : m.length = 3 := hp.length_eq
    unfold Json.isItem
    rw [g1, g2, g3, this]
    rfl
  · have key : ∀ lang v, AltLi r (lang, v) (Json.li [⟨⟨[], "xml:lang".toList⟩, lang⟩] v) := by
      intro lang v
      refine ⟨?_, rfl, rfl, _, rfl, (by show stripPrefix "xml:lang".toList = _; decide), rfl⟩
      exact fullName_rdf r hr "li".toList _ _ _
    refine ⟨_, by rw [Json.altNodes]; simp only [g1, g2, g3]; rfl, ?_⟩
    unfold expandItem
    cases hd : x.isDefault with
    | true =>
      simp only [if_true, true_and]
      by_cases hl : x.lang = []
      · simp only [hl, if_true, ne_eq, not_true_eq_false, if_false, List.append_nil]
        exact .cons (key _ _) .nil
      · simp only [hl, if_false, ne_eq, not_false_eq_true, if_true]
        exact .cons (key _ _) (.cons (key _ _) .nil)
    | false =>
      have hl : x.lang ≠ [] := by
        rcases hx with h | h
        · rw [hd] at h; cases h
        · exact h
      simp only [Bool.false_eq_true, if_false, false_and, ne_eq, hl, not_false_eq_true, if_true, List.append_nil]
      exact .cons (key _ _) .nil

theorem items_read (r : Registry) (hr : r.getPrefix Json.nsRdf = "rdf".toList) {items : List AltItem} {l : List Json} (h : Forall₂ ItemJson items l)
    (hx : ∀ x ∈ items, x.isDefault = true ∨ x.lang ≠ []) :
    ∃ lis, Json.altNodesAll l = .ok lis ∧ Forall₂ (AltLi r) (items.flatMap expandItem) lis := by
  induction h with
  | nil => exact ⟨[], rfl, .nil⟩
  | cons h1 h2 ih =>
    rename_i x j items l
    obtain ⟨l1, e1, f1⟩ := (item_reads r hr h1 (hx x (by simp))).2
    obtain ⟨l2, e2, f2⟩ := ih (fun y hy => hx y (by simp [hy]))
    refine ⟨l1 ++ l2, by rw [Json.altNodesAll, e1]; simp only [e2], ?_⟩
    rw [List.flatMap_cons]
    exact rel_append f1 f2

theorem isAltArray_items {items : List AltItem} {l : List Json} (r : Registry) (hr : r.getPrefix Json.nsRdf = "rdf".toList) (h : Forall₂ ItemJson items l) (hne : items ≠ [])
    (hx : ∀ x ∈ items, x.isDefault = true ∨ x.lang ≠ []) : Json.isAltArray l = true := by
  cases h with
  | nil => exact absurd rfl hne
  | cons h1 h2 =>
    rename_i x j items l
    obtain ⟨m, rfl, hm⟩ := (item_reads r hr h1 (hx x (by simp))).1
    exact hm

theorem formFields_names {fs : List (Str × Tree)} {m m' : List (Str × Json)} (hs : ShapeFields fs) (hp : m' ~ m) (h : JFormFields fs m') :
    ∀ e ∈ m, ':' ∈ e.1 := by
  intro e he
  have he' := hp.mem_iff.2 he
  rw [jformFields_iff] at h
  rw [shapeFields_iff] at hs
  obtain ⟨a, ha, hr⟩ := forall₂_iff_get .. |>.1 h |> fun h => (by
    obtain ⟨i, hi, rfl⟩ := List.getElem_of_mem he'
    exact ⟨fs[i]'(by rw [h.1]; exact hi), List.getElem_mem _, h.2 i (by rw [h.1]; exact hi) hi⟩ : ∃ a ∈ fs, a.1 = e.1 ∧ JForm a.2 e.2)
  rw [← hr.1]
  exact (hs a ha).1.1

theorem isAltArray_other {l : List Tree} {l' : List Json} (hs : ShapeItems l) (h : JFormItems l l') : Json.isAltArray l' = false := by
  cases l with
  | nil => rw [JFormItems] at h; subst h; rfl
  | cons t ts =>
    rw [JFormItems] at h
    obtain ⟨j, l'', rfl, h1, h2⟩ := h
    rw [ShapeItems] at hs
    cases t with
    | text s => rw [JForm] at h1; obtain ⟨_, rfl⟩ := h1; rfl
    | array l => exact absurd hs.1 (by simp [IsItem])
    | alt l => exact absurd hs.1 (by simp [IsItem])
    | struct fs =>
      rw [JForm] at h1
      rcases h1 with ⟨_, rfl⟩ | ⟨m, m', rfl, hp, hf⟩
      · rfl
      · have h3 := hs.2.1
        rw [Shape] at h3
        exact getPrefix_value m (formFields_names h3.2 hp hf)

theorem addSimple_named {name : Str} (h : JsonName name) (s : Str) (node : Node) :
    Json.addSimple name s node = node.appendNode (.mk ⟨[], name⟩ [] s []) := by
  unfold Json.addSimple
  rw [if_pos ⟨jsonName_ne_nil h, fun e => h.2 (by rw [e]; simp)⟩]
  rfl

mutual
theorem form_reads (r : Registry) (hr : r.getPrefix Json.nsRdf = "rdf".toList) : ∀ (j : Json) (t : Tree), Shape t → JForm t j →
    (∀ name, JsonName name → ∃ n, (∀ node, Json.toNode j name node = .ok (node.appendNode n)) ∧ n.xmlName = ⟨[], name⟩ ∧ Tells r t n) ∧
    (IsItem t → ∃ n, Json.toNode j [] (Json.li [] []) = .ok n ∧ n.xmlName = ⟨Json.nsRdf, "li".toList⟩ ∧ Tells r t n)
  | .str s, t, hs, h => by
    have key : ∀ nm, Tells r t (.mk nm [] s []) := by
      intro nm
      cases t with
      | text s' =>
        rw [JForm] at h
        obtain ⟨h0, h⟩ := h
        cases h
        exact ⟨.text s, by rw [Tree.Same], by rw [Says]; exact ⟨h0, rfl, rfl, rfl⟩⟩
      | array l => rw [JForm] at h; obtain ⟨_, h, _⟩ := h; cases h
      | alt l => rw [JForm] at h; obtain ⟨_, _, h, _⟩ := h; cases h
      | struct fs =>
        rw [JForm] at h
        rcases h with ⟨rfl, h⟩ | ⟨_, _, h, _⟩
        · cases h
          refine ⟨.struct [], ?_, ?_⟩
          · rw [Tree.Same]; exact ⟨[], [], rfl, .refl _, by rw [Tree.SameFields]⟩
          · rw [Says]; exact ⟨rfl, by rw [SaysFields]; exact ⟨rfl, rfl⟩⟩
        · cases h
    refine ⟨fun name hn => ⟨.mk ⟨[], name⟩ [] s [], ?_, rfl, key _⟩, fun _ => ⟨Json.li [] s, ?_, rfl, key _⟩⟩
    · intro node; rw [Json.toNode, addSimple_named hn]
    · rw [Json.toNode]; rfl
  | .num s, t, hs, h => by
    cases t <;> rw [JForm] at h
    · cases h.2
    · obtain ⟨_, h, _⟩ := h; cases h
    · obtain ⟨_, _, h, _⟩ := h; cases h
    · rcases h with ⟨_, h⟩ | ⟨_, _, h, _⟩ <;> cases h
  | .bool s, t, hs, h => by
    cases t <;> rw [JForm] at h
    · cases h.2
    · obtain ⟨_, h, _⟩ := h; cases h
    · obtain ⟨_, _, h, _⟩ := h; cases h
    · rcases h with ⟨_, h⟩ | ⟨_, _, h, _⟩ <;> cases h
  | .null, t, hs, h => by
    cases t <;> rw [JForm] at h
    · cases h.2
    · obtain ⟨_, h, _⟩ := h; cases h
    · obtain ⟨_, _, h, _⟩ := h; cases h
    · rcases h with ⟨_, h⟩ | ⟨_, _, h, _⟩ <;> cases h
  | .arr l, t, hs, h => by
    cases t with
    | text s => rw [JForm] at h; cases h.2
    | struct fs => rw [JForm] at h; rcases h with ⟨_, h⟩ | ⟨_, _, h, _⟩ <;> cases h
    | array ts =>
      refine ⟨?_, fun h => absurd h (by simp [IsItem])⟩
      intro name hn
      rw [JForm] at h
      obtain ⟨l', e, h⟩ := h
      cases e
      rw [Shape] at hs
      obtain ⟨lis, ts', e1, h1, h2⟩ := formItems_read r hr l ts hs h
      refine ⟨.mk ⟨[], name⟩ [] [] [.mk ⟨Json.nsRdf, "Seq".toList⟩ [] [] lis], ?_, rfl, .array ts', ?_, ?_⟩
      · intro node; rw [Json.toNode, if_neg (jsonName_ne_nil hn), isAltArray_other hs h, if_neg (by simp), e1]
      · rw [Tree.Same]; exact ⟨ts', rfl, h1⟩
      · rw [Says]
        refine ⟨_, rfl, rfl, rfl, rfl, rfl, Or.inl ?_, h2⟩
        rw [fullName_rdf r hr _]; decide
    | alt ts =>
      refine ⟨?_, fun h => absurd h (by simp [IsItem])⟩
      intro name hn
      rw [JForm] at h
      obtain ⟨l', items, e, h1, h2, h3, h4⟩ := h
      cases e
      obtain ⟨lis, e1, h5⟩ := items_read r hr h1 h3
      refine ⟨.mk ⟨[], name⟩ [] [] [.mk ⟨Json.nsRdf, "Alt".toList⟩ [] [] lis], ?_, rfl, .alt (items.flatMap expandItem), ?_, ?_⟩
      · intro node; rw [Json.toNode, if_neg (jsonName_ne_nil hn), isAltArray_items r hr h1 h2 h3, if_pos rfl, e1]
      · rw [Tree.Same]; exact ⟨_, rfl, h4⟩
      · rw [Says]
        refine ⟨_, rfl, rfl, rfl, rfl, rfl, ?_, h5⟩
        rw [fullName_rdf r hr _]; decide
  | .obj m, t, hs, h => by
    cases t with
    | text s => rw [JForm] at h; cases h.2
    | array s => rw [JForm] at h; obtain ⟨_, h, _⟩ := h; cases h
    | alt s => rw [JForm] at h; obtain ⟨_, _, h, _⟩ := h; cases h
    | struct fs =>
      rw [JForm] at h
      rcases h with ⟨_, h⟩ | ⟨m1, m', e, hp, hf⟩
      · cases h
      · cases e
        rw [Shape] at hs
        have hi := getPrefix_value m (formFields_names hs.2 hp hf)
        rw [jformFields_iff] at hf
        have hc : Relation.Comp Perm (Forall₂ fun (a : Str × Tree) (b : Str × Json) => a.1 = b.1 ∧ JForm a.2 b.2) fs m := by
          rw [← forall₂_comp_perm_eq_perm_comp_forall₂]
          exact ⟨m', hf, hp⟩
        obtain ⟨fs1, p1, f1⟩ := hc
        have hsh : ShapeFields fs1 := by
          rw [shapeFields_iff]
          intro e he
          exact (shapeFields_iff fs).1 hs.2 e (p1.mem_iff.2 he)
        obtain ⟨ns, fs2, h1, h2, h3⟩ := formFields_read r hr m fs1 hsh f1
        have htell : ∀ nm, Tells r (.struct fs) (.mk nm [] [] ns) := by
          intro nm
          refine ⟨.struct fs2, ?_, ?_⟩
          · rw [Tree.Same]
            obtain ⟨fs3, q1, q2⟩ := perm_comp_forall₂ p1 h2
            exact ⟨fs2, fs3, rfl, q2, (sameFields_iff _ _).2 q1⟩
          · rw [Says]
            exact ⟨rfl, h3⟩
        refine ⟨fun name hn => ⟨.mk ⟨[], name⟩ [] [] ns, ?_, rfl, htell _⟩, fun _ => ⟨.mk ⟨Json.nsRdf, "li".toList⟩ [] [] ns, ?_, rfl, htell _⟩⟩
        · intro node; rw [Json.toNode, if_neg (jsonName_ne_nil hn), hi, h1]
          rfl
        · rw [Json.toNode, if_pos rfl, hi, h1]
          rfl
theorem formItems_read (r : Registry) (hr : r.getPrefix Json.nsRdf = "rdf".toList) : ∀ (l : List Json) (ts : List Tree), ShapeItems ts → JFormItems ts l →
    ∃ lis ts', Json.toItems l = .ok lis ∧ Tree.SameList ts ts' ∧ SaysItems r ts' lis
  | [], ts, hs, h => by
    cases ts with
    | nil => exact ⟨[], [], by rw [Json.toItems], by rw [Tree.SameList], by rw [SaysItems]⟩
    | cons t ts => rw [JFormItems] at h; obtain ⟨_, _, h, _⟩ := h; cases h
  | j :: l, ts, hs, h => by
    cases ts with
    | nil => rw [JFormItems] at h; cases h
    | cons t ts =>
      rw [JFormItems] at h
      obtain ⟨j', l', e, h1, h2⟩ := h
      cases e
      rw [ShapeItems] at hs
      obtain ⟨n, e1, nm, t', q1, q2⟩ := (form_reads r hr j t hs.2.1 h1).2 hs.1
      obtain ⟨lis, ts', e2, q3, q4⟩ := formItems_read r hr l ts hs.2.2 h2
      refine ⟨n :: lis, t' :: ts', ?_, ?_, ?_⟩
      · rw [Json.toItems, e1]; simp only [e2]
      · rw [Tree.SameList]; exact ⟨t', ts', rfl, q1, q3⟩
      · rw [SaysItems]
        refine ⟨n, lis, rfl, ?_, q2, q4⟩
        obtain ⟨n1, n2, n3, n4⟩ := n
        simp only [Node.xmlName] at nm
        subst nm
        exact fullName_rdf r hr _ _ _ _
theorem formFields_read (r : Registry) (hr : r.getPrefix Json.nsRdf = "rdf".toList) : ∀ (m : List (Str × Json)) (fs : List (Str × Tree)), ShapeFields fs →
    Forall₂ (fun (a : Str × Tree) (b : Str × Json) => a.1 = b.1 ∧ JForm a.2 b.2) fs m →
    ∃ ns fs', (∀ node : Node, Json.toFields false m node = .ok (node.setNodes (node.nodes ++ ns))) ∧
      Forall₂ (fun (a b : Str × Tree) => a.1 = b.1 ∧ a.2.Same b.2) fs fs' ∧ SaysFields r fs' [] ns
  | [], fs, hs, h => by
    cases h
    refine ⟨[], [], ?_, .nil, by rw [SaysFields]; exact ⟨rfl, rfl⟩⟩
    intro node
    rw [Json.toFields]
    obtain ⟨n1, n2, n3, n4⟩ := node
    simp [Node.setNodes, Node.nodes]
  | (k, j) :: m, fs, hs, h => by
    cases fs with
    | nil => cases h
    | cons a fs =>
      obtain ⟨k', t⟩ := a
      rw [forall₂_cons] at h
      obtain ⟨⟨e, h1⟩, h2⟩ := h
      simp only at e h1
      subst e
      rw [ShapeFields] at hs
      obtain ⟨ns, fs', e2, q3, q4⟩ := formFields_read r hr m fs hs.2.2 h2
      obtain ⟨n, e1, nm, t', q1, q2⟩ := (form_reads r hr j t hs.2.1 h1).1 k' hs.1
      refine ⟨n :: ns, (k', t') :: fs', ?_, .cons ⟨rfl, q1⟩ q3, ?_⟩
      · intro node
        rw [Json.toFields, if_neg (by simp), e1]
        simp only [e2]
        obtain ⟨n1, n2, n3, n4⟩ := node
        simp [Node.setNodes, Node.nodes, Node.appendNode]
      · rw [SaysFields]
        right
        refine ⟨rfl, n, ns, rfl, ?_, q2, q4⟩
        obtain ⟨n1, n2, n3, n4⟩ := n
        simp only [Node.xmlName] at nm
        subst nm
        exact fullName_plain r _ _ _ _
end

end Xmp.Props
