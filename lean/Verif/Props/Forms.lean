import Verif.Model.TypedXmp
import Mathlib.Data.List.Forall2
import Mathlib.Data.List.Perm.Basic

/-! C76: the forms that XMP allows for a value are read alike.  This file: values of any type. -/

namespace Xmp.Props

open GoStr

/-! ### Specification: the entries of an element, and when two elements say the same -/

/-- Something that stands in an element: an attribute or a child element. -/
inductive Entry where
  | attr (a : Attr)
  | elem (n : Node)

/-- The name of an entry as the decoder translates it. -/
def Entry.name (d : Dec) : Entry → QName
  | .attr a => d.translate a.name
  | .elem n => d.translate n.xmlName

/-- The name with prefix under which a field is looked for. -/
def Entry.label (d : Dec) : Entry → Str
  | .attr a => (d.translate a.name).loc
  | .elem n => fullNameOf d.reg (d.translate n.xmlName)

/-- Entries that only direct the reading of RDF: declarations of namespaces, `rdf:parseType`, `rdf:type`, `xml:lang`. -/
def Entry.Mark (d : Dec) (e : Entry) : Prop :=
  (e.name d).space = "xmlns".toList ∨ (e.name d).loc = "rdf:parseType".toList ∨
    (e.name d).loc = "rdf:type".toList ∨ (e.name d).loc = "xml:lang".toList

instance (d : Dec) (e : Entry) : Decidable (e.Mark d) := by unfold Entry.Mark; infer_instance

mutual
/-- The entries of an element; those of an `rdf:Description` in it count as its own, at any depth. -/
def entries (d : Dec) : Node → List Entry
  | .mk _ attrs _ nodes => attrs.map .attr ++ entriesOf d nodes
/-- The entries that come from a list of child elements. -/
def entriesOf (d : Dec) : List Node → List Entry
  | [] => []
  | n :: ns =>
    (if fullNameOf d.reg (d.translate n.xmlName) = "rdf:Description".toList then entries d n else [.elem n]) ++ entriesOf d ns
end

/-- The entries without the marks. -/
def facts (d : Dec) (n : Node) : List Entry := (entries d n).filter (fun e => !decide (e.Mark d))

/-- Types whose values are one text. -/
def AsText : Ty → Prop
  | .int _ | .uint _ | .bool | .str | .bytes | .text _ => True
  | .ptr (.int _) | .ptr (.uint _) | .ptr .bool | .ptr .str | .ptr .bytes | .ptr (.text _) => True
  | _ => False

/-- The element is an RDF container made of items. -/
def IsArray (d : Dec) (n : Node) : Prop :=
  stripPrefix n.xmlName.loc ∈ ["Seq".toList, "Bag".toList, "Alt".toList] ∧ ∀ x ∈ n.nodes, x.fullName d.reg = "rdf:li".toList

mutual
/-- Two elements say the same about a value of a type.  A plain value: the texts are the same.  Language alternatives: the
contents are the same.  An array: both have one container with as many items, which say the same pairwise; the kind of the
container does not matter.  A struct: the entries besides the marks can be paired, in any order, such that both of a pair are for
the same field and say the same; no field is mentioned twice. -/
def Alike (d : Dec) (dv : Version) : Ty → Node → Node → Prop
  | .alt, n, m => n.nodes = m.nodes
  | .slice _ t, n, m => ∃ a b, n.nodes = [a] ∧ m.nodes = [b] ∧ IsArray d a ∧ IsArray d b ∧
      List.Forall₂ (Alike d dv t) a.nodes b.nodes
  | .ptr t, n, m => Alike d dv t n m
  | .struct _ infos tys, n, m => ∃ l, l.Perm (facts d m) ∧
      List.Forall₂ (fun x y => ∃ i, findStructField dv infos (x.label d) = some i ∧
        findStructField dv infos (y.label d) = some i ∧ AlikeAt d dv tys i x y) (facts d n) l ∧
      ((facts d n).map (fun x => findStructField dv infos (x.label d))).Nodup
  | _, n, m => n.value = m.value
/-- Two entries say the same about the field at a position.  A plain value can be given by an attribute or an element. -/
def AlikeAt (d : Dec) (dv : Version) : List Ty → Nat → Entry → Entry → Prop
  | [], _, _, _ => False
  | t :: _, 0, .elem n, .elem m => Alike d dv t n m
  | _ :: _, 0, .attr a, .attr b => a.value = b.value
  | t :: _, 0, .attr a, .elem m => AsText t ∧ a.value = m.value
  | t :: _, 0, .elem n, .attr b => AsText t ∧ n.value = b.value
  | _ :: ts, i + 1, x, y => AlikeAt d dv ts i x y
end

/-! ### The struct reader goes through the entries -/

/-- What one entry does to the fields. -/
def readEntry (d : Dec) (dv : Version) (infos : List FieldInfo) (tys : List Ty) (e : Entry) (vals : List Val) : Res (List Val) :=
  if e.Mark d then .ok vals
  else
    match findStructField dv infos (e.label d) with
    | none => .err
    | some i =>
      match tys[i]?, vals[i]? with
      | some t, some v =>
        match (match e with
          | .attr a => unmarshalAttr t v a.value
          | .elem n => unmarshal d dv n true t v) with
        | .ok x => .ok (vals.set i x)
        | .err => .err
        | .panic => .panic
      | _, _ => .panic

/-- All entries in turn. -/
def readAll (d : Dec) (dv : Version) (infos : List FieldInfo) (tys : List Ty) : List Entry → List Val → Res (List Val)
  | [], vals => .ok vals
  | e :: es, vals =>
    match readEntry d dv infos tys e vals with
    | .ok vals => readAll d dv infos tys es vals
    | .err => .err
    | .panic => .panic

variable {d : Dec} {dv : Version}

theorem skipName_mark (q : QName) : skipName q = true ↔ (q.space = "xmlns".toList ∨ q.loc = "rdf:parseType".toList ∨
    q.loc = "rdf:type".toList ∨ q.loc = "xml:lang".toList) := by
  simp only [skipName, Bool.or_eq_true, decide_eq_true_eq, or_assoc]

theorem readAll_append (infos : List FieldInfo) (tys : List Ty) (a b : List Entry) : ∀ vals, readAll d dv infos tys (a ++ b) vals =
    (match readAll d dv infos tys a vals with
    | .ok vals => readAll d dv infos tys b vals
    | .err => .err
    | .panic => .panic) := by
  induction a with
  | nil => intro vals; rfl
  | cons e es ih =>
    intro vals
    simp only [List.cons_append, readAll]
    cases readEntry d dv infos tys e vals with
    | ok v => exact ih v
    | err => rfl
    | panic => rfl

theorem attrs_entries (infos : List FieldInfo) (tys : List Ty) (as : List Attr) : ∀ vals,
    unmarshalAttrs d dv infos tys as vals = readAll d dv infos tys (as.map .attr) vals := by
  induction as with
  | nil => intro vals; rfl
  | cons a as ih =>
    intro vals
    have hm : skipName (d.translate a.name) = true ↔ (Entry.attr a).Mark d := skipName_mark _
    simp only [unmarshalAttrs, List.map_cons, readAll, readEntry, Entry.label]
    by_cases hs : skipName (d.translate a.name) = true
    · rw [if_pos hs, if_pos (hm.1 hs)]; exact ih vals
    · rw [if_neg hs, if_neg (fun h => hs (hm.2 h))]
      cases findStructField dv infos (d.translate a.name).loc with
      | none => rfl
      | some i =>
        dsimp only
        cases tys[i]? with
        | none => rfl
        | some t =>
          cases vals[i]? with
          | none => rfl
          | some v =>
            dsimp only
            cases unmarshalAttr t v a.value with
            | ok x => exact ih _
            | err => rfl
            | panic => rfl

mutual
theorem struct_entries (infos : List FieldInfo) (tys : List Ty) : ∀ (n : Node) (vals : List Val),
    unmarshalStruct d dv n infos tys vals = readAll d dv infos tys (entries d n) vals
  | .mk _ attrs _ nodes, vals => by
    simp only [unmarshalStruct, entries, readAll_append, attrs_entries]
    cases readAll d dv infos tys (attrs.map .attr) vals with
    | ok v => exact nodes_entries infos tys nodes v
    | err => rfl
    | panic => rfl
theorem nodes_entries (infos : List FieldInfo) (tys : List Ty) : ∀ (ns : List Node) (vals : List Val),
    unmarshalNodes d dv ns infos tys vals = readAll d dv infos tys (entriesOf d ns) vals
  | [], vals => by simp only [unmarshalNodes, entriesOf, readAll]
  | n :: ns, vals => by
    simp only [unmarshalNodes, entriesOf]
    by_cases hd : fullNameOf d.reg (d.translate n.xmlName) = "rdf:Description".toList
    · rw [if_pos hd, if_pos hd, readAll_append, struct_entries infos tys n vals]
      cases readAll d dv infos tys (entries d n) vals with
      | ok v => exact nodes_entries infos tys ns v
      | err => rfl
      | panic => rfl
    · rw [if_neg hd, if_neg hd]
      have hm : skipName (d.translate n.xmlName) = true ↔ (Entry.elem n).Mark d := skipName_mark _
      simp only [List.singleton_append, readAll, readEntry, Entry.label]
      by_cases hs : skipName (d.translate n.xmlName) = true
      · rw [if_pos hs, if_pos (hm.1 hs)]; exact nodes_entries infos tys ns vals
      · rw [if_neg hs, if_neg (fun h => hs (hm.2 h))]
        cases findStructField dv infos (fullNameOf d.reg (d.translate n.xmlName)) with
        | none => rfl
        | some i =>
          dsimp only
          cases tys[i]? with
          | none => rfl
          | some t =>
            cases vals[i]? with
            | none => rfl
            | some v =>
              dsimp only
              cases unmarshal d dv n true t v with
              | ok x => exact nodes_entries infos tys ns _
              | err => rfl
              | panic => rfl
end

/-! ### Marks and order do not matter -/

theorem readAll_facts (infos : List FieldInfo) (tys : List Ty) (es : List Entry) : ∀ vals,
    readAll d dv infos tys es vals = readAll d dv infos tys (es.filter (fun e => !decide (e.Mark d))) vals := by
  induction es with
  | nil => intro vals; rfl
  | cons e es ih =>
    intro vals
    by_cases hm : e.Mark d
    · rw [List.filter_cons_of_neg (by simp [hm]), ← ih vals]
      simp only [readAll, readEntry, if_pos hm]
    · rw [List.filter_cons_of_pos (by simp [hm])]
      simp only [readAll]
      cases readEntry d dv infos tys e vals with
      | ok v => exact ih v
      | err => rfl
      | panic => rfl

/-- The value that an entry gives to a field. -/
def readVal (d : Dec) (dv : Version) (e : Entry) (t : Ty) (v : Val) : Res Val :=
  match e with
  | .attr a => unmarshalAttr t v a.value
  | .elem n => unmarshal d dv n true t v

theorem readEntry_ok {infos : List FieldInfo} {tys : List Ty} {e : Entry} {vals r : List Val} (hm : ¬ e.Mark d) :
    readEntry d dv infos tys e vals = .ok r ↔ ∃ i t v x, findStructField dv infos (e.label d) = some i ∧ tys[i]? = some t ∧
      vals[i]? = some v ∧ readVal d dv e t v = .ok x ∧ r = vals.set i x := by
  simp only [readEntry, if_neg hm]
  cases hf : findStructField dv infos (e.label d) with
  | none => simp
  | some i =>
    cases ht : tys[i]? with
    | none => simp [ht]
    | some t =>
      cases hv : vals[i]? with
      | none => simp [hv]
      | some v =>
        dsimp only
        cases hr : readVal d dv e t v with
        | ok x =>
          constructor
          · intro h
            refine ⟨i, t, v, x, rfl, ht, hv, hr, ?_⟩
            cases e <;> simp only [readVal] at hr <;> simp only [ht, hv, hr] at h <;> cases h <;> rfl
          · rintro ⟨j, t', v', x', hj, ht', hv', hr', rfl⟩
            cases hj
            rw [ht] at ht'; cases ht'
            rw [hv] at hv'; cases hv'
            rw [hr] at hr'; cases hr'
            cases e <;> simp only [readVal] at hr <;> simp only [ht, hv, hr]
        | err =>
          constructor
          · intro h
            cases e <;> simp only [readVal] at hr <;> simp only [ht, hv, hr] at h <;> cases h
          · rintro ⟨j, t', v', x', hj, ht', hv', hr', rfl⟩
            cases hj
            rw [ht] at ht'; cases ht'
            rw [hv] at hv'; cases hv'
            rw [hr] at hr'; cases hr'
        | panic =>
          constructor
          · intro h
            cases e <;> simp only [readVal] at hr <;> simp only [ht, hv, hr] at h <;> cases h
          · rintro ⟨j, t', v', x', hj, ht', hv', hr', rfl⟩
            cases hj
            rw [ht] at ht'; cases ht'
            rw [hv] at hv'; cases hv'
            rw [hr] at hr'; cases hr'

theorem readAll_cons_ok {infos : List FieldInfo} {tys : List Ty} {e : Entry} {es : List Entry} {vals r : List Val} :
    readAll d dv infos tys (e :: es) vals = .ok r ↔
      ∃ w, readEntry d dv infos tys e vals = .ok w ∧ readAll d dv infos tys es w = .ok r := by
  simp only [readAll]
  cases readEntry d dv infos tys e vals with
  | ok w => simp
  | err => simp
  | panic => simp

theorem readEntry_swap {infos : List FieldInfo} {tys : List Ty} {x y : Entry} (hx : ¬ x.Mark d) (hy : ¬ y.Mark d)
    (hne : findStructField dv infos (x.label d) ≠ findStructField dv infos (y.label d)) {vals w r : List Val}
    (h1 : readEntry d dv infos tys x vals = .ok w) (h2 : readEntry d dv infos tys y w = .ok r) :
    ∃ u, readEntry d dv infos tys y vals = .ok u ∧ readEntry d dv infos tys x u = .ok r := by
  obtain ⟨i, t, v, a, hi, ht, hv, ha, rfl⟩ := (readEntry_ok hx).1 h1
  obtain ⟨j, s, v', b, hj, hs, hv', hb, rfl⟩ := (readEntry_ok hy).1 h2
  have hij : i ≠ j := by rintro rfl; exact hne (hi.trans hj.symm)
  rw [List.getElem?_set_ne hij] at hv'
  refine ⟨vals.set j b, (readEntry_ok hy).2 ⟨j, s, v', b, hj, hs, hv', hb, rfl⟩,
    (readEntry_ok hx).2 ⟨i, t, v, a, hi, ht, ?_, ha, List.set_comm _ _ hij⟩⟩
  rw [List.getElem?_set_ne (Ne.symm hij)]
  exact hv

theorem readAll_perm {infos : List FieldInfo} {tys : List Ty} {l l' : List Entry} (h : l.Perm l') (hm : ∀ e ∈ l, ¬ e.Mark d)
    (hn : (l.map (fun x => findStructField dv infos (x.label d))).Nodup) : ∀ {vals r : List Val},
    readAll d dv infos tys l vals = .ok r → readAll d dv infos tys l' vals = .ok r := by
  induction h with
  | nil => intro vals r h; exact h
  | cons x h ih =>
    intro vals r hr
    obtain ⟨w, h1, h2⟩ := readAll_cons_ok.1 hr
    exact readAll_cons_ok.2 ⟨w, h1, ih (fun e he => hm e (List.mem_cons_of_mem _ he)) (List.nodup_cons.1 hn).2 h2⟩
  | swap x y l =>
    intro vals r hr
    obtain ⟨w, h1, h2⟩ := readAll_cons_ok.1 hr
    obtain ⟨u, h2, h3⟩ := readAll_cons_ok.1 h2
    have hne : findStructField dv infos (y.label d) ≠ findStructField dv infos (x.label d) := by
      intro e
      exact (List.nodup_cons.1 hn).1 (by show findStructField dv infos (y.label d) ∈ _; rw [e]; exact List.mem_cons_self)
    obtain ⟨u', h4, h5⟩ := readEntry_swap (hm y List.mem_cons_self) (hm x (List.mem_cons_of_mem _ List.mem_cons_self)) hne h1 h2
    exact readAll_cons_ok.2 ⟨u', h4, readAll_cons_ok.2 ⟨u, h5, h3⟩⟩
  | trans h1 h2 ih1 ih2 =>
    intro vals r hr
    exact ih2 (fun e he => hm e (h1.mem_iff.2 he)) ((h1.map _).nodup_iff.1 hn) (ih1 hm hn hr)

/-! ### Attributes and elements -/

/-- Types without parts. -/
def Leafy : Ty → Prop
  | .int _ | .uint _ | .bool | .str | .bytes | .text _ => True
  | _ => False

theorem attrBase_leafy {t : Ty} (h : Leafy t) (b : Bool) (v : Val) (s : Str) :
    unmarshalAttrBase b t v s = Res.ofOption (parseLeaf t v s) := by
  cases t <;> first | exact h.elim | skip
  case text c => cases v <;> simp [unmarshalAttrBase, parseLeaf, Res.ofOption]
  all_goals simp only [unmarshalAttrBase, parseLeaf]

theorem unmarshal_leaf {ty t : Ty} {v v' : Val} (h : Leafy t) (hd : derefVal ty v = (t, v')) (n : Node) (b : Bool) :
    unmarshal d dv n b ty v = (match parseLeaf t v' n.value with
      | some x => .ok (rewrap ty x)
      | none => if (match t, v' with | .text _, .opq _ => true | _, _ => b) then .err else .panic) := by
  obtain ⟨q, as, s, ns⟩ := n
  cases t <;> first | exact h.elim | skip
  case text c =>
    cases v' <;> simp only [unmarshal, hd, parseLeaf, Node.value, setValue, failField]
    case opq k => cases c.dec k s <;> rfl
  all_goals
    simp only [unmarshal, hd, parseLeaf, Node.value, failField]
    generalize setValue _ _ _ = o
    cases o <;> rfl

theorem plain_leafy {t : Ty} (h : AsText t) (v : Val) : (∃ t' v', derefVal t v = (t', v') ∧ Leafy t') ∨
    (∃ u, t = .ptr u ∧ derefVal t v = (t, v)) := by
  cases t with
  | ptr u =>
    cases v with
    | ptr w => refine Or.inl ⟨u, w, rfl, ?_⟩; cases u <;> first | exact h.elim | trivial
    | nil => refine Or.inl ⟨u, u.zero, rfl, ?_⟩; cases u <;> first | exact h.elim | trivial
    | _ => exact Or.inr ⟨u, rfl, rfl⟩
  | _ => first | exact h.elim | exact Or.inl ⟨_, _, rfl, trivial⟩

theorem plain_attr_elem {t : Ty} (h : AsText t) (n : Node) (v w : Val) (b : Bool) :
    unmarshalAttr t v n.value = .ok w ↔ unmarshal d dv n b t v = .ok w := by
  rcases plain_leafy h v with ⟨t', v', hd, hl⟩ | ⟨u, rfl, hd⟩
  · rw [unmarshal_leaf hl hd]
    simp only [unmarshalAttr, hd, attrBase_leafy hl]
    cases parseLeaf t' v' n.value with
    | some x => rfl
    | none =>
      dsimp only [Res.ofOption]
      split
      · simp
      · cases b <;> simp
  · obtain ⟨q, as, s, ns⟩ := n
    simp only [unmarshalAttr, unmarshal, hd, unmarshalAttrBase, setValue, failField, Res.ofOption]
    cases b <;> simp

/-! ### The main theorem -/

/-- Apply a function to a result. -/
def mapOk (f : Val → Val) : Res Val → Res Val
  | .ok x => .ok (f x)
  | .err => .err
  | .panic => .panic

theorem mapOk_ok {f : Val → Val} {r : Res Val} {w : Val} : mapOk f r = .ok w ↔ ∃ x, r = .ok x ∧ w = f x := by
  cases r <;> simp [mapOk, eq_comm]

theorem unmarshal_deref {ty t : Ty} {v v' : Val} (hd : derefVal ty v = (t, v')) (ht : ∀ u, t ≠ .ptr u) (n : Node) (b : Bool) :
    unmarshal d dv n b ty v = mapOk (rewrap ty) (unmarshal d dv n b t v') := by
  obtain ⟨q, as, s, ns⟩ := n
  have h2 : derefVal t v' = (t, v') := by cases t <;> first | exact absurd rfl (ht _) | rfl
  have h3 : ∀ x, rewrap t x = x := by intro x; cases t <;> first | exact absurd rfl (ht _) | rfl
  simp only [unmarshal, hd, h2, h3]
  split
  · split <;> rfl
  · split <;> rfl
  · split <;> rfl
  · split
    · split <;> rfl
    · rfl
    · rfl
  · split
    · rfl
    · cases b <;> rfl

theorem unmarshal_ptr_fails {t : Ty} {v : Val} (u : Ty) {v' : Val} (hd : derefVal t v = (.ptr u, v')) (n : Node) (b : Bool) (w : Val) :
    unmarshal d dv n b t v ≠ .ok w := by
  obtain ⟨q, as, s, ns⟩ := n
  simp only [unmarshal, hd, setValue, failField]
  cases b <;> simp

theorem unmarshal_struct_ok {z : Option (List Val → Bool)} {infos : List FieldInfo} {tys : List Ty} {v w : Val} (n : Node) (b : Bool) :
    unmarshal d dv n b (.struct z infos tys) v = .ok w ↔ ∃ vals r, v = .struct vals ∧ w = .struct r ∧
      readAll d dv infos tys (facts d n) vals = .ok r := by
  have he : ∀ vals, readAll d dv infos tys (facts d n) vals = unmarshalStruct d dv n infos tys vals := by
    intro vals; rw [struct_entries, facts]; exact (readAll_facts infos tys _ vals).symm
  simp only [he]
  cases v with
  | struct vals =>
    have hu : unmarshal d dv n b (.struct z infos tys) (.struct vals) = (match unmarshalStruct d dv n infos tys vals with
        | .ok r => .ok (.struct r)
        | .err => .err
        | .panic => .panic) := by
      obtain ⟨q, as, s, ns⟩ := n
      simp only [unmarshal, derefVal, unmarshalStruct, rewrap]
      cases unmarshalAttrs d dv infos tys as vals with
      | ok vs => rfl
      | err => rfl
      | panic => rfl
    rw [hu]
    constructor
    · intro h
      refine ⟨vals, ?_⟩
      cases hr : unmarshalStruct d dv n infos tys vals with
      | ok r => rw [hr] at h; cases h; exact ⟨r, rfl, rfl, rfl⟩
      | err => rw [hr] at h; cases h
      | panic => rw [hr] at h; cases h
    · rintro ⟨vals', r, h1, rfl, h2⟩
      cases h1
      rw [h2]
  | _ =>
    constructor
    · obtain ⟨q, as, s, ns⟩ := n
      simp only [unmarshal, derefVal, setValue, failField]
      cases b <;> simp
    · rintro ⟨vals', r, h1, -, -⟩
      cases h1

theorem readAll_congr {infos : List FieldInfo} {tys : List Ty} {R : Nat → Entry → Entry → Prop}
    (hR : ∀ i t x y, R i x y → tys[i]? = some t → ∀ v w, readVal d dv x t v = .ok w → readVal d dv y t v = .ok w)
    {l l' : List Entry} (h : List.Forall₂ (fun x y => ∃ i, findStructField dv infos (x.label d) = some i ∧
      findStructField dv infos (y.label d) = some i ∧ R i x y) l l') (hm : ∀ e ∈ l, ¬ e.Mark d) (hm' : ∀ e ∈ l', ¬ e.Mark d) :
    ∀ vals r, readAll d dv infos tys l vals = .ok r → readAll d dv infos tys l' vals = .ok r := by
  induction h with
  | nil => intro vals r h; exact h
  | cons hxy _ ih =>
    intro vals r hr
    obtain ⟨w, h1, h2⟩ := readAll_cons_ok.1 hr
    obtain ⟨i, hi, hj, hRi⟩ := hxy
    obtain ⟨k, t, v, a, hk, ht, hv, ha, rfl⟩ := (readEntry_ok (hm _ List.mem_cons_self)).1 h1
    rw [hi] at hk; cases hk
    exact readAll_cons_ok.2 ⟨_, (readEntry_ok (hm' _ List.mem_cons_self)).2 ⟨i, t, v, a, hj, ht, hv, hR i t _ _ hRi ht v a ha, rfl⟩,
      ih (fun e he => hm e (List.mem_cons_of_mem _ he)) (fun e he => hm' e (List.mem_cons_of_mem _ he)) _ _ h2⟩

theorem alike_targets {infos : List FieldInfo} {R : Nat → Entry → Entry → Prop} {l l' : List Entry}
    (h : List.Forall₂ (fun x y => ∃ i, findStructField dv infos (x.label d) = some i ∧
      findStructField dv infos (y.label d) = some i ∧ R i x y) l l') :
    l'.map (fun x => findStructField dv infos (x.label d)) = l.map (fun x => findStructField dv infos (x.label d)) := by
  induction h with
  | nil => rfl
  | cons hxy _ ih =>
    obtain ⟨i, hi, hj, -⟩ := hxy
    simp only [List.map_cons, hi, hj, ih]

theorem facts_notMark {n : Node} : ∀ e ∈ facts d n, ¬ e.Mark d := by
  intro e he
  have := (List.mem_filter.1 he).2
  simpa using this

theorem items_congr {t : Ty} (h : ∀ n m, Alike d dv t n m → ∀ b v x, unmarshal d dv n b t v = .ok x → unmarshal d dv m b t v = .ok x)
    {l l' : List Node} (hl : List.Forall₂ (Alike d dv t) l l') (hn' : ∀ x ∈ l', x.fullName d.reg = "rdf:li".toList) :
    ∀ out r, unmarshalItems d dv l t out = .ok r → unmarshalItems d dv l' t out = .ok r := by
  induction hl with
  | nil => intro out r h; simpa only [unmarshalItems] using h
  | @cons a b as bs hab _ ih =>
    intro out r hr
    simp only [unmarshalItems] at hr ⊢
    split at hr
    · cases hr
    · rw [if_neg (by simp only [ne_eq, not_not]; exact hn' b List.mem_cons_self)]
      cases hu : unmarshal d dv a false t t.zero with
      | ok x =>
        rw [hu] at hr
        rw [h a b hab _ _ _ hu]
        exact ih (fun x hx => hn' x (List.mem_cons_of_mem _ hx)) _ _ hr
      | err => rw [hu] at hr; cases hr
      | panic => rw [hu] at hr; cases hr

theorem unmarshal_slice_ok {a : ArrayType} {t : Ty} {v w : Val} (n : Node) (b : Bool) :
    unmarshal d dv n b (.slice a t) v = .ok w ↔
      (∃ l sp r, v = .slice l sp ∧ w = .slice r [] ∧ unmarshalArr d dv n.nodes t l = .ok r) ∨ ((∀ l sp, v ≠ .slice l sp) ∧ w = v) := by
  obtain ⟨q, as, s, ns⟩ := n
  cases v with
  | slice l sp =>
    simp only [unmarshal, derefVal, rewrap, Node.nodes]
    cases h : unmarshalArr d dv ns t l with
    | ok r =>
      simp only [Res.ok.injEq]
      constructor
      · rintro rfl; exact Or.inl ⟨l, sp, r, rfl, rfl, h⟩
      · rintro (⟨l', sp', r', h1, rfl, h2⟩ | ⟨h1, -⟩)
        · cases h1; rw [h] at h2; cases h2; rfl
        · exact absurd rfl (h1 l sp)
    | err =>
      simp only [reduceCtorEq, false_iff]
      rintro (⟨l', sp', r', h1, rfl, h2⟩ | ⟨h1, -⟩)
      · cases h1; rw [h] at h2; cases h2
      · exact absurd rfl (h1 l sp)
    | panic =>
      simp only [reduceCtorEq, false_iff]
      rintro (⟨l', sp', r', h1, rfl, h2⟩ | ⟨h1, -⟩)
      · cases h1; rw [h] at h2; cases h2
      · exact absurd rfl (h1 l sp)
  | _ =>
    simp only [unmarshal, derefVal, rewrap, setValue, Res.ok.injEq]
    constructor
    · rintro rfl; exact Or.inr ⟨(by intro l sp h; cases h), rfl⟩
    · rintro (⟨l', sp', r', h1, -, -⟩ | ⟨-, h2⟩)
      · cases h1
      · exact h2.symm

theorem unmarshal_alt_nodes {n m : Node} (h : n.nodes = m.nodes) (b : Bool) (v : Val) :
    unmarshal d dv n b .alt v = unmarshal d dv m b .alt v := by
  obtain ⟨q, as, s, ns⟩ := n
  obtain ⟨q', as', s', ns'⟩ := m
  simp only [Node.nodes] at h
  subst h
  cases v <;> simp only [unmarshal, derefVal, setValue]

theorem unmarshal_leaf_value {t : Ty} (hl : Leafy t) {n m : Node} (h : n.value = m.value) (b : Bool) (v : Val) :
    unmarshal d dv n b t v = unmarshal d dv m b t v := by
  have hd : derefVal t v = (t, v) := by cases t <;> first | exact hl.elim | rfl
  rw [unmarshal_leaf hl hd, unmarshal_leaf hl hd, h]

mutual
theorem alike_reads : ∀ (t : Ty) (n m : Node), Alike d dv t n m → ∀ (b : Bool) (v x : Val),
    unmarshal d dv n b t v = .ok x → unmarshal d dv m b t v = .ok x
  | .int k, n, m, h, b, v, x, hx => by
    simp only [Alike] at h; rwa [← unmarshal_leaf_value (t := .int k) trivial h]
  | .uint k, n, m, h, b, v, x, hx => by
    simp only [Alike] at h; rwa [← unmarshal_leaf_value (t := .uint k) trivial h]
  | .bool, n, m, h, b, v, x, hx => by
    simp only [Alike] at h; rwa [← unmarshal_leaf_value (t := .bool) trivial h]
  | .str, n, m, h, b, v, x, hx => by
    simp only [Alike] at h; rwa [← unmarshal_leaf_value (t := .str) trivial h]
  | .bytes, n, m, h, b, v, x, hx => by
    simp only [Alike] at h; rwa [← unmarshal_leaf_value (t := .bytes) trivial h]
  | .text k, n, m, h, b, v, x, hx => by
    simp only [Alike] at h; rwa [← unmarshal_leaf_value (t := .text k) trivial h]
  | .alt, n, m, h, b, v, x, hx => by
    simp only [Alike] at h; rwa [← unmarshal_alt_nodes h]
  | .slice a t, n, m, h, b, v, x, hx => by
    simp only [Alike] at h
    obtain ⟨p, q, hn, hm, ⟨hp, hp'⟩, ⟨hq, hq'⟩, hall⟩ := h
    rcases (unmarshal_slice_ok n b).1 hx with ⟨l, sp, r, rfl, rfl, hr⟩ | hr
    · refine (unmarshal_slice_ok m b).2 (Or.inl ⟨l, sp, r, rfl, rfl, ?_⟩)
      rw [hn] at hr
      rw [hm]
      obtain ⟨pn, pa, pv, pl⟩ := p
      obtain ⟨qn, qa, qv, ql⟩ := q
      simp only [unmarshalArr, unmarshalArr1, Node.nodes, Node.xmlName] at hr hp hq hp' hq' hall ⊢
      rw [if_pos hp] at hr
      rw [if_pos hq]
      exact items_congr (alike_reads t) hall hq' _ _ hr
    · exact (unmarshal_slice_ok m b).2 (Or.inr hr)
  | .ptr t, n, m, h, b, v, x, hx => by
    simp only [Alike] at h
    have hcase : ∀ v', derefVal (.ptr t) v = (t, v') → unmarshal d dv m b (.ptr t) v = .ok x := by
      intro v' hd
      by_cases hp : ∃ u, t = .ptr u
      · obtain ⟨u, rfl⟩ := hp
        exact absurd hx (unmarshal_ptr_fails u hd n b x)
      · have hp' : ∀ u, t ≠ .ptr u := fun u e => hp ⟨u, e⟩
        rw [unmarshal_deref hd hp'] at hx ⊢
        obtain ⟨y, hy, rfl⟩ := mapOk_ok.1 hx
        exact mapOk_ok.2 ⟨y, alike_reads t n m h b v' y hy, rfl⟩
    cases v with
    | ptr w => exact hcase w rfl
    | nil => exact hcase t.zero rfl
    | _ => exact absurd hx (unmarshal_ptr_fails t rfl n b x)
  | .struct z infos tys, n, m, h, b, v, x, hx => by
    simp only [Alike] at h
    obtain ⟨l, hp, hall, hnd⟩ := h
    obtain ⟨vals, r, rfl, rfl, hr⟩ := (unmarshal_struct_ok n b).1 hx
    refine (unmarshal_struct_ok m b).2 ⟨vals, r, rfl, rfl, ?_⟩
    have hm' : ∀ e ∈ l, ¬ e.Mark d := fun e he => facts_notMark e (hp.mem_iff.1 he)
    have h1 := readAll_congr (R := AlikeAt d dv tys) (fun i t x y => alikeAt_reads tys i t x y) hall facts_notMark hm' _ _ hr
    refine readAll_perm hp hm' ?_ h1
    rw [alike_targets hall]
    exact hnd
theorem alikeAt_reads : ∀ (tys : List Ty) (i : Nat) (t : Ty) (x y : Entry), AlikeAt d dv tys i x y → tys[i]? = some t → ∀ v w,
    readVal d dv x t v = .ok w → readVal d dv y t v = .ok w
  | [], _, _, _, _, h, _, _, _, _ => by simp only [AlikeAt] at h
  | t :: ts, 0, t', .elem n, .elem m, h, ht, v, w, hw => by
    simp only [List.getElem?_cons_zero, Option.some.injEq] at ht
    subst ht
    simp only [AlikeAt] at h
    exact alike_reads t n m h true v w hw
  | t :: ts, 0, t', .attr a, .attr b, h, ht, v, w, hw => by
    simp only [AlikeAt] at h
    simp only [readVal] at hw ⊢
    rwa [← h]
  | t :: ts, 0, t', .attr a, .elem m, h, ht, v, w, hw => by
    simp only [List.getElem?_cons_zero, Option.some.injEq] at ht
    subst ht
    simp only [AlikeAt] at h
    simp only [readVal] at hw ⊢
    rw [h.2] at hw
    exact (plain_attr_elem h.1 m v w true).1 hw
  | t :: ts, 0, t', .elem n, .attr b, h, ht, v, w, hw => by
    simp only [List.getElem?_cons_zero, Option.some.injEq] at ht
    subst ht
    simp only [AlikeAt] at h
    simp only [readVal] at hw ⊢
    rw [← h.2]
    exact (plain_attr_elem h.1 n v w true).2 hw
  | _ :: ts, i + 1, t, x, y, h, ht, v, w, hw => by
    simp only [AlikeAt] at h
    simp only [List.getElem?_cons_succ] at ht
    exact alikeAt_reads ts i t x y h ht v w hw
end

mutual
theorem alike_symm : ∀ (t : Ty) (n m : Node), Alike d dv t n m → Alike d dv t m n
  | .int _, n, m, h => by simp only [Alike] at h ⊢; exact h.symm
  | .uint _, n, m, h => by simp only [Alike] at h ⊢; exact h.symm
  | .bool, n, m, h => by simp only [Alike] at h ⊢; exact h.symm
  | .str, n, m, h => by simp only [Alike] at h ⊢; exact h.symm
  | .bytes, n, m, h => by simp only [Alike] at h ⊢; exact h.symm
  | .text _, n, m, h => by simp only [Alike] at h ⊢; exact h.symm
  | .alt, n, m, h => by simp only [Alike] at h ⊢; exact h.symm
  | .slice a t, n, m, h => by
    simp only [Alike] at h ⊢
    obtain ⟨p, q, hn, hm, hp, hq, hall⟩ := h
    exact ⟨q, p, hm, hn, hq, hp, (hall.imp (fun x y => alike_symm t x y)).flip⟩
  | .ptr t, n, m, h => by simp only [Alike] at h ⊢; exact alike_symm t n m h
  | .struct z infos tys, n, m, h => by
    simp only [Alike] at h ⊢
    obtain ⟨l, hp, hall, hnd⟩ := h
    have h2 : List.Forall₂ (fun x y => ∃ i, findStructField dv infos (x.label d) = some i ∧
        findStructField dv infos (y.label d) = some i ∧ AlikeAt d dv tys i x y) l (facts d n) :=
      (hall.imp (fun x y ⟨i, hx, hy, h⟩ => ⟨i, hy, hx, alikeAt_symm tys i x y h⟩)).flip
    obtain ⟨l', h3, h4⟩ := List.perm_comp_forall₂ hp.symm h2
    refine ⟨l', h4, h3, ?_⟩
    rw [← (hp.map _).nodup_iff, alike_targets hall]
    exact hnd
theorem alikeAt_symm : ∀ (tys : List Ty) (i : Nat) (x y : Entry), AlikeAt d dv tys i x y → AlikeAt d dv tys i y x
  | [], _, _, _, h => by simp only [AlikeAt] at h
  | t :: ts, 0, .elem n, .elem m, h => by simp only [AlikeAt] at h ⊢; exact alike_symm t n m h
  | t :: ts, 0, .attr a, .attr b, h => by simp only [AlikeAt] at h ⊢; exact h.symm
  | t :: ts, 0, .attr a, .elem m, h => by simp only [AlikeAt] at h ⊢; exact ⟨h.1, h.2.symm⟩
  | t :: ts, 0, .elem n, .attr b, h => by simp only [AlikeAt] at h ⊢; exact ⟨h.1, h.2.symm⟩
  | _ :: ts, i + 1, x, y, h => by simp only [AlikeAt] at h ⊢; exact alikeAt_symm ts i x y h
end

/-- **C76.**  Two elements that say the same about a value are read as the same value, into whatever was there before, or both
refused: a plain field can be an attribute or an element, a struct can be put into `rdf:Description` at any depth, have the mark
`rdf:parseType`, and give its fields in any order; arrays can be in any kind of container; all this at any depth. -/
theorem forms_read_alike (t : Ty) (n m : Node) (h : Alike d dv t n m) (b : Bool) (v x : Val) :
    unmarshal d dv n b t v = .ok x ↔ unmarshal d dv m b t v = .ok x :=
  ⟨alike_reads t n m h b v x, alike_reads t m n (alike_symm t n m h) b v x⟩

/-- **C76.**  The entries of an inner `rdf:Description` are read as if they stood in its place, whatever they are; a mark is read
as if it was not there. -/
theorem description_transparent (z : Option (List Val → Bool)) (infos : List FieldInfo) (tys : List Ty) (n m : Node)
    (h : facts d n = facts d m) (b : Bool) (v : Val) :
    unmarshal d dv n b (.struct z infos tys) v = unmarshal d dv m b (.struct z infos tys) v := by
  have he : ∀ n : Node, ∀ vals, unmarshal d dv n b (.struct z infos tys) (.struct vals) = (match readAll d dv infos tys (facts d n) vals with
      | .ok r => .ok (.struct r)
      | .err => .err
      | .panic => .panic) := by
    intro n vals
    have hs : readAll d dv infos tys (facts d n) vals = unmarshalStruct d dv n infos tys vals := by
      rw [struct_entries, facts]; exact (readAll_facts infos tys _ vals).symm
    rw [hs]
    obtain ⟨q, as, s, ns⟩ := n
    simp only [unmarshal, derefVal, unmarshalStruct, rewrap]
    cases unmarshalAttrs d dv infos tys as vals with
    | ok vs => rfl
    | err => rfl
    | panic => rfl
  cases v with
  | struct vals => rw [he, he, h]
  | _ =>
    obtain ⟨q, as, s, ns⟩ := n
    obtain ⟨q', as', s', ns'⟩ := m
    simp only [unmarshal, derefVal, setValue]

end Xmp.Props
