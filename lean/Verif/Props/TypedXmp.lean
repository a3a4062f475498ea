import Verif.Model.TypedXmp
import Verif.Lemmas.Typed
import Verif.Props.ArrayXmp
import Verif.Props.Translate

/-! C33: typed models survive XMP serialisation. -/

namespace Xmp.Props

open GoStr

/-! ### Specification: which values can be read back -/

/-- Values of simple types that survive as an attribute: numbers in range, strings without surrounding white space,
texts from which the type reads the value back. -/
def LeafFaithful : Ty → Val → Prop
  | .int bits, .int i => -(2 ^ (bits - 1) : Int) ≤ i ∧ i < (2 ^ (bits - 1) : Int)
  | .uint bits, .int i => 0 ≤ i ∧ i < (2 ^ bits : Int)
  | .bool, .bool _ => True
  | .str, .str s => Trimmed s
  | .bytes, .bytes _ => True
  | .text c, .opq k => ∃ s, c.enc k = some (some s) ∧ c.dec 0 s = some k
  | _, _ => False

/-- The same for pointers to simple values. -/
def AttrFaithful : Ty → Val → Prop
  | .ptr t, .ptr v => LeafFaithful t v
  | t, v => LeafFaithful t v

/-- Language alternatives that can be read back exactly (C16). -/
def AltFaithful (a : AltString) : Prop :=
  AltWritable a ∧ ∀ d rest, a = d :: rest → d.lang ≠ [] ∨ ∀ x ∈ rest, x.value ≠ d.value

mutual
/-- Values that survive as an element: as for attributes; arrays and language alternatives must not be empty, pointers
not nil.  Each field of a struct is either written, found under its name and survives, or it has its zero value. -/
def Faithful (dv : Version) : Ty → Val → Prop
  | .int bits, v => LeafFaithful (.int bits) v
  | .uint bits, v => LeafFaithful (.uint bits) v
  | .bool, v => LeafFaithful .bool v
  | .str, v => LeafFaithful .str v
  | .bytes, v => ∃ s, v = .bytes s ∧ Trimmed s
  | .text c, v => ∃ k o, v = .opq k ∧ c.enc k = some o ∧ c.dec 0 (trimSpace (o.getD [])) = some k
  | .alt, v => ∃ a, v = .alt a ∧ AltFaithful a
  | .slice _ t, v => ∃ l, v = .slice l [] ∧ l ≠ [] ∧ ∀ x ∈ l, Faithful dv t x
  | .ptr t, v => ∃ x, v = .ptr x ∧ t.deref = t ∧ Faithful dv t x
  | .struct _ infos tys, v => ∃ vals, v = .struct vals ∧ FaithfulFields dv tys infos 0 infos vals
/-- The fields of a struct from position `k` on; `all` are the infos of all fields. -/
def FaithfulFields (dv : Version) : List Ty → List FieldInfo → Nat → List FieldInfo → List Val → Prop
  | [], _, _, fs, vs => fs = [] ∧ vs = []
  | t :: ts, all, k, fs, vs => ∃ f fs' v vs', fs = f :: fs' ∧ vs = v :: vs' ∧
      (if fieldWritten f t v then
        findStructField dv all f.name = some k ∧ (if f.attr then AttrFaithful t v else Faithful dv t v)
      else v = t.zero) ∧ FaithfulFields dv ts all (k + 1) fs' vs'
end

mutual
/-- All field names in a type meet a condition. -/
def TyNames (P : Str → Prop) : Ty → Prop
  | .slice _ t => TyNames P t
  | .ptr t => TyNames P t
  | .struct _ infos tys => (∀ f ∈ infos, P f.name) ∧ TysNames P tys
  | _ => True
/-- All field names in a list of types. -/
def TysNames (P : Str → Prop) : List Ty → Prop
  | [] => True
  | t :: ts => TyNames P t ∧ TysNames P ts
end

/-- A field name that a decoder recognises in a document that binds prefixes with `uri`, and that is none of the names
with a meaning of their own. -/
structure NameOK (d : Dec) (uri : Str → Str) (nm : Str) : Prop where
  back : d.translate (reparseName uri ⟨[], nm⟩) = ⟨[], nm⟩
  notDescription : nm ≠ "rdf:Description".toList
  notSkipped : nm ∉ ["rdf:parseType".toList, "rdf:type".toList, "xml:lang".toList]

/-- The names that are written for arrays, language alternatives and structs. -/
def markupNames : List Str :=
  ["rdf:parseType".toList, "rdf:Seq".toList, "rdf:Bag".toList, "rdf:Alt".toList, "rdf:li".toList, "xml:lang".toList]

/-- The names inside of a node: of its attributes, its children and theirs. -/
def innerNames (n : Node) : List QName := n.attrs.map (·.name) ++ allNamesList n.nodes

/-- A decoder recognises the names inside of a written node. -/
def Understood (d : Dec) (uri : Str → Str) (n : Node) : Prop :=
  ∀ q ∈ innerNames n, q.loc ∉ markupNames → NameOK d uri q.loc

/-- A decoder that understands the `rdf` names of a document. -/
structure RdfOK (d : Dec) (uri : Str → Str) : Prop where
  bound : RdfBound d.reg uri
  parseType : d.translate (reparseName uri ⟨[], "rdf:parseType".toList⟩) = ⟨[], "rdf:parseType".toList⟩

/-! ### Leaves -/

theorem trimSpace_itoa (i : Int) : trimSpace (itoa i) = itoa i := trimSpace_of_trimmed (trimmed_itoa i)

theorem itoa_natCast (n : Nat) : itoa (n : Int) = natToStr n := by
  unfold itoa
  rw [if_neg (by omega)]
  simp

/-- Reading the text of a faithful leaf. -/
theorem leaf_reads {t : Ty} {v : Val} (h : LeafFaithful t v) (ht : ∀ c, t ≠ .text c) :
    ∃ s, marshalSimple v = some s ∧ leafText t v = some (some s) ∧ setValue t t.zero s = some v ∧
      ((∀ b, v ≠ .bytes b) → trimSpace s = s) := by
  cases t <;> cases v <;> simp only [LeafFaithful] at h
  case int.int bits i =>
    exact ⟨itoa i, rfl, rfl, by simp [setValue, parseInt_itoa h.1 h.2], fun _ => trimSpace_itoa i⟩
  case uint.int bits i =>
    refine ⟨itoa i, rfl, rfl, ?_, fun _ => trimSpace_itoa i⟩
    obtain ⟨n, rfl⟩ := Int.eq_ofNat_of_zero_le h.1
    have hn : n < 2 ^ bits := by exact_mod_cast h.2
    simp [setValue, itoa_natCast, parseUint_natToStr hn]
  case bool.bool b =>
    refine ⟨if b then "true".toList else "false".toList, rfl, rfl, ?_, fun _ => ?_⟩
    · cases b <;> rfl
    · cases b <;> decide
  case str.str s =>
    exact ⟨s, rfl, rfl, by simp [setValue, trimSpace_of_trimmed h], fun _ => trimSpace_of_trimmed h⟩
  case bytes.bytes s =>
    exact ⟨s, rfl, rfl, rfl, fun h => absurd rfl (h s)⟩
  case text.opq c k => exact absurd rfl (ht c)

theorem attrBase_leaf {t : Ty} {v : Val} (h : LeafFaithful t v) (ht : ∀ c, t ≠ .text c) (s : Str) :
    unmarshalAttrBase true t t.zero s = Res.ofOption (setValue t t.zero s) := by
  cases t <;> cases v <;> simp only [LeafFaithful] at h <;>
    first
    | rfl
    | exact absurd rfl (ht _)

/-- Reading a faithful leaf from its attribute text. -/
theorem attrBase_reads {t : Ty} {v : Val} (h : LeafFaithful t v) :
    ∃ s, leafText t v = some (some s) ∧ unmarshalAttrBase true t t.zero s = .ok v ∧ derefVal t t.zero = (t, t.zero) ∧
      (∀ x, rewrap t x = x) := by
  by_cases ht : ∀ c, t ≠ .text c
  · obtain ⟨s, -, h2, h3, -⟩ := leaf_reads h ht
    refine ⟨s, h2, by rw [attrBase_leaf h ht, h3]; rfl, ?_, ?_⟩
    · cases t <;> cases v <;> simp only [LeafFaithful] at h <;> rfl
    · cases t <;> cases v <;> simp only [LeafFaithful] at h <;> exact fun _ => rfl
  · simp only [ne_eq, not_forall, not_not] at ht
    obtain ⟨c, rfl⟩ := ht
    cases v <;> simp only [LeafFaithful] at h
    obtain ⟨s, h1, h2⟩ := h
    refine ⟨s, h1, ?_, rfl, fun _ => rfl⟩
    simp [unmarshalAttrBase, Ty.zero, h2, Res.ofOption]

/-- A faithful attribute is written and read back. -/
theorem attr_reads {t : Ty} {v : Val} (h : AttrFaithful t v) :
    ∃ s, attrText t v = some (some s) ∧ unmarshalAttr t t.zero s = .ok v := by
  by_cases ht : ∃ t' v', t = .ptr t' ∧ v = .ptr v'
  · obtain ⟨t', v', rfl, rfl⟩ := ht
    obtain ⟨s, h1, h2, -, -⟩ := attrBase_reads (t := t') (v := v') h
    refine ⟨s, h1, ?_⟩
    unfold unmarshalAttr
    simp only [Ty.zero, derefVal, h2, rewrap]
  · have h' : LeafFaithful t v := by
      cases t <;> cases v <;> first | exact h | exact absurd ⟨_, _, rfl, rfl⟩ ht
    obtain ⟨s, h1, h2, h3, h4⟩ := attrBase_reads h'
    refine ⟨s, ?_, ?_⟩
    · cases t <;> cases v <;> first | exact h1 | (simp only [LeafFaithful] at h')
    · unfold unmarshalAttr
      rw [h3]
      simp only [h2, h4]

/-! ### Small facts -/

theorem skipName_of {d : Dec} {uri : Str → Str} {nm : Str} (h : NameOK d uri nm) : skipName ⟨[], nm⟩ = false := by
  have h := h.notSkipped
  simp only [List.mem_cons, List.not_mem_nil, or_false, not_or] at h
  unfold skipName
  simp only [h.1, h.2.1, h.2.2, decide_false, Bool.or_false]
  rfl

theorem fullNameOf_nil (r : Registry) (nm : Str) : fullNameOf r ⟨[], nm⟩ = nm := rfl

theorem addAttr_fresh (a : Attr) : ∀ l : List Attr, (∀ x ∈ l, x.name.loc ≠ a.name.loc) → AttrList.addAttr a l = l ++ [a]
  | [], _ => rfl
  | x :: xs, h => by
    rw [AttrList.addAttr, if_neg (h x (by simp)), addAttr_fresh a xs (fun y hy => h y (by simp [hy]))]
    rfl

theorem addNode_fresh (n : Node) : ∀ l : List Node, (∀ x ∈ l, x.xmlName.loc ≠ n.xmlName.loc) → NodeList.addNode n l = l ++ [n]
  | [], _ => rfl
  | x :: xs, h => by
    rw [NodeList.addNode, if_neg (h x (by simp)), addNode_fresh n xs (fun y hy => h y (by simp [hy]))]
    rfl

/-- The values after the fields at some positions got their values of `vf`. -/
def putAll (vf : List Val) : List Val → List Nat → List Val
  | st, [] => st
  | st, i :: is =>
    match vf[i]? with
    | some v => putAll vf (st.set i v) is
    | none => putAll vf st is

theorem putAll_length (vf : List Val) : ∀ (is : List Nat) (st : List Val), (putAll vf st is).length = st.length := by
  intro is
  induction is with
  | nil => intro st; rfl
  | cons i is ih =>
    intro st
    rw [putAll]
    cases vf[i]? with
    | none => exact ih st
    | some v => simp only [ih, List.length_set]

theorem putAll_get (vf : List Val) : ∀ (is : List Nat) (st : List Val), st.length = vf.length → ∀ j,
    (putAll vf st is)[j]? = if j ∈ is then vf[j]? else st[j]? := by
  intro is
  induction is with
  | nil => intro st _ j; simp [putAll]
  | cons i is ih =>
    intro st hl j
    rw [putAll]
    cases hv : vf[i]? with
    | none =>
      simp only
      rw [ih st hl j]
      by_cases hj : j = i
      · subst hj
        have h1 : st[j]? = none := by
          rw [List.getElem?_eq_none_iff] at hv ⊢
          omega
        simp [hv, h1]
      · simp [hj]
    | some v =>
      simp only
      rw [ih _ (by simpa using hl) j]
      by_cases hj : j = i
      · subst hj
        have hlt : j < st.length := by
          rw [hl]
          exact (List.getElem?_eq_some_iff.1 hv).1
        by_cases hm : j ∈ is
        · simp [hm]
        · simp [hm, hlt, hv]
      · by_cases hm : j ∈ is
        · simp [hm]
        · simp [hm, hj, List.getElem?_set_ne (Ne.symm hj)]

/-! ### Attributes of a struct -/

/-- What an attribute written for field `i` means. -/
def GoodAttr (dv : Version) (all : List FieldInfo) (tf : List Ty) (vf : List Val) (i : Nat) (a : Attr) : Prop :=
  ∃ t v, tf[i]? = some t ∧ vf[i]? = some v ∧ findStructField dv all a.name.loc = some i ∧ a.name.space = [] ∧
    (∃ f, all[i]? = some f ∧ a.name.loc = f.name ∧ f.attr = true ∧ fieldWritten f t v = true ∧ AttrFaithful t v ∧
      attrText t v = some (some a.value)) ∧
    unmarshalAttr t t.zero a.value = .ok v

theorem attrs_written (dv : Version) (all : List FieldInfo) (tf : List Ty) (vf : List Val) : ∀ (ts : List Ty) (k : Nat) (fs : List FieldInfo) (vs : List Val) (n : Node),
    FaithfulFields dv ts all k fs vs → (∀ j, tf[k + j]? = ts[j]?) → (∀ j, vf[k + j]? = vs[j]?) →
    (∀ j, all[k + j]? = fs[j]?) → (∀ a ∈ n.attrs, ∃ j, j < k ∧ findStructField dv all a.name.loc = some j) →
    ∃ outs : List (Nat × Attr), marshalAttrs fs ts vs n = some (n.setAttrs (n.attrs ++ outs.map (·.2))) ∧
      (∀ o ∈ outs, k ≤ o.1 ∧ GoodAttr dv all tf vf o.1 o.2) ∧ (outs.map (·.1)).Nodup ∧
      (∀ i f t v, k ≤ i → all[i]? = some f → tf[i]? = some t → vf[i]? = some v → f.attr = true →
        fieldWritten f t v = true → i ∈ outs.map (·.1)) ∧
      (∀ o ∈ outs, ∃ f, all[o.1]? = some f ∧ f.attr = true) := by
  intro ts
  induction ts with
  | nil =>
    intro k fs vs n hf ht hv ha hfresh
    rw [FaithfulFields] at hf
    obtain ⟨rfl, rfl⟩ := hf
    refine ⟨[], ?_, by simp, by simp, ?_, by simp⟩
    · cases n; simp [marshalAttrs, Node.setAttrs, Node.attrs]
    · intro i f t v hi h1 h2
      have := ht (i - k)
      rw [show k + (i - k) = i by omega, h2] at this
      simp at this
  | cons t ts ih =>
    intro k fs vs n hf ht hv ha hfresh
    rw [FaithfulFields] at hf
    obtain ⟨f, fs, v, vs, rfl, rfl, hc, hrest⟩ := hf
    have ht0 : tf[k]? = some t := by have := ht 0; simpa using this
    have hv0 : vf[k]? = some v := by have := hv 0; simpa using this
    have ha0 : all[k]? = some f := by have := ha 0; simpa using this
    have ht' : ∀ j, tf[k + 1 + j]? = ts[j]? := fun j => by have := ht (j + 1); rw [List.getElem?_cons_succ] at this; rw [← this]; congr 1; omega
    have hv' : ∀ j, vf[k + 1 + j]? = vs[j]? := fun j => by have := hv (j + 1); rw [List.getElem?_cons_succ] at this; rw [← this]; congr 1; omega
    have ha' : ∀ j, all[k + 1 + j]? = fs[j]? := fun j => by have := ha (j + 1); rw [List.getElem?_cons_succ] at this; rw [← this]; congr 1; omega
    rw [marshalAttrs]
    by_cases hw : (f.attr && fieldWritten f t v) = true
    · rw [if_pos hw]
      simp only [Bool.and_eq_true] at hw
      rw [if_pos hw.2, if_pos hw.1] at hc
      obtain ⟨s, hs1, hs2⟩ := attr_reads hc.2
      have hm : marshalAttr f t v n = some (n.addAttr ⟨⟨[], f.name⟩, s⟩) := by
        unfold marshalAttr; rw [hs1]
      rw [hm]
      simp only
      have hadd : (n.addAttr ⟨⟨[], f.name⟩, s⟩) = n.setAttrs (n.attrs ++ [⟨⟨[], f.name⟩, s⟩]) := by
        unfold Node.addAttr
        rw [addAttr_fresh]
        intro x hx he
        obtain ⟨j, hj1, hj2⟩ := hfresh x hx
        simp only at he
        rw [he, hc.1] at hj2
        have := Option.some.inj hj2
        omega
      rw [hadd]
      have hfresh' : ∀ a ∈ (n.setAttrs (n.attrs ++ [⟨⟨[], f.name⟩, s⟩])).attrs, ∃ j, j < k + 1 ∧ findStructField dv all a.name.loc = some j := by
        intro a ha
        have : (n.setAttrs (n.attrs ++ [⟨⟨[], f.name⟩, s⟩])).attrs = n.attrs ++ [⟨⟨[], f.name⟩, s⟩] := by cases n; rfl
        rw [this, List.mem_append, List.mem_singleton] at ha
        rcases ha with ha | rfl
        · obtain ⟨j, h1, h2⟩ := hfresh a ha
          exact ⟨j, by omega, h2⟩
        · exact ⟨k, by omega, hc.1⟩
      obtain ⟨outs, h1, h2, h3, h4, h5⟩ := ih (k + 1) fs vs _ hrest ht' hv' ha' hfresh'
      refine ⟨(k, ⟨⟨[], f.name⟩, s⟩) :: outs, ?_, ?_, ?_, ?_, ?_⟩
      · rw [h1]
        cases n
        simp [Node.setAttrs, Node.attrs]
      · intro o ho
        rcases List.mem_cons.1 ho with rfl | ho
        · exact ⟨Nat.le_refl _, t, v, ht0, hv0, hc.1, rfl, ⟨f, ha0, rfl, hw.1, hw.2, hc.2, hs1⟩, hs2⟩
        · have := h2 o ho
          exact ⟨by omega, this.2⟩
      · rw [List.map_cons, List.nodup_cons]
        refine ⟨?_, h3⟩
        intro hk
        obtain ⟨o, ho, hok⟩ := List.mem_map.1 hk
        have := (h2 o ho).1
        simp only at hok
        omega
      · intro i f' t' v' hi e1 e2 e3 e4 e5
        rw [List.map_cons, List.mem_cons]
        by_cases hik : i = k
        · exact Or.inl hik
        · exact Or.inr (h4 i f' t' v' (by omega) e1 e2 e3 e4 e5)
      · intro o ho
        rcases List.mem_cons.1 ho with rfl | ho
        · exact ⟨f, ha0, hw.1⟩
        · exact h5 o ho
    · rw [if_neg hw]
      have hfresh' : ∀ a ∈ n.attrs, ∃ j, j < k + 1 ∧ findStructField dv all a.name.loc = some j := by
        intro a ha
        obtain ⟨j, h1, h2⟩ := hfresh a ha
        exact ⟨j, by omega, h2⟩
      obtain ⟨outs, h1, h2, h3, h4, h5⟩ := ih (k + 1) fs vs _ hrest ht' hv' ha' hfresh'
      refine ⟨outs, h1, ?_, h3, ?_, h5⟩
      · intro o ho
        have := h2 o ho
        exact ⟨by omega, this.2⟩
      · intro i f' t' v' hi e1 e2 e3 e4 e5
        by_cases hik : i = k
        · subst hik
          rw [ha0] at e1; rw [ht0] at e2; rw [hv0] at e3
          cases e1; cases e2; cases e3
          exact absurd (by simp [e4, e5]) hw
        · exact h4 i f' t' v' (by omega) e1 e2 e3 e4 e5

theorem attrs_read (d : Dec) (dv : Version) (uri : Str → Str) (all : List FieldInfo) (tf : List Ty) (vf : List Val)
    (tail : List Attr) : ∀ (outs : List (Nat × Attr)) (st : List Val),
    (∀ o ∈ outs, GoodAttr dv all tf vf o.1 o.2) → (∀ o ∈ outs, NameOK d uri o.2.name.loc) → (outs.map (·.1)).Nodup →
    (∀ o ∈ outs, ∀ t, tf[o.1]? = some t → st[o.1]? = some t.zero) →
    unmarshalAttrs d dv all tf ((outs.map (·.2)).map (fun x => { x with name := reparseName uri x.name }) ++ tail) st =
      unmarshalAttrs d dv all tf tail (putAll vf st (outs.map (·.1))) := by
  intro outs
  induction outs with
  | nil => intro st _ _ _ _; rfl
  | cons o outs ih =>
    intro st hg hok hnd hz
    obtain ⟨t, v, h1, h2, h3, h4, -, h6⟩ := hg o (by simp)
    have h5 := hok o (by simp)
    obtain ⟨i, a⟩ := o
    simp only at h1 h2 h3 h4 h5 h6
    obtain ⟨⟨sp, loc⟩, val⟩ := a
    simp only at h3 h4 h5 h6
    subst h4
    simp only [List.map_cons, List.cons_append]
    rw [unmarshalAttrs]
    simp only [h5.back, skipName_of h5, Bool.false_eq_true, if_false, h3, h1, hz _ List.mem_cons_self t h1, h6]
    rw [ih (st.set i v) (fun o ho => hg o (by simp [ho])) (fun o ho => hok o (by simp [ho])) (List.nodup_cons.1 hnd).2]
    · rw [putAll, h2]
    · intro o ho t' ht'
      have : o.1 ≠ i := by
        intro e
        exact (List.nodup_cons.1 hnd).1 (List.mem_map.2 ⟨o, ho, e⟩)
      rw [List.getElem?_set_ne (Ne.symm this)]
      exact hz o (by simp [ho]) t' ht'

/-! ### Elements of a struct -/

/-- What an element written for field `i` means. -/
def GoodNode (d : Dec) (dv : Version) (uri : Str → Str) (all : List FieldInfo) (tf : List Ty) (vf : List Val) (i : Nat) (x : Node) : Prop :=
  ∃ t v nm, tf[i]? = some t ∧ vf[i]? = some v ∧ x.xmlName = ⟨[], nm⟩ ∧ findStructField dv all nm = some i ∧
    (∃ f, all[i]? = some f ∧ nm = f.name) ∧ (Understood d uri x → unmarshal d dv (x.reparse uri) true t t.zero = .ok v)

/-- The round trip of one value, the statement proved by induction over types. -/
def RoundTrips (d : Dec) (dv : Version) (uri : Str → Str) (t : Ty) : Prop :=
  ∀ v name, Faithful dv t v → ∃ n, marshalValue t v (Node.new name) = some n ∧ n.xmlName = name ∧
    (Understood d uri n → ∀ info, unmarshal d dv (n.reparse uri) info t t.zero = .ok v)

theorem fields_written (d : Dec) (dv : Version) (uri : Str → Str) (all : List FieldInfo) (tf : List Ty) (vf : List Val) : ∀ (ts : List Ty) (k : Nat) (fs : List FieldInfo) (vs : List Val) (n : Node),
    (∀ t ∈ ts, RoundTrips d dv uri t) →
    FaithfulFields dv ts all k fs vs → (∀ j, tf[k + j]? = ts[j]?) → (∀ j, vf[k + j]? = vs[j]?) →
    (∀ j, all[k + j]? = fs[j]?) → (∀ x ∈ n.nodes, ∃ j, j < k ∧ findStructField dv all x.xmlName.loc = some j) →
    ∃ (outs : List (Nat × Node)), marshalFields ts fs vs n = some (n.setNodes (n.nodes ++ outs.map (·.2)), !outs.isEmpty) ∧
      (∀ o ∈ outs, k ≤ o.1 ∧ GoodNode d dv uri all tf vf o.1 o.2) ∧ (outs.map (·.1)).Nodup ∧
      (∀ i f t v, k ≤ i → all[i]? = some f → tf[i]? = some t → vf[i]? = some v → f.attr = false →
        fieldWritten f t v = true → i ∈ outs.map (·.1)) ∧
      (∀ o ∈ outs, ∃ f, all[o.1]? = some f ∧ f.attr = false) := by
  intro ts
  induction ts with
  | nil =>
    intro k fs vs n _ hf ht hv ha hfresh
    rw [FaithfulFields] at hf
    obtain ⟨rfl, rfl⟩ := hf
    refine ⟨[], ?_, by simp, by simp, ?_, by simp⟩
    · cases n; simp [marshalFields, Node.setNodes, Node.nodes]
    · intro i f t v hi h1 h2
      have := ht (i - k)
      rw [show k + (i - k) = i by omega, h2] at this
      simp at this
  | cons t ts ih =>
    intro k fs vs n hrt hf ht hv ha hfresh
    rw [FaithfulFields] at hf
    obtain ⟨f, fs, v, vs, rfl, rfl, hc, hrest⟩ := hf
    have ht0 : tf[k]? = some t := by have := ht 0; simpa using this
    have hv0 : vf[k]? = some v := by have := hv 0; simpa using this
    have ha0 : all[k]? = some f := by have := ha 0; simpa using this
    have ht' : ∀ j, tf[k + 1 + j]? = ts[j]? := fun j => by have := ht (j + 1); rw [List.getElem?_cons_succ] at this; rw [← this]; congr 1; omega
    have hv' : ∀ j, vf[k + 1 + j]? = vs[j]? := fun j => by have := hv (j + 1); rw [List.getElem?_cons_succ] at this; rw [← this]; congr 1; omega
    have ha' : ∀ j, all[k + 1 + j]? = fs[j]? := fun j => by have := ha (j + 1); rw [List.getElem?_cons_succ] at this; rw [← this]; congr 1; omega
    have hrt' : ∀ t ∈ ts, RoundTrips d dv uri t := fun t ht => hrt t (by simp [ht])
    rw [marshalFields]
    by_cases hw : (!f.attr && fieldWritten f t v) = true
    · rw [if_pos hw]
      simp only [Bool.and_eq_true, Bool.not_eq_true'] at hw
      rw [if_pos hw.2, if_neg (by simp [hw.1])] at hc
      obtain ⟨x, hx1, hx2, hx3⟩ := hrt t (by simp) v ⟨[], f.name⟩ hc.2
      rw [hx1]
      simp only
      have hadd : n.addNode x = n.setNodes (n.nodes ++ [x]) := by
        unfold Node.addNode
        rw [addNode_fresh]
        intro y hy he
        obtain ⟨j, hj1, hj2⟩ := hfresh y hy
        rw [he, hx2] at hj2
        simp only at hj2
        rw [hc.1] at hj2
        have := Option.some.inj hj2
        omega
      rw [hadd]
      have hfresh' : ∀ a ∈ (n.setNodes (n.nodes ++ [x])).nodes, ∃ j, j < k + 1 ∧ findStructField dv all a.xmlName.loc = some j := by
        intro a ha
        have : (n.setNodes (n.nodes ++ [x])).nodes = n.nodes ++ [x] := by cases n; rfl
        rw [this, List.mem_append, List.mem_singleton] at ha
        rcases ha with ha | rfl
        · obtain ⟨j, h1, h2⟩ := hfresh a ha
          exact ⟨j, by omega, h2⟩
        · exact ⟨k, by omega, by rw [hx2]; exact hc.1⟩
      obtain ⟨outs, h1, h2, h3, h4, h5⟩ := ih (k + 1) fs vs _ hrt' hrest ht' hv' ha' hfresh'
      refine ⟨(k, x) :: outs, ?_, ?_, ?_, ?_, ?_⟩
      · rw [h1]
        cases n
        simp [Node.setNodes, Node.nodes]
      · intro o ho
        rcases List.mem_cons.1 ho with rfl | ho
        · exact ⟨Nat.le_refl _, t, v, f.name, ht0, hv0, hx2, hc.1, ⟨f, ha0, rfl⟩, fun hu => hx3 hu true⟩
        · have := h2 o ho
          exact ⟨by omega, this.2⟩
      · rw [List.map_cons, List.nodup_cons]
        refine ⟨?_, h3⟩
        intro hk
        obtain ⟨o, ho, hok⟩ := List.mem_map.1 hk
        have := (h2 o ho).1
        simp only at hok
        omega
      · intro i f' t' v' hi e1 e2 e3 e4 e5
        rw [List.map_cons, List.mem_cons]
        by_cases hik : i = k
        · exact Or.inl hik
        · exact Or.inr (h4 i f' t' v' (by omega) e1 e2 e3 e4 e5)
      · intro o ho
        rcases List.mem_cons.1 ho with rfl | ho
        · exact ⟨f, ha0, hw.1⟩
        · exact h5 o ho
    · rw [if_neg hw]
      have hfresh' : ∀ a ∈ n.nodes, ∃ j, j < k + 1 ∧ findStructField dv all a.xmlName.loc = some j := by
        intro a ha
        obtain ⟨j, h1, h2⟩ := hfresh a ha
        exact ⟨j, by omega, h2⟩
      obtain ⟨outs, h1, h2, h3, h4, h5⟩ := ih (k + 1) fs vs _ hrt' hrest ht' hv' ha' hfresh'
      refine ⟨outs, h1, ?_, h3, ?_, h5⟩
      · intro o ho
        have := h2 o ho
        exact ⟨by omega, this.2⟩
      · intro i f' t' v' hi e1 e2 e3 e4 e5
        by_cases hik : i = k
        · subst hik
          rw [ha0] at e1; rw [ht0] at e2; rw [hv0] at e3
          cases e1; cases e2; cases e3
          exact absurd (by simp [e4, e5]) hw
        · exact h4 i f' t' v' (by omega) e1 e2 e3 e4 e5

theorem nodes_read (d : Dec) (dv : Version) (uri : Str → Str) (all : List FieldInfo) (tf : List Ty) (vf : List Val) :
    ∀ (outs : List (Nat × Node)) (st : List Val),
    (∀ o ∈ outs, GoodNode d dv uri all tf vf o.1 o.2) → (∀ o ∈ outs, NameOK d uri o.2.xmlName.loc ∧ Understood d uri o.2) →
    (outs.map (·.1)).Nodup →
    (∀ o ∈ outs, ∀ t, tf[o.1]? = some t → st[o.1]? = some t.zero) →
    unmarshalNodes d dv ((outs.map (·.2)).map (Node.reparse uri)) all tf st = .ok (putAll vf st (outs.map (·.1))) := by
  intro outs
  induction outs with
  | nil => intro st _ _ _ _; simp [unmarshalNodes, putAll]
  | cons o outs ih =>
    intro st hg hok hnd hz
    obtain ⟨t, v, nm, h1, h2, h3, h4, -, h6⟩ := hg o (by simp)
    obtain ⟨h5, hu⟩ := hok o (by simp)
    have h6 := h6 hu
    obtain ⟨i, x⟩ := o
    simp only at h1 h2 h3 h4 h5 h6
    rw [h3] at h5
    simp only [List.map_cons]
    rw [unmarshalNodes]
    simp only [xmlName_reparse, h3, h5.back, fullNameOf_nil, h5.notDescription, skipName_of h5, Bool.false_eq_true, if_false,
      h4, h1, hz _ List.mem_cons_self t h1, h6]
    rw [ih (st.set i v) (fun o ho => hg o (by simp [ho])) (fun o ho => hok o (by simp [ho])) (List.nodup_cons.1 hnd).2]
    · rw [putAll, h2]
    · intro o ho t' ht'
      have : o.1 ≠ i := by
        intro e
        exact (List.nodup_cons.1 hnd).1 (List.mem_map.2 ⟨o, ho, e⟩)
      rw [List.getElem?_set_ne (Ne.symm this)]
      exact hz o (by simp [ho]) t' ht'

/-! ### The induction -/

theorem zeros_get_ty (ts : List Ty) (i : Nat) : (Ty.zeros ts)[i]? = (ts[i]?).map Ty.zero := by
  induction ts generalizing i with
  | nil => simp [Ty.zeros]
  | cons t ts ih =>
    rw [Ty.zeros]
    cases i with
    | zero => simp
    | succ i => simp [ih]

theorem faithfulFields_get {dv : Version} {all : List FieldInfo} : ∀ {ts : List Ty} {k : Nat} {fs : List FieldInfo} {vs : List Val},
    FaithfulFields dv ts all k fs vs → fs.length = ts.length ∧ vs.length = ts.length ∧
      ∀ (j : Nat) f t v, fs[j]? = some f → ts[j]? = some t → vs[j]? = some v → fieldWritten f t v = true ∨ v = t.zero := by
  intro ts
  induction ts with
  | nil =>
    intro k fs vs h
    rw [FaithfulFields] at h
    obtain ⟨rfl, rfl⟩ := h
    exact ⟨rfl, rfl, by simp⟩
  | cons t ts ih =>
    intro k fs vs h
    rw [FaithfulFields] at h
    obtain ⟨f, fs, v, vs, rfl, rfl, hc, hr⟩ := h
    obtain ⟨h1, h2, h3⟩ := ih hr
    refine ⟨by simp [h1], by simp [h2], ?_⟩
    intro j f' t' v' e1 e2 e3
    cases j with
    | zero =>
      simp only [List.getElem?_cons_zero, Option.some.injEq] at e1 e2 e3
      subst e1; subst e2; subst e3
      by_cases hw : fieldWritten f t v = true
      · exact Or.inl hw
      · rw [if_neg hw] at hc; exact Or.inr hc
    | succ j =>
      simp only [List.getElem?_cons_succ] at e1 e2 e3
      exact h3 j f' t' v' e1 e2 e3

theorem xmlName_mem_allNames (n : Node) : n.xmlName ∈ allNames n := by
  cases n; simp [allNames, Node.xmlName]

theorem innerNames_sub (n : Node) {q : QName} (h : q ∈ innerNames n) : q ∈ allNames n := by
  cases n
  simp only [innerNames, Node.attrs, Node.nodes] at h
  simp only [allNames, List.cons_append, List.mem_cons]
  exact Or.inr h

theorem mem_allNamesList {l : List Node} {n : Node} (hn : n ∈ l) {q : QName} (h : q ∈ allNames n) : q ∈ allNamesList l := by
  induction l with
  | nil => cases hn
  | cons x l ih =>
    rw [allNamesList, List.mem_append]
    rcases List.mem_cons.1 hn with rfl | hn
    · exact Or.inl h
    · exact Or.inr (ih hn)

theorem struct_roundtrips (d : Dec) (dv : Version) (uri : Str → Str) (hr : RdfOK d uri) (z : Option (List Val → Bool))
    (infos : List FieldInfo) (tys : List Ty) (hn : ∀ f ∈ infos, f.name ∉ markupNames)
    (hrt : ∀ t ∈ tys, RoundTrips d dv uri t) : RoundTrips d dv uri (.struct z infos tys) := by
  intro v name hf
  rw [Faithful] at hf
  obtain ⟨vals, rfl, hf⟩ := hf
  obtain ⟨hl1, hl2, hzero⟩ := faithfulFields_get hf
  obtain ⟨as, ha1, ha2, ha3, ha4, ha5⟩ := attrs_written dv infos tys vals tys 0 infos vals (Node.new name) hf
    (fun j => by rw [Nat.zero_add]) (fun j => by rw [Nat.zero_add]) (fun j => by rw [Nat.zero_add]) (by simp [Node.new, Node.attrs])
  obtain ⟨es, he1, he2, he3, he4, he5⟩ := fields_written d dv uri infos tys vals tys 0 infos vals
    ((Node.new name).setAttrs ((Node.new name).attrs ++ as.map (·.2))) hrt hf
    (fun j => by rw [Nat.zero_add]) (fun j => by rw [Nat.zero_add]) (fun j => by rw [Nat.zero_add]) (by simp [Node.new, Node.nodes, Node.setAttrs])
  have hes : marshalFields tys infos vals ((Node.new name).setAttrs ((Node.new name).attrs ++ as.map (·.2))) =
      some (.mk name (as.map (·.2)) [] (es.map (·.2)), !es.isEmpty) := by
    rw [he1]; rfl
  -- the node that is written
  have hout : ∃ p : List Attr, (p = [] ∨ p = [rdfResourceAttr]) ∧
      marshalValue (.struct z infos tys) (.struct vals) (Node.new name) =
        some (.mk name (as.map (·.2) ++ p) [] (es.map (·.2))) := by
    rw [marshalValue]
    simp only [ha1, hes]
    by_cases hc : ((!es.isEmpty) && decide ((Node.mk name (as.map (·.2)) [] (es.map (·.2))).xmlName ≠ rdfDescription)) = true
    · rw [if_pos hc]
      refine ⟨[rdfResourceAttr], Or.inr rfl, ?_⟩
      unfold Node.addAttr
      rw [addAttr_fresh]
      · rfl
      · intro x hx he
        obtain ⟨o, ho, rfl⟩ := List.mem_map.1 hx
        obtain ⟨t, v, _, _, _, _, ⟨f, hf1, hf2⟩, _⟩ := (ha2 o ho).2
        apply hn f (List.mem_of_getElem? hf1)
        rw [← hf2.1, he]
        simp [rdfResourceAttr, markupNames]
    · rw [if_neg hc]
      exact ⟨[], Or.inl rfl, by simp⟩
  obtain ⟨p, hp, hout⟩ := hout
  refine ⟨_, hout, rfl, ?_⟩
  intro hu info
  have hna : ∀ o ∈ as, NameOK d uri o.2.name.loc := by
    intro o ho
    apply hu o.2.name
    · simp only [innerNames, Node.attrs, List.map_append, List.mem_append, List.mem_map]
      exact Or.inl (Or.inl ⟨o.2, ⟨o, ho, rfl⟩, rfl⟩)
    · obtain ⟨t, v, _, _, _, _, ⟨f, hf1, hf2⟩, _⟩ := (ha2 o ho).2
      rw [hf2.1]
      exact hn f (List.mem_of_getElem? hf1)
  have hne : ∀ o ∈ es, NameOK d uri o.2.xmlName.loc ∧ Understood d uri o.2 := by
    intro o ho
    have hsub : ∀ q ∈ allNames o.2, q ∈ innerNames (.mk name (as.map (·.2) ++ p) [] (es.map (·.2))) := by
      intro q hq
      simp only [innerNames, Node.nodes, List.mem_append]
      exact Or.inr (mem_allNamesList (List.mem_map.2 ⟨o, ho, rfl⟩) hq)
    constructor
    · apply hu o.2.xmlName (hsub _ (xmlName_mem_allNames _))
      obtain ⟨t, v, nm, _, _, h3, _, ⟨f, hf1, hf2⟩, _⟩ := (he2 o ho).2
      rw [h3, hf2]
      exact hn f (List.mem_of_getElem? hf1)
    · exact fun q hq => hu q (hsub q (innerNames_sub _ hq))
  rw [Node.reparse, unmarshal]
  simp only [Ty.zero, derefVal]
  -- the attributes
  have hz0 : ∀ (i : Nat) t, tys[i]? = some t → (Ty.zeros tys)[i]? = some t.zero := by
    intro i t ht
    rw [zeros_get_ty, ht]; rfl
  have hat : unmarshalAttrs d dv infos tys ((as.map (·.2) ++ p).map (fun x => { x with name := reparseName uri x.name }))
      (Ty.zeros tys) = .ok (putAll vals (Ty.zeros tys) (as.map (·.1))) := by
    rw [List.map_append, attrs_read d dv uri infos tys vals _ as _ (fun o ho => (ha2 o ho).2) hna ha3 (fun o _ t ht => hz0 _ t ht)]
    rcases hp with rfl | rfl
    · rfl
    · rw [List.map_cons, List.map_nil, unmarshalAttrs]
      simp only [rdfResourceAttr, hr.parseType]
      rw [if_pos (by decide)]
      rfl
  have hzl : (Ty.zeros tys).length = vals.length := by
    have : ∀ ts : List Ty, (Ty.zeros ts).length = ts.length := by
      intro ts
      induction ts with
      | nil => rfl
      | cons t ts ih => simp [Ty.zeros, ih]
    rw [this, hl2]
  have hnd : unmarshalNodes d dv (Node.reparseList uri (es.map (·.2))) infos tys (putAll vals (Ty.zeros tys) (as.map (·.1))) =
      .ok (putAll vals (putAll vals (Ty.zeros tys) (as.map (·.1))) (es.map (·.1))) := by
    rw [reparseList_eq_map]
    apply nodes_read
    · exact fun o ho => (he2 o ho).2
    · exact hne
    · exact he3
    · intro o ho t ht
      rw [putAll_get vals _ _ hzl, if_neg, hz0 _ t ht]
      intro hm
      obtain ⟨o', ho', e⟩ := List.mem_map.1 hm
      obtain ⟨f, f1, f2⟩ := he5 o ho
      obtain ⟨f', f1', f2'⟩ := ha5 o' ho'
      rw [e, f1] at f1'
      cases f1'
      rw [f2] at f2'
      cases f2'
  rw [hat]
  simp only
  rw [hnd]
  simp only [rewrap]
  congr 2
  apply List.ext_getElem?
  intro i
  rw [putAll_get vals _ _ (by rw [putAll_length, hzl]), putAll_get vals _ _ hzl]
  by_cases hie : i ∈ es.map (·.1)
  · rw [if_pos hie]
  · rw [if_neg hie]
    by_cases hia : i ∈ as.map (·.1)
    · rw [if_pos hia]
    · rw [if_neg hia]
      cases hv : vals[i]? with
      | none =>
        rw [List.getElem?_eq_none_iff] at hv ⊢
        omega
      | some v =>
        have hlt : i < vals.length := (List.getElem?_eq_some_iff.1 hv).1
        have hti : tys[i]? = some (tys[i]'(by omega)) := List.getElem?_eq_getElem _
        have hfi : infos[i]? = some (infos[i]'(by omega)) := List.getElem?_eq_getElem _
        rcases hzero i _ _ v hfi hti hv with hw | hz
        · exfalso
          cases hattr : (infos[i]'(by omega)).attr with
          | true => exact hia (ha4 i _ _ v (Nat.zero_le _) hfi hti hv hattr hw)
          | false => exact hie (he4 i _ _ v (Nat.zero_le _) hfi hti hv hattr hw)
        · rw [hz]
          exact hz0 i _ hti

theorem value_setValue (n : Node) (s : Str) : (n.setValue s).value = s := by cases n; rfl

theorem nodes_new (name : QName) : (Node.new name).nodes = [] := rfl

theorem simple_roundtrips (d : Dec) (dv : Version) (uri : Str → Str) {t : Ty} {v : Val} (name : QName) (h : LeafFaithful t v)
    (ht : ∀ c, t ≠ .text c) (hb : ∀ b, v = .bytes b → Trimmed b)
    (hm : ∀ n, marshalValue t v n = (marshalSimple v).map n.setValue) :
    ∃ n, marshalValue t v (Node.new name) = some n ∧ n.xmlName = name ∧
      (Understood d uri n → ∀ info, unmarshal d dv (n.reparse uri) info t t.zero = .ok v) := by
  obtain ⟨s, h1, -, h3, h4⟩ := leaf_reads h ht
  refine ⟨(Node.new name).setValue s, by rw [hm, h1]; rfl, rfl, ?_⟩
  intro _ info
  have hs : trimSpace s = s := by
    by_cases hvb : ∀ b, v ≠ .bytes b
    · exact h4 hvb
    · simp only [ne_eq, not_forall, not_not] at hvb
      obtain ⟨b, rfl⟩ := hvb
      have : s = b := (Option.some.inj h1).symm
      rw [this]
      exact trimSpace_of_trimmed (hb b rfl)
  simp only [Node.new, Node.setValue, Node.reparse]
  rw [unmarshal]
  cases t <;> cases v <;> simp only [LeafFaithful] at h <;>
    first
    | (simp only [derefVal, Ty.zero, hs] at h3 ⊢; rw [h3]; rfl)
    | exact absurd rfl (ht _)

theorem unmarshal_ptr (d : Dec) (dv : Version) (n : Node) (info : Bool) (t : Ty) (ht : t.deref = t) (v : Val)
    (h : unmarshal d dv n info t t.zero = .ok v) : unmarshal d dv n info (.ptr t) .nil = .ok (.ptr v) := by
  cases n with
  | mk nm attrs value nodes =>
    rw [unmarshal] at h ⊢
    cases t with
    | ptr t' =>
      simp only [Ty.deref] at ht
      exact absurd ht (by
        intro h
        have := congrArg sizeOf h
        simp at this)
    | _ =>
      simp only [derefVal, Ty.zero, rewrap] at h ⊢
      revert h
      cases info <;> (try simp only [failField, Bool.false_eq_true, if_false, if_true]) <;>
      first
      | (split <;> intro h <;> cases h <;> rfl)
      | (split
         · split <;> intro h <;> cases h <;> rfl
         · intro h; cases h
         · intro h; cases h)

/-- The elements of an array, written and read back. -/
theorem items_roundtrip (d : Dec) (dv : Version) (uri : Str → Str) (hr : RdfOK d uri) (t : Ty) (hrt : RoundTrips d dv uri t) :
    ∀ (l : List Val), (∀ x ∈ l, Faithful dv t x) → ∃ lis, l.mapM (fun v => marshalValue t v liNode) = some lis ∧
      ((∀ n ∈ lis, Understood d uri n) → ∀ out, unmarshalItems d dv (lis.map (Node.reparse uri)) t out = .ok (out ++ l)) := by
  intro l
  induction l with
  | nil => intro _; exact ⟨[], rfl, fun _ out => by simp [unmarshalItems]⟩
  | cons x xs ih =>
    intro h
    obtain ⟨n, h1, h2, h3⟩ := hrt x ⟨[], "rdf:li".toList⟩ (h x (by simp))
    obtain ⟨lis, h4, h5⟩ := ih (fun y hy => h y (by simp [hy]))
    refine ⟨n :: lis, ?_, ?_⟩
    · rw [List.mapM_cons, show marshalValue t x liNode = some n from h1, h4]
      rfl
    · intro hu out
      rw [List.map_cons, unmarshalItems]
      have : (n.reparse uri).xmlName = ⟨uri "rdf".toList, "li".toList⟩ := by
        rw [xmlName_reparse, h2, reparseName_li]
      rw [if_neg (by simp [fullName_li_parsed d.reg uri hr.bound _ this]), h3 (hu n (by simp)) false]
      simp only
      rw [h5 (fun m hm => hu m (by simp [hm]))]
      simp

theorem slice_roundtrips (d : Dec) (dv : Version) (uri : Str → Str) (hr : RdfOK d uri) (typ : ArrayType) (t : Ty)
    (hrt : RoundTrips d dv uri t) : RoundTrips d dv uri (.slice typ t) := by
  intro v name hf
  rw [Faithful] at hf
  obtain ⟨l, rfl, hne, hf⟩ := hf
  obtain ⟨lis, h1, h2⟩ := items_roundtrip d dv uri hr t hrt l hf
  refine ⟨(Node.new name).addNode ((Node.new ⟨[], "rdf:".toList ++ typ.toStr⟩).setNodes lis), ?_, rfl, ?_⟩
  · rw [marshalValue]
    unfold marshalArray
    rw [if_neg (by simpa using hne), h1]
    rfl
  · intro hu info
    have hu' : ∀ n ∈ lis, Understood d uri n := by
      intro n hn q hq
      apply hu q
      have : q ∈ allNamesList lis := mem_allNamesList hn (innerNames_sub n hq)
      simp only [innerNames, Node.addNode, NodeList.addNode, Node.new, Node.setNodes, Node.nodes, Node.attrs, allNamesList, allNames,
        List.mem_append, List.mem_cons]
      exact Or.inr (Or.inl (Or.inr this))
    have e : (Node.new name).addNode ((Node.new ⟨[], "rdf:".toList ++ typ.toStr⟩).setNodes lis) =
        .mk name [] [] [.mk ⟨[], "rdf:".toList ++ typ.toStr⟩ [] [] lis] := rfl
    rw [e, Node.reparse, unmarshal]
    simp only [Ty.zero, derefVal, Node.reparseList, Node.reparse]
    rw [unmarshalArr, unmarshalArr1]
    have hm : stripPrefix (reparseName uri ⟨[], "rdf:".toList ++ typ.toStr⟩).loc ∈ ["Seq".toList, "Bag".toList, "Alt".toList] := by
      have := typ_known typ
      have hs : stripPrefix (reparseName uri ⟨[], "rdf:".toList ++ typ.toStr⟩).loc = typ.toStr := by
        cases typ <;> rfl
      rw [hs]; exact this
    rw [if_pos hm, reparseList_eq_map, h2 hu']
    simp [rewrap]

theorem alt_roundtrips (d : Dec) (dv : Version) (uri : Str → Str) (hr : RdfOK d uri) : RoundTrips d dv uri .alt := by
  intro v name hf
  rw [Faithful] at hf
  obtain ⟨a, rfl, hw, hx⟩ := hf
  obtain ⟨t, h1, h2⟩ := alt_roundtrip_exact d.reg uri hr.bound a hw hx (Node.new name) rfl
  refine ⟨t, by rw [marshalValue]; exact h1, ?_, ?_⟩
  · unfold AltString.marshalXMP at h1
    split at h1
    · cases h1; rfl
    · cases hm : a.mapM (marshalAltItem a.length) with
      | none => rw [hm] at h1; cases h1
      | some l => rw [hm] at h1; cases h1; rfl
  · intro _ info
    have h3 := h2 (t.reparse uri) (by simp [Views])
    generalize t.reparse uri = u at h3
    cases u with
    | mk nm attrs value nodes =>
      rw [unmarshal]
      simp only [Ty.zero, derefVal]
      have : unmarshalAltNodes d.reg nodes [] = some a := h3
      rw [this]
      rfl

mutual
theorem roundtrips (d : Dec) (dv : Version) (uri : Str → Str) (hr : RdfOK d uri) :
    ∀ t : Ty, TyNames (· ∉ markupNames) t → RoundTrips d dv uri t
  | .int bits, _ => fun v name h => by
    rw [Faithful] at h
    exact simple_roundtrips d dv uri name h (by simp) (by rintro b rfl; simp [LeafFaithful] at h) (fun n => by rw [marshalValue])
  | .uint bits, _ => fun v name h => by
    rw [Faithful] at h
    exact simple_roundtrips d dv uri name h (by simp) (by rintro b rfl; simp [LeafFaithful] at h) (fun n => by rw [marshalValue])
  | .bool, _ => fun v name h => by
    rw [Faithful] at h
    exact simple_roundtrips d dv uri name h (by simp) (by rintro b rfl; simp [LeafFaithful] at h) (fun n => by rw [marshalValue])
  | .str, _ => fun v name h => by
    rw [Faithful] at h
    exact simple_roundtrips d dv uri name h (by simp) (by rintro b rfl; simp [LeafFaithful] at h) (fun n => by rw [marshalValue])
  | .bytes, _ => fun v name h => by
    rw [Faithful] at h
    obtain ⟨s, rfl, hs⟩ := h
    exact simple_roundtrips d dv uri name (v := .bytes s) (by simp [LeafFaithful]) (by simp) (by rintro b h; cases h; exact hs)
      (fun n => by rw [marshalValue])
  | .text c, _ => fun v name h => by
    rw [Faithful] at h
    obtain ⟨k, o, rfl, h1, h2⟩ := h
    refine ⟨(Node.new name).setValue (o.getD []), ?_, rfl, ?_⟩
    · rw [marshalValue]
      simp only [h1]
      cases o <;> rfl
    · intro _ info
      simp only [Node.new, Node.setValue, Node.reparse]
      rw [unmarshal]
      simp only [Ty.zero, derefVal, h2, rewrap]
  | .alt, _ => alt_roundtrips d dv uri hr
  | .slice typ t, h => slice_roundtrips d dv uri hr typ t (roundtrips d dv uri hr t (by rw [TyNames] at h; exact h))
  | .ptr t, h => fun v name hf => by
    rw [Faithful] at hf
    obtain ⟨x, rfl, ht, hf⟩ := hf
    obtain ⟨n, h1, h2, h3⟩ := roundtrips d dv uri hr t (by rw [TyNames] at h; exact h) x name hf
    refine ⟨n, by rw [marshalValue]; exact h1, h2, fun hu info => ?_⟩
    exact unmarshal_ptr d dv _ info t ht x (h3 hu info)
  | .struct z infos tys, h =>
    have h' : (∀ f ∈ infos, f.name ∉ markupNames) ∧ TysNames (· ∉ markupNames) tys := by rw [TyNames] at h; exact h
    struct_roundtrips d dv uri hr z infos tys h'.1 (roundtrips_all d dv uri hr tys h'.2)
theorem roundtrips_all (d : Dec) (dv : Version) (uri : Str → Str) (hr : RdfOK d uri) :
    ∀ ts : List Ty, TysNames (· ∉ markupNames) ts → ∀ t ∈ ts, RoundTrips d dv uri t
  | [], _ => fun t ht => by cases ht
  | x :: xs, h => fun t ht => by
    rw [TysNames] at h
    by_cases e : t ∈ xs
    · exact roundtrips_all d dv uri hr xs h.2 t e
    · have : t = x := by
        rcases List.mem_cons.1 ht with h | h
        · exact h
        · exact absurd h e
      rw [this]
      exact roundtrips d dv uri hr x h.1
end

end Xmp.Props
