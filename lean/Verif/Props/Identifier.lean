import Verif.Props.TypedXmpCases
import Mathlib.Tactic.Common
import Verif.Model.Identifier
import Verif.Props.TypedXmp

/-! C51: identifiers and thumbnails of the basic schema. -/

namespace Xmp.Props

open GoStr

/-! ### Specification -/

/-- The first documented form of an identifier: its text. -/
def plainNode (name : QName) (id : Str) : Node := .mk name [] id []

/-- The second form: a description with the elements `rdf:value` and `xmpidq:Scheme`, under the given names. -/
def describedNode (name desc value scheme : QName) (id sch : Str) : Node :=
  .mk name [] [] [.mk desc [] [] [.mk value [] id [], .mk scheme [] sch []]]

/-- The third form: a text with the attribute `xmpidq:Scheme`. -/
def attributeNode (name scheme : QName) (id sch : Str) : Node := .mk name [⟨scheme, sch⟩] id []

/-- A name that a decoder takes for the given one. -/
def Means (d : Dec) (q : QName) (nm : Str) : Prop := d.translate q = ⟨[], nm⟩

/-! ### Reading -/

theorem decode_str (d : Dec) (dv : Version) (q : QName) (as : List Attr) (v : Str) (ns : List Node) (s : Str) :
    decodeElement d dv (.mk q as v ns) .str (.str s) = .ok (.str (trimSpace v)) := by
  unfold decodeElement
  rw [unmarshal]
  rfl

theorem unmarshal_str (d : Dec) (dv : Version) (q : QName) (as : List Attr) (v : Str) (ns : List Node) (s : Str) :
    unmarshal d dv (.mk q as v ns) true .str (.str s) = .ok (.str (trimSpace v)) := by
  rw [unmarshal]
  rfl

theorem decodeId_eq (d : Dec) (dv : Version) (q : QName) (as : List Attr) (v : Str) (ns : List Node) (x : Identifier) :
    x.decodeId d dv (.mk q as v ns) = .ok { x with id := trimSpace v } := by
  unfold Identifier.decodeId
  rw [decode_str]

theorem find_value : findStructField Version.zero [{ name := "rdf:value".toList }, { name := "xmpidq:Scheme".toList }] "rdf:value".toList = some 0 := by
  decide +kernel

theorem find_scheme : findStructField Version.zero [{ name := "rdf:value".toList }, { name := "xmpidq:Scheme".toList }] "xmpidq:Scheme".toList = some 1 := by
  decide +kernel

theorem names_kept : skipName ⟨[], "rdf:value".toList⟩ = false ∧ skipName ⟨[], "xmpidq:Scheme".toList⟩ = false ∧
    "rdf:value".toList ≠ "rdf:Description".toList ∧ "xmpidq:Scheme".toList ≠ "rdf:Description".toList := by
  refine ⟨?_, ?_, ?_, ?_⟩ <;> decide +kernel

/-- C51: the plain form is read; surrounding white space is dropped. -/
theorem identifier_plain (d : Dec) (dv : Version) (name : QName) (id : Str) :
    Identifier.unmarshalXMP d dv {} (plainNode name id) = .ok ⟨trimSpace id, []⟩ := by
  unfold Identifier.unmarshalXMP plainNode
  simp only [Node.nodes, Node.attrs, decodeId_eq]

/-- C51: the form with an attribute is read. -/
theorem identifier_attribute (d : Dec) (name scheme : QName) (hs : Means d scheme "xmpidq:Scheme".toList) (id sch : Str) :
    Identifier.unmarshalXMP d Version.zero {} (attributeNode name scheme id sch) = .ok ⟨trimSpace id, trimSpace sch⟩ := by
  unfold Identifier.unmarshalXMP attributeNode
  simp only [Node.nodes, Node.attrs, decodeId_eq]
  unfold Identifier.decodeStruct decodeElement Identifier.ty Identifier.val
  rw [unmarshal]
  simp only [derefVal, unmarshalAttrs]
  unfold Means at hs
  rw [hs, names_kept.2.1, if_neg Bool.false_ne_true, find_scheme]
  simp only [List.getElem?_cons_succ, List.getElem?_cons_zero]
  rfl

/-- C51: the form with a description is read. -/
theorem identifier_described (d : Dec) (name desc value scheme : QName) (hv : Means d value "rdf:value".toList)
    (hs : Means d scheme "xmpidq:Scheme".toList) (id sch : Str) :
    Identifier.unmarshalXMP d Version.zero {} (describedNode name desc value scheme id sch) = .ok ⟨trimSpace id, trimSpace sch⟩ := by
  unfold Identifier.unmarshalXMP describedNode
  simp only [Node.nodes]
  unfold Identifier.decodeStruct decodeElement Identifier.ty Identifier.val
  rw [unmarshal]
  simp only [derefVal, unmarshalAttrs]
  unfold Means at hv hs
  rw [unmarshalNodes]
  simp only [Node.xmlName, hv, fullNameOf_nil, names_kept.2.2.1, names_kept.1, Bool.false_eq_true, if_false, find_value]
  simp only [List.getElem?_cons_zero, unmarshal_str]
  rw [unmarshalNodes]
  simp only [Node.xmlName, hs, fullNameOf_nil, names_kept.2.2.2, names_kept.2.1, Bool.false_eq_true, if_false, find_scheme]
  simp only [List.set_cons_zero, List.getElem?_cons_succ, List.getElem?_cons_zero, unmarshal_str]
  rw [unmarshalNodes]
  rfl

/-! ### Writing -/

/-- The node written for an identifier with a scheme: the elements stand in the node itself. -/
theorem marshal_scheme (x : Identifier) (h : x.scheme ≠ []) (name : QName) (hn : name ≠ rdfDescription) :
    ∃ v s, (v = [] ∨ v = [Node.mk ⟨[], "rdf:value".toList⟩ [] x.id []]) ∧ s = Node.mk ⟨[], "xmpidq:Scheme".toList⟩ [] x.scheme [] ∧
      x.marshalXMP (Node.new name) = some (.mk name [rdfResourceAttr] [] (v ++ [s])) := by
  obtain ⟨id, scheme⟩ := x
  dsimp only at h
  have hne : ("rdf:value".toList == "xmpidq:Scheme".toList) = false := by decide +kernel
  have hne' : ("rdf:value".toList = "xmpidq:Scheme".toList) = False := by simpa using hne
  have hsch : scheme.isEmpty = false := by cases scheme <;> simp_all
  generalize hA : "rdf:value".toList = A at *
  generalize hB : "xmpidq:Scheme".toList = B at *
  by_cases hid : id = []
  · refine ⟨[], _, .inl rfl, rfl, ?_⟩
    subst hid
    unfold Identifier.marshalXMP Identifier.ty Identifier.val
    rw [if_neg h, hA, hB]
    simp [marshalValue, marshalAttrs, marshalFields, fieldWritten, Val.isNil, isEmptyValue, hsch, zero_between,
      marshalSimple, Node.setNodes, Node.nodes, Node.setAttrs, Node.attrs, Node.new, Node.setValue, Node.addNode, NodeList.addNode, Node.xmlName, hn,
      Node.addAttr, AttrList.addAttr]
  · refine ⟨_, _, .inr rfl, rfl, ?_⟩
    have hid' : id.isEmpty = false := by cases id <;> simp_all
    unfold Identifier.marshalXMP Identifier.ty Identifier.val
    rw [if_neg h, hA, hB]
    simp [marshalValue, marshalAttrs, marshalFields, fieldWritten, Val.isNil, isEmptyValue, hsch, hid', zero_between,
      marshalSimple, Node.setNodes, Node.nodes, Node.setAttrs, Node.attrs, Node.new, Node.setValue, Node.addNode, NodeList.addNode, Node.xmlName, hn,
      Node.addAttr, AttrList.addAttr, hne']

/-- C51, partial: identifiers without a scheme survive writing and reading, up to surrounding white space.  Missing:
identifiers with a scheme, for which this is false (`identifier_scheme_lost`). -/
theorem identifier_roundtrip_partial (x : Identifier) (hx : x.scheme = []) (ht : Trimmed x.id) (name : QName) :
    ∃ n, x.marshalXMP (Node.new name) = some n ∧
      ∀ d dv uri, Identifier.unmarshalXMP d dv {} (n.reparse uri) = .ok x := by
  obtain ⟨id, scheme⟩ := x
  dsimp only at hx ht
  subst hx
  refine ⟨.mk name [] id [], by simp [Identifier.marshalXMP, marshalValue, marshalSimple, Node.new, Node.setValue], ?_⟩
  intro d dv uri
  rw [Node.reparse]
  simp only [List.map_nil, Node.reparseList]
  have := identifier_plain d dv (reparseName uri name) (trimSpace id)
  unfold plainNode at this
  rw [this, trimSpace_idem, trimSpace_of_trimmed ht]

/-- C51, finding: an identifier with a scheme (`AddIDWithScheme`) reads back as an empty identifier, for all decoders,
versions and namespaces. -/
theorem identifier_scheme_lost (x : Identifier) (h : x.scheme ≠ []) (name : QName) (hn : name ≠ rdfDescription) :
    ∃ n, x.marshalXMP (Node.new name) = some n ∧
      ∀ d dv uri, Identifier.unmarshalXMP d dv {} (n.reparse uri) = .ok {} := by
  obtain ⟨v, s, hv, rfl, hm⟩ := marshal_scheme x h name hn
  refine ⟨_, hm, ?_⟩
  intro d dv uri
  have key : ∀ q val, Identifier.decodeStruct d dv (.mk q [] val []) {} = .ok {} := by
    intro q val
    unfold Identifier.decodeStruct decodeElement Identifier.ty Identifier.val
    rw [unmarshal]
    simp only [derefVal, unmarshalAttrs]
    rw [unmarshalNodes]
    rfl
  rcases hv with rfl | rfl
  · simp only [Node.reparse, List.nil_append, Node.reparseList, List.map_nil]
    unfold Identifier.unmarshalXMP
    simp only [Node.nodes, key]
  · simp only [Node.reparse, List.cons_append, List.nil_append, Node.reparseList, List.map_nil]
    unfold Identifier.unmarshalXMP
    simp only [Node.nodes, key]

example : (⟨"4711".toList, "isbn".toList⟩ : Identifier).scheme ≠ [] := by decide
example : Trimmed (⟨"uuid:4711".toList, []⟩ : Identifier).id := by decide

/-- C51: an identifier without a scheme survives as text.  Finding: the scheme of an identifier becomes part of its value. -/
theorem identifier_text (x : Identifier) :
    (x.scheme = [] → Identifier.ofText {} x.text = x) ∧
    (x.scheme ≠ [] → Identifier.ofText {} x.text = ⟨x.scheme ++ ':' :: x.id, []⟩) := by
  obtain ⟨id, scheme⟩ := x
  unfold Identifier.text Identifier.ofText
  constructor
  · intro h; dsimp only at h; subst h; simp
  · intro h; dsimp only at h; simp [h]

/-! ### Arrays -/

/-- C51: an identifier is contained exactly if one of the entries has this value. -/
theorem identifiers_contains (x : IdentifierArray) (v : Str) : x.contains v = true ↔ ∃ y ∈ x, y.id = v := by
  unfold IdentifierArray.contains IdentifierArray.index
  rw [Option.isSome_iff_ne_none, ne_eq, List.findIdx?_eq_none_iff]
  simp

/-- C51: adding uniquely adds at the end if the value is not there, and never changes entries. -/
theorem identifiers_addUnique (x : IdentifierArray) (v : Str) :
    (x.addUnique v).contains v = true ∧
    ((∃ y ∈ x, y.id = v) → x.addUnique v = x) ∧ ((¬ ∃ y ∈ x, y.id = v) → x.addUnique v = x ++ [⟨v, []⟩]) := by
  have h := identifiers_contains x v
  unfold IdentifierArray.addUnique
  by_cases hc : x.contains v = true
  · simp only [hc, Bool.not_true, Bool.false_eq_true, if_false, true_and, implies_true]
    exact fun hn => absurd (h.mp hc) hn
  · have hc' : x.contains v = false := by simpa using hc
    simp only [hc', Bool.not_false, if_true]
    refine ⟨?_, fun he => absurd (h.mpr he) hc, fun _ => rfl⟩
    rw [identifiers_contains]
    exact ⟨⟨v, []⟩, by simp [IdentifierArray.add], rfl⟩

/-- C51, finding: `Remove` never removes: what precedes the value is doubled, what follows it is lost. -/
theorem identifiers_remove (p q : IdentifierArray) (y : Identifier) (hp : ∀ z ∈ p, z.id ≠ y.id) :
    IdentifierArray.remove (p ++ y :: q) y.id = p ++ p ++ [y] := by
  unfold IdentifierArray.remove IdentifierArray.index
  have h1 : List.findIdx? (fun z => decide (z.id = y.id)) p = none := by
    rw [List.findIdx?_eq_none_iff]
    intro z hz; simpa using hp z hz
  rw [List.findIdx?_append, h1]
  simp [List.findIdx?_cons, List.take_append, List.take_of_length_le]

example : IdentifierArray.remove [⟨"a".toList, []⟩, ⟨"b".toList, []⟩, ⟨"c".toList, []⟩] "b".toList =
    [⟨"a".toList, []⟩, ⟨"a".toList, []⟩, ⟨"b".toList, []⟩] := by decide

/-! ### Thumbnails -/

/-- A thumbnail as other programs write it, under the given names. -/
def thumbnailNode (name qw qh : QName) (w h : Int) : Node :=
  .mk name [] [] [.mk qw [] (itoa w) [], .mk qh [] (itoa h) []]

theorem find_dims :
    findStructField Version.zero [{ name := "xmpGImg:format".toList }, { name := "xmpGImg:height".toList },
      { name := "xmpGImg:width".toList }, { name := "xmpGImg:image".toList }] "xmpGImg:width".toList = some 2 ∧
    findStructField Version.zero [{ name := "xmpGImg:format".toList }, { name := "xmpGImg:height".toList },
      { name := "xmpGImg:width".toList }, { name := "xmpGImg:image".toList }] "xmpGImg:height".toList = some 1 := by
  constructor <;> decide +kernel

theorem dims_kept : skipName ⟨[], "xmpGImg:width".toList⟩ = false ∧ skipName ⟨[], "xmpGImg:height".toList⟩ = false ∧
    "xmpGImg:width".toList ≠ "rdf:Description".toList ∧ "xmpGImg:height".toList ≠ "rdf:Description".toList := by
  refine ⟨?_, ?_, ?_, ?_⟩ <;> decide +kernel

theorem unmarshal_int64 (d : Dec) (dv : Version) (q : QName) (as : List Attr) (ns : List Node) (i j : Int) (h : InI64 i) :
    unmarshal d dv (.mk q as (itoa i) ns) true (.int 64) (.int j) = .ok (.int i) := by
  rw [unmarshal]
  simp only [derefVal, setValue]
  rw [parseInt_itoa (bits := 64) (by have := h.1; simpa using this) (by have := h.2; simp; omega)]
  rfl

/-- C51, finding: width and height of thumbnails are exchanged: the width in a file is read into the field `Height`, the height
into the field `Width`. -/
theorem thumbnail_exchanged (d : Dec) (name qw qh : QName) (hw : Means d qw "xmpGImg:width".toList)
    (hh : Means d qh "xmpGImg:height".toList) (w h : Int) (iw : InI64 w) (ih : InI64 h) :
    decodeElement d Version.zero (thumbnailNode name qw qh w h) thumbnailTy (thumbnailVal [] 0 0 []) =
      .ok (thumbnailVal (format := []) (width := h) (height := w) (image := [])) := by
  unfold decodeElement thumbnailNode thumbnailTy thumbnailVal
  unfold Means at hw hh
  rw [unmarshal]
  simp only [derefVal, unmarshalAttrs]
  rw [unmarshalNodes]
  simp only [Node.xmlName, hw, fullNameOf_nil, dims_kept.2.2.1, dims_kept.1, Bool.false_eq_true, if_false, find_dims.1]
  simp only [List.getElem?_cons_succ, List.getElem?_cons_zero, unmarshal_int64 _ _ _ _ _ _ _ iw]
  rw [unmarshalNodes]
  simp only [Node.xmlName, hh, fullNameOf_nil, dims_kept.2.2.2, dims_kept.2.1, Bool.false_eq_true, if_false, find_dims.2]
  simp only [List.set_cons_succ, List.set_cons_zero, List.getElem?_cons_succ, List.getElem?_cons_zero,
    unmarshal_int64 _ _ _ _ _ _ _ ih]
  rw [unmarshalNodes]
  rfl

example : InI64 640 ∧ InI64 480 := by decide

end Xmp.Props
