import Verif.Props.Array

/-! C16 and C19: arrays and language alternatives survive XMP serialisation. -/

namespace Xmp.Props

open GoStr

/-- The prefix binding used by a document and the registry agree on the rdf namespace. -/
def RdfBound (r : Registry) (uri : Str → Str) : Prop :=
  uri "rdf".toList ≠ [] ∧ r.getPrefix (uri "rdf".toList) = "rdf".toList

/-- A registry and binding as in a real document (xmp/rdf.go registers the rdf namespace). -/
def rdfUri : Str := "http://www.w3.org/1999/02/22-rdf-syntax-ns#".toList
/-- The xml namespace. -/
def xmlUri : Str := "http://www.w3.org/XML/1998/namespace".toList
/-- Registry holding rdf only. -/
def rdfRegistry : Registry := Registry.register {} { name := "rdf".toList, uri := rdfUri } []
/-- Binding of the two prefixes every packet uses. -/
def rdfBinding (p : Str) : Str := if p = "rdf".toList then rdfUri else if p = "xml".toList then xmlUri else []

theorem rdfBound_example : RdfBound rdfRegistry rdfBinding := by
  constructor <;> decide

/-- Two ways to look at a serialised tree: as built in memory, or after a round through XML text. -/
def Views (uri : Str → Str) (t : Node) : List Node := [t, t.reparse uri]

/-! ### Helper lemmas -/

theorem reparseList_eq_map (uri : Str → Str) (l : List Node) :
    Node.reparseList uri l = l.map (Node.reparse uri) := by
  induction l with
  | nil => rfl
  | cons x xs ih => rw [Node.reparseList, ih, List.map_cons]

theorem reparseName_li (uri : Str → Str) :
    reparseName uri ⟨[], "rdf:li".toList⟩ = ⟨uri "rdf".toList, "li".toList⟩ := rfl

theorem fullName_li_mem (r : Registry) (n : Node) (h : n.xmlName = ⟨[], "rdf:li".toList⟩) :
    n.fullName r = "rdf:li".toList := by
  simp [Node.fullName, h]

theorem fullName_li_parsed (r : Registry) (uri : Str → Str) (hb : RdfBound r uri) (n : Node)
    (h : n.xmlName = ⟨uri "rdf".toList, "li".toList⟩) : n.fullName r = "rdf:li".toList := by
  have h1 := hb.1
  have h2 := hb.2
  unfold Node.fullName
  rw [h]
  simp only [ne_eq, h1, not_false_eq_true, if_true, Registry.short, h2]
  decide

theorem xmlName_reparse (uri : Str → Str) (n : Node) : (n.reparse uri).xmlName = reparseName uri n.xmlName := by
  cases n; simp [Node.reparse, Node.xmlName]

theorem value_reparse (uri : Str → Str) (n : Node) : (n.reparse uri).value = trimSpace n.value := by
  cases n; simp [Node.reparse, Node.value]

theorem nodes_reparse (uri : Str → Str) (n : Node) : (n.reparse uri).nodes = n.nodes.map (Node.reparse uri) := by
  cases n; simp [Node.reparse, Node.nodes, reparseList_eq_map]

theorem attrs_reparse (uri : Str → Str) (n : Node) :
    (n.reparse uri).attrs = n.attrs.map (fun x => { x with name := reparseName uri x.name }) := by
  cases n; simp [Node.reparse, Node.attrs]

theorem mapM_some_of {α β : Type} (f : α → Option β) (g : α → β) (l : List α) (h : ∀ x ∈ l, f x = some (g x)) :
    l.mapM f = some (l.map g) := by
  induction l with
  | nil => rfl
  | cons x xs ih =>
    rw [List.mapM_cons, h x (by simp), ih (fun y hy => h y (by simp [hy]))]
    rfl

theorem mapM_inverse {α : Type} (f : Node → Option α) (g : α → Node) (l : List α)
    (h : ∀ x ∈ l, f (g x) = some x) : (l.map g).mapM f = some l := by
  induction l with
  | nil => rfl
  | cons x xs ih =>
    rw [List.map_cons, List.mapM_cons, h x (by simp), ih (fun y hy => h y (by simp [hy]))]
    rfl

/-- The array types as node names. -/
theorem name_array_mem (typ : ArrayType) (l : List Node) :
    ((Node.new ⟨[], "rdf:".toList ++ typ.toStr⟩).setNodes l).name = typ.toStr := by
  cases typ <;> rfl

theorem name_array_parsed (uri : Str → Str) (typ : ArrayType) (l : List Node) :
    (((Node.new ⟨[], "rdf:".toList ++ typ.toStr⟩).setNodes l).reparse uri).name = typ.toStr := by
  rw [Node.name, xmlName_reparse]
  cases typ <;> rfl

theorem typ_known (typ : ArrayType) : typ.toStr ∈ ["Seq".toList, "Bag".toList, "Alt".toList] := by
  cases typ <;> decide

theorem nodes_addNode_fresh (node x : Node) (hn : node.nodes = []) : (node.addNode x).nodes = [x] := by
  cases node with
  | mk n a v l =>
    simp only [Node.nodes] at hn
    subst hn
    simp [Node.addNode, Node.setNodes, Node.nodes, NodeList.addNode]

/-- Reading a node whose only child is an array node, as built in memory. -/
theorem arrayItems_mem (typ : ArrayType) (lis : List Node) (node : Node) (hn : node.nodes = []) :
    arrayItems (node.addNode ((Node.new ⟨[], "rdf:".toList ++ typ.toStr⟩).setNodes lis)) = some lis := by
  unfold arrayItems
  rw [nodes_addNode_fresh _ _ hn]
  simp only [name_array_mem, typ_known typ, if_true]
  rfl

/-- Reading a node whose only child is an array node, after a round through XML. -/
theorem arrayItems_parsed (uri : Str → Str) (typ : ArrayType) (lis : List Node) (node : Node)
    (hn : node.nodes = []) :
    arrayItems ((node.addNode ((Node.new ⟨[], "rdf:".toList ++ typ.toStr⟩).setNodes lis)).reparse uri) =
      some (lis.map (Node.reparse uri)) := by
  unfold arrayItems
  rw [nodes_reparse, nodes_addNode_fresh _ _ hn]
  simp only [List.map_cons, List.map_nil, name_array_parsed, typ_known typ, if_true, nodes_reparse]
  rfl

/-- Reading any view of a node whose only child is an array node. -/
theorem arrayItems_view (uri : Str → Str) (typ : ArrayType) (lis : List Node) (node : Node)
    (hn : node.nodes = []) (t : Node)
    (ht : t ∈ Views uri (node.addNode ((Node.new ⟨[], "rdf:".toList ++ typ.toStr⟩).setNodes lis))) :
    arrayItems t = some lis ∨ arrayItems t = some (lis.map (Node.reparse uri)) := by
  simp only [Views, List.mem_cons, List.not_mem_nil, or_false] at ht
  rcases ht with rfl | rfl
  · exact Or.inl (arrayItems_mem typ lis node hn)
  · exact Or.inr (arrayItems_parsed uri typ lis node hn)

/-! ### C19 -/

/-- C19, general form: whatever the element type, if each encoded element is an `rdf:li` node from which
the element is read back (both directly and after a round through XML), then a non-empty array is
read back with the same elements in the same order, after the elements the receiver already held. -/
theorem array_roundtrip {α : Type} (r : Registry) (uri : Str → Str) (hb : RdfBound r uri) (typ : ArrayType)
    (enc : α → Node) (dec : Node → Option α) (items out : List α) (hne : items ≠ []) (node : Node)
    (hnode : node.nodes = [])
    (hname : ∀ v ∈ items, (enc v).xmlName = ⟨[], "rdf:li".toList⟩)
    (hdec : ∀ v ∈ items, dec (enc v) = some v ∧ dec ((enc v).reparse uri) = some v) :
    ∃ t, marshalArray (fun v _ => some (enc v)) typ items node = some t ∧
      ∀ u ∈ Views uri t, unmarshalArray r dec u out = some (out ++ items) := by
  refine ⟨node.addNode ((Node.new ⟨[], "rdf:".toList ++ typ.toStr⟩).setNodes (items.map enc)), ?_, ?_⟩
  · unfold marshalArray
    rw [if_neg (by simpa using hne), mapM_some_of _ enc _ (fun _ _ => rfl)]
    rfl
  · intro u hu
    rcases arrayItems_view uri typ (items.map enc) node hnode u hu with h | h
    · unfold unmarshalArray
      rw [h]
      simp only
      rw [mapM_inverse _ enc items]
      · rfl
      · intro v hv
        rw [if_neg, (hdec v hv).1]
        simp [fullName_li_mem r _ (hname v hv)]
    · unfold unmarshalArray
      rw [h]
      simp only [List.map_map]
      rw [mapM_inverse _ (Node.reparse uri ∘ enc) items]
      · rfl
      · intro v hv
        simp only [Function.comp]
        rw [if_neg, (hdec v hv).2]
        have : ((enc v).reparse uri).xmlName = ⟨uri "rdf".toList, "li".toList⟩ := by
          rw [xmlName_reparse, hname v hv, reparseName_li]
        simp [fullName_li_parsed r uri hb _ this]

/-- The node `EncodeElement` produces for a string in an array. -/
theorem encodeString_li (s : Str) : encodeString s liNode = some (liNode.setValue s) := rfl

/-- C19: an array of strings without surrounding white space, written as `rdf:Seq` or `rdf:Bag`, is read
back with the same elements in the same order - from the tree and from the XML text of the tree. -/
theorem strings_roundtrip (r : Registry) (uri : Str → Str) (hb : RdfBound r uri) (typ : ArrayType)
    (x : StringList) (hne : x ≠ []) (hx : ∀ s ∈ x, Trimmed s) (node : Node) (hnode : node.nodes = []) :
    ∃ t, marshalArray encodeString typ x node = some t ∧
      ∀ u ∈ Views uri t, unmarshalArray r decodeString u [] = some x := by
  have := array_roundtrip r uri hb typ (fun s => liNode.setValue s) decodeString x [] hne node hnode
    (fun v _ => rfl) (fun v hv => by
      have := trimSpace_of_trimmed (hx v hv)
      constructor
      · simp [decodeString, Node.setValue, liNode, Node.new, Node.value, this]
      · simp only [decodeString, value_reparse]
        simp [Node.setValue, liNode, Node.new, Node.value, this])
  simp only [List.nil_append] at this
  exact this

example : ∃ t, marshalArray encodeString .ordered ["a b".toList, "c".toList, "a b".toList]
      (Node.new ⟨[], "dc:subject".toList⟩) = some t ∧
    ∀ u ∈ Views rdfBinding t, unmarshalArray rdfRegistry decodeString u [] =
      some ["a b".toList, "c".toList, "a b".toList] :=
  strings_roundtrip _ _ rdfBound_example .ordered _ (by decide) (by decide) _ rfl

/-- Surrounding white space is lost: what is read back is each string trimmed. -/
theorem strings_roundtrip_trims (r : Registry) (typ : ArrayType) (x : StringList) (hne : x ≠ [])
    (node : Node) (hnode : node.nodes = []) :
    ∃ t, marshalArray encodeString typ x node = some t ∧
      unmarshalArray r decodeString t [] = some (x.map trimSpace) := by
  refine ⟨node.addNode ((Node.new ⟨[], "rdf:".toList ++ typ.toStr⟩).setNodes (x.map (fun s => liNode.setValue s))), ?_, ?_⟩
  · unfold marshalArray
    rw [if_neg (by simpa using hne), mapM_some_of (fun v => encodeString v liNode) (fun s => liNode.setValue s) _ (fun _ _ => rfl)]
    rfl
  · have h1 := arrayItems_mem typ (x.map (fun s => liNode.setValue s)) node hnode
    unfold unmarshalArray
    rw [h1]
    simp only
    clear h1 hne
    have : ∀ l : List Str, (l.map (fun s => liNode.setValue s)).mapM
        (fun n => if n.fullName r ≠ "rdf:li".toList then none else decodeString n) = some (l.map trimSpace) := by
      intro l
      induction l with
      | nil => rfl
      | cons s l ih =>
        rw [List.map_cons, List.mapM_cons, ih, if_neg]
        · rfl
        · simp [fullName_li_mem r (liNode.setValue s) rfl]
    rw [this]
    rfl

example : trimSpace " a ".toList ≠ " a ".toList := by decide

/-- C19 for integer arrays (`IntList`, `IntArray`). -/
theorem ints_roundtrip (r : Registry) (uri : Str → Str) (hb : RdfBound r uri) (typ : ArrayType)
    (x : List Int) (hne : x ≠ []) (hx : ∀ i ∈ x, InI64 i) (node : Node) (hnode : node.nodes = []) :
    ∃ t, marshalArray (fun i n => some (n.setValue (itoa i))) typ x node = some t ∧
      ∀ u ∈ Views uri t, unmarshalArray r (fun n => parseInt 64 n.value) u [] = some x := by
  have htrim : ∀ i : Int, trimSpace (itoa i) = itoa i := by
    intro i
    apply trimSpace_of_trimmed
    exact trimmed_itoa i
  have := array_roundtrip r uri hb typ (fun i => liNode.setValue (itoa i)) (fun n => parseInt 64 n.value) x [] hne node hnode
    (fun v _ => rfl) (fun v hv => by
      have h := atoi_itoa (hx v hv)
      unfold atoi at h
      constructor
      · simpa [Node.setValue, liNode, Node.new, Node.value] using h
      · rw [value_reparse]
        simp only [Node.setValue, liNode, Node.new, Node.value, htrim]
        exact h)
  unfold marshalArray at this ⊢
  simpa using this

/-- C19: exactly when reading an array of strings fails: not exactly one child, or the child is no
`Seq`, `Bag` or `Alt`, or some element of it is no `rdf:li`. -/
theorem strings_error_iff (r : Registry) (n : Node) (out : StringList) :
    unmarshalArray r decodeString n out = none ↔
      ¬ ∃ arr, n.nodes = [arr] ∧ arr.name ∈ ["Seq".toList, "Bag".toList, "Alt".toList] ∧
        ∀ e ∈ arr.nodes, e.fullName r = "rdf:li".toList := by
  have hm : ∀ l : List Node, (l.mapM (fun n => if n.fullName r ≠ "rdf:li".toList then none else decodeString n)) = none ↔
      ∃ e ∈ l, e.fullName r ≠ "rdf:li".toList := by
    intro l
    induction l with
    | nil => simp
    | cons x xs ih =>
      rw [List.mapM_cons]
      by_cases hx : x.fullName r ≠ "rdf:li".toList
      · rw [if_pos hx]
        simp only [Option.bind_eq_bind, Option.bind_none, true_iff]
        exact ⟨x, by simp, hx⟩
      · rw [if_neg hx]
        simp only [ne_eq, not_not] at hx
        simp only [decodeString] at ih ⊢
        cases hl : List.mapM (fun n => if n.fullName r ≠ "rdf:li".toList then none else some (trimSpace n.value)) xs with
        | none =>
          have := ih.1 hl
          simp only [ne_eq] at this
          obtain ⟨e, he, hne⟩ := this
          simp only [Option.bind_eq_bind, Option.bind_some, Option.bind_none, true_iff]
          exact ⟨e, by simp [he], hne⟩
        | some v =>
          have : ¬ ∃ e ∈ xs, e.fullName r ≠ "rdf:li".toList := by
            intro h
            rw [← ih, hl] at h
            cases h
          simp only [Option.bind_eq_bind, Option.bind_some, Option.pure_def, reduceCtorEq, false_iff]
          rintro ⟨e, he, hne⟩
          rcases List.mem_cons.1 he with rfl | he
          · exact hne hx
          · exact this ⟨e, he, hne⟩
  unfold unmarshalArray arrayItems
  split
  · rename_i h
    split at h
    · rename_i arr heq
      split at h
      · cases h
      · rename_i hk
        simp only [true_iff]
        rintro ⟨a, ha, hn, _⟩
        rw [heq] at ha
        cases ha
        exact hk hn
    · rename_i h1
      simp only [true_iff]
      rintro ⟨a, ha, _⟩
      exact h1 a ha
  · rename_i lis h
    split at h
    · rename_i arr heq
      split at h
      · rename_i hk
        cases h
        simp only [Option.map_eq_none_iff]
        rw [hm]
        constructor
        · rintro ⟨e, he, hne⟩ ⟨a, ha, hn, hall⟩
          rw [heq] at ha
          cases ha
          exact hne (hall e he)
        · intro h
          by_contra hc
          apply h
          refine ⟨arr, heq, hk, ?_⟩
          intro e he
          by_contra hne
          exact hc ⟨e, he, hne⟩
      · cases h
    · cases h

example : unmarshalArray rdfRegistry decodeString (Node.mk ⟨[], "dc:subject".toList⟩ [] "text".toList []) [] = none := by
  decide

/-- The kind of array is not checked: what was written as a bag is accepted where a sequence is expected,
and even a node called `Seq` of another namespace. -/
theorem array_kind_not_checked :
    unmarshalArray rdfRegistry decodeString
      (Node.mk ⟨[], "dc:x".toList⟩ [] [] [Node.mk ⟨[], "foo:Seq".toList⟩ [] [] [liNode.setValue "a".toList]]) [] =
      some ["a".toList] := by decide

/-- Fixed size arrays: reading succeeds exactly if there are at most as many elements as the array has
places; unused places keep their old contents. -/
theorem fixed_array (r : Registry) (dec : Node → Option α) (n : Node) (out : List α) :
    unmarshalFixed r dec n out = (unmarshalArray r dec n []).bind (fun vs =>
      if out.length < vs.length then none else some (vs ++ out.drop vs.length)) := by
  unfold unmarshalFixed unmarshalArray
  cases arrayItems n with
  | none => rfl
  | some lis =>
    simp only
    cases List.mapM (fun n => if n.fullName r ≠ "rdf:li".toList then none else dec n) lis with
    | none => rfl
    | some vs => simp

example : unmarshalFixed rdfRegistry decodeString
    (Node.mk ⟨[], "x:y".toList⟩ [] [] [Node.mk ⟨[], "rdf:Seq".toList⟩ [] [] [liNode.setValue "a".toList]])
    ["p".toList, "q".toList] = some ["a".toList, "q".toList] := by decide

/-! ### C16 -/

/-- Specification of a text alternative that can be written: one default, first; every other item has a
language of its own; no item uses the reserved language `x-default`; no text has surrounding white
space. -/
structure AltWritable (a : AltString) : Prop where
  oneDefault : ∃ d r, a = d :: r ∧ d.isDefault = true ∧ ∀ x ∈ r, x.isDefault = false ∧ x.lang ≠ []
  reserved : ∀ x ∈ a, x.lang ≠ "x-default".toList
  trimmed : ∀ x ∈ a, Trimmed x.value

/-- The element written for a language and a text. -/
def altLi (lang value : Str) : Node := (liNode.addStringAttr "xml:lang".toList lang).setValue value

theorem unmarshal_altLi (lang value : Str) : unmarshalAltItem (altLi lang value) =
    if lang = "x-default".toList then { value := trimSpace value, isDefault := true }
    else { value := trimSpace value, lang := lang } := by
  have h : (altLi lang value).getAttr [] "lang".toList = [⟨⟨[], "xml:lang".toList⟩, lang⟩] := by
    rfl
  unfold unmarshalAltItem
  rw [h]
  simp only [List.foldl_cons, List.foldl_nil, altLang]
  split
  · rfl
  · rfl

theorem unmarshal_altLi_parsed (uri : Str → Str) (lang value : Str) :
    unmarshalAltItem ((altLi lang value).reparse uri) = unmarshalAltItem (altLi lang value) := by
  have h : ((altLi lang value).reparse uri).getAttr [] "lang".toList =
      [⟨⟨uri "xml".toList, "lang".toList⟩, lang⟩] := by
    rfl
  have hv : ((altLi lang value).reparse uri).value = trimSpace (altLi lang value).value := value_reparse _ _
  have h0 : (altLi lang value).getAttr [] "lang".toList = [⟨⟨[], "xml:lang".toList⟩, lang⟩] := by
    rfl
  unfold unmarshalAltItem
  rw [h, hv, trimSpace_idem, h0]
  simp only [List.foldl_cons, List.foldl_nil, altLang]

/-- What is written for the default item. -/
def defaultLis (d : AltItem) : List Node :=
  altLi "x-default".toList d.value :: (if d.lang = [] then [] else [altLi d.lang d.value])

theorem marshalAltItem_default (n : Nat) (d : AltItem) (hd : d.isDefault = true) :
    marshalAltItem n d = some (defaultLis d) := by
  unfold marshalAltItem defaultLis
  by_cases hl : d.lang = []
  · simp [hd, hl, altLi]
  · simp [hd, hl, altLi]

theorem marshalAltItem_other (n : Nat) (hn : n ≠ 1) (d : AltItem) (hd : d.isDefault = false) (hl : d.lang ≠ []) :
    marshalAltItem n d = some [altLi d.lang d.value] := by
  unfold marshalAltItem
  simp [hd, hl, hn, altLi]

/-- The list of elements written. -/
def altLis (d : AltItem) (r : AltString) : List Node :=
  defaultLis d ++ r.map (fun x => altLi x.lang x.value)

theorem marshal_lis (d : AltItem) (r : AltString) (hd : d.isDefault = true)
    (hr : ∀ x ∈ r, x.isDefault = false ∧ x.lang ≠ []) :
    ((d :: r).mapM (marshalAltItem (d :: r).length)).map List.flatten = some (altLis d r) := by
  cases r with
  | nil =>
    rw [List.mapM_cons, marshalAltItem_default _ _ hd]
    simp [altLis]
  | cons y ys =>
    have hlen : (d :: y :: ys).length ≠ 1 := by simp
    generalize (d :: y :: ys).length = n at hlen
    rw [List.mapM_cons, marshalAltItem_default _ _ hd]
    rw [mapM_some_of (marshalAltItem n) (fun x => [altLi x.lang x.value]) (y :: ys)
      (fun x hx => marshalAltItem_other n hlen x (hr x hx).1 (hr x hx).2)]
    simp only [Option.bind_eq_bind, Option.bind_some, Option.pure_def, Option.map_some, altLis]
    rw [List.flatten_cons]
    congr 2
    generalize y :: ys = l
    induction l with
    | nil => rfl
    | cons x xs ih => rw [List.map_cons, List.flatten_cons, ih]; rfl

theorem altLi_xmlName (l v : Str) : (altLi l v).xmlName = ⟨[], "rdf:li".toList⟩ := rfl

/-- The items read from the elements written, before the default is merged. -/
def rawItems (d : AltItem) (r : AltString) : AltString :=
  { value := d.value, isDefault := true } :: ((if d.lang = [] then [] else [{ value := d.value, lang := d.lang }]) ++ r)

theorem read_lis (d : AltItem) (r : AltString) (hw : AltWritable (d :: r))
    (hr : ∀ x ∈ r, x.isDefault = false ∧ x.lang ≠ []) :
    (altLis d r).map unmarshalAltItem = rawItems d r := by
  have hdt := trimSpace_of_trimmed (hw.trimmed d (by simp))
  have hdx := hw.reserved d (by simp)
  unfold altLis rawItems defaultLis
  rw [List.map_append, List.map_cons, unmarshal_altLi, if_pos rfl, hdt]
  rw [List.cons_append]
  congr 2
  · split
    · rfl
    · rw [List.map_cons, unmarshal_altLi, if_neg hdx, hdt]
      rfl
  · rw [List.map_map]
    conv => rhs; rw [← List.map_id r]
    apply List.map_congr_left
    intro x hx
    have hxt := trimSpace_of_trimmed (hw.trimmed x (by simp [hx]))
    have hxx := hw.reserved x (by simp [hx])
    simp only [Function.comp, unmarshal_altLi, if_neg hxx, hxt, id]
    have := (hr x hx).1
    cases x
    simp_all

/-- The merge step on the items read. -/
theorem mergeDefault_cons (d : AltItem) (hd : d.isDefault = true) (r : AltString) :
    AltString.mergeDefault (d :: r) =
      match AltString.dupIndex 0 d.value 1 r with
      | none => d :: r
      | some j => { d with lang := (((d :: r)[j]?).map (·.lang)).getD d.lang } :: (r.take (j - 1) ++ r.drop j) := by
  unfold AltString.mergeDefault
  simp only [List.findIdx?_cons, hd, if_true, List.getElem?_cons_zero]
  have : AltString.dupIndex 0 d.value 0 (d :: r) = AltString.dupIndex 0 d.value 1 r := by
    simp [AltString.dupIndex]
  rw [this]
  cases h : AltString.dupIndex 0 d.value 1 r with
  | none => rfl
  | some j =>
    have hj : 1 ≤ j := by
      clear this
      have key : ∀ (l : AltString) k j, AltString.dupIndex 0 d.value k l = some j → k ≤ j := by
        intro l
        induction l with
        | nil => intro k j h; simp [AltString.dupIndex] at h
        | cons x xs ih =>
          intro k j h
          rw [AltString.dupIndex] at h
          split at h
          · cases h; omega
          · have := ih _ _ h; omega
      exact key r 1 j h
    simp only [List.modify_zero_cons]
    obtain ⟨k, rfl⟩ : ∃ k, j = k + 1 := ⟨j - 1, by omega⟩
    simp [hd]

/-- Where the merge finds a duplicate. -/
theorem dupIndex_split (v : Str) (r : AltString) (k : Nat) (hk : 0 < k) :
    (AltString.dupIndex 0 v k r = none ∧ ∀ x ∈ r, x.value ≠ v) ∨
    ∃ p x q, r = p ++ x :: q ∧ x.value = v ∧ AltString.dupIndex 0 v k r = some (k + p.length) := by
  induction r generalizing k with
  | nil => left; simp [AltString.dupIndex]
  | cons x xs ih =>
    by_cases hx : v = x.value
    · right
      refine ⟨[], x, xs, rfl, hx.symm, ?_⟩
      have : (0 : Nat) ≠ k := by omega
      simp [AltString.dupIndex, hx, this]
    · have hstep : AltString.dupIndex 0 v k (x :: xs) = AltString.dupIndex 0 v (k + 1) xs := by
        rw [AltString.dupIndex, if_neg (by tauto)]
      rw [hstep]
      rcases ih (k + 1) (by omega) with ⟨h1, h2⟩ | ⟨p, y, q, rfl, hy, h⟩
      · left
        refine ⟨h1, ?_⟩
        intro z hz
        rcases List.mem_cons.1 hz with rfl | hz
        · exact fun h => hx h.symm
        · exact h2 z hz
      · right
        refine ⟨x :: p, y, q, rfl, hy, ?_⟩
        rw [h]
        simp; omega

/-- The items read back from what was written, before the default is merged. -/
theorem alt_reads_items (r : Registry) (uri : Str → Str) (hb : RdfBound r uri) (a : AltString)
    (hw : AltWritable a) (node : Node) (hnode : node.nodes = []) :
    ∃ d rest, a = d :: rest ∧ ∃ t, a.marshalXMP node = some t ∧
      ∀ u ∈ Views uri t, unmarshalArray r (fun n => some (unmarshalAltItem n)) u [] = some (rawItems d rest) := by
  obtain ⟨d, rest, rfl, hd, hr⟩ := hw.oneDefault
  refine ⟨d, rest, rfl, node.addNode ((Node.new ⟨[], "rdf:".toList ++ ArrayType.alternative.toStr⟩).setNodes (altLis d rest)), ?_, ?_⟩
  · unfold AltString.marshalXMP
    rw [if_neg (by simp)]
    have := marshal_lis d rest hd hr
    cases hm : (d :: rest).mapM (marshalAltItem (d :: rest).length) with
    | none => rw [hm] at this; cases this
    | some l =>
      rw [hm] at this
      simp only [Option.map_some, Option.some.injEq] at this
      rw [Option.map_some, this]
      rfl
  · have hnames : ∀ n ∈ altLis d rest, n.xmlName = ⟨[], "rdf:li".toList⟩ := by
      intro n hn
      unfold altLis defaultLis at hn
      simp only [List.mem_append, List.mem_cons, List.mem_map] at hn
      rcases hn with (rfl | hn) | ⟨x, _, rfl⟩
      · rfl
      · split at hn
        · cases hn
        · simp at hn; subst hn; rfl
      · rfl
    have hforms : ∀ n ∈ altLis d rest, ∃ l v, n = altLi l v := by
      intro n hn
      unfold altLis defaultLis at hn
      simp only [List.mem_append, List.mem_cons, List.mem_map] at hn
      rcases hn with (rfl | hn) | ⟨x, _, rfl⟩
      · exact ⟨_, _, rfl⟩
      · split at hn
        · cases hn
        · simp at hn; exact ⟨_, _, hn⟩
      · exact ⟨_, _, rfl⟩
    intro u hu
    have hraw := read_lis d rest hw hr
    unfold unmarshalArray
    rcases arrayItems_view uri .alternative (altLis d rest) node hnode u hu with h | h
    · rw [h]
      simp only
      rw [mapM_some_of _ unmarshalAltItem]
      · simp [hraw]
      · intro n hn
        rw [if_neg]
        simp [fullName_li_mem r n (hnames n hn)]
    · rw [h]
      simp only
      rw [mapM_some_of _ unmarshalAltItem]
      · rw [List.map_map]
        have : (altLis d rest).map (unmarshalAltItem ∘ Node.reparse uri) = (altLis d rest).map unmarshalAltItem := by
          apply List.map_congr_left
          intro n hn
          obtain ⟨l, v, rfl⟩ := hforms n hn
          exact unmarshal_altLi_parsed uri l v
        rw [this, hraw]
        simp
      · intro n hn
        simp only [List.mem_map] at hn
        obtain ⟨m, hm, rfl⟩ := hn
        rw [if_neg]
        have : (m.reparse uri).xmlName = ⟨uri "rdf".toList, "li".toList⟩ := by
          rw [xmlName_reparse, hnames m hm, reparseName_li]
        simp [fullName_li_parsed r uri hb _ this]

/-- Reading back what was written, before looking at its meaning. -/
theorem alt_reads_raw (r : Registry) (uri : Str → Str) (hb : RdfBound r uri) (a : AltString)
    (hw : AltWritable a) (node : Node) (hnode : node.nodes = []) :
    ∃ d rest, a = d :: rest ∧ ∃ t, a.marshalXMP node = some t ∧
      ∀ u ∈ Views uri t, AltString.unmarshalXMP r u [] = some (AltString.mergeDefault (rawItems d rest)) := by
  obtain ⟨d, rest, h1, t, h2, h3⟩ := alt_reads_items r uri hb a hw node hnode
  exact ⟨d, rest, h1, t, h2, fun u hu => by rw [AltString.unmarshalXMP, h3 u hu]; rfl⟩

/-- C16, exact form: if the default item has a language of its own, or shares its text with no other
item, then exactly the same alternative is read back. -/
theorem alt_roundtrip_exact (r : Registry) (uri : Str → Str) (hb : RdfBound r uri) (a : AltString)
    (hw : AltWritable a) (hx : ∀ d rest, a = d :: rest → d.lang ≠ [] ∨ ∀ x ∈ rest, x.value ≠ d.value)
    (node : Node) (hnode : node.nodes = []) :
    ∃ t, a.marshalXMP node = some t ∧ ∀ u ∈ Views uri t, AltString.unmarshalXMP r u [] = some a := by
  obtain ⟨d, rest, ha, t, ht, hu⟩ := alt_reads_raw r uri hb a hw node hnode
  refine ⟨t, ht, ?_⟩
  intro u huv
  rw [hu u huv]
  have hd : d.isDefault = true := by
    obtain ⟨d', r', h1, h2, _⟩ := hw.oneDefault
    rw [ha] at h1
    cases h1
    exact h2
  unfold rawItems
  rw [mergeDefault_cons _ rfl]
  by_cases hl : d.lang = []
  · rcases hx d rest ha with h | h
    · exact absurd hl h
    · simp only [hl, if_true, List.nil_append]
      rcases dupIndex_split d.value rest 1 (by omega) with ⟨h1, _⟩ | ⟨p, x, q, rfl, hv, _⟩
      · rw [h1, ha]
        cases d
        simp_all
      · exact absurd hv (h x (by simp))
  · simp only [hl, if_false, List.cons_append, List.nil_append]
    have : AltString.dupIndex 0 d.value 1 ({ value := d.value, lang := d.lang } :: rest) = some 1 := by
      simp [AltString.dupIndex]
    rw [this, ha]
    cases d
    simp_all

/-- A writable alternative whose default carries a language. -/
def altSample : AltString :=
  [{ value := "Hello".toList, lang := "en".toList, isDefault := true },
   { value := "Hallo".toList, lang := "de".toList }]

theorem altSample_writable : AltWritable altSample where
  oneDefault := ⟨_, _, rfl, rfl, by decide⟩
  reserved := by decide
  trimmed := by decide

example : ∃ t, altSample.marshalXMP (Node.new ⟨[], "dc:title".toList⟩) = some t ∧
    ∀ u ∈ Views rdfBinding t, AltString.unmarshalXMP rdfRegistry u [] = some altSample :=
  alt_roundtrip_exact _ _ rdfBound_example _ altSample_writable
    (fun d rest h => by
      unfold altSample at h
      injection h with h1 h2
      left; rw [← h1]; decide) _ rfl

/-- C16: a text alternative in which no language occurs twice is read back with the same default text and
the same text for every language, and is well formed - from the tree and from its XML text. -/
theorem alt_roundtrip (r : Registry) (uri : Str → Str) (hb : RdfBound r uri) (a : AltString)
    (hw : AltWritable a) (hnd : (a.map (·.lang)).Nodup) (node : Node) (hnode : node.nodes = []) :
    ∃ t, a.marshalXMP node = some t ∧ ∀ u ∈ Views uri t, ∃ b, AltString.unmarshalXMP r u [] = some b ∧
      OneDefault b ∧ b.default = a.default ∧ ∀ lang, b.get lang = a.get lang := by
  by_cases hx : ∀ d rest, a = d :: rest → d.lang ≠ [] ∨ ∀ x ∈ rest, x.value ≠ d.value
  · obtain ⟨t, ht, hu⟩ := alt_roundtrip_exact r uri hb a hw hx node hnode
    refine ⟨t, ht, fun u huv => ⟨a, hu u huv, ?_, rfl, fun _ => rfl⟩⟩
    obtain ⟨d, rest, h1, h2, h3⟩ := hw.oneDefault
    exact Or.inr ⟨d, rest, h1, h2, fun x hx => (h3 x hx).1⟩
  · obtain ⟨d, rest, ha, t, ht, hu⟩ := alt_reads_raw r uri hb a hw node hnode
    obtain ⟨d', r', h1, hd, hr⟩ := hw.oneDefault
    rw [ha] at h1
    cases h1
    refine ⟨t, ht, fun u huv => ⟨_, hu u huv, ?_⟩⟩
    have hex : d.lang = [] ∧ ∃ x ∈ rest, x.value = d.value := by
      by_contra hc
      apply hx
      intro d' rest' h
      rw [ha] at h
      cases h
      by_cases hl : d.lang = []
      · right
        intro x hx' hv
        exact hc ⟨hl, x, hx', hv⟩
      · exact Or.inl hl
    obtain ⟨hl, y, hy, hyv⟩ := hex
    rcases dupIndex_split d.value rest 1 (by omega) with ⟨_, h2⟩ | ⟨p, x, q, rfl, hv, hdup⟩
    · exact absurd hyv (h2 y hy)
    · have hb' : AltString.mergeDefault (rawItems d (p ++ x :: q)) =
          { value := d.value, lang := x.lang, isDefault := true } :: (p ++ q) := by
        unfold rawItems
        rw [mergeDefault_cons _ rfl]
        simp only [hl, if_true, List.nil_append]
        rw [hdup]
        simp only
        have h3 : ({ value := d.value, isDefault := true } :: (p ++ x :: q) : AltString)[1 + p.length]? = some x := by
          rw [Nat.add_comm, List.getElem?_cons_succ]
          simp
        rw [h3]
        simp [List.take_append, List.drop_append, Nat.add_comm]
      rw [hb']
      have hdef : AltString.default (d :: (p ++ x :: q)) = d.value := by
        simp [AltString.default, hd]
      have hdef' : AltString.default (({ value := d.value, lang := x.lang, isDefault := true } : AltItem) :: (p ++ q)) = d.value := by
        simp [AltString.default]
      refine ⟨Or.inr ⟨_, _, rfl, rfl, ?_⟩, ?_, ?_⟩
      · intro z hz
        rcases List.mem_append.1 hz with h | h
        · exact (hr z (by simp [h])).1
        · exact (hr z (by simp [h])).1
      · rw [ha, hdef, hdef']
      · intro lang
        rw [ha]
        by_cases hlang : lang = []
        · subst hlang
          simp only [AltString.get, if_true, hdef, hdef']
        · have hdl : d.lang ≠ lang := by rw [hl]; exact fun h => hlang h.symm
          simp only [AltString.get, if_neg hlang, List.find?_cons, hdl, decide_false]
          rw [List.find?_append, List.find?_append, List.find?_cons]
          by_cases hxl : x.lang = lang
          · have hpn : p.find? (fun v => decide (v.lang = lang)) = none := by
              rw [List.find?_eq_none]
              intro z hz hzl
              simp only [decide_eq_true_eq] at hzl
              rw [ha, List.map_cons, List.map_append, List.map_cons] at hnd
              have := (List.nodup_cons.1 hnd).2
              rw [List.nodup_middle] at this
              apply (List.nodup_cons.1 this).1
              rw [hxl, ← hzl]
              exact List.mem_append.2 (Or.inl (List.mem_map.2 ⟨z, hz, rfl⟩))
            simp [hxl, hpn, hv]
          · simp [hxl]

example : ∃ t, AltString.marshalXMP [{ value := "x".toList, isDefault := true },
      { value := "y".toList, lang := "en".toList }, { value := "x".toList, lang := "de".toList }]
      (Node.new ⟨[], "dc:title".toList⟩) = some t ∧
    (AltString.unmarshalXMP rdfRegistry t []).map (fun b => (b.length, b.get "de".toList, b.default)) =
      some (2, "x".toList, "x".toList) := ⟨_, rfl, by decide⟩

/-- With a language occurring twice C16 fails: the text of `en` changes from `y` to `x`. -/
theorem alt_roundtrip_duplicate_lang :
    ∃ a : AltString, AltWritable a ∧ ∃ t, a.marshalXMP (Node.new ⟨[], "dc:title".toList⟩) = some t ∧
      a.get "en".toList = "y".toList ∧
      (AltString.unmarshalXMP rdfRegistry t []).map (fun b => b.get "en".toList) = some "x".toList := by
  refine ⟨[{ value := "x".toList, isDefault := true },
      { value := "y".toList, lang := "en".toList }, { value := "x".toList, lang := "en".toList }],
      ⟨⟨_, _, rfl, rfl, by decide⟩, by decide, by decide⟩, _, rfl, by decide, by decide⟩

/-- An item without language that is not the default makes the whole alternative unwritable. -/
theorem alt_marshal_needs_lang :
    AltString.marshalXMP [{ value := "x".toList, isDefault := true }, { value := "y".toList }]
      (Node.new ⟨[], "dc:title".toList⟩) = none := by rfl

end Xmp.Props
