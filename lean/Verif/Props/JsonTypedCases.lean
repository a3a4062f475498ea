import Verif.Props.JsonTyped

/-! C52: the round trip of typed values through JSON, a sample and where it fails. -/

namespace Xmp.Props

open GoStr List

/-- C52: a faithful value of any type with plain names is written into a fresh node; its JSON form, with the entries
of objects in any order, gives an element under any plain name that is read as the same value. -/
theorem model_json_roundtrip (d : Dec) (dv : Version) (hr : d.reg.getPrefix Json.nsRdf = "rdf".toList) (t : Ty)
    (hn : TyNames JName t) (v : Val) (hf : Faithful dv t v) (hj : JVal t v) (name : QName) :
    ∃ n, marshalValue t v (Node.new name) = some n ∧ ∀ j, JSame (Json.ofNode d.reg n) j → ∀ k, JName k → ∀ parent,
      ∃ n', Json.toNode j k parent = .ok (parent.appendNode n') ∧ n'.xmlName = ⟨[], k⟩ ∧
        decodeElement d dv n' t t.zero = .ok v := by
  obtain ⟨n, h1, -, -, h2⟩ := jtrips d dv hr t hn v name hf hj
  refine ⟨n, h1, fun j hjs k hk parent => ?_⟩
  obtain ⟨n', g1, g2, g3⟩ := (h2 j hjs).1 k hk
  exact ⟨n', g1 parent, g2, g3 false⟩

/-! ### A sample -/

theorem sampleJName (loc : Str) : JName ("ex".toList ++ ':' :: loc) := by
  refine ⟨⟨by simp, ?_⟩, ?_⟩ <;> simp

theorem movieJNames : TyNames JName movieTy := by
  have hp : TyNames JName personTy := by
    simp only [personTy, TyNames, TysNames, List.mem_cons, List.not_mem_nil, or_false, forall_eq_or_imp, forall_eq, and_true]
    exact ⟨sampleJName "name".toList, sampleJName "count".toList⟩
  simp only [movieTy, TyNames, TysNames, List.mem_cons, List.not_mem_nil, or_false, forall_eq_or_imp, forall_eq, and_true, true_and]
  exact ⟨⟨sampleJName "title".toList, sampleJName "cast".toList, sampleJName "studio".toList, sampleJName "year".toList⟩, hp, hp⟩

theorem movieJVal : JVal movieTy movieVal := by
  simp [movieTy, movieVal, personTy, JVal, JFields, ItemTy, JAlt, altSample]

example : ∃ n, marshalValue movieTy movieVal (Node.new ⟨[], "ex:movie".toList⟩) = some n ∧
    ∀ j, JSame (Json.ofNode sampleDec.reg n) j → ∀ k, JName k → ∀ parent,
      ∃ n', Json.toNode j k parent = .ok (parent.appendNode n') ∧ n'.xmlName = ⟨[], k⟩ ∧
        decodeElement sampleDec Version.zero n' movieTy movieTy.zero = .ok movieVal :=
  model_json_roundtrip _ _ (by decide +kernel) _ movieJNames _ movieFaithful movieJVal _

/-! ### Where the round trip fails -/

/-- C52: an array of texts that is written as `rdf:Alt` is read as an array of empty texts. -/
theorem json_alt_array_lost (d : Dec) (dv : Version) (hr : d.reg.getPrefix Json.nsRdf = "rdf".toList) (l : List Str) (hl : l ≠ [])
    (name : QName) (k : Str) (hk : k ≠ []) (parent : Node) :
    ∃ n n', marshalValue (.slice .alternative .str) (.slice (l.map .str) []) (Node.new name) = some n ∧
      Json.toNode (Json.ofNode d.reg n) k parent = .ok (parent.appendNode n') ∧
      decodeElement d dv n' (.slice .alternative .str) (Ty.slice .alternative .str).zero = .ok (.slice (l.map fun _ => .str []) []) := by
  have hm : (l.map Val.str).mapM (fun v => marshalValue .str v liNode) = some (l.map (fun s => liNode.setValue s)) := by
    clear hl
    induction l with
    | nil => rfl
    | cons s l ih =>
      rw [List.map_cons, List.mapM_cons, ih, marshalValue]
      rfl
  refine ⟨.mk name [] [] [.mk ⟨[], "rdf:Alt".toList⟩ [] [] (l.map (fun s => liNode.setValue s))],
    .mk ⟨[], k⟩ [] [] [.mk ⟨Json.nsRdf, "Alt".toList⟩ [] [] (l.map (fun _ => Json.li [] []))], ?_, ?_, ?_⟩
  · rw [marshalValue]
    unfold marshalArray
    rw [if_neg (by simpa using hl), hm]
    rfl
  · rw [Json.ofNode, if_neg (by simp), Json.ofAttrs, Json.ofChildren, if_neg (by rw [fullName_plain]; decide),
      if_pos (by rw [fullName_plain]), ofAlt_flat]
    swap
    · obtain ⟨s, l, rfl⟩ := List.exists_cons_of_ne_nil hl
      intro h
      exact h rfl
    have hi : ∀ l : List Str, (l.map (fun s => liNode.setValue s)).map Json.altItem = l.map (fun s => ({ value := s, lang := [] } : AltItem)) := by
      intro l
      rw [List.map_map]
      apply List.map_congr_left
      intro s _
      rfl
    have hlast : ∀ l : List Str, Json.lastDefault (l.map (fun s => ({ value := s, lang := [] } : AltItem))) = none := by
      intro l
      induction l with
      | nil => rfl
      | cons s l ih =>
        rw [List.map_cons, Json.lastDefault, ih]
        simp only
        rw [if_neg (by decide)]
    have ha : Json.altItems (l.map (fun s => liNode.setValue s)) = l.map (fun s => ({ value := s, lang := [] } : AltItem)) := by
      unfold Json.altItems
      rw [hi l]
      simp only [hlast]
    simp only [Node.nodes]
    rw [ha, Json.toNode, if_neg hk, if_pos]
    swap
    · obtain ⟨s, l, rfl⟩ := List.exists_cons_of_ne_nil hl
      rfl
    have hn : Json.altNodesAll ((l.map (fun s => ({ value := s, lang := [] } : AltItem))).map Json.ofAltItem) =
        .ok (l.map (fun _ => Json.li [] [])) := by
      clear hl hm ha
      induction l with
      | nil => rfl
      | cons s l ih =>
        rw [List.map_cons, List.map_cons, Json.altNodesAll, ih, json_no_language_lost]
        rfl
    rw [hn]
  · unfold decodeElement
    rw [unmarshal]
    simp only [Ty.zero, derefVal]
    rw [unmarshalArr, unmarshalArr1, if_pos (by decide)]
    have : ∀ (l : List Str) (out : List Val), unmarshalItems d dv (l.map (fun _ => Json.li [] [])) .str out =
        .ok (out ++ l.map (fun _ => .str [])) := by
      intro l
      induction l with
      | nil => intro out; simp [unmarshalItems]
      | cons s l ih =>
        intro out
        rw [List.map_cons, unmarshalItems, if_neg]
        · have : unmarshal d dv (Json.li [] []) false .str Ty.str.zero = .ok (.str []) := by
            unfold Json.li
            rw [unmarshal]
            rfl
          rw [this]
          simp only
          rw [ih]
          simp
        · have : (Json.li [] []).fullName d.reg = "rdf:li".toList := by
            unfold Json.li
            exact fullName_rdf d.reg hr _ _ _ _
          rw [this]
          simp
    rw [this]
    rfl

/-- C52: the JSON form of an array of arrays is not read: the decoder refuses it. -/
theorem json_nested_array_refused (d : Dec) (dv : Version) (hr : d.reg.getPrefix Json.nsRdf = "rdf".toList) (typ typ' : ArrayType) (t : Ty)
    (l0 sp0 : List Val) (hl0 : l0 ≠ []) (rest : List Val) (name : QName) (n : Node)
    (hm : marshalValue (.slice typ (.slice typ' t)) (.slice (.slice l0 sp0 :: rest) []) (Node.new name) = some n)
    (k : Str) (hk : k ≠ []) (parent res : Node) (hres : Json.toNode (Json.ofNode d.reg n) k parent = .ok res) :
    ∃ n', res = parent.appendNode n' ∧ decodeElement d dv n' (.slice typ (.slice typ' t)) (Ty.slice typ (.slice typ' t)).zero = .err := by
  rw [marshalValue] at hm
  unfold marshalArray at hm
  rw [if_neg (by simp)] at hm
  cases hlis : (Val.slice l0 sp0 :: rest).mapM (fun v => marshalValue (.slice typ' t) v liNode) with
  | none => rw [hlis] at hm; cases hm
  | some lis =>
    rw [hlis, Option.map_some] at hm
    cases hm
    have hhead : ∃ lis0 lis', lis = .mk ⟨[], "rdf:li".toList⟩ [] [] [.mk ⟨[], "rdf:".toList ++ typ'.toStr⟩ [] [] lis0] :: lis' := by
      rw [List.mapM_cons] at hlis
      cases h0 : marshalValue (.slice typ' t) (.slice l0 sp0) liNode with
      | none => rw [h0] at hlis; cases hlis
      | some li0 =>
        rw [h0] at hlis
        cases h1 : rest.mapM (fun v => marshalValue (.slice typ' t) v liNode) with
        | none => rw [h1] at hlis; cases hlis
        | some lis' =>
          rw [h1] at hlis
          cases hlis
          rw [marshalValue] at h0
          unfold marshalArray at h0
          rw [if_neg (by simpa using hl0)] at h0
          cases h2 : l0.mapM (fun v => marshalValue t v liNode) with
          | none => rw [h2] at h0; cases h0
          | some lis0 =>
            rw [h2] at h0
            cases h0
            exact ⟨lis0, lis', rfl⟩
    obtain ⟨lis0, lis', rfl⟩ := hhead
    have hitem : ∃ js, Json.ofNode d.reg (.mk ⟨[], "rdf:li".toList⟩ [] [] [.mk ⟨[], "rdf:".toList ++ typ'.toStr⟩ [] [] lis0]) = .arr js := by
      rw [Json.ofNode, if_neg (by simp), Json.ofAttrs, Json.ofChildren, fullName_plain]
      cases typ' with
      | alternative =>
        rw [if_neg (by decide), if_pos (by decide)]
        by_cases hf : FirstNested lis0
        · rw [ofAlt_nested d.reg (a := .mk _ _ _ lis0) hf]; exact ⟨_, rfl⟩
        · rw [ofAlt_flat d.reg (a := .mk _ _ _ lis0) hf]; exact ⟨_, rfl⟩
      | unordered => rw [if_pos (by decide), Json.ofArray]; exact ⟨_, rfl⟩
      | ordered => rw [if_pos (by decide), Json.ofArray]; exact ⟨_, rfl⟩
    obtain ⟨js, hitem⟩ := hitem
    have hform : ∃ js', Json.ofNode d.reg ((Node.new name).addNode ((Node.new ⟨[], "rdf:".toList ++ typ.toStr⟩).setNodes
        (.mk ⟨[], "rdf:li".toList⟩ [] [] [.mk ⟨[], "rdf:".toList ++ typ'.toStr⟩ [] [] lis0] :: lis'))) = .arr (.arr js :: js') := by
      refine ⟨Json.ofItems d.reg lis', ?_⟩
      change Json.ofNode d.reg (.mk name [] [] [.mk ⟨[], "rdf:".toList ++ typ.toStr⟩ [] [] _]) = _
      rw [Json.ofNode, if_neg (by simp), Json.ofAttrs, Json.ofChildren, fullName_plain]
      cases typ with
      | alternative =>
        rw [if_neg (by decide), if_pos (by decide), ofAlt_nested]
        · simp only [Node.nodes]
          rw [Json.ofItems, hitem]
        · intro h; cases h
      | unordered => rw [if_pos (by decide), Json.ofArray, Json.ofItems, hitem]
      | ordered => rw [if_pos (by decide), Json.ofArray, Json.ofItems, hitem]
    obtain ⟨js', hform⟩ := hform
    rw [hform, Json.toNode, if_neg hk, if_neg (by simp [Json.isAltArray])] at hres
    cases hto : Json.toItems (.arr js :: js') with
    | err => rw [hto] at hres; cases hres
    | panic => rw [hto] at hres; cases hres
    | ok out =>
      rw [hto] at hres
      cases hres
      have hh := json_nested_lost _ js js' rfl out hto
      obtain ⟨out', rfl⟩ : ∃ out', out = Json.li [] [] :: out' := by
        cases out with
        | nil => cases hh
        | cons a b => cases hh; exact ⟨_, rfl⟩
      refine ⟨_, rfl, ?_⟩
      unfold decodeElement
      rw [unmarshal]
      simp only [Ty.zero, derefVal]
      rw [unmarshalArr, unmarshalArr1, if_pos (by decide), unmarshalItems, if_neg]
      · have : unmarshal d dv (Json.li [] []) false (.slice typ' t) (Ty.slice typ' t).zero = .err := by
          unfold Json.li
          rw [unmarshal]
          simp only [Ty.zero, derefVal]
          rw [unmarshalArr]
          intro _ h; cases h
        rw [this]
      · have : (Json.li [] []).fullName d.reg = "rdf:li".toList := by
          unfold Json.li
          exact fullName_rdf d.reg hr _ _ _ _
        rw [this]
        simp

/-- C52: the default text of a language alternative without a language of its own is lost if there are other texts:
the others are read alone, none of them as default. -/
theorem json_alt_default_lost (d : Dec) (dv : Version) (hr : d.reg.getPrefix Json.nsRdf = "rdf".toList) (x : AltItem) (rest : AltString)
    (hw : AltWritable (x :: rest)) (hl : x.lang = []) (hv : x.value ≠ []) (hne : rest ≠ []) (ho : ∀ y ∈ rest, y.value ≠ x.value)
    (name : QName) (k : Str) (hk : k ≠ []) (parent : Node) :
    ∃ n n', marshalValue .alt (.alt (x :: rest)) (Node.new name) = some n ∧
      Json.toNode (Json.ofNode d.reg n) k parent = .ok (parent.appendNode n') ∧
      decodeElement d dv n' .alt Ty.alt.zero = .ok (.alt rest) := by
  obtain ⟨x', rest', e, hd, hrest⟩ := hw.oneDefault
  cases e
  have hm : AltString.marshalXMP (x :: rest) (Node.new name) = some (.mk name [] [] [.mk ⟨[], "rdf:Alt".toList⟩ [] [] (altLis x rest)]) := by
    have := marshal_lis x rest hd hrest
    unfold AltString.marshalXMP
    rw [if_neg (by simp)]
    cases hmm : (x :: rest).mapM (marshalAltItem (x :: rest).length) with
    | none => rw [hmm] at this; cases this
    | some l =>
      rw [hmm] at this
      simp only [Option.map_some, Option.some.injEq] at this
      rw [Option.map_some, this]
      rfl
  have hsame : rest.map (fun y => if y.value = x.value then { y with isDefault := true } else y) = rest := by
    conv_rhs => rw [← List.map_id rest]
    apply List.map_congr_left
    intro y hy
    rw [if_neg (ho y hy)]
    rfl
  have hitems : Json.altItems (altLis x rest) = rest := by
    rw [altItems_written x rest hw.reserved (fun y hy => (hrest y hy).1), if_pos ⟨hv, Or.inr hne⟩, if_pos hl, hsame, List.nil_append]
  have hF : Forall₂ ItemJson rest (rest.map Json.ofAltItem) := by
    rw [forall₂_map_right_iff, forall₂_same]
    intro y _
    exact jsame_item y _ (jsame_refl _)
  have hread : (rest.flatMap expandItem).map jItem = rest := by
    have h2 : ∀ y ∈ rest, (expandItem y).map jItem = [y] := by
      intro y hy
      unfold expandItem
      rw [if_neg (by rw [(hrest y hy).1]; simp)]
      simp only [List.map_cons, List.map_nil, jItem]
      have h0 : y.lang ≠ Json.xDefault := hw.reserved y (by simp [hy])
      rw [if_neg h0, trimSpace_of_trimmed (hw.trimmed y (by simp [hy]))]
      have := (hrest y hy).1
      cases y
      simp_all
    clear * - h2
    induction rest with
    | nil => rfl
    | cons y ys ih =>
      rw [List.flatMap_cons, List.map_append, h2 y (by simp), ih (fun z hz => h2 z (by simp [hz]))]
      rfl
  have hmerge : AltString.mergeDefault rest = rest := by
    unfold AltString.mergeDefault
    have : rest.findIdx? (·.isDefault) = none := by
      rw [List.findIdx?_eq_none_iff]
      exact fun y hy => (hrest y hy).1
    rw [this]
  refine ⟨_, .mk ⟨[], k⟩ [] [] [.mk ⟨Json.nsRdf, "Alt".toList⟩ [] [] ((rest.flatMap expandItem).map jLi)], by rw [marshalValue]; exact hm, ?_, ?_⟩
  · rw [Json.ofNode, if_neg (by simp), Json.ofAttrs, Json.ofChildren, if_neg (by rw [fullName_plain]; decide),
      if_pos (by rw [fullName_plain]), ofAlt_flat]
    swap
    · unfold altLis defaultLis altLi
      intro h
      exact h rfl
    simp only [Node.nodes]
    rw [hitems, Json.toNode, if_neg hk, isAltArray_items d.reg hr hF hne (fun y hy => Or.inr (hrest y hy).2), if_pos rfl,
      items_nodes hF (fun y hy => Or.inr (hrest y hy).2)]
  · unfold decodeElement
    rw [unmarshal_jLis d dv hr, hread, hmerge]

example : ∃ n n', marshalValue .alt (.alt [⟨"Hello".toList, [], true⟩, ⟨"Hallo".toList, "de".toList, false⟩]) (Node.new ⟨[], "ex:t".toList⟩) = some n ∧
    Json.toNode (Json.ofNode sampleDec.reg n) "ex:t".toList (Node.new ⟨[], []⟩) = .ok ((Node.new ⟨[], []⟩).appendNode n') ∧
    decodeElement sampleDec Version.zero n' .alt Ty.alt.zero = .ok (.alt [⟨"Hallo".toList, "de".toList, false⟩]) :=
  json_alt_default_lost _ _ (by decide +kernel) _ _ ⟨⟨_, _, rfl, rfl, by decide⟩, by decide, by decide⟩ rfl (by decide) (by decide) (by decide) _ _
    (by decide) _

end Xmp.Props
