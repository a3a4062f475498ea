import Verif.Props.DocRoots

/-! C46: the tree that is parsed from a written document. -/

namespace Xmp.Props

open GoStr

mutual
theorem xmlNamed_of : ∀ n : Node, (∀ q ∈ allNames n, q.space = [] ∧ q.loc ≠ []) → XmlNamed n
  | .mk n a v l, h => by
    rw [XmlNamed]
    refine ⟨(h n (by simp [allNames])).1, (h n (by simp [allNames])).2, ?_, xmlNamedAll_of l (fun q hq => h q (by simp [allNames, hq]))⟩
    intro x hx
    apply h
    simp only [allNames, List.cons_append, List.mem_cons, List.mem_append, List.mem_map]
    exact Or.inr (Or.inl ⟨x, hx, rfl⟩)
theorem xmlNamedAll_of : ∀ l : List Node, (∀ q ∈ allNamesList l, q.space = [] ∧ q.loc ≠ []) → XmlNamedAll l
  | [], _ => trivial
  | x :: xs, h => ⟨xmlNamed_of x (fun q hq => h q (by simp [allNamesList, hq])), xmlNamedAll_of xs (fun q hq => h q (by simp [allNamesList, hq]))⟩
end

/-- What parsing needs of a wrapper node. -/
structure WrapOK (S : Str → Prop) (ind : Option (Str × Str)) (w : Node) : Prop where
  value : w.value = []
  name : w.xmlName.space = [] ∧ S w.xmlName.loc
  attrs : ∀ a ∈ w.attrs, a.name.space = [] ∧ NameS S a.name.loc
  nodes : ∀ x ∈ w.nodes, NamesP (NameIn S) x
  unmixed : ind.isSome = true → ∀ x ∈ w.nodes, Unmixed x

section
variable {h : RegHistory} {env : Env} {d : XDoc} {S : Str → Prop} {ind : Option (Str × Str)}

theorem nameS_in {S : Str → Prop} {q : QName} (h1 : q.space = []) (h2 : NameS S q.loc) : NameIn S q := ⟨h1, Or.inl h2⟩

theorem mem_allNamesList' {l : List Node} {q : QName} (hq : q ∈ allNamesList l) : ∃ x ∈ l, q ∈ allNames x := by
  induction l with
  | nil => simp [allNamesList] at hq
  | cons x l ih =>
    rw [allNamesList, List.mem_append] at hq
    rcases hq with hq | hq
    · exact ⟨x, by simp, hq⟩
    · obtain ⟨y, h1, h2⟩ := ih hq
      exact ⟨y, by simp [h1], h2⟩

/-- The names inside of a wrapper. -/
theorem wrap_inner {w : Node} (hw : WrapOK S ind w) {q : QName} (hq : q ∈ innerNames w) : NameIn S q := by
  rw [innerNames, List.mem_append, List.mem_map] at hq
  rcases hq with ⟨a, ha, rfl⟩ | hq
  · exact nameS_in (hw.attrs a ha).1 (hw.attrs a ha).2
  · obtain ⟨x, hx, hq⟩ := mem_allNamesList' hq
    exact hw.nodes x hx q hq

theorem allNames_cases {w : Node} {q : QName} (hq : q ∈ allNames w) : q = w.xmlName ∨ q ∈ innerNames w := by
  obtain ⟨n, a, v, l⟩ := w
  simp only [allNames, List.cons_append, List.mem_cons] at hq
  exact hq

theorem wrap_space {w : Node} (hw : WrapOK S ind w) : ∀ q ∈ allNames w, q.space = [] := by
  intro q hq
  rcases allNames_cases hq with rfl | hq
  · exact hw.name.1
  · exact (wrap_inner hw hq).1

/-- The namespaces of a wrapper belong to prefixes of `S`. -/
theorem wrap_ns_sound (hd : DocNs h env d S) {w : Node} (hw : WrapOK S ind w) {ns : Namespace} (hns : ns ∈ Enc.namespaces env d w) :
    S ns.name ∧ d.findNsByPrefix env ns.name = some ns ∧ ns.uri = bindOf env d ns.name := by
  obtain ⟨h1, h2, q, hq, h3⟩ := ns_sound env d w (wrap_space hw) ns hns
  have key : ∀ p, S p → d.findNsByPrefix env p = some ns → S ns.name ∧ d.findNsByPrefix env ns.name = some ns ∧ ns.uri = bindOf env d ns.name := by
    intro p hp hf
    have := findNs_name hd.reg hf
    rw [this]
    exact ⟨hp, hf, (bindOf_some hf).symm⟩
  rcases allNames_cases hq with rfl | hq
  · rw [getPrefix_none (hd.plain _ hw.name.2).2.1] at h3
    exact key _ hw.name.2 h3
  · rcases (wrap_inner hw hq).2 with ⟨p, loc, e, -, -, hp⟩ | ⟨p, loc, e, -, -, hp, -⟩
    · rw [e, getPrefix_append (hd.plain p hp).2.1] at h3
      exact key p hp h3
    · rcases hp with rfl | rfl
      · rw [e, getPrefix_append (by decide), hd.rdf] at h3
        exact absurd (Option.some.inj h3).symm h1
      · rw [e, getPrefix_append (by decide), hd.xml] at h3
        exact absurd (Option.some.inj h3).symm h2

/-- Every prefix of `S` in a wrapper is among its namespaces. -/
theorem wrap_ns_complete (hd : DocNs h env d S) {w : Node} (hw : WrapOK S ind w) {q : QName} (hq : q ∈ allNames w)
    (hS : S (getPrefix q.loc)) : ∃ ns ∈ Enc.namespaces env d w, ns.name = getPrefix q.loc := by
  obtain ⟨ns, hf, -⟩ := hd.found _ hS
  have hn := findNs_name hd.reg hf
  obtain ⟨-, -, h1, h2, -⟩ := hd.plain _ hS
  obtain ⟨ns', h3, h4⟩ := ns_complete env d w (wrap_space hw) q hq ns hf
    (by rintro rfl; exact h1 hn.symm) (by rintro rfl; exact h2 hn.symm)
  obtain ⟨h5, h6, h7⟩ := wrap_ns_sound hd hw h3
  refine ⟨ns', h3, ?_⟩
  exact hd.inj _ _ ns' ns h5 hS h6 hf h4

/-- Which descriptions are written. -/
theorem kept_busy (hd : DocNs h env d S) {order : Node → List Namespace → List Namespace} (ho : ∀ w l, (order w l).Perm l) (about : Str)
    {w : Node} (hw : WrapOK S ind w) : Enc.kept (Enc.describe env order d about w) = busy w := by
  have hlen : (Enc.describe env order d about w).attrs.length = (Enc.namespaces env d w).length + 1 + w.attrs.length := by
    show ((order w (Enc.namespaces env d w)).map Namespace.attr ++ [_] ++ w.attrs).length = _
    rw [List.length_append, List.length_append, List.length_map, (ho _ _).length_eq, List.length_singleton]
  have hpos : 0 < (Enc.namespaces env d w).length := by
    have hc := (hd.plain _ hw.name.2).2.1
    obtain ⟨ns, hns, -⟩ := wrap_ns_complete hd hw (q := w.xmlName) (xmlName_mem_allNames w) (by rw [getPrefix_none hc]; exact hw.name.2)
    exact List.length_pos_of_mem hns
  unfold Enc.kept busy
  rw [hlen, show (Enc.describe env order d about w).nodes = w.nodes from rfl]
  cases hn : w.nodes with
  | cons x xs => simp
  | nil =>
    cases ha : w.attrs with
    | cons a as =>
      simp only [List.length_cons, List.isEmpty_nil, Bool.and_true, List.isEmpty_cons, Bool.not_false,
        Bool.not_eq_true', decide_eq_false_iff_not]
      omega
    | nil =>
      have h1 : (Enc.namespaces env d w).length ≤ 1 := by
        obtain ⟨n, a, v, l⟩ := w
        simp only [Node.nodes, Node.attrs] at hn ha
        subst hn ha
        rw [Enc.namespaces]
        refine Nat.le_trans (removeDups_spec _).2.1.length_le ?_
        rw [Enc.namespacesAll, List.nil_append]
        refine Nat.le_trans (List.length_filter_le _ _) ?_
        refine Nat.le_trans (List.length_filterMap_le _ _) ?_
        simp [Enc.prefixes]
      simp only [List.length_nil, List.isEmpty_nil, Bool.and_self, Bool.not_true, Bool.and_true, Bool.not_eq_false',
        decide_eq_true_eq]
      omega

/-- The parsed declarations of a wrapper. -/
def declsOf (env : Env) (order : Node → List Namespace → List Namespace) (d : XDoc) (w : Node) : List Attr :=
  (order w (Enc.namespaces env d w)).map (fun ns => ⟨⟨"xmlns".toList, ns.name⟩, ns.uri⟩)

theorem xmlns_inj {a b : Str} (e : "xmlns:".toList ++ a = "xmlns:".toList ++ b) : a = b := List.append_cancel_left e

theorem nameIn_notDecl (hd : DocNs h env d S) {q : QName} (hq : NameIn S q) : NotDecl q := by
  intro p e
  have hx : getPrefix ("xmlns:".toList ++ p) = "xmlns".toList := getPrefix_append (a := "xmlns".toList) (b := p) (by decide)
  rcases hq.2 with ⟨p', loc, e', -, -, hS⟩ | ⟨p', loc, e', -, -, hp, -⟩
  · rw [e'] at e
    have := congrArg getPrefix e
    rw [getPrefix_append (hd.plain p' hS).2.1, hx] at this
    exact (hd.plain p' hS).2.2.2.2 this
  · rw [e'] at e
    have := congrArg getPrefix e
    rcases hp with rfl | rfl
    · rw [getPrefix_append (by decide), hx] at this
      exact absurd this (by decide)
    · rw [getPrefix_append (by decide), hx] at this
      exact absurd this (by decide)

theorem nameIn_nonempty {q : QName} (hq : NameIn S q) : q.loc ≠ [] := by
  rcases hq.2 with ⟨p, loc, e, -⟩ | ⟨p, loc, e, -⟩ <;> rw [e] <;> simp

theorem about_notDecl (p : Str) : "rdf:about".toList ≠ "xmlns:".toList ++ p := by
  intro e
  have := congrArg List.head? e
  exact absurd this (by simp)

/-- A description is parsed in every scope that binds the usual prefixes. -/
theorem reads_description (hd : DocNs h env d S) (hb : Blank ind) {order : Node → List Namespace → List Namespace}
    (ho : ∀ w l, (order w l).Perm l) (about : Str) {w : Node} (hw : WrapOK S ind w) (dep : Nat) (u : Str → Str)
    (hrdf : u "rdf".toList = nsRDF.uri) (hxml : u "xml".toList = nsXML.uri) (hxmlns : u "xmlns".toList = "xmlns".toList) :
    Xml.reads u (Xml.ofNode ind dep (Enc.describe env order d about w)) =
      [pdesc (bindOf env d) (declsOf env order d w) about w] := by
  have hmem : ∀ ns, ns ∈ order w (Enc.namespaces env d w) ↔ ns ∈ Enc.namespaces env d w := fun ns => (ho _ _).mem_iff
  have hinner : ∀ q ∈ innerNames w, NameIn S q := fun q hq => wrap_inner hw hq
  have hattrIn : ∀ a ∈ w.attrs, a.name ∈ innerNames w := by
    intro a ha
    rw [innerNames, List.mem_append, List.mem_map]
    exact Or.inl ⟨a, ha, rfl⟩
  have hnodeIn : ∀ q ∈ allNamesList w.nodes, q ∈ innerNames w := by
    intro q hq
    rw [innerNames, List.mem_append]
    exact Or.inr hq
  have hnamed : XmlNamedAll w.nodes := xmlNamedAll_of w.nodes (fun q hq =>
    ⟨(hinner q (hnodeIn q hq)).1, nameIn_nonempty (hinner q (hnodeIn q hq))⟩)
  unfold Enc.describe
  have hX : XmlNamed (.mk rdfDescription ((order w (Enc.namespaces env d w)).map Namespace.attr ++
      [⟨⟨[], "rdf:about".toList⟩, about⟩] ++ w.attrs) w.value w.nodes) := by
    rw [XmlNamed]
    refine ⟨rfl, by decide, ?_, hnamed⟩
    intro a ha
    rw [List.mem_append, List.mem_append, List.mem_map, List.mem_singleton] at ha
    rcases ha with (⟨ns, -, rfl⟩ | rfl) | ha
    · exact ⟨rfl, by simp [Namespace.attr]⟩
    · exact ⟨rfl, by simp⟩
    · exact ⟨(hw.attrs a ha).1, nameIn_nonempty (hinner _ (hattrIn a ha))⟩
  rw [reads_node u ind hb dep hX (fun _ => Or.inl (by rw [hw.value]; rfl))]
  -- the scope inside
  have hraw : ∀ x ∈ rawAttrs ((order w (Enc.namespaces env d w)).map Namespace.attr ++ [⟨⟨[], "rdf:about".toList⟩, about⟩] ++ w.attrs),
      ∀ p, x.1 = "xmlns:".toList ++ p → S p ∧ x.2 = bindOf env d p := by
    intro x hx p e
    obtain ⟨a, ha, rfl⟩ := List.mem_map.1 hx
    simp only at e ⊢
    rw [List.mem_append, List.mem_append, List.mem_map, List.mem_singleton] at ha
    rcases ha with (⟨ns, hns, rfl⟩ | rfl) | ha
    · have := wrap_ns_sound hd hw ((hmem ns).1 hns)
      rw [← xmlns_inj e]
      exact ⟨this.1, this.2.2⟩
    · exact absurd e (about_notDecl p)
    · exact absurd e (nameIn_notDecl hd (hinner _ (hattrIn a ha)) p)
  generalize hσ : Xml.scope (rawAttrs ((order w (Enc.namespaces env d w)).map Namespace.attr ++
    [⟨⟨[], "rdf:about".toList⟩, about⟩] ++ w.attrs)) u = σ
  have hσrdf : σ "rdf".toList = nsRDF.uri := by
    rw [← hσ]
    apply scope_const _ _ _ _ (by decide) (by decide)
    · intro x hx e
      exact absurd rfl ((hd.plain _ (hraw x hx _ e).1).2.2.1)
    · exact Or.inl hrdf
  have hσxml : σ "xml".toList = nsXML.uri := by
    rw [← hσ, scope_fixed _ _ _ (Or.inl rfl)]; exact hxml
  have hσxmlns : σ "xmlns".toList = "xmlns".toList := by
    rw [← hσ, scope_fixed _ _ _ (Or.inr rfl)]; exact hxmlns
  have hσS : ∀ q ∈ innerNames w, S (getPrefix q.loc) → σ (getPrefix q.loc) = bindOf env d (getPrefix q.loc) := by
    intro q hq hS
    rw [← hσ]
    apply scope_const _ _ _ _ (hd.plain _ hS).2.2.2.1 (hd.plain _ hS).2.2.2.2
    · intro x hx e
      exact (hraw x hx _ e).2
    · right
      obtain ⟨ns, h1, h2⟩ := wrap_ns_complete hd hw (innerNames_sub w hq) hS
      refine ⟨("xmlns:".toList ++ ns.name, ns.uri), ?_, by rw [h2]⟩
      refine List.mem_map.2 ⟨ns.attr, ?_, rfl⟩
      rw [List.mem_append, List.mem_append, List.mem_map]
      exact Or.inl (Or.inl ⟨ns, (hmem ns).2 h1, rfl⟩)
  have hσq : ∀ q ∈ innerNames w, reparseName σ q = reparseName (bindOf env d) q := by
    intro q hq
    rcases (hinner q hq).2 with ⟨p, loc, e, -, -, hS⟩ | ⟨p, loc, e, -, -, hp, -⟩
    · have hpc := (hd.plain p hS).2.1
      have h1 := hσS q hq
      rw [e, getPrefix_append hpc] at h1
      rw [show q = ⟨q.space, q.loc⟩ from rfl, e, reparse_colon _ hpc, reparse_colon _ hpc, h1 hS]
    · rw [show q = ⟨q.space, q.loc⟩ from rfl, e]
      rcases hp with rfl | rfl
      · rw [reparse_colon _ (by decide), reparse_colon _ (by decide), hσrdf, bind_rdf hd]
      · rw [reparse_colon _ (by decide), reparse_colon _ (by decide), hσxml, bind_xml hd]
  unfold pdesc
  have e1 : reparseName σ rdfDescription = ⟨nsRDF.uri, "Description".toList⟩ := by
    rw [show rdfDescription = ⟨[], "rdf".toList ++ ':' :: "Description".toList⟩ from by decide, reparse_colon _ (by decide), hσrdf]
  have e2 : reparseName σ ⟨[], "rdf:about".toList⟩ = ⟨nsRDF.uri, "about".toList⟩ := by
    rw [show "rdf:about".toList = "rdf".toList ++ ':' :: "about".toList from by decide, reparse_colon _ (by decide), hσrdf]
  have e3 : Xml.reads σ (Xml.ofNodes ind (dep + 1) w.nodes) = Node.reparseList (bindOf env d) w.nodes := by
    rw [reads_plain_all ind hb w.nodes (dep + 1) σ hnamed (fun q hq => nameIn_notDecl hd (hinner q (hnodeIn q hq)))
      (fun hi => unmixedAll_iff.2 (hw.unmixed hi))]
    exact reparseList_congr _ _ _ (fun q hq => hσq q (hnodeIn q hq))
  rw [e1, e3, hw.value, List.map_append, List.map_append, List.map_map, List.map_cons, List.map_nil, e2]
  congr 2
  · congr 1
    · congr 1
      unfold declsOf
      apply List.map_congr_left
      intro ns _
      simp only [Function.comp, Namespace.attr]
      rw [show "xmlns:".toList ++ ns.name = "xmlns".toList ++ ':' :: ns.name from rfl, reparse_colon _ (by decide), hσxmlns]
    · apply List.map_congr_left
      intro a ha
      unfold parsedAttr
      rw [hσq _ (hattrIn a ha)]

/-- All descriptions. -/
theorem reads_descriptions (hd : DocNs h env d S) (hb : Blank ind) {order : Node → List Namespace → List Namespace}
    (ho : ∀ w l, (order w l).Perm l) (about : Str) (dep : Nat) (u : Str → Str)
    (hrdf : u "rdf".toList = nsRDF.uri) (hxml : u "xml".toList = nsXML.uri) (hxmlns : u "xmlns".toList = "xmlns".toList) :
    ∀ ws : List Node, (∀ w ∈ ws, WrapOK S ind w) → Xml.reads u (Xml.ofNodes ind dep (ws.map (Enc.describe env order d about))) =
      ws.map (fun w => pdesc (bindOf env d) (declsOf env order d w) about w) := by
  intro ws
  induction ws with
  | nil => intro _; simp [Xml.ofNodes, Xml.reads]
  | cons w ws ih =>
    intro hws
    rw [List.map_cons, Xml.ofNodes, reads_append, reads_description hd hb ho about (hws w (by simp)) dep u hrdf hxml hxmlns,
      ih (fun x hx => hws x (by simp [hx]))]
    rfl

theorem describe_named (hd : DocNs h env d S) {order : Node → List Namespace → List Namespace} (about : Str) {w : Node} (hw : WrapOK S ind w) :
    XmlNamed (Enc.describe env order d about w) := by
  unfold Enc.describe
  rw [XmlNamed]
  refine ⟨rfl, by decide, ?_, ?_⟩
  · intro a ha
    rw [List.mem_append, List.mem_append, List.mem_map, List.mem_singleton] at ha
    rcases ha with (⟨ns, -, rfl⟩ | rfl) | ha
    · exact ⟨rfl, by simp [Namespace.attr]⟩
    · exact ⟨rfl, by simp⟩
    · exact ⟨(hw.attrs a ha).1, nameIn_nonempty (nameS_in (hw.attrs a ha).1 (hw.attrs a ha).2)⟩
  · apply xmlNamedAll_of
    intro q hq
    obtain ⟨x, hx, hq⟩ := mem_allNamesList' hq
    exact ⟨(hw.nodes x hx q hq).1, nameIn_nonempty (hw.nodes x hx q hq)⟩

theorem xmlNamedAll_iff : ∀ {l : List Node}, XmlNamedAll l ↔ ∀ x ∈ l, XmlNamed x
  | [] => by simp [XmlNamedAll]
  | x :: xs => by rw [XmlNamedAll, List.forall_mem_cons, xmlNamedAll_iff]

/-- The parsed document around the descriptions. -/
def ptree (toolkit : Str) (l : List Node) : Node :=
  .mk ⟨nsX.uri, "xmpmeta".toList⟩
    [⟨⟨"xmlns".toList, "x".toList⟩, "adobe:ns:meta/".toList⟩,
     ⟨⟨nsX.uri, "xmptk".toList⟩, if toolkit = [] then Enc.toolkitVersion else toolkit⟩] []
    [.mk ⟨nsRDF.uri, "RDF".toList⟩ [⟨⟨"xmlns".toList, "rdf".toList⟩, nsRDF.uri⟩] [] l]

theorem reads_tree (hd : DocNs h env d S) (hb : Blank ind) {order : Node → List Namespace → List Namespace}
    (ho : ∀ w l, (order w l).Perm l) (about toolkit : Str) (ws : List Node) (hws : ∀ w ∈ ws, WrapOK S ind w) :
    Xml.reads Xml.baseScope (Xml.ofNode ind 0 (Enc.tree toolkit (ws.map (Enc.describe env order d about)))) =
      [ptree toolkit (ws.map (fun w => pdesc (bindOf env d) (declsOf env order d w) about w))] := by
  have hnamed : XmlNamedAll (ws.map (Enc.describe env order d about)) := by
    rw [xmlNamedAll_iff]
    intro x hx
    obtain ⟨w, hw, rfl⟩ := List.mem_map.1 hx
    exact describe_named hd about (hws w hw)
  have hrdfN : XmlNamed (.mk ⟨[], "rdf:RDF".toList⟩ [nsRDF.attr] [] (ws.map (Enc.describe env order d about))) := by
    rw [XmlNamed]
    refine ⟨rfl, by decide, ?_, hnamed⟩
    intro a ha
    rw [List.mem_singleton] at ha
    subst ha
    exact ⟨rfl, by decide⟩
  unfold Enc.tree
  rw [reads_node _ ind hb 0 (by
      rw [XmlNamed]
      refine ⟨rfl, by decide, ?_, hrdfN, trivial⟩
      intro a ha
      simp only [List.mem_cons, List.not_mem_nil, or_false] at ha
      rcases ha with rfl | rfl
      · exact ⟨rfl, by decide⟩
      · exact ⟨rfl, by simp⟩) (fun _ => Or.inl rfl)]
  generalize hσ : Xml.scope (rawAttrs [⟨⟨[], "xmlns:x".toList⟩, "adobe:ns:meta/".toList⟩,
     ⟨⟨[], "x:xmptk".toList⟩, if toolkit = [] then Enc.toolkitVersion else toolkit⟩]) Xml.baseScope = σ
  have hx : σ "x".toList = nsX.uri := by
    rw [← hσ]
    apply scope_const _ _ _ _ (by decide) (by decide)
    · intro y hy e
      simp only [rawAttrs, List.map_cons, List.map_nil, List.mem_cons, List.not_mem_nil, or_false] at hy
      rcases hy with rfl | rfl
      · rfl
      · exact absurd e (by simp only; decide)
    · exact Or.inr ⟨_, List.mem_map.2 ⟨⟨⟨[], "xmlns:x".toList⟩, "adobe:ns:meta/".toList⟩, by simp, rfl⟩, by decide⟩
  have hxml : σ "xml".toList = nsXML.uri := by
    rw [← hσ, scope_fixed _ _ _ (Or.inl rfl)]; decide
  have hxmlns : σ "xmlns".toList = "xmlns".toList := by
    rw [← hσ, scope_fixed _ _ _ (Or.inr rfl)]; decide
  have hinner : Xml.reads σ (Xml.ofNodes ind (0 + 1) [.mk ⟨[], "rdf:RDF".toList⟩ [nsRDF.attr] [] (ws.map (Enc.describe env order d about))]) =
      [.mk ⟨nsRDF.uri, "RDF".toList⟩ [⟨⟨"xmlns".toList, "rdf".toList⟩, nsRDF.uri⟩] []
        (ws.map (fun w => pdesc (bindOf env d) (declsOf env order d w) about w))] := by
    rw [Xml.ofNodes, Xml.ofNodes, List.append_nil, reads_node _ ind hb _ hrdfN (fun _ => Or.inl rfl)]
    generalize hσ' : Xml.scope (rawAttrs [nsRDF.attr]) σ = τ
    have h1 : τ "rdf".toList = nsRDF.uri := by
      rw [← hσ']
      apply scope_const _ _ _ _ (by decide) (by decide)
      · intro y hy e
        simp only [rawAttrs, List.map_cons, List.map_nil, List.mem_cons, List.not_mem_nil, or_false] at hy
        subst hy
        rfl
      · exact Or.inr ⟨_, List.mem_map.2 ⟨nsRDF.attr, by simp, rfl⟩, by decide⟩
    have h2 : τ "xml".toList = nsXML.uri := by
      rw [← hσ', scope_fixed _ _ _ (Or.inl rfl)]; exact hxml
    have h3 : τ "xmlns".toList = "xmlns".toList := by
      rw [← hσ', scope_fixed _ _ _ (Or.inr rfl)]; exact hxmlns
    rw [reads_descriptions hd hb ho about _ τ h1 h2 h3 ws hws]
    rw [show ("rdf:RDF".toList : Str) = "rdf".toList ++ ':' :: "RDF".toList from by decide, reparse_colon _ (by decide), h1]
    simp only [List.map_cons, List.map_nil, Namespace.attr]
    rw [show ("xmlns:".toList ++ nsRDF.name : Str) = "xmlns".toList ++ ':' :: "rdf".toList from by decide, reparse_colon _ (by decide), h3]
    rfl
  rw [hinner]
  unfold ptree
  rw [show ("x:xmpmeta".toList : Str) = "x".toList ++ ':' :: "xmpmeta".toList from by decide, reparse_colon _ (by decide), hx]
  simp only [List.map_cons, List.map_nil]
  rw [show ("xmlns:x".toList : Str) = "xmlns".toList ++ ':' :: "x".toList from by decide, reparse_colon _ (by decide), hxmlns,
    show ("x:xmptk".toList : Str) = "x".toList ++ ':' :: "xmptk".toList from by decide, reparse_colon _ (by decide), hx]
  rfl

end

end Xmp.Props
