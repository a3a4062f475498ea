import Verif.Props.DocParse

/-! C46: documents survive being written as XMP and read back. -/

namespace Xmp.Props

open GoStr

section
variable {h : RegHistory} {env : Env} {d : XDoc} {dv : Version} {S : Str → Prop} {ind : Option (Str × Str)} {r : Root}

/-! ### From groups to descriptions -/

theorem wrapOK_of (hd : DocNs h env d S) (hr : RootOK h env d dv S r) {G : List Grp} (hG : Grouped dv S r G) {g : Grp} (hg : g ∈ G)
    (hu : ind.isSome = true → UnmixedAll r.node.nodes) : WrapOK S ind (g.fin r.node) := by
  refine ⟨rfl, ⟨rfl, hr.own _ (hG.owned g hg)⟩, ?_, ?_, ?_⟩
  · intro a ha
    have ha : a ∈ g.attrs.map (·.2) ++ g.extA r.node := ha
    rcases List.mem_append.1 ha with ha | ha
    · obtain ⟨o, ho, rfl⟩ := List.mem_map.1 ha
      obtain ⟨-, h2, t, v, -, -, -, h3, -⟩ := hG.attrs g hg o ho
      exact ⟨h3, h2⟩
    · unfold Grp.extA at ha
      split at ha
      · exact ⟨(hr.attrs a ha).1, (hr.attrs a ha).2.1⟩
      · cases ha
  · intro x hx
    have hx : x ∈ g.nodes.map (·.2) ++ g.extN r.node := hx
    rcases List.mem_append.1 hx with hx | hx
    · obtain ⟨o, ho, rfl⟩ := List.mem_map.1 hx
      obtain ⟨-, -, h3, -⟩ := hG.nodes g hg o ho
      intro q hq
      exact nameM_in hd (h3 q hq)
    · unfold Grp.extN at hx
      split at hx
      · exact (hr.nodes x hx).2.1
      · cases hx
  · intro hi x hx
    have hx : x ∈ g.nodes.map (·.2) ++ g.extN r.node := hx
    rcases List.mem_append.1 hx with hx | hx
    · obtain ⟨o, ho, rfl⟩ := List.mem_map.1 hx
      obtain ⟨-, -, -, t, v, nm, -, -, -, -, -, h4, -⟩ := hG.nodes g hg o ho
      exact h4
    · unfold Grp.extN at hx
      split at hx
      · exact unmixedAll_iff.1 (hu hi) x hx
      · cases hx

/-! ### Declarations -/

theorem mem_declared {l : List Node} {x : Str × Str} :
    x ∈ Dec.declared l ↔ ∃ n ∈ l, ∃ a ∈ n.attrs, a.name.space = "xmlns".toList ∧ x = (a.name.loc, a.value) := by
  unfold Dec.declared Node.getAttr
  simp only [List.mem_flatMap, List.mem_map, List.mem_filter]
  constructor
  · rintro ⟨n, hn, a, ⟨ha, hs⟩, rfl⟩
    refine ⟨n, hn, a, ha, ?_, rfl⟩
    simpa using hs
  · rintro ⟨n, hn, a, ha, hs, rfl⟩
    exact ⟨n, hn, a, ⟨ha, by simp [hs]⟩, rfl⟩

theorem declares (hd : DocNs h env d S) {order : Node → List Namespace → List Namespace} (ho : ∀ w l, (order w l).Perm l) (about : Str)
    {ws : List Node} (hws : ∀ w ∈ ws, WrapOK S ind w) :
    Declares env d S (Dec.declared (ws.map (fun w => pdesc (bindOf env d) (declsOf env order d w) about w))) := by
  intro x hx
  obtain ⟨n, hn, a, ha, hs, rfl⟩ := mem_declared.1 hx
  obtain ⟨w, hw, rfl⟩ := List.mem_map.1 hn
  have hw := hws w hw
  have ha : a ∈ declsOf env order d w ++ [⟨⟨nsRDF.uri, "about".toList⟩, about⟩] ++ w.attrs.map (parsedAttr (bindOf env d)) := ha
  rw [List.mem_append, List.mem_append, List.mem_singleton, List.mem_map] at ha
  rcases ha with (ha | rfl) | ⟨b, hb, rfl⟩
  · obtain ⟨ns, hns, rfl⟩ := List.mem_map.1 ha
    have := wrap_ns_sound hd hw ((ho _ _).mem_iff.1 hns)
    exact ⟨this.1, this.2.2⟩
  · exact absurd hs (by simp only; decide)
  · exfalso
    obtain ⟨-, p, loc, e, -, -, hS⟩ := hw.attrs b hb
    unfold parsedAttr at hs
    rw [show b.name = ⟨b.name.space, b.name.loc⟩ from rfl, e, reparse_colon _ (hd.plain p hS).2.1] at hs
    exact (bind_facts hd hS).2.1 hs

theorem declared_bound (hd : DocNs h env d S) {order : Node → List Namespace → List Namespace} (ho : ∀ w l, (order w l).Perm l) (about : Str)
    {ws : List Node} (hws : ∀ w ∈ ws, WrapOK S ind w) {w : Node} (hw : w ∈ ws) {q : QName} (hq : q ∈ allNames w) :
    Bound env d S (Dec.declared (ws.map (fun w => pdesc (bindOf env d) (declsOf env order d w) about w))) q := by
  intro hS
  obtain ⟨ns, h1, h2⟩ := wrap_ns_complete hd (hws w hw) hq hS
  have h3 := wrap_ns_sound hd (hws w hw) h1
  refine mem_declared.2 ⟨_, List.mem_map.2 ⟨w, hw, rfl⟩, ⟨⟨"xmlns".toList, ns.name⟩, ns.uri⟩, ?_, rfl, ?_⟩
  · show _ ∈ declsOf env order d w ++ [⟨⟨nsRDF.uri, "about".toList⟩, about⟩] ++ w.attrs.map (parsedAttr (bindOf env d))
    rw [List.mem_append, List.mem_append]
    exact Or.inl (Or.inl (List.mem_map.2 ⟨ns, (ho _ _).mem_iff.2 h1, rfl⟩))
  · simp only
    rw [← h2, ← h3.2.2]

theorem grpOK_of (hd : DocNs h env d S) (hr : RootOK h env d dv S r) {G : List Grp} (hG : Grouped dv S r G) {g : Grp} (hg : g ∈ G)
    {l : List (Str × Str)} (hb : ∀ q ∈ allNames (g.fin r.node), Bound env d S l q) : GrpOK env d dv S l r g := by
  have hA : ∀ a ∈ g.attrs.map (·.2) ++ g.extA r.node, Bound env d S l a.name := by
    intro a ha
    apply hb
    unfold Grp.fin
    simp only [allNames, List.cons_append, List.mem_cons, List.mem_append, List.mem_map]
    right; left
    rcases List.mem_append.1 ha with ha | ha
    · exact ⟨a, Or.inl (List.mem_map.1 ha), rfl⟩
    · exact ⟨a, Or.inr ha, rfl⟩
  have hN : ∀ x ∈ g.nodes.map (·.2) ++ g.extN r.node, ∀ q ∈ allNames x, Bound env d S l q := by
    intro x hx q hq
    apply hb
    unfold Grp.fin
    simp only [allNames, List.cons_append, List.mem_cons, List.mem_append]
    exact Or.inr (Or.inr (mem_allNamesList hx hq))
  refine ⟨?_, ?_, ?_, ?_⟩
  · intro o ho
    obtain ⟨h1, h2, h3⟩ := hG.attrs g hg o ho
    have hown : Owned r (getPrefix o.2.name.loc) := by rw [h1]; exact hG.owned g hg
    exact ⟨⟨h2, hown, hA o.2 (List.mem_append_left _ (List.mem_map.2 ⟨o, ho, rfl⟩)) (hr.own _ hown)⟩, h3⟩
  · intro o ho
    obtain ⟨h1, h2, h3, h4⟩ := hG.nodes g hg o ho
    have hown : Owned r (getPrefix o.2.xmlName.loc) := by rw [h1]; exact hG.owned g hg
    have hbx := hN o.2 (List.mem_append_left _ (List.mem_map.2 ⟨o, ho, rfl⟩))
    exact ⟨⟨h2, hown, hbx _ (xmlName_mem_allNames _) (hr.own _ hown)⟩, h3, hbx, h4⟩
  · intro a ha
    have hbx := hA a (List.mem_append_right _ ha)
    have ha : a ∈ r.node.attrs := by
      unfold Grp.extA at ha
      split at ha
      · exact ha
      · cases ha
    obtain ⟨-, h2, h3, -⟩ := hr.attrs a ha
    exact ⟨⟨h2, h3, hbx (hr.own _ h3)⟩, ha⟩
  · intro x hx
    have hbx := hN x (List.mem_append_right _ hx)
    have hx : x ∈ r.node.nodes := by
      unfold Grp.extN at hx
      split at hx
      · exact hx
      · cases hx
    obtain ⟨h1, -, h3, -⟩ := hr.nodes x hx
    exact ⟨⟨h1, h3, hbx _ (xmlName_mem_allNames _) (hr.own _ h3)⟩, hbx, hx⟩

/-! ### One top-level node after the other -/

theorem extA_all {G : List Grp} (hG : Grouped dv S r G) : G.flatMap (Grp.extA r.node) = r.node.attrs := flatMap_own _ _ G hG.keys hG.own
theorem extN_all {G : List Grp} (hG : Grouped dv S r G) : G.flatMap (Grp.extN r.node) = r.node.nodes := flatMap_own _ _ G hG.keys hG.own

theorem idx_perm (G : List Grp) : (G.flatMap Grp.idx).Perm ((G.flatMap (·.attrs)).map (·.1) ++ (G.flatMap (·.nodes)).map (·.1)) := by
  rw [List.map_flatMap, List.map_flatMap]
  exact (List.flatMap_append_perm G _ _).symm

/-- When a top-level node has content. -/
theorem content_iff {G : List Grp} (hG : Grouped dv S r G) : HasContent r ↔
    ¬ (G.flatMap Grp.idx = [] ∧ G.flatMap (Grp.extA r.node) = [] ∧ G.flatMap (Grp.extN r.node) = []) := by
  rw [extA_all hG, extN_all hG]
  have hi : G.flatMap Grp.idx ≠ [] ↔ ∃ (i : Nat) (f : FieldInfo) (t : Ty) (v : Val), (rootInfos r)[i]? = some f ∧ (rootTys r)[i]? = some t ∧
      (rootVals r)[i]? = some v ∧ fieldWritten f t v = true := by
    rw [← List.isEmpty_eq_false_iff, List.isEmpty_eq_false_iff_exists_mem]
    constructor
    · rintro ⟨i, hi⟩
      obtain ⟨f, t, v, h1⟩ := hG.only i ((idx_perm G).mem_iff.1 hi)
      exact ⟨i, f, t, v, h1⟩
    · rintro ⟨i, f, t, v, h1, h2, h3, h4⟩
      exact ⟨i, (idx_perm G).mem_iff.2 (hG.all i f t v h1 h2 h3 h4)⟩
  unfold HasContent
  rw [← hi]
  tauto

open Classical in
/-- The top-level nodes with content. -/
noncomputable def withContent (rs : List Root) : List Root := rs.filter (fun r => decide (HasContent r))

theorem withContent_cons_pos {r : Root} {rs : List Root} (hc : HasContent r) : withContent (r :: rs) = r :: withContent rs :=
  List.filter_cons_of_pos (by simpa using hc)
theorem withContent_cons_neg {r : Root} {rs : List Root} (hc : ¬ HasContent r) : withContent (r :: rs) = withContent rs :=
  List.filter_cons_of_neg (by simpa using hc)

theorem matches_owned (hd : DocNs h env d S) {x : Root} (hx : RootOK h env d dv S x) {p : Str} (hm : XDoc.rootMatches p x = true) : Owned x p := by
  unfold XDoc.rootMatches at hm
  rw [Bool.or_eq_true] at hm
  rcases hm with hm | hm
  · left
    have hn : x.node.name = x.node.xmlName.loc := stripPrefix_none (hd.plain _ (hx.own _ (Or.inl rfl))).2.1
    rw [hn] at hm
    simpa using (of_decide_eq_true hm).symm
  · right
    cases hmod : x.model with
    | none => rw [hmod] at hm; cases hm
    | some m =>
      rw [hmod] at hm
      exact ⟨m, rfl, of_decide_eq_true hm⟩

/-- The descriptions of all top-level nodes. -/
theorem loop_roots (hd : DocNs h env d S) {l : List (Str × Str)} (hl : Declares env d S l) (about : Str) (D : Node → List Attr)
    (hD : ∀ w, ∀ a ∈ D w, a.name.space = "xmlns".toList) : ∀ (Gs : List (Root × List Grp)) (rs : List Root) (ab : Str),
    (∀ x ∈ Gs, RootOK h env d dv S x.1 ∧ Grouped dv S x.1 x.2 ∧ ∀ g ∈ x.2, busy (g.fin x.1.node) = true → GrpOK env d dv S l x.1 g) →
    (Gs.map (·.1)).Pairwise (fun r r' => ∀ p, Owned r p → ¬ Owned r' p) → (∀ x ∈ Gs, Fresh x.1 rs) →
    Dec.descriptions env (decoder h l) dv
        (((Gs.flatMap (fun x => x.2.map (Grp.fin x.1.node))).filter busy).map (fun w => pdesc (bindOf env d) (D w) about w)) (ab, rs) =
      .ok (if withContent (Gs.map (·.1)) = [] then ab else about, rs ++ withContent (Gs.map (·.1))) := by
  intro Gs
  induction Gs with
  | nil => intro rs ab _ _ _; simp [Dec.descriptions, withContent]
  | cons x Gs ih =>
    intro rs ab hok hdis hfr
    obtain ⟨r, G⟩ := x
    obtain ⟨hr, hG, hgo⟩ := hok (r, G) (by simp)
    have hr : RootOK h env d dv S r := hr
    have hG : Grouped dv S r G := hG
    have hfr0 : Fresh r rs := hfr (r, G) (by simp)
    rw [List.map_cons, List.pairwise_cons] at hdis
    rw [List.flatMap_cons, List.filter_append, List.map_append]
    have h0 := loop_groups hd hl hr hfr0 about D hD
      (((Gs.flatMap (fun x => x.2.map (Grp.fin x.1.node))).filter busy).map (fun w => pdesc (bindOf env d) (D w) about w))
      G [] [] [] ab hgo (by
        rw [List.nil_append, (idx_perm G).nodup_iff]
        exact hG.idx) (by
        rw [List.nil_append, extA_all hG]
        exact hr.attrNames) (by
        rw [List.nil_append, extN_all hG]
        exact hr.nodeNames)
    simp only [List.nil_append] at h0
    rw [show rs ++ cur r [] [] [] = rs from by simp [cur]] at h0
    rw [h0]
    by_cases hc : HasContent r
    · have hne := (content_iff hG).1 hc
      rw [if_neg hne, cur_ne hne, extA_all hG, extN_all hG,
        build_done hr (fun i f t v h1 h2 h3 h4 => (idx_perm G).mem_iff.2 (hG.all i f t v h1 h2 h3 h4)),
        ih (rs ++ [r]) about (fun y hy => hok y (by simp [hy])) hdis.2 (by
          intro y hy p hp z hz
          rcases List.mem_append.1 hz with hz | hz
          · exact hfr y (by simp [hy]) p hp z hz
          · rw [List.mem_singleton] at hz
            rw [hz]
            cases hm : XDoc.rootMatches p r with
            | false => rfl
            | true => exact absurd hp (hdis.1 y.1 (List.mem_map.2 ⟨y, hy, rfl⟩) p (matches_owned hd hr hm)))]
      rw [List.map_cons, withContent_cons_pos hc]
      simp
    · have hne := (not_congr (content_iff hG)).1 hc
      rw [not_not] at hne
      rw [if_pos hne, show cur r _ _ _ = [] from if_pos hne, List.append_nil,
        ih rs ab (fun y hy => hok y (by simp [hy])) hdis.2 (fun y hy => hfr y (by simp [hy]))]
      rw [List.map_cons, withContent_cons_neg hc]

/-! ### Documents -/

/-- A prefix that a top-level node uses: its own, those of its model and those of the names outside of the model. -/
def Uses (r : Root) (p : Str) : Prop := Owned r p ∨ ∃ q ∈ innerNames r.node, getPrefix q.loc = p

/-- A decoder that knows the declarations gives all prefixes that the nodes use their URIs. -/
theorem uses_kept (hok : DocOK h env d dv S) {Gs : List (Root × List Grp)} (h1 : Gs.map (·.1) = d.roots) (h2 : ∀ x ∈ Gs, Grouped dv S x.1 x.2)
    {l : List (Str × Str)} (hdecl : Declares env d S l)
    (hbound : ∀ w ∈ (Gs.flatMap (fun x => x.2.map (Grp.fin x.1.node))).filter busy, ∀ q ∈ allNames w, Bound env d S l q)
    (rs : List Root) {r : Root} (hr2 : r ∈ d.roots ∧ HasContent r) {q : Str} (hq : Uses r q) (hS : S q) :
    ∃ ns', XDoc.findNsByPrefix env { roots := rs, intNs := (decoder h l).int, extNs := (decoder h l).ext } q = some ns' ∧
      ns'.uri = bindOf env d q := by
  have hd := hok.ns
  have hro := hok.roots r hr2.1
  obtain ⟨ns, hns, -, -, hkn⟩ := hd.found q hS
  have hcase : (q, bindOf env d q) ∈ l ∨ KnownUri (runReg h) (bindOf env d q) q := by
    by_cases hm : ∃ m, r.model = some m ∧ Owned r q
    · obtain ⟨m, hm, hoq⟩ := hm
      right
      rw [bindOf_some hns]
      exact hro.known m q ns hm hoq hns
    · left
      rw [← h1] at hr2
      obtain ⟨x, hx, rfl⟩ := List.mem_map.1 hr2.1
      have hG := h2 x hx
      obtain ⟨g, hg, hgk⟩ := List.mem_map.1 hG.own
      have hfinA : (g.fin x.1.node).attrs = g.attrs.map (·.2) ++ x.1.node.attrs := by
        show g.attrs.map (·.2) ++ (if g.key = x.1.node.xmlName.loc then x.1.node.attrs else []) = _
        rw [if_pos hgk]
      have hfinN : (g.fin x.1.node).nodes = g.nodes.map (·.2) ++ x.1.node.nodes := by
        show g.nodes.map (·.2) ++ (if g.key = x.1.node.xmlName.loc then x.1.node.nodes else []) = _
        rw [if_pos hgk]
      have hmem : x.1.node.attrs ≠ [] ∨ x.1.node.nodes ≠ [] → g.fin x.1.node ∈ (Gs.flatMap (fun x => x.2.map (Grp.fin x.1.node))).filter busy := by
        intro hne
        rw [List.mem_filter]
        refine ⟨List.mem_flatMap.2 ⟨x, hx, List.mem_map.2 ⟨g, hg, rfl⟩⟩, ?_⟩
        unfold busy
        rw [hfinA, hfinN]
        rcases hne with hne | hne
        · simp [hne]
        · simp [hne]
      rcases hq with hq | ⟨nm, hnm, rfl⟩
      · have hno : x.1.model = none := by
          cases hmm : x.1.model with
          | none => rfl
          | some m => exact absurd ⟨m, hmm, hq⟩ hm
        have hq0 : q = x.1.node.xmlName.loc := by
          rcases hq with e | ⟨m, e, -⟩
          · exact e
          · rw [hno] at e; cases e
        have hne : x.1.node.attrs ≠ [] ∨ x.1.node.nodes ≠ [] := by
          rcases hr2.2 with hc | hc | ⟨i, f, t, v, hf, -⟩
          · exact Or.inl hc
          · exact Or.inr hc
          · simp [rootInfos, hno] at hf
        have hbb := hbound _ (hmem hne) ⟨[], g.key⟩ (xmlName_mem_allNames (g.fin x.1.node))
        unfold Bound at hbb
        simp only at hbb
        rw [hgk, ← hq0, getPrefix_none (hd.plain q hS).2.1] at hbb
        exact hbb hS
      · have hne : x.1.node.attrs ≠ [] ∨ x.1.node.nodes ≠ [] := by
          rw [innerNames, List.mem_append, List.mem_map] at hnm
          rcases hnm with ⟨a, ha, -⟩ | hnm
          · exact Or.inl (List.ne_nil_of_mem ha)
          · obtain ⟨y, hy, -⟩ := mem_allNamesList' hnm
            exact Or.inr (List.ne_nil_of_mem hy)
        refine hbound _ (hmem hne) nm ?_ hS
        apply innerNames_sub
        rw [innerNames, List.mem_append, List.mem_map] at hnm ⊢
        rw [hfinA, hfinN]
        rcases hnm with ⟨a, ha, e⟩ | hnm
        · exact Or.inl ⟨a, List.mem_append_right _ ha, e⟩
        · right
          obtain ⟨y, hy, hq'⟩ := mem_allNamesList' hnm
          exact mem_allNamesList (List.mem_append_right _ hy) hq'
  have hfind : ∀ ns', (decoder h l).findByPrefix q = some ns' →
      XDoc.findNsByPrefix env { roots := rs, intNs := (decoder h l).int, extNs := (decoder h l).ext } q = some ns' := by
    intro ns' e
    unfold Dec.findByPrefix at e
    unfold XDoc.findNsByPrefix
    split at e
    · rename_i e1 h1
      simp only [h1]
      exact e
    · rename_i h1
      rw [Option.map_eq_some_iff] at e
      obtain ⟨e1, h2, rfl⟩ := e
      simp only [h1, h2]
  cases hf : (decoder h l).findByPrefix q with
  | some ns' =>
    exact ⟨ns', hfind ns' hf, (decoder_prefix hd hdecl hf).2.2.2.1⟩
  | none =>
    rcases hcase with hc | hc
    · obtain ⟨ns', h4⟩ := decoder_prefix_some hd hdecl hc
      rw [hf] at h4
      cases h4
    · obtain ⟨ns', h4, h5, h6⟩ := known_ns hc
      have : XDoc.findNsByPrefix env { roots := rs, intNs := (decoder h l).int, extNs := (decoder h l).ext } q = some ns' := by
        unfold Dec.findByPrefix at hf
        unfold XDoc.findNsByPrefix
        split at hf
        · cases hf
        · rename_i h7
          rw [Option.map_eq_none_iff] at hf
          simp only [h7, hf]
          rw [hd.reg]
          exact h4
      exact ⟨ns', this, h6⟩

/-- The theorem below, with the declarations that the decoder has seen. -/
theorem document_roundtrip_core (h : RegHistory) (env : Env) (dv : Version) (S : Str → Prop) (p : Packet) (hok : DocOK h env p.doc dv S)
    (order : Node → List Namespace → List Namespace) (ho : ∀ w l, (order w l).Perm l) (ind : Option (Str × Str)) (hb : Blank ind)
    (hu : ind.isSome = true → ∀ r ∈ p.doc.roots, UnmixedAll r.node.nodes) :
    ∃ t t' p', Enc.encode env order p = some t ∧ Xml.reads Xml.baseScope (Xml.ofNode ind 0 t) = [t'] ∧
      Dec.decode env dv t' = .ok p' ∧ p'.doc.roots = withContent p.doc.roots ∧
      p'.about = (if withContent p.doc.roots = [] then [] else p.about) ∧ p'.toolkit = [] ∧
      (∃ l, Declares env p.doc S l ∧ p'.doc.intNs = (decoder h l).int ∧ p'.doc.extNs = (decoder h l).ext) ∧
      ∀ r ∈ p'.doc.roots, ∀ q, Uses r q → S q → ∃ ns, p'.doc.findNsByPrefix env q = some ns ∧ ns.uri = bindOf env p.doc q := by
  have hd := hok.ns
  obtain ⟨Gs, h1, h2, h3⟩ := roots_encoded hd p.doc.roots [] hok.roots hok.disjoint (by intro r _ q _ w hw; cases hw)
  rw [List.nil_append] at h3
  have hrok : ∀ x ∈ Gs, RootOK h env p.doc dv S x.1 := by
    intro x hx
    apply hok.roots
    rw [← h1]
    exact List.mem_map.2 ⟨x, hx, rfl⟩
  have hW : ∀ w ∈ Gs.flatMap (fun x => x.2.map (Grp.fin x.1.node)), WrapOK S ind w := by
    intro w hw
    obtain ⟨x, hx, hw⟩ := List.mem_flatMap.1 hw
    obtain ⟨g, hg, rfl⟩ := List.mem_map.1 hw
    refine wrapOK_of hd (hrok x hx) (h2 x hx) hg (fun hi => hu hi x.1 ?_)
    rw [← h1]
    exact List.mem_map.2 ⟨x, hx, rfl⟩
  generalize hws : Gs.flatMap (fun x => x.2.map (Grp.fin x.1.node)) = ws at *
  have henc : Enc.encode env order p = some (Enc.tree p.toolkit ((ws.filter busy).map (Enc.describe env order p.doc p.about))) := by
    unfold Enc.encode
    rw [h3]
    simp only [Option.some.injEq]
    rw [List.filter_map]
    congr 2
    apply List.filter_congr
    intro w hw
    exact kept_busy hd ho p.about (hW w hw)
  have hW' : ∀ w ∈ ws.filter busy, WrapOK S ind w := fun w hw => hW w (List.mem_of_mem_filter hw)
  have hdecl := declares hd ho p.about hW'
  generalize hl : Dec.declared ((ws.filter busy).map (fun w => pdesc (bindOf env p.doc) (declsOf env order p.doc w) p.about w)) = l at *
  have hbound : ∀ w ∈ ws.filter busy, ∀ q ∈ allNames w, Bound env p.doc S l q := by
    intro w hw q hq
    rw [← hl]
    exact declared_bound hd ho p.about hW' hw hq
  have hloop := loop_roots (dv := dv) hd hdecl p.about (declsOf env order p.doc) (by
      intro w a ha
      obtain ⟨ns, -, rfl⟩ := List.mem_map.1 ha
      rfl) Gs [] [] (by
      intro x hx
      refine ⟨hrok x hx, h2 x hx, ?_⟩
      intro g hg hbusy
      apply grpOK_of hd (hrok x hx) (h2 x hx) hg
      apply hbound
      rw [List.mem_filter, ← hws]
      exact ⟨List.mem_flatMap.2 ⟨x, hx, List.mem_map.2 ⟨g, hg, rfl⟩⟩, hbusy⟩) (by rw [h1]; exact hok.disjoint)
      (by intro x _ q _ y hy; cases hy)
  rw [hws, h1, List.nil_append] at hloop
  have hdec : Dec.decode env dv (ptree p.toolkit ((ws.filter busy).map (fun w => pdesc (bindOf env p.doc) (declsOf env order p.doc w) p.about w))) =
      .ok { doc := { roots := withContent p.doc.roots, intNs := (decoder h l).int, extNs := (decoder h l).ext },
            about := if withContent p.doc.roots = [] then [] else p.about, toolkit := [] } := by
    have hroot : Dec.rdfRoot env.reg (ptree p.toolkit ((ws.filter busy).map (fun w => pdesc (bindOf env p.doc) (declsOf env order p.doc w) p.about w))) =
        some (.mk ⟨nsRDF.uri, "RDF".toList⟩ [⟨⟨"xmlns".toList, "rdf".toList⟩, nsRDF.uri⟩] []
          ((ws.filter busy).map (fun w => pdesc (bindOf env p.doc) (declsOf env order p.doc w) p.about w))) := by
      have hx := (hd.core nsX (by simp)).2.1
      have hrdf := (hd.core nsRDF (by simp)).2.1
      unfold Dec.rdfRoot
      have e1 : ∀ a v l, (Node.mk ⟨nsX.uri, "xmpmeta".toList⟩ a v l).fullName env.reg = "x:xmpmeta".toList := by
        intro a v l
        show (if nsX.uri ≠ [] then env.reg.short nsX.uri "xmpmeta".toList else _) = _
        rw [if_pos (by decide), hd.reg, Registry.short, hx]
        decide
      have e2 : ∀ a v l, (Node.mk ⟨nsRDF.uri, "RDF".toList⟩ a v l).fullName env.reg = "rdf:RDF".toList := by
        intro a v l
        show (if nsRDF.uri ≠ [] then env.reg.short nsRDF.uri "RDF".toList else _) = _
        rw [if_pos (by decide), hd.reg, Registry.short, hrdf]
        decide
      unfold ptree
      simp only [e1, if_true, Node.nodes, e2]
    unfold Dec.decode
    rw [hroot]
    simp only [Node.nodes]
    rw [hl, hd.reg, show Dec.declare (runReg h) l = decoder h l from rfl, hloop]
  refine ⟨_, _, _, henc, reads_tree hd hb ho p.about p.toolkit _ hW', hdec, rfl, rfl, rfl, ⟨l, hdecl, rfl, rfl⟩, ?_⟩
  intro r hr q hq hS
  have hr : r ∈ withContent p.doc.roots := hr
  have hr2 : r ∈ p.doc.roots ∧ HasContent r := by
    unfold withContent at hr
    rw [List.mem_filter] at hr
    exact ⟨hr.1, by simpa using hr.2⟩
  exact uses_kept hok h1 h2 hdecl (by rw [hws]; exact hbound) _ hr2 hq hS

/-- **C46** A document that can be written and read back is written; parsing the text, with or without indentation,
gives a tree from which the decoder reads the same top-level nodes, with their models and all other content, in the same
order.  Nodes without content are left out.  `about` survives if there is any content, the toolkit never does.  Every
prefix that the nodes use keeps its URI. -/
theorem document_roundtrip_partial (h : RegHistory) (env : Env) (dv : Version) (S : Str → Prop) (p : Packet) (hok : DocOK h env p.doc dv S)
    (order : Node → List Namespace → List Namespace) (ho : ∀ w l, (order w l).Perm l) (ind : Option (Str × Str)) (hb : Blank ind)
    (hu : ind.isSome = true → ∀ r ∈ p.doc.roots, UnmixedAll r.node.nodes) :
    ∃ t t' p', Enc.encode env order p = some t ∧ Xml.reads Xml.baseScope (Xml.ofNode ind 0 t) = [t'] ∧
      Dec.decode env dv t' = .ok p' ∧ p'.doc.roots = withContent p.doc.roots ∧
      p'.about = (if withContent p.doc.roots = [] then [] else p.about) ∧ p'.toolkit = [] ∧
      ∀ r ∈ p'.doc.roots, ∀ q, Uses r q → S q → ∃ ns, p'.doc.findNsByPrefix env q = some ns ∧ ns.uri = bindOf env p.doc q := by
  obtain ⟨t, t', p', h1, h2, h3, h4, h5, h6, -, h7⟩ := document_roundtrip_core h env dv S p hok order ho ind hb hu
  exact ⟨t, t', p', h1, h2, h3, h4, h5, h6, h7⟩

end

end Xmp.Props
