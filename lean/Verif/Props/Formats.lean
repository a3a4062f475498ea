import Verif.Props.JsonForms
import Verif.Props.InfoJson

/-! C81: documents that are passed on as XMP packets and as JSON texts, in turn and as often as one likes. -/

namespace Xmp.Props

open GoStr SyncFlags Utf8 XmlBytes Shipped Info JsonText List

/-! ### Specification -/

/-- A document is saved and loaded: as a packet, with whatever order of declarations, indentation, padding and bytes behind it,
or as JSON, in any form and with any order of entries. -/
inductive Reload (uni : Str → Bool) (env : Env) : Packet → Packet → Prop
  | xmp {p p' : Packet} {order : Node → List Namespace → List Namespace} {ind : Option (Str × Str)} {t : Node} {pad rest : Str}
      (ho : ∀ x l, (order x l).Perm l) (hi : IndentOK ind) (h1 : Enc.encode env order p = some t)
      (h2 : unmarshalText uni env Version.zero (printPacket ind t pad ++ rest) = .ok p') : Reload uni env p p'
  | json {p p' : Packet} {jd jd1 jd2 jd3 : JDoc} {t : Str} {num : Str → Option Str} (h1 : JDoc.ofDoc env p = some jd) (hs : JDocSame jd jd1)
      (hf : DocForm jd1 t) (h2 : readDoc num t = some jd2) (hs' : JDocSame jd2 jd3) (h3 : JDoc.toDoc env Version.zero jd3 = .ok p') :
      Reload uni env p p'

/-- Any number of times. -/
inductive Reloads (uni : Str → Bool) (env : Env) : Packet → Packet → Prop
  | start {p} : Reloads uni env p p
  | step {p q q'} (h : Reloads uni env p q) (hr : Reload uni env q q') : Reloads uni env p q'

/-- A document can be saved and loaded in both formats: neither writing nor reading fails. -/
structure BothWays (uni : Str → Bool) (env : Env) (p : Packet) : Prop where
  xmp : ∀ order ind pad rest, (∀ x l, (order x l : List Namespace).Perm l) → IndentOK ind →
    ∃ t p', Enc.encode env order p = some t ∧ unmarshalText uni env Version.zero (printPacket ind t pad ++ rest) = .ok p'
  json : ∃ jd, JDoc.ofDoc env p = some jd ∧ (∀ jd1, JDocSame jd jd1 → DocForm jd1 (printDoc jd1) ∧
      ∀ pre unit, Blanks pre → Blanks unit → DocForm jd1 (indent pre unit (printDoc jd1))) ∧
    ∀ jd1 t num, JDocSame jd jd1 → DocForm jd1 t → ∃ jd2, readDoc num t = some jd2 ∧ ∀ jd3, JDocSame jd2 jd3 → ∃ p', JDoc.toDoc env Version.zero jd3 = .ok p'

/-! ### Nodes that are read from JSON have no attributes -/

theorem addSimple_attrs (name s : Str) (n : Node) : (Json.addSimple name s n).attrs = n.attrs := by
  unfold Json.addSimple Node.appendNode
  split
  · exact attrs_setNodes _ _
  · exact attrs_setValue _ _

mutual
theorem toNode_attrs : ∀ (j : Json) (name : Str) (n n' : Node), Json.toNode j name n = .ok n' → n'.attrs = n.attrs
  | .str s, name, n, n', h => by rw [Json.toNode] at h; cases h; exact addSimple_attrs _ _ _
  | .num s, name, n, n', h => by rw [Json.toNode] at h; cases h; exact addSimple_attrs _ _ _
  | .bool b, name, n, n', h => by rw [Json.toNode] at h; cases h; exact addSimple_attrs _ _ _
  | .null, name, n, n', h => by rw [Json.toNode] at h; cases h; rfl
  | .arr l, name, n, n', h => by
    rw [Json.toNode] at h
    split_ifs at h
    · cases h; rfl
    · split at h <;> cases h
      exact attrs_setNodes _ _
    · split at h <;> cases h
      exact attrs_setNodes _ _
  | .obj m, name, n, n', h => by
    rw [Json.toNode] at h
    split_ifs at h
    · exact toFields_attrs _ m n n' h
    · split at h <;> cases h
      exact attrs_setNodes _ _
theorem toFields_attrs : ∀ (item : Bool) (m : List (Str × Json)) (n n' : Node), Json.toFields item m n = .ok n' → n'.attrs = n.attrs
  | _, [], n, n', h => by rw [Json.toFields] at h; cases h; rfl
  | item, (k, v) :: m, n, n', h => by
    rw [Json.toFields] at h
    split at h
    · rename_i x hx
      rw [toFields_attrs item m x n' h]
      exact toNode_attrs v _ n x hx
    · cases h
    · cases h
end

theorem toModel_attrs {k : Str} {j : Json} {n : Node} (h : Json.toModel k j = .ok n) : n.attrs = [] := by
  cases j with
  | obj m => exact toFields_attrs false m _ n h
  | null => cases h; rfl
  | _ => cases h

theorem nodesOf_attrs : ∀ {m : List (Str × Json)} {l : List Node}, JDoc.nodesOf m = .ok l → ∀ n ∈ l, n.attrs = []
  | [], l, h, n, hn => by rw [JDoc.nodesOf] at h; cases h; cases hn
  | (k, j) :: m, l, h, n, hn => by
    rw [JDoc.nodesOf] at h
    split at h
    · rename_i x hx
      split at h
      · rename_i l' hl
        cases h
        rcases mem_cons.1 hn with rfl | hn
        · exact toModel_attrs hx
        · exact nodesOf_attrs hl n hn
      · cases h
      · cases h
    · cases h
    · cases h

/-- No top-level node has attributes. -/
def NoAttrs (rs : List Root) : Prop := ∀ r ∈ rs, r.node.attrs = []

theorem noAttrs_modify {rs : List Root} (h : NoAttrs rs) (i : Nat) (f : Root → Root) (hf : ∀ r, (f r).node.attrs = r.node.attrs) :
    NoAttrs (rs.modify i f) := by
  intro r hr
  obtain ⟨k, hk⟩ := mem_iff_getElem?.1 hr
  rw [getElem?_modify] at hk
  cases hx : rs[k]? with
  | none => rw [hx] at hk; simp at hk
  | some x =>
    have hm := mem_of_getElem? hx
    rw [hx] at hk
    have hk : (if i = k then f x else x) = r := Option.some.inj (by
      rw [← hk]
      by_cases e : i = k <;> simp [e])
    subst hk
    split
    · rw [hf]
      exact h x hm
    · exact h x hm

theorem lookupNode_noAttrs {env : Env} {d : Dec} {rs rs' : List Root} {name : QName} {i : Nat} (h : NoAttrs rs)
    (hl : Dec.lookupNode env d rs name = some (i, rs')) : NoAttrs rs' := by
  have add : ∀ q m, NoAttrs (rs ++ [⟨Node.new q, m⟩]) := by
    intro q m r hr
    rcases mem_append.1 hr with hr | hr
    · exact h r hr
    · rw [mem_singleton] at hr
      subst hr
      rfl
  unfold Dec.lookupNode at hl
  split at hl
  · cases hl
  · split at hl
    · cases hl; exact h
    · split at hl
      · cases hl; exact add _ _
      · split at hl
        · cases hl
        · cases hl; exact add _ _

theorem decodeNode_noAttrs {env : Env} {d : Dec} {dv : Version} {rs rs' : List Root} {n : Node} (h : NoAttrs rs)
    (hd : Dec.decodeNode env d dv rs n = .ok rs') : NoAttrs rs' := by
  unfold Dec.decodeNode at hd
  split at hd
  · cases hd
  · rename_i i rs1 hl
    have h1 := lookupNode_noAttrs h hl
    have store : ∀ x, (if (n.translate d).isZero then Res.ok rs1
        else .ok (rs1.modify i (fun r => { r with node := r.node.addNode (n.translate d) }))) = .ok x → NoAttrs x := by
      intro x hx
      split at hx
      · cases hx; exact h1
      · cases hx
        exact noAttrs_modify h1 _ _ (fun r => attrs_setNodes _ _)
    simp only at hd
    split at hd
    · exact store _ hd
    · split at hd
      · split at hd
        · unfold Dec.setField at hd
          split at hd
          · split at hd
            · cases hd
              exact noAttrs_modify h1 _ _ (fun r => rfl)
            · cases hd
            · cases hd
          · cases hd
        · exact store _ hd
      · cases hd

theorem decodeNodes_noAttrs {env : Env} {d : Dec} {dv : Version} : ∀ {ns : List Node} {rs rs' : List Root}, NoAttrs rs →
    Dec.decodeNodes env d dv ns rs = .ok rs' → NoAttrs rs'
  | [], rs, rs', h, hd => by rw [Dec.decodeNodes] at hd; cases hd; exact h
  | n :: ns, rs, rs', h, hd => by
    rw [Dec.decodeNodes] at hd
    split at hd
    · rename_i rs1 h1
      exact decodeNodes_noAttrs (decodeNode_noAttrs h h1) hd
    · cases hd
    · cases hd

theorem decodeTrees_noAttrs {env : Env} {d : Dec} {dv : Version} : ∀ {ns : List Node} {rs rs' : List Root}, (∀ n ∈ ns, n.attrs = []) → NoAttrs rs →
    JDoc.decodeTrees env d dv ns rs = .ok rs' → NoAttrs rs'
  | [], rs, rs', _, h, hd => by rw [JDoc.decodeTrees] at hd; cases hd; exact h
  | n :: ns, rs, rs', hn, h, hd => by
    rw [JDoc.decodeTrees, hn n (by simp), JDoc.decodeAttributes] at hd
    simp only at hd
    split at hd
    · rename_i rs1 h1
      exact decodeTrees_noAttrs (fun x hx => hn x (by simp [hx])) (decodeNodes_noAttrs h h1) hd
    · cases hd
    · cases hd

/-- What the document that is read from JSON consists of. -/
theorem toDoc_parts {env : Env} {dv : Version} {jd : JDoc} {p : Packet} (h : JDoc.toDoc env dv jd = .ok p) :
    NoAttrs p.doc.roots ∧ p.doc.intNs = (Dec.declare env.reg jd.namespaces).int ∧ p.doc.extNs = (Dec.declare env.reg jd.namespaces).ext := by
  unfold JDoc.toDoc at h
  simp only at h
  split at h
  · rename_i ns hns
    split at h
    · rename_i rs hrs
      cases h
      exact ⟨decodeTrees_noAttrs (nodesOf_attrs hns) (fun r hr => by cases hr) hrs, rfl, rfl⟩
    · cases h
    · cases h
  · cases h
  · cases h

/-- The namespaces of the JSON document are those of the document. -/
theorem json_declares {h : RegHistory} {env : Env} {dv : Version} {S : Str → Prop} {p : Packet} (hok : DocOK h env p.doc dv S)
    {jd jd' : JDoc} (hj : JDoc.ofDoc env p = some jd) (hs : jd.namespaces ~ jd'.namespaces) : Declares env p.doc S jd'.namespaces := by
  have hd := hok.ns
  obtain ⟨Gs, h1, h2, h3⟩ := roots_encoded hd p.doc.roots [] hok.roots hok.disjoint (by intro r _ q _ w hw; cases hw)
  rw [nil_append] at h3
  have hW : ∀ w ∈ Gs.flatMap (fun x => x.2.map (Grp.fin x.1.node)), WrapOK S none w := by
    intro w hw
    obtain ⟨x, hx, hw⟩ := mem_flatMap.1 hw
    obtain ⟨g, hg, rfl⟩ := mem_map.1 hw
    exact wrapOK_of hd (hok.roots _ (by rw [← h1]; exact mem_map_of_mem hx)) (h2 x hx) hg (fun hi => by cases hi)
  unfold JDoc.ofDoc at hj
  rw [h3] at hj
  cases hj
  intro x hx
  exact json_ns_sound hd _ _ hW (by intro x hx; cases hx) x (hs.mem_iff.2 hx)

/-! ### One step -/

section
variable {P : List Str} {h : RegHistory} {K : Str → Codec} {Z : Str → List Val → Bool} {env : Env}

/-- The documents of the theorem: models of the packages whose values can be read back, survive JSON and consist of texts of XML. -/
structure Portable (P : List Str) (K : Str → Codec) (Z : Str → List Val → Bool) (p : Packet) : Prop where
  doc : ShippedDoc P K Z p.doc
  xml : XmlTexts p
  json : JsonTexts p

/-- What is kept. -/
def KeptThrough (env : Env) (p p' : Packet) : Prop :=
  p'.doc.roots ~ withContent p.doc.roots ∧ (withContent p.doc.roots ≠ [] → p'.about = p.about) ∧
    ∀ path s, s ≠ [] → p.doc.getPath env path = .ok s → p'.doc.getPath env path = .ok s

theorem portable_of {p p' : Packet} (hp : Portable P K Z p) (hr : p'.doc.roots ~ withContent p.doc.roots) (ha : p'.about = p.about ∨ p'.about = [])
    (htk : p'.toolkit = p.toolkit ∨ p'.toolkit = [] ∨ p'.toolkit = Enc.toolkitVersion) (hi : ∀ e ∈ p'.doc.intNs, e.2 ∈ (regsOf P).map (·.1))
    (he : ∀ e ∈ p'.doc.extNs, e.2 ∈ (regsOf P).map (·.1)) : Portable P K Z p' := by
  have hm : ∀ r ∈ p'.doc.roots, r ∈ p.doc.roots := fun r hr' => (mem_withContent.1 (hr.mem_iff.1 hr')).1
  refine ⟨⟨fun r hr => hp.doc.roots r (hm r hr), ?_, hi, he⟩, ⟨?_, ?_, fun r hr => hp.xml.models r (hm r hr)⟩,
    ⟨?_, ?_, fun r hr => hp.json.texts r (hm r hr), fun r hr => hp.json.values r (hm r hr), fun r hr => hp.json.shown r (hm r hr)⟩⟩
  · refine hr.symm.pairwise (hp.doc.distinct.sublist (by unfold withContent; exact filter_sublist)) (fun h => Ne.symm h)
  · rcases ha with e | e <;> rw [e]
    · exact hp.xml.about
    · decide
  · rcases htk with e | e | e <;> rw [e]
    · exact hp.xml.toolkit
    · decide
    · decide
  · rcases ha with e | e <;> rw [e]
    · exact hp.json.about
    · exact nil8
  · rcases htk with e | e | e <;> rw [e]
    · exact hp.json.toolkit
    · exact nil8
    · exact lit8 "Go XMP SDK 1.0" (by decide)

theorem xmp_step (hc : Closed P) (hx : "xmp_tpg".toList ∈ P → "xmp_base".toList ∈ P) (hp : Program P h) {uni : Str → Bool}
    (hn : ∀ e ∈ h, e ∉ shippedRegs → DeclOK uni e.1 ∧ JsonNs e.1) (he : ShippedEnv P h K Z env) {p : Packet} (hd : Portable P K Z p)
    (order : Node → List Namespace → List Namespace) (ho : ∀ x l, (order x l).Perm l) (ind : Option (Str × Str)) (hi : IndentOK ind) :
    ∃ t p', Enc.encode env order p = some t ∧ (∀ pad rest, unmarshalText uni env Version.zero (printPacket ind t pad ++ rest) = .ok p') ∧
      Portable P K Z p' ∧ KeptThrough env p p' := by
  have hok := shipped_docOK hc hx hp he hd.doc
  obtain ⟨t, p', h1, h2, h3, hu, -, h4, -, htk, ll, hll, hint, hext⟩ := document_bytes_core h env Version.zero (UsablePrefix P) p
    hok uni (shipped_xmlPacket uni (fun e hm hs => (hn e hm hs).1) he hd.doc hd.xml) order ho ind hi (by
      intro _ r hr
      obtain ⟨_, _, _, _, _, _, _, hnode, _⟩ := (hd.doc.roots r hr).exact
      rw [hnode]
      trivial)
  obtain ⟨hr1, hr2⟩ := decoder_registered hp he.reg hd.doc.int hd.doc.ext hll
  refine ⟨t, p', h1, h4, portable_of hd (by rw [h2]) ?_ (Or.inr (Or.inl htk)) (fun e hm => hr1 e (hint ▸ hm)) (fun e hm => hr2 e (hext ▸ hm)),
    by rw [h2], fun hne => by rw [h3, if_neg hne], fun path s hs hg => getPath_kept hok p'.doc (fun r => by rw [h2, mem_withContent]) hu hs hg⟩
  rw [h3]
  split
  · exact Or.inr rfl
  · exact Or.inl rfl

theorem json_step (hc : Closed P) (hx : "xmp_tpg".toList ∈ P → "xmp_base".toList ∈ P) (hp : Program P h) {uni : Str → Bool}
    (hn : ∀ e ∈ h, e ∉ shippedRegs → DeclOK uni e.1 ∧ JsonNs e.1) (he : ShippedEnv P h K Z env) {p : Packet} (hd : Portable P K Z p) :
    ∃ jd, JDoc.ofDoc env p = some jd ∧ (∀ jd1, JDocSame jd jd1 → DocTextOK jd1) ∧ ∀ jd1 t num, JDocSame jd jd1 → DocForm jd1 t →
      ∃ jd2, readDoc num t = some jd2 ∧ ∀ jd3, JDocSame jd2 jd3 → ∃ p', JDoc.toDoc env Version.zero jd3 = .ok p' ∧ Portable P K Z p' ∧ KeptThrough env p p' := by
  have hok := shipped_docOK hc hx hp he hd.doc
  have hn' : ∀ e ∈ h, e ∉ shippedRegs → JsonNs e.1 := fun e hm hs => (hn e hm hs).2
  obtain ⟨jd, h1, h2⟩ := shipped_json_forms_partial P hc hx h hp hn' K Z env he p hd.doc hd.json some
  obtain ⟨jd', h1', hcore⟩ := json_document_roundtrip_partial h env Version.zero (UsablePrefix P) p hok
    (by intro hu; exact hu.2 (by simp)) (shipped_jroot hd.doc hd.json env.reg)
  rw [h1] at h1'
  cases h1'
  refine ⟨jd, h1, fun jd1 hs => (h2 jd1 hs).1, fun jd1 t num hs hf => ?_⟩
  have hok1 := (h2 jd1 hs).1
  refine ⟨jd1, (json_document_forms num jd1 hok1 t hf).2, fun jd3 hs3 => ?_⟩
  obtain ⟨jd2, e2, h3⟩ := (h2 jd1 hs).2 t hf
  have : jd2 = jd1 := by
    have := (json_document_forms some jd1 hok1 t hf).2
    rw [e2] at this
    exact Option.some.inj this
  subst this
  obtain ⟨p', h4, h5, h6, rs, h7, h8⟩ := h3 jd3 hs3
  obtain ⟨p'', h4', -, -, -, hu⟩ := hcore jd3 (jdocSame_trans hs hs3)
  rw [h4] at h4'
  cases h4'
  obtain ⟨k1, k2, k3⟩ := toDoc_parts h4
  have hrs : p'.doc.roots = rs := by
    have hmem : ∀ r ∈ rs, r ∈ p.doc.roots := fun r hr => (mem_withContent.1 (h7.subset hr)).1
    clear h4 h7 hu k2 k3
    generalize p'.doc.roots = l' at h8 k1
    induction h8 with
    | nil => rfl
    | @cons r r' l l' h10 _ ih =>
      rw [ih (fun x hx => hmem x (mem_cons_of_mem _ hx)) (fun x hx => k1 x (mem_cons_of_mem _ hx))]
      congr 1
      obtain ⟨⟨q, -, hnode⟩, -⟩ := shipped_parts hd.doc (hmem r mem_cons_self)
      obtain ⟨e1, e2, e3, e4, -⟩ := h10
      have e5 := k1 r' mem_cons_self
      obtain ⟨⟨a, b, c, d⟩, m⟩ := r'
      obtain ⟨node, m'⟩ := r
      simp only at hnode
      subst hnode
      simp only [Node.xmlName, Node.attrs, Node.value, Node.nodes, Node.new] at e1 e2 e3 e4 e5
      subst e1 e2 e3 e4 e5
      rfl
  have hdecl := json_declares hok h1 (jd' := jd3) ((hs.2.2.1).trans hs3.2.2.1)
  obtain ⟨hr1, hr2⟩ := decoder_registered hp he.reg hd.doc.int hd.doc.ext hdecl
  rw [he.reg] at k2 k3
  have hroots : p'.doc.roots ~ withContent p.doc.roots := by rw [hrs]; exact h7
  refine ⟨p', h4, portable_of hd hroots (Or.inl h5) ?_ (fun e hm => hr1 e (k2 ▸ hm)) (fun e hm => hr2 e (k3 ▸ hm)),
    hroots, fun _ => h5, fun path s hs hg => getPath_kept hok p'.doc (fun r => by rw [hroots.mem_iff, mem_withContent]) (fun r hr => hu r (hroots.mem_iff.1 hr)) hs hg⟩
  rw [h6]
  split
  · exact Or.inr (Or.inr rfl)
  · exact Or.inl rfl

theorem reload_kept (hc : Closed P) (hx : "xmp_tpg".toList ∈ P → "xmp_base".toList ∈ P) (hp : Program P h) {uni : Str → Bool}
    (hn : ∀ e ∈ h, e ∉ shippedRegs → DeclOK uni e.1 ∧ JsonNs e.1) (he : ShippedEnv P h K Z env) {p p' : Packet} (hd : Portable P K Z p)
    (hr : Reload uni env p p') : Portable P K Z p' ∧ KeptThrough env p p' := by
  cases hr with
  | @xmp order ind t pad rest ho hi h1 h2 =>
    obtain ⟨t', q, k1, k2, k3⟩ := xmp_step hc hx hp hn he hd order ho ind hi
    rw [h1] at k1
    cases k1
    rw [k2 pad rest] at h2
    cases h2
    exact k3
  | @json jd jd1 jd2 jd3 t num h1 hs hf h2 hs' h3 =>
    obtain ⟨jd', k1, -, k2⟩ := json_step hc hx hp hn he hd
    rw [h1] at k1
    cases k1
    obtain ⟨jd2', k3, k4⟩ := k2 jd1 t num hs hf
    rw [h2] at k3
    cases k3
    obtain ⟨q, k5, k6⟩ := k4 jd3 hs'
    rw [h3] at k5
    cases k5
    exact k6

theorem withContent_perm {a b : List Root} (h : a ~ b) : withContent a ~ withContent b := by
  unfold withContent
  exact h.filter _

end

/-- **C81.** In every program that uses packages of the library: a document of their models, whose values can be read back, survive
JSON and consist of texts of XML, may be passed on as XMP packets and as JSON texts, in turn, in any forms and as often as one
likes.  No step fails, and what is read at the end has the same models with the same values, in some order, the same description of
the resource, and gives the same values for all paths. -/
theorem formats_mixed_partial (P : List Str) (hc : Closed P) (hx : "xmp_tpg".toList ∈ P → "xmp_base".toList ∈ P) (h : RegHistory) (hp : Program P h)
    (uni : Str → Bool) (hn : ∀ e ∈ h, e ∉ shippedRegs → DeclOK uni e.1 ∧ JsonNs e.1) (K : Str → Codec) (Z : Str → List Val → Bool) (env : Env)
    (he : ShippedEnv P h K Z env) (p : Packet) (hd : ShippedDoc P K Z p.doc) (ht : XmlTexts p) (hj : JsonTexts p) (q : Packet) (hr : Reloads uni env p q) :
    BothWays uni env q ∧ withContent q.doc.roots ~ withContent p.doc.roots ∧ (withContent p.doc.roots ≠ [] → q.about = p.about) ∧
      ∀ path s, s ≠ [] → p.doc.getPath env path = .ok s → q.doc.getPath env path = .ok s := by
  have main : Portable P K Z q ∧ withContent q.doc.roots ~ withContent p.doc.roots ∧ (withContent p.doc.roots ≠ [] → q.about = p.about) ∧
      ∀ path s, s ≠ [] → p.doc.getPath env path = .ok s → q.doc.getPath env path = .ok s := by
    induction hr with
    | start => exact ⟨⟨hd, ht, hj⟩, Perm.refl _, fun _ => rfl, fun _ _ _ hg => hg⟩
    | step _ hr ih =>
      obtain ⟨h1, h2, h3, h4⟩ := ih
      obtain ⟨k1, k2, k3, k4⟩ := reload_kept hc hx hp hn he h1 hr
      refine ⟨k1, ?_, fun hne => ?_, fun path s hs hg => k4 path s hs (h4 path s hs hg)⟩
      · have := withContent_perm k2
        rw [withContent_twice] at this
        exact this.trans h2
      · rw [k3 (fun e => hne (by rw [e] at h2; exact h2.symm.eq_nil)), h3 hne]
  refine ⟨⟨fun order ind pad rest ho hi => ?_, ?_⟩, main.2⟩
  · obtain ⟨t, p', k1, k2, -⟩ := xmp_step hc hx hp hn he main.1 order ho ind hi
    exact ⟨t, p', k1, k2 pad rest⟩
  · obtain ⟨jd, k1, k0, k2⟩ := json_step hc hx hp hn he main.1
    refine ⟨jd, k1, fun jd1 hs => ⟨(json_document_indented jd1 (k0 jd1 hs) [] (by simp)).1, fun pre unit hb hb' => ?_⟩, fun jd1 t num hs hf => ?_⟩
    · exact (json_document_indented jd1 (k0 jd1 hs) [(pre, unit)] (by
        intro e he
        rw [mem_singleton] at he
        subst he
        exact ⟨hb, hb'⟩)).1
    obtain ⟨jd2, k3, k4⟩ := k2 jd1 t num hs hf
    refine ⟨jd2, k3, fun jd3 hs3 => ?_⟩
    obtain ⟨p', k5, -⟩ := k4 jd3 hs3
    exact ⟨p', k5⟩

/-- **C81.** After a step there are no other top-level nodes: exactly the nodes with content are there, unchanged. -/
theorem formats_step_partial (P : List Str) (hc : Closed P) (hx : "xmp_tpg".toList ∈ P → "xmp_base".toList ∈ P) (h : RegHistory) (hp : Program P h)
    (uni : Str → Bool) (hn : ∀ e ∈ h, e ∉ shippedRegs → DeclOK uni e.1 ∧ JsonNs e.1) (K : Str → Codec) (Z : Str → List Val → Bool) (env : Env)
    (he : ShippedEnv P h K Z env) (p : Packet) (hd : ShippedDoc P K Z p.doc) (ht : XmlTexts p) (hj : JsonTexts p) (q : Packet) (hr : Reload uni env p q) :
    q.doc.roots ~ withContent p.doc.roots :=
  (reload_kept hc hx hp hn he ⟨hd, ht, hj⟩ hr).2.1

/-! ### A case -/

/-- The document of two models is saved as a packet with tabs, loaded, saved as indented JSON, loaded, and saved as a packet again. -/
example : ∃ q1 q2 q3, Reload (fun _ => false) infoWorld.env { doc := licenceDoc, about := "uuid:1".toList } q1 ∧ Reload (fun _ => false) infoWorld.env q1 q2 ∧
    Reload (fun _ => false) infoWorld.env q2 q3 ∧ q3.about = "uuid:1".toList ∧ withContent q3.doc.roots ~ licenceDoc.roots := by
  have c1 : HasContent licenceDoc.roots[0] := Or.inr (Or.inr ⟨3, _, _, _, rfl, rfl, rfl, by decide +kernel⟩)
  have c2 : HasContent licenceDoc.roots[1] := Or.inr (Or.inr ⟨0, _, _, _, rfl, rfl, rfl, by decide +kernel⟩)
  have hw : withContent licenceDoc.roots = licenceDoc.roots :=
    (withContent_cons_pos c1).trans (congrArg _ ((withContent_cons_pos c2).trans rfl))
  have main := fun q => formats_mixed_partial ["cc".toList, "xmp_bj".toList] (by unfold Closed; decide +kernel) (by decide)
    (regsOf ["cc".toList, "xmp_bj".toList]) ⟨fun _ he => he, fun _ he => Or.inl he⟩ (fun _ => false) (fun e he hs => absurd (regsOf_sub _ e he) hs)
    (fun _ => numberCodec) (fun _ _ => false) infoWorld.env (shippedEnv_ok _ _ _ _) { doc := licenceDoc, about := "uuid:1".toList }
    licenceDoc_ok licence_texts licence_json q
  have tabs : IndentOK (some ([], "\t".toList)) := ⟨by decide, by decide⟩
  obtain ⟨t, q1, k1, k2⟩ := (main _ .start).1.xmp (fun _ l => l) (some ([], "\t".toList)) [] "\n".toList (fun _ l => Perm.refl l) tabs
  have r1 := Reload.xmp (fun _ l => Perm.refl l) tabs k1 k2
  have s1 := Reloads.step .start r1
  obtain ⟨jd, k3, k4, k5⟩ := (main _ s1).1.json
  have hf := (k4 jd (jdocSame_refl jd)).2 [] "  ".toList blanks_nil indent_unit
  obtain ⟨jd2, k6, k7⟩ := k5 jd _ some (jdocSame_refl jd) hf
  obtain ⟨q2, k8⟩ := k7 jd2 (jdocSame_refl jd2)
  have r2 := Reload.json (uni := fun _ => false) k3 (jdocSame_refl jd) hf k6 (jdocSame_refl jd2) k8
  have s2 := Reloads.step s1 r2
  obtain ⟨t3, q3, k9, k10⟩ := (main _ s2).1.xmp (fun _ l => l.reverse) none "  ".toList [] (fun _ l => reverse_perm l) trivial
  have r3 := Reload.xmp (ind := none) (fun _ l => reverse_perm l) trivial k9 k10
  obtain ⟨-, h1, h2, -⟩ := main _ (Reloads.step s2 r3)
  rw [hw] at h1 h2
  exact ⟨q1, q2, q3, r1, r2, r3, h2 (by unfold licenceDoc; simp), h1⟩

end Xmp.Props
