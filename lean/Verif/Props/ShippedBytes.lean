import Verif.Props.DocBytes
import Verif.Props.ShippedDocCases

/-! C74: documents of the shipped models survive as bytes. -/

namespace Xmp.Props

open GoStr Utf8 XmlBytes Shipped

/-! ### The tables -/

/-- Does a name consist of ASCII characters of names of XML, the first of which may begin one? -/
def plainName (s : Str) : Bool :=
  s.all (fun c => nameByte c && decide (c.toNat < 0x80)) && (match s with | [] => false | c :: _ => firstByte c)

theorem plainName_valid {uni : Str → Bool} {s : Str} (h : plainName s = true) : ValidName uni s := by
  unfold plainName at h
  rw [Bool.and_eq_true, List.all_eq_true] at h
  refine validName_lit ?_
  rw [Bool.and_eq_true, Bool.and_eq_true, decide_eq_true_eq, List.all_eq_true]
  refine ⟨⟨fun c hc => ?_, fun c hc => ?_⟩, h.2⟩
  · have := h.1 c hc
    rw [Bool.and_eq_true] at this
    exact this.1
  · have := h.1 c hc
    rw [Bool.and_eq_true] at this
    exact this.2

/-- The names of fields of models and of the structs inside of them are names of XML. -/
def namesPlain (s : Sk) : Bool :=
  match s with
  | .struct _ _ fs ts => fs.all (fun f => plainName f.name) && (fs.zip ts).all (fun x => x.1.attr || x.2.names.all plainName)
  | _ => false

set_option maxRecDepth 100000 in
theorem models_plain : (modelTypes.all fun x => namesPlain x.2) = true := by decide +kernel

/-- Prefixes are names of XML and URIs are printable ASCII. -/
def nsPlain (ns : Namespace) : Bool :=
  plainName ("xmlns:".toList ++ ns.name) && ns.uri.all (fun c => decide (0x20 ≤ c.toNat) && decide (c.toNat < 0x80))

set_option maxRecDepth 100000 in
theorem regs_decl : (shippedRegs.all fun e => nsPlain e.1) = true := by decide +kernel

theorem nsPlain_decl {uni : Str → Bool} {ns : Namespace} (h : nsPlain ns = true) : DeclOK uni ns := by
  unfold nsPlain at h
  rw [Bool.and_eq_true, List.all_eq_true] at h
  refine ⟨plainName_valid h.1, xmlText_ascii (fun c hc => ?_)⟩
  have := h.2 c hc
  rw [Bool.and_eq_true, decide_eq_true_eq, decide_eq_true_eq] at this
  exact this

/-! ### Documents -/

/-- The texts of a document of models: description of the resource, name of the tool, and the values that are written. -/
structure XmlTexts (p : Packet) : Prop where
  about : IsXmlText p.about
  toolkit : IsXmlText p.toolkit
  models : ∀ r ∈ p.doc.roots, ∀ m, r.model = some m → XmlVal m.ty m.val

section

variable {P : List Str} {h : RegHistory} {K : Str → Codec} {Z : Str → List Val → Bool} {env : Env}

theorem shipped_xmlPacket (uni : Str → Bool) (hn : ∀ e ∈ h, e ∉ shippedRegs → DeclOK uni e.1)
    (he : ShippedEnv P h K Z env) {p : Packet} (hd : ShippedDoc P K Z p.doc) (ht : XmlTexts p) : XmlPacket uni env p where
  about := ht.about
  toolkit := ht.toolkit
  spaces := by
    have reg : ∀ ns ∈ (regsOf P).map (·.1), DeclOK uni ns := by
      intro ns hm
      obtain ⟨e, hm', rfl⟩ := List.mem_map.1 hm
      exact nsPlain_decl (List.all_eq_true.1 regs_decl e (regsOf_sub P e hm'))
    intro q ns hf
    unfold XDoc.findNsByPrefix at hf
    split at hf
    · rename_i e h1
      cases hf
      exact reg _ (hd.int e (List.mem_of_find?_eq_some h1))
    · split at hf
      · rename_i e h1
        cases hf
        exact reg _ (hd.ext e (List.mem_of_find?_eq_some h1))
      · rw [he.reg, registry_prefix_latest, Option.map_eq_some_iff] at hf
        obtain ⟨e, h1, rfl⟩ := hf
        have hm : e ∈ h := by
          unfold lastWith at h1
          simpa using List.mem_of_find?_eq_some h1
        by_cases hs : e ∈ shippedRegs
        · exact nsPlain_decl (List.all_eq_true.1 regs_decl e hs)
        · exact hn e hm hs
  attrs := by
    intro r hr a ha
    obtain ⟨_, _, _, _, _, _, _, hnode, _⟩ := (hd.roots r hr).exact
    rw [hnode] at ha
    cases ha
  nodes := by
    intro r hr x hx
    obtain ⟨_, _, _, _, _, _, _, hnode, _⟩ := (hd.roots r hr).exact
    rw [hnode] at hx
    cases hx
  models := by
    intro r hr m hm z infos tys vals ety eval
    obtain ⟨pk, hpk, hpP, dc, hdc, s, hs, hnode, v, hmod, hclean, -⟩ := (hd.roots r hr).exact
    obtain ⟨n, hk, fs, ts, rfl, -, hw, hlen, -⟩ := model_checked hpk hdc hs
    have hx := ht.models r hr m hm
    rw [hmod] at hm
    cases hm
    have hty : (Sk.struct n hk fs ts).modelTy K Z = .struct (if hk.zero = .none then none else some (Z n)) fs (Sk.tys K Z fs ts) := by
      simp only [Sk.modelTy, hw, if_true]
    simp only [shippedMdl] at ety eval hx
    rw [hty] at ety hx
    obtain ⟨-, rfl, rfl⟩ := Ty.struct.inj ety
    rw [eval, XmlVal] at hx
    refine ⟨hx.2 vals rfl, ?_⟩
    intro i f t w hf htt _ _
    have hpl := List.all_eq_true.1 models_plain _ hs
    simp only [namesPlain, Bool.and_eq_true] at hpl
    refine ⟨plainName_valid (List.all_eq_true.1 hpl.1 f (List.mem_of_getElem? hf)), ?_⟩
    obtain ⟨x, hx1, hx2⟩ := tys_get K Z fs ts i f t hf htt
    have hz : (fs.zip ts)[i]? = some (f, x) := by
      rw [List.getElem?_zip_eq_some]
      exact ⟨hf, hx1⟩
    have hg := List.all_eq_true.1 hpl.2 _ (List.mem_of_getElem? hz)
    rw [hx2]
    split
    · split
      · exact textTy_names K _ _
      · exact lost_names _
    · rename_i hat
      rw [Bool.not_eq_true] at hat
      simp only [hat, Bool.false_or] at hg
      exact ty_names K Z _ x (fun nm hnm => plainName_valid (List.all_eq_true.1 hg nm hnm))

end

theorem shipped_docOK {P : List Str} (hc : Closed P) (hx : "xmp_tpg".toList ∈ P → "xmp_base".toList ∈ P)
    {h : RegHistory} (hp : Program P h) {K : Str → Codec} {Z : Str → List Val → Bool} {env : Env} (he : ShippedEnv P h K Z env)
    {d : XDoc} (hd : ShippedDoc P K Z d) : DocOK h env d Version.zero (UsablePrefix P) := by
  refine ⟨shipped_docNs hp he.reg hd.int hd.ext, fun r hr => shipped_rootOK hc hx hp he hd hr, hd.distinct.imp_of_mem ?_⟩
  intro r r' hr hr' hne q hq hq'
  have own : ∀ r ∈ d.roots, ∀ q, Owned r q → r.node.xmlName = ⟨[], q⟩ := by
    intro r hr q hq
    obtain ⟨pk, hpk, -, dc, hdc, s, -, hnode, v, hmod, -⟩ := (hd.roots r hr).exact
    rcases hq with hq | ⟨m, hm, hq⟩
    · rw [hq, hnode]; rfl
    · rw [hmod] at hm
      cases hm
      simp only [shippedMdl, List.mem_singleton] at hq
      rw [hq, hnode, (models_registered pk hpk dc hdc).2.2]; rfl
  exact hne ((own r hr q hq).trans (own r' hr' q hq').symm)

/-- **C74.** In every program that uses packages of the library (with `xmp_base` if it uses `xmp_tpg`), and whose own namespaces
can be declared in XML: a document of models of these packages, whose values can be read back, consist of texts of XML and set no
field with a prefix of another namespace, survives as bytes.  The same models with the same values are read from the text of the
document with or without packet and indentation, whatever follows it, and by `Scan` from a stream that contains the packet. -/
theorem shipped_bytes_roundtrip_partial (P : List Str) (hc : Closed P) (hx : "xmp_tpg".toList ∈ P → "xmp_base".toList ∈ P)
    (h : RegHistory) (hp : Program P h) (uni : Str → Bool) (hn : ∀ e ∈ h, e ∉ shippedRegs → DeclOK uni e.1)
    (K : Str → Codec) (Z : Str → List Val → Bool) (env : Env) (he : ShippedEnv P h K Z env)
    (p : Packet) (hd : ShippedDoc P K Z p.doc) (ht : XmlTexts p)
    (order : Node → List Namespace → List Namespace) (ho : ∀ w l, (order w l).Perm l) (ind : Option (Str × Str)) (hi : IndentOK ind) :
    ∃ t p', Enc.encode env order p = some t ∧
      p'.doc.roots = withContent p.doc.roots ∧ p'.about = (if withContent p.doc.roots = [] then [] else p.about) ∧
      (∀ w, unmarshalText uni env Version.zero (printTree ind t ++ w) = .ok p') ∧
      (∀ pad w, unmarshalText uni env Version.zero (printPacket ind t pad ++ w) = .ok p') ∧
      ∀ limit flags pieces out, flags &&& xpacket ≠ 0 → (∀ b ∈ pieces, b ≠ []) → pieces.flatten = printTree ind t →
        encodeOut flags pieces { limit := limit } = (none, out) → out.w.out.length ≤ 61440 →
        ∀ before after reads, NoStart before → NoStart after → Arrives reads (before ++ out.w.out ++ after) →
          scanDoc uni env Version.zero reads = .ok p' := by
  obtain ⟨t, p', h1, h2, h3, -, h4⟩ := document_bytes_roundtrip_partial h env Version.zero (UsablePrefix P) p
    (shipped_docOK hc hx hp he hd) uni (shipped_xmlPacket uni hn he hd ht) order ho ind hi (by
      intro _ r hr
      obtain ⟨_, _, _, _, _, _, _, hnode, _⟩ := (hd.roots r hr).exact
      rw [hnode]
      trivial)
  exact ⟨t, p', h1, h2, h3, h4⟩

/-! ### A concrete document -/

theorem licence_texts : XmlTexts { doc := licenceDoc, about := "uuid:1".toList } where
  about := by decide
  toolkit := by decide
  models := by
    have hb : ∀ k, BareText (.opq k) := by intro k s hs; rcases hs with hs | hs <;> cases hs
    have ho : ∀ k, XmlVal (.text numberCodec) (.opq k) := by
      intro k
      rw [XmlVal]
      refine ⟨hb k, ?_⟩
      intro k' s hk hs
      cases hk
      simp only [numberCodec, Option.some.injEq] at hs
      rw [← hs, ← itoa_natCast]
      exact xmlText_itoa _
    have hstr : ∀ s, IsXmlText s → XmlVal .str (.str s) := by
      intro s hs
      rw [XmlVal]
      intro s' h'
      rcases h' with h' | h' <;> cases h'
      exact hs
    have ns : ∀ l, BareText (.struct l) := by intro l s hs; rcases hs with hs | hs <;> cases hs
    intro r hr m hm
    simp only [licenceDoc, List.mem_cons, List.not_mem_nil, or_false] at hr
    rcases hr with rfl | rfl
    · cases hm
      show XmlVal (t_cc_CC.modelTy (fun _ => numberCodec) (fun _ _ => false)) _
      rw [show t_cc_CC.modelTy (fun _ => numberCodec) (fun _ _ => false) = .struct none _ _ from rfl, XmlVal]
      refine ⟨ns _, ?_⟩
      intro vals hv
      cases hv
      simp only [Sk.tys, List.map, XmlFields]
      exact ⟨fun _ => ho 7, fun _ => ho 0, fun _ => ho 0, fun _ => hstr _ (by decide), trivial⟩
    · cases hm
      show XmlVal (t_xmp_bj_JobTicket.modelTy (fun _ => numberCodec) (fun _ _ => false)) _
      rw [show t_xmp_bj_JobTicket.modelTy (fun _ => numberCodec) (fun _ _ => false) = .struct none _ _ from rfl, XmlVal]
      refine ⟨ns _, ?_⟩
      intro vals hv
      cases hv
      simp only [Sk.tys, List.map, XmlFields, and_true]
      intro _
      show XmlVal (.slice .unordered (.ptr (.struct (some (fun _ => false)) _ [.str, .str, .text numberCodec]))) _
      rw [XmlVal]
      refine ⟨(by intro s hs; rcases hs with hs | hs <;> cases hs), ?_⟩
      intro l e hl x hx
      cases hl
      rw [List.mem_singleton] at hx
      subst hx
      rw [XmlVal]
      refine ⟨(by intro s hs; rcases hs with hs | hs <;> cases hs), ?_⟩
      intro y hy
      cases hy
      rw [XmlVal]
      refine ⟨ns _, ?_⟩
      intro vals hv
      cases hv
      simp only [List.map, XmlFields, and_true]
      exact ⟨fun _ => hstr _ (by decide), fun _ => hstr _ (by decide), fun _ => ho 5⟩

/-- The document is read back from its bytes, in a program that uses the two packages and registers a namespace of its own. -/
example : ∃ t p', Enc.encode (shippedEnv (regsOf ["cc".toList, "xmp_bj".toList] ++ [(⟨"my".toList, "http://my.org/".toList, none⟩, [])]) (fun _ => numberCodec) (fun _ _ => false))
      (fun _ l => l) { doc := licenceDoc, about := "uuid:1".toList } = some t ∧ p'.doc.roots = licenceDoc.roots ∧ p'.about = "uuid:1".toList ∧
    unmarshalText (fun _ => false) (shippedEnv (regsOf ["cc".toList, "xmp_bj".toList] ++ [(⟨"my".toList, "http://my.org/".toList, none⟩, [])])
      (fun _ => numberCodec) (fun _ _ => false)) Version.zero (printPacket (some ([], "  ".toList)) t [] ++ "more".toList) = .ok p' := by
  have hown : (⟨"my".toList, "http://my.org/".toList, none⟩ : Namespace).name ∉ shippedRegs.map (·.1.name) ∧
      (⟨"my".toList, "http://my.org/".toList, none⟩ : Namespace).uri ∉ shippedRegs.map (·.1.uri) := by decide +kernel
  have hprog : Program ["cc".toList, "xmp_bj".toList] (regsOf ["cc".toList, "xmp_bj".toList] ++ [(⟨"my".toList, "http://my.org/".toList, none⟩, [])]) := by
    refine ⟨fun e he => List.mem_append_left _ he, fun e he => ?_⟩
    rcases List.mem_append.1 he with he | he
    · exact Or.inl he
    · rw [List.mem_singleton] at he
      exact Or.inr (he ▸ hown)
  obtain ⟨t, p', h1, h2, h3, -, h4, -⟩ := shipped_bytes_roundtrip_partial ["cc".toList, "xmp_bj".toList] (by unfold Closed; decide +kernel) (by decide)
    _ hprog (fun _ => false) (by
      intro e he hs
      rcases List.mem_append.1 he with he | he
      · exact absurd (regsOf_sub _ e he) hs
      · rw [List.mem_singleton] at he
        rw [he]
        exact nsPlain_decl (by decide)) (fun _ => numberCodec) (fun _ _ => false) _
    (shippedEnv_ok _ _ _ _) { doc := licenceDoc, about := "uuid:1".toList } licenceDoc_ok licence_texts (fun _ l => l) (fun _ l => List.Perm.refl l)
    (some ([], "  ".toList)) ⟨by decide, by decide⟩
  have c1 : HasContent licenceDoc.roots[0] := Or.inr (Or.inr ⟨3, _, _, _, rfl, rfl, rfl, by decide +kernel⟩)
  have c2 : HasContent licenceDoc.roots[1] := Or.inr (Or.inr ⟨0, _, _, _, rfl, rfl, rfl, by decide +kernel⟩)
  have hw : withContent licenceDoc.roots = licenceDoc.roots :=
    (withContent_cons_pos c1).trans (congrArg _ ((withContent_cons_pos c2).trans rfl))
  refine ⟨t, p', h1, h2.trans hw, h3.trans ?_, h4 [] "more".toList⟩
  rw [show withContent (({ doc := licenceDoc, about := "uuid:1".toList } : Packet).doc.roots) = licenceDoc.roots from hw]
  rw [if_neg (by decide +revert)]

end Xmp.Props
