import Verif.Props.JsonShows

/-! C75: documents of the shipped models survive as JSON text. -/

namespace Xmp.Props

open GoStr Utf8 JsonText Shipped List

/-! ### The types -/

/-- Is the type neither an array nor an alternative? -/
def skItem : Sk → Bool
  | .leaf _ _ _ => true
  | .list n h e => decide ((Sk.list n h e).writes = .text)
  | .ptr s => skItem s
  | .struct _ _ _ _ => true

mutual
/-- No array inside of the type has arrays or alternatives as elements. -/
def skFlat : Sk → Bool
  | .leaf _ _ _ => true
  | .list _ _ e => skItem e && skFlat e
  | .ptr s => skFlat s
  | .struct _ _ _ ts => skFlats ts
/-- The same for a list of types. -/
def skFlats : List Sk → Bool
  | [] => true
  | t :: ts => skFlat t && skFlats ts
end

mutual
/-- How deep elements are nested in an element of the type, at most. -/
def skDepth : Sk → Nat
  | .leaf _ _ _ => 0
  | .list _ _ e => skDepth e + 2
  | .ptr s => skDepth s
  | .struct _ _ _ ts => skDepths ts + 1
/-- The largest depth in a list of types. -/
def skDepths : List Sk → Nat
  | [] => 0
  | t :: ts => max (skDepth t) (skDepths ts)
end

theorem lost_small : ItemTy lost ∧ FlatTy lost ∧ tyDepth lost = 0 := by simp [lost, ItemTy, FlatTy, tyDepth]

theorem textTy_small (K : Str → Codec) : ∀ s : Sk, ItemTy (s.textTy K) ∧ FlatTy (s.textTy K) ∧ tyDepth (s.textTy K) = 0
  | .leaf n h k => by
    unfold Sk.textTy
    split
    · cases k <;> simp [ItemTy, FlatTy, tyDepth]
    · simp [ItemTy, FlatTy, tyDepth]
  | .list _ _ _ => by simp [Sk.textTy, ItemTy, FlatTy, tyDepth]
  | .struct _ _ _ _ => by simp [Sk.textTy, ItemTy, FlatTy, tyDepth]
  | .ptr s => by
    have := textTy_small K s
    rw [Sk.textTy, ItemTy, FlatTy, tyDepth]
    exact this

theorem item_ty (K : Str → Codec) (Z : Str → List Val → Bool) : ∀ s : Sk, skItem s = true → ItemTy (s.ty K Z)
  | .leaf n h k, _ => by
    rw [Sk.ty]
    split
    · exact (textTy_small K _).1
    · exact lost_small.1
  | .list n h e, hs => by
    rw [skItem, decide_eq_true_eq] at hs
    rw [Sk.ty]
    split
    · simp only [hs]; simp [ItemTy]
    · exact lost_small.1
  | .ptr s, hs => by
    rw [skItem] at hs
    rw [Sk.ty]
    split
    · rw [ItemTy]; exact item_ty K Z s hs
    · exact lost_small.1
  | .struct n h fs ts, _ => by
    rw [Sk.ty]
    split
    · split <;> simp [ItemTy]
    · exact lost_small.1

mutual
theorem flat_ty (K : Str → Codec) (Z : Str → List Val → Bool) : ∀ s : Sk, skFlat s = true → FlatTy (s.ty K Z)
  | .leaf n h k, _ => by
    rw [Sk.ty]
    split
    · exact (textTy_small K _).2.1
    · exact lost_small.2.1
  | .list n h e, hs => by
    rw [skFlat, Bool.and_eq_true] at hs
    rw [Sk.ty]
    split
    · split
      · simp [FlatTy]
      · simp [FlatTy]
      · rw [FlatTy]; exact ⟨item_ty K Z e hs.1, flat_ty K Z e hs.2⟩
    · exact lost_small.2.1
  | .ptr s, hs => by
    rw [skFlat] at hs
    rw [Sk.ty]
    split
    · rw [FlatTy]; exact flat_ty K Z s hs
    · exact lost_small.2.1
  | .struct n h fs ts, hs => by
    rw [skFlat] at hs
    rw [Sk.ty]
    split
    · split
      · simp [FlatTy]
      · rw [FlatTy]; exact flat_tys K Z fs ts hs
    · exact lost_small.2.1
theorem flat_tys (K : Str → Codec) (Z : Str → List Val → Bool) : ∀ (fs : List FieldInfo) (ts : List Sk), skFlats ts = true → FlatTys (Sk.tys K Z fs ts)
  | [], _, _ => by simp [Sk.tys, FlatTys]
  | _ :: _, [], _ => by simp [Sk.tys, FlatTys]
  | f :: fs, t :: ts, hs => by
    rw [skFlats, Bool.and_eq_true] at hs
    rw [Sk.tys, FlatTys]
    refine ⟨?_, flat_tys K Z fs ts hs.2⟩
    split
    · split
      · exact (textTy_small K _).2.1
      · exact lost_small.2.1
    · exact flat_ty K Z t hs.1
end

mutual
theorem depth_ty (K : Str → Codec) (Z : Str → List Val → Bool) : ∀ s : Sk, tyDepth (s.ty K Z) ≤ skDepth s
  | .leaf n h k => by
    rw [Sk.ty]
    split
    · rw [(textTy_small K _).2.2]; omega
    · rw [lost_small.2.2]; omega
  | .list n h e => by
    rw [Sk.ty, skDepth]
    split
    · split
      · simp [tyDepth]
      · simp [tyDepth]
      · have := depth_ty K Z e
        rw [tyDepth]; omega
    · rw [lost_small.2.2]; omega
  | .ptr s => by
    rw [Sk.ty, skDepth]
    split
    · rw [tyDepth]; exact depth_ty K Z s
    · rw [lost_small.2.2]; omega
  | .struct n h fs ts => by
    rw [Sk.ty, skDepth]
    split
    · split
      · simp [tyDepth]
      · have := depth_tys K Z fs ts
        rw [tyDepth]; omega
    · rw [lost_small.2.2]; omega
theorem depth_tys (K : Str → Codec) (Z : Str → List Val → Bool) : ∀ (fs : List FieldInfo) (ts : List Sk), tysDepth (Sk.tys K Z fs ts) ≤ skDepths ts
  | [], _ => by simp [Sk.tys, tysDepth]
  | _ :: _, [] => by simp [Sk.tys, tysDepth]
  | f :: fs, t :: ts => by
    have := depth_tys K Z fs ts
    rw [Sk.tys, tysDepth, skDepths]
    have h2 : tyDepth (if f.attr then (if t.soundAttr then t.textTy K else lost) else t.ty K Z) ≤ skDepth t := by
      split
      · split
        · rw [(textTy_small K _).2.2]; omega
        · rw [lost_small.2.2]; omega
      · exact depth_ty K Z t
    omega
end

theorem tysDepth_get : ∀ {l : List Ty} {i : Nat} {t : Ty}, l[i]? = some t → tyDepth t ≤ tysDepth l
  | x :: l, 0, t, h => by
    simp only [getElem?_cons_zero, Option.some.injEq] at h
    rw [tysDepth, h]; omega
  | x :: l, i + 1, t, h => by
    simp only [getElem?_cons_succ] at h
    have := tysDepth_get h
    rw [tysDepth]; omega

theorem distinctTys_get : ∀ {l : List Ty} {i : Nat} {t : Ty}, DistinctTys l → l[i]? = some t → DistinctTy t
  | x :: l, 0, t, hd, h => by
    simp only [getElem?_cons_zero, Option.some.injEq] at h
    rw [DistinctTys] at hd
    exact h ▸ hd.1
  | x :: l, i + 1, t, hd, h => by
    simp only [getElem?_cons_succ] at h
    rw [DistinctTys] at hd
    exact distinctTys_get hd.2 h

/-! ### The tables -/

set_option maxRecDepth 100000 in
/-- No array of a shipped type has arrays or alternatives as elements, and types are nested less than 20 deep. -/
theorem models_flat : (modelTypes.all fun x => skFlat x.2 && decide (skDepth x.2 < 20)) = true := by decide +kernel

/-- No field of the model is named `rdf:Description`. -/
def noRdf (s : Sk) : Bool :=
  match s with
  | .struct _ _ fs _ => fs.all (fun f => !decide (f.name = chars!"rdf:Description"))
  | _ => true

set_option maxRecDepth 100000 in
theorem models_noRdf : (modelTypes.all fun x => noRdf x.2) = true := by decide +kernel

set_option maxRecDepth 100000 in
theorem regs_nocolon : (shippedRegs.all fun e => !e.1.name.contains ':' && e.1.name.all (fun c => decide (c.toNat < 0x80))) = true := by decide +kernel

theorem validName_utf8 {s : Str} (h : plainName s = true) : IsUtf8 s := by
  unfold plainName at h
  rw [Bool.and_eq_true, all_eq_true] at h
  refine ascii_utf8 (fun c hc => ?_)
  have := h.1 c hc
  rw [Bool.and_eq_true, decide_eq_true_eq] at this
  exact this.2

/-- The name, the URI and the prefix of a namespace are fit for JSON. -/
def JsonNs (ns : Namespace) : Prop := IsUtf8 ns.name ∧ IsUtf8 ns.uri ∧ ':' ∉ ns.name

theorem shippedNs_json {e : Namespace × List Str} (he : e ∈ shippedRegs) : JsonNs e.1 := by
  have h1 := all_eq_true.1 regs_nocolon e he
  have h2 := all_eq_true.1 regs_decl e he
  unfold nsPlain at h2
  rw [Bool.and_eq_true, all_eq_true] at h1 h2
  refine ⟨ascii_utf8 fun c hc => by simpa using h1.2 c hc, ascii_utf8 fun c hc => ?_, ?_⟩
  · have := h2.2 c hc
    rw [Bool.and_eq_true, decide_eq_true_eq, decide_eq_true_eq] at this
    exact this.2
  · simpa using h1.1

/-! ### Documents -/

/-- What JSON asks of a document of models: texts of UTF-8, values that survive JSON, and no field that is written without a
text. -/
structure JsonTexts (p : Packet) : Prop where
  about : IsUtf8 p.about
  toolkit : IsUtf8 p.toolkit
  texts : ∀ r ∈ p.doc.roots, ∀ m, r.model = some m → Utf8Val m.ty m.val
  values : ∀ r ∈ p.doc.roots, JsonVals (rootTys r) (rootInfos r) (rootVals r)
  shown : ∀ r ∈ p.doc.roots, ∀ (i : Nat) (f : FieldInfo) (t : Ty) (v : Val), (rootInfos r)[i]? = some f → (rootTys r)[i]? = some t → (rootVals r)[i]? = some v →
    fieldWritten f t v = true → if f.attr then attrText t v ≠ some (some []) else Shows t v

/-- The same model in a node of the same name without other content (an attribute `rdf:parseType` says nothing). -/
def SameModel (r r' : Root) : Prop :=
  r'.model = r.model ∧ r'.node.xmlName = r.node.xmlName ∧ r'.node.value = [] ∧ r'.node.nodes = [] ∧
    ∀ a ∈ r'.node.attrs, a.name.loc = "rdf:parseType".toList

section

variable {P : List Str} {h : RegHistory} {K : Str → Codec} {Z : Str → List Val → Bool} {env : Env}

/-- The parts of a top-level node of a shipped model. -/
theorem shipped_parts {d : XDoc} (hd : ShippedDoc P K Z d) {r : Root} (hr : r ∈ d.roots) :
    (∃ q, (∃ e ∈ shippedRegs, q = e.1.name) ∧ r.node = Node.new ⟨[], q⟩) ∧ ∃ n hk fs ts, (rootInfos r = fs ∧ rootTys r = Sk.tys K Z fs ts) ∧
      (∃ m z, r.model = some m ∧ m.ty = .struct z fs (Sk.tys K Z fs ts) ∧ m.val = .struct (rootVals r)) ∧
      namesPlain (.struct n hk fs ts) = true ∧ skFlats ts = true ∧ skDepths ts < 19 ∧ Sk.distincts ts = true ∧ ∀ f ∈ fs, f.name ≠ "rdf:Description".toList := by
  obtain ⟨pk, hpk, hpP, dc, hdc, s, hs, hnode, v, hmod, hclean, -⟩ := (hd.roots r hr).exact
  obtain ⟨n, hk, fs, ts, rfl, hdist, hw, hlen, -⟩ := model_checked hpk hdc hs
  obtain ⟨hreg, hnew, hcan⟩ := models_registered pk hpk dc hdc
  obtain ⟨e, hep, hens⟩ := mem_map.1 hreg
  have heP : e ∈ regsOf P := pkg_regs_in hpk hpP hep
  have hty : (Sk.struct n hk fs ts).modelTy K Z = .struct (if hk.zero = .none then none else some (Z n)) fs (Sk.tys K Z fs ts) := by
    simp only [Sk.modelTy, hw, if_true]
  rw [hty, Clean] at hclean
  obtain ⟨vals, rfl, -, -⟩ := hclean
  have hri : rootInfos r = fs := by simp [rootInfos, hmod, shippedMdl, hty]
  have hrt : rootTys r = Sk.tys K Z fs ts := by simp [rootTys, hmod, shippedMdl, hty]
  have hrv : rootVals r = vals := by simp [rootVals, hmod, shippedMdl]
  have hf := all_eq_true.1 models_flat _ hs
  rw [Bool.and_eq_true] at hf
  have hf1 : skFlats ts = true := hf.1
  have hf2 : skDepths ts + 1 < 20 := of_decide_eq_true hf.2
  have hr0 := all_eq_true.1 models_noRdf _ hs
  have hrdf : ∀ f ∈ fs, f.name ≠ "rdf:Description".toList := by
    intro f hfm e
    have := all_eq_true.1 hr0 f hfm
    rw [e] at this
    exact absurd this (by decide)
  rw [Sk.distinct, Bool.and_eq_true] at hdist
  refine ⟨⟨dc.ns.name, ⟨e, regsOf_sub P e heP, by rw [hens]⟩, hnode⟩, n, hk, fs, ts, ⟨hri, hrt⟩, ⟨_, _, hmod, hty, ?_⟩,
    all_eq_true.1 models_plain _ hs, hf1, by omega, hdist.2, hrdf⟩
  rw [hrv]; rfl

theorem shipped_jroot {p : Packet} (hd : ShippedDoc P K Z p.doc) (hj : JsonTexts p) (reg : Registry) : ∀ r ∈ p.doc.roots, JRootOK reg r := by
  intro r hr
  obtain ⟨⟨q, -, hnode⟩, n, hk, fs, ts, ⟨hri, hrt⟩, -, -, hfl, -, hdist, hrdf⟩ := shipped_parts hd hr
  refine ⟨?_, ?_, ?_, [], ?_, ?_, by simp⟩
  · rw [hrt]
    refine jfields_of _ _ _ (flat_tys K Z fs ts hfl) ?_
    rw [← hrt]
    exact hj.values r hr
  · intro i f t v h1 h2 h3 h4 h5
    have := hj.shown r hr i f t v h1 h2 h3 h4
    rwa [if_pos h5] at this
  · intro i f t v h1 h2 h3 h4 h5 x hx
    have := hj.shown r hr i f t v h1 h2 h3 h4
    rw [if_neg (by rw [h5]; decide)] at this
    refine shows_full t v _ x ?_ this ?_ hx
    · rw [hrt] at h2
      exact distinctTys_get (tys_all_distinct K Z fs ts hdist) h2
    · intro e
      rw [hri] at h1
      exact hrdf f (mem_of_getElem? h1) (congrArg QName.loc e)
  · simp [Shape, ShapeFields]
  · rw [hnode, Says]
    exact ⟨rfl, rfl, rfl⟩

theorem shipped_utf8Packet (hn : ∀ e ∈ h, e ∉ shippedRegs → JsonNs e.1)
    (he : ShippedEnv P h K Z env) {p : Packet} (hd : ShippedDoc P K Z p.doc) (ht : JsonTexts p) : Utf8Packet 20 env p where
  about := ht.about
  toolkit := ht.toolkit
  spaces := by
    have reg : ∀ ns ∈ (regsOf P).map (·.1), JsonNs ns := by
      intro ns hm
      obtain ⟨e, hm', rfl⟩ := mem_map.1 hm
      exact shippedNs_json (regsOf_sub P e hm')
    intro q ns hf
    unfold XDoc.findNsByPrefix at hf
    split at hf
    · rename_i e h1
      cases hf
      exact reg _ (hd.int e (mem_of_find?_eq_some h1))
    · split at hf
      · rename_i e h1
        cases hf
        exact reg _ (hd.ext e (mem_of_find?_eq_some h1))
      · rw [he.reg, registry_prefix_latest, Option.map_eq_some_iff] at hf
        obtain ⟨e, h1, rfl⟩ := hf
        have hm : e ∈ h := by
          unfold lastWith at h1
          simpa using mem_of_find?_eq_some h1
        by_cases hs : e ∈ shippedRegs
        · exact shippedNs_json hs
        · exact hn e hm hs
  outside := by
    intro r hr
    obtain ⟨⟨q, ⟨e, heR, rfl⟩, hnode⟩, -⟩ := shipped_parts hd hr
    have := shippedNs_json heR
    rw [hnode]
    refine ⟨?_, (by intro a ha; cases ha), trivial⟩
    show IsUtf8 (getPrefix e.1.name)
    rw [getPrefix_none this.2.2]
    exact this.1
  models := by
    intro r hr m hm z infos tys vals ety eval
    obtain ⟨-, n, hk, fs, ts, -, ⟨m', z', hm', ety', -⟩, hpl, -, hdep, -⟩ := shipped_parts hd hr
    have hx := ht.texts r hr m hm
    rw [hm] at hm'
    cases hm'
    rw [ety] at ety'
    obtain ⟨-, rfl, rfl⟩ := Ty.struct.inj ety'
    rw [ety, eval, Utf8Val] at hx
    refine ⟨hx.2 vals rfl, ?_⟩
    intro i f t w hf htt _ _
    simp only [namesPlain, Bool.and_eq_true] at hpl
    refine ⟨validName_utf8 (all_eq_true.1 hpl.1 f (mem_of_getElem? hf)), ?_, ?_⟩
    · obtain ⟨x, hx1, hx2⟩ := tys_get K Z infos ts i f t hf htt
      have hz : (infos.zip ts)[i]? = some (f, x) := by
        rw [getElem?_zip_eq_some]
        exact ⟨hf, hx1⟩
      have hg := all_eq_true.1 hpl.2 _ (mem_of_getElem? hz)
      rw [hx2]
      split
      · split
        · exact textTy_names K _ _
        · exact lost_names _
      · rename_i hat
        rw [Bool.not_eq_true] at hat
        simp only [hat, Bool.false_or] at hg
        exact ty_names K Z _ x (fun nm hnm => validName_utf8 (all_eq_true.1 hg nm hnm))
    · have := tysDepth_get htt
      have := depth_tys K Z infos ts
      omega

end

/-- **C75.** In every program that uses packages of the library (with `xmp_base` if it uses `xmp_tpg`), and whose own namespaces
have names of UTF-8 without a colon: a document of models of these packages, whose values can be read back, survive JSON, consist
of texts of UTF-8 and set no field with a prefix of another namespace, survives as JSON text, with whatever order of entries it
is written and visited: models with the same values are read from the text. -/
theorem shipped_json_roundtrip_partial (P : List Str) (hc : Closed P) (hx : "xmp_tpg".toList ∈ P → "xmp_base".toList ∈ P)
    (h : RegHistory) (hp : Program P h) (hn : ∀ e ∈ h, e ∉ shippedRegs → JsonNs e.1)
    (K : Str → Codec) (Z : Str → List Val → Bool) (env : Env) (he : ShippedEnv P h K Z env)
    (p : Packet) (hd : ShippedDoc P K Z p.doc) (hj : JsonTexts p) (num : Str → Option Str) :
    ∃ jd, JDoc.ofDoc env p = some jd ∧ ∀ jd1, JDocSame jd jd1 →
      ∃ jd2, readDoc num (printDoc jd1) = some jd2 ∧ ∀ jd3, JDocSame jd2 jd3 → ∃ p', JDoc.toDoc env Version.zero jd3 = .ok p' ∧
      p'.about = p.about ∧ p'.toolkit = (if p.toolkit = [] then Enc.toolkitVersion else p.toolkit) ∧
      ∃ rs, rs ~ withContent p.doc.roots ∧ Forall₂ SameModel rs p'.doc.roots := by
  obtain ⟨jd, h1, h2⟩ := document_json_text_roundtrip_partial h env Version.zero (UsablePrefix P) p (shipped_docOK hc hx hp he hd)
    (by intro hu; exact hu.2 (by simp)) (shipped_jroot hd hj env.reg) 20 (by decide) (shipped_utf8Packet hn he hd hj) num
  refine ⟨jd, h1, fun jd1 hs => ?_⟩
  obtain ⟨jd2, h3, h4⟩ := h2 jd1 hs
  refine ⟨jd2, h3, fun jd3 hs3 => ?_⟩
  obtain ⟨p', h5, h6, h7, ⟨rs, h8, h9⟩, -⟩ := h4 jd3 hs3
  refine ⟨p', h5, h6, h7, rs, h8, ?_⟩
  have hmem : ∀ r ∈ rs, r ∈ p.doc.roots := fun r hr => (mem_withContent.1 (h8.subset hr)).1
  clear h8 h5
  generalize p'.doc.roots = l' at h9
  induction h9 with
  | nil => exact .nil
  | @cons r r' l l' h10 _ ih =>
    refine .cons ?_ (ih (fun x hx => hmem x (mem_cons_of_mem _ hx)))
    obtain ⟨⟨q, -, hnode⟩, -⟩ := shipped_parts hd (hmem r mem_cons_self)
    obtain ⟨e1, e2, fs, -, hsay, t', hsame, hsay'⟩ := h10
    rw [hnode, Says] at hsay
    have hfs : fs = [] := by
      cases fs with
      | nil => rfl
      | cons e fs =>
        obtain ⟨k, t⟩ := e
        have := hsay.2
        rw [SaysFields] at this
        rcases this with ⟨a, as, h, -⟩ | ⟨-, n, ns, h, -⟩
        · cases h
        · cases h
    subst hfs
    rw [Tree.Same] at hsame
    obtain ⟨fs', fs'', rfl, hperm, hsf⟩ := hsame
    rw [Tree.SameFields] at hsf
    subst hsf
    rw [nil_perm] at hperm
    subst hperm
    rw [Says] at hsay'
    obtain ⟨g1, g2⟩ := hsay'
    rw [SaysFields] at g2
    refine ⟨e1, e2, g1, g2.2, fun a ha => ?_⟩
    by_contra hne
    have : a ∈ r'.node.attrs.filter (fun a => decide (a.name.loc ≠ "rdf:parseType".toList)) := mem_filter.2 ⟨ha, decide_eq_true hne⟩
    rw [g2.1] at this
    cases this

/-! ### A concrete document -/

theorem licence_json : JsonTexts { doc := licenceDoc, about := "uuid:1".toList } where
  about := lit8 "uuid:1" (by decide)
  toolkit := nil8
  texts := by
    have hb : ∀ k, BareUtf8 (.opq k) := by intro k s hs; rcases hs with hs | hs <;> cases hs
    have ho : ∀ k, Utf8Val (.text numberCodec) (.opq k) := by
      intro k
      rw [Utf8Val]
      refine ⟨hb k, ?_⟩
      intro k' s hk hs
      cases hk
      simp only [numberCodec, Option.some.injEq] at hs
      rw [← hs, ← itoa_natCast]
      exact utf8_itoa _
    have hstr : ∀ s, IsUtf8 s → Utf8Val .str (.str s) := by
      intro s hs
      rw [Utf8Val]
      intro s' h'
      rcases h' with h' | h' <;> cases h'
      exact hs
    have ns : ∀ l, BareUtf8 (.struct l) := by intro l s hs; rcases hs with hs | hs <;> cases hs
    intro r hr m hm
    simp only [licenceDoc, mem_cons, not_mem_nil, or_false] at hr
    rcases hr with rfl | rfl
    · cases hm
      show Utf8Val (t_cc_CC.modelTy (fun _ => numberCodec) (fun _ _ => false)) _
      rw [show t_cc_CC.modelTy (fun _ => numberCodec) (fun _ _ => false) = .struct none _ _ from rfl, Utf8Val]
      refine ⟨ns _, ?_⟩
      intro vals hv
      cases hv
      simp only [Sk.tys, map, Utf8Vals]
      exact ⟨fun _ => ho 7, fun _ => ho 0, fun _ => ho 0, fun _ => hstr _ (ascii_utf8 (by decide)), trivial⟩
    · cases hm
      show Utf8Val (t_xmp_bj_JobTicket.modelTy (fun _ => numberCodec) (fun _ _ => false)) _
      rw [show t_xmp_bj_JobTicket.modelTy (fun _ => numberCodec) (fun _ _ => false) = .struct none _ _ from rfl, Utf8Val]
      refine ⟨ns _, ?_⟩
      intro vals hv
      cases hv
      simp only [Sk.tys, map, Utf8Vals, and_true]
      intro _
      show Utf8Val (.slice .unordered (.ptr (.struct (some (fun _ => false)) _ [.str, .str, .text numberCodec]))) _
      rw [Utf8Val]
      refine ⟨(by intro s hs; rcases hs with hs | hs <;> cases hs), ?_⟩
      intro l e hl x hx
      cases hl
      rw [mem_singleton] at hx
      subst hx
      rw [Utf8Val]
      refine ⟨(by intro s hs; rcases hs with hs | hs <;> cases hs), ?_⟩
      intro y hy
      cases hy
      rw [Utf8Val]
      refine ⟨ns _, ?_⟩
      intro vals hv
      cases hv
      simp only [map, Utf8Vals, and_true]
      exact ⟨fun _ => hstr _ (ascii_utf8 (by decide)), fun _ => hstr _ (ascii_utf8 (by decide)), fun _ => ho 5⟩
  values := by
    have ho : ∀ k, k < 2 ^ 64 → JsonVal (.text numberCodec) (.opq k) := by
      intro k hk
      rw [JsonVal]
      intro k' e o ho
      cases e
      simp only [numberCodec, Option.some.injEq] at ho
      subst ho
      exact parseUint_natToStr hk
    intro r hr
    simp only [licenceDoc, mem_cons, not_mem_nil, or_false] at hr
    rcases hr with rfl | rfl
    · show JsonVals [.text numberCodec, .text numberCodec, .text numberCodec, .str] [elF chars!"cc:license", elF chars!"cc:morePermissions", elF chars!"cc:attributionURL", elF chars!"cc:attributionName"] [.opq 7, .opq 0, .opq 0, .str chars!"A. Name"]
      simp only [JsonVals, and_true]
      exact ⟨fun _ _ => ho 7 (by decide), fun _ _ => ho 0 (by decide), fun _ _ => ho 0 (by decide), fun _ _ => by simp [JsonVal]⟩
    · show JsonVals [.slice .unordered (.ptr (.struct (some (fun _ => false)) [atF chars!"stJob:id", atF chars!"stJob:name", atF chars!"stJob:url"] [.str, .str, .text numberCodec]))] [elF chars!"xmpBJ:JobRef"]
        [.slice [.ptr (.struct [.str chars!"1", .str chars!"first", .opq 5])] []]
      simp only [JsonVals, and_true]
      intro _ _
      rw [JsonVal]
      intro l sp e
      cases e
      refine ⟨(by intro h; cases h), ?_⟩
      intro x hx
      rw [mem_singleton.1 hx, JsonVal]
      intro y hy
      cases hy
      rw [JsonVal]
      intro vals hv
      cases hv
      simp only [JsonVals, and_true]
      exact ⟨fun _ _ => by simp [JsonVal], fun _ _ => by simp [JsonVal], fun _ _ => ho 5 (by decide)⟩
  shown := by
    have hne : ∀ k, natToStr k ≠ [] := fun k => by rw [← itoa_natCast]; exact itoa_ne_nil _
    intro r hr i f t v hf ht hv hw
    simp only [licenceDoc, mem_cons, not_mem_nil, or_false] at hr
    rcases hr with rfl | rfl
    · match i with
      | 0 =>
        cases hf; cases ht; cases hv
        rw [if_neg (by decide)]
        exact ⟨7, _, rfl, rfl, hne 7⟩
      | 1 => cases hf; cases ht; cases hv; cases hw
      | 2 => cases hf; cases ht; cases hv; cases hw
      | 3 =>
        cases hf; cases ht; cases hv
        rw [if_neg (by decide)]
        exact ⟨_, rfl, by decide⟩
      | i + 4 => cases hf
    · match i with
      | 0 =>
        cases hf; cases ht; cases hv
        rw [if_neg (by decide)]
        refine ⟨_, _, rfl, _, mem_cons_self, _, rfl, _, rfl, 0, _, _, _, rfl, rfl, rfl, rfl, fun _ => ⟨_, rfl, by decide⟩⟩
      | i + 1 => cases hf

theorem jdocSame_refl (j : JDoc) : JDocSame j j :=
  ⟨rfl, rfl, Perm.refl _, j.models, by
    generalize j.models = l
    induction l with
    | nil => exact .nil
    | cons e l ih => exact .cons ⟨rfl, jsame_refl e.2⟩ ih, Perm.refl _⟩

/-- The document is read back from its JSON text, in a program that uses the two packages. -/
example : ∃ jd jd2 p', JDoc.ofDoc (shippedEnv (regsOf ["cc".toList, "xmp_bj".toList]) (fun _ => numberCodec) (fun _ _ => false))
      { doc := licenceDoc, about := "uuid:1".toList } = some jd ∧ readDoc (fun _ => none) (printDoc jd) = some jd2 ∧
    JDoc.toDoc (shippedEnv (regsOf ["cc".toList, "xmp_bj".toList]) (fun _ => numberCodec) (fun _ _ => false)) Version.zero jd2 = .ok p' ∧
    p'.about = "uuid:1".toList ∧ p'.doc.roots.length = 2 := by
  have hprog : Program ["cc".toList, "xmp_bj".toList] (regsOf ["cc".toList, "xmp_bj".toList]) :=
    ⟨fun e he => he, fun e he => Or.inl he⟩
  obtain ⟨jd, h1, h2⟩ := shipped_json_roundtrip_partial ["cc".toList, "xmp_bj".toList] (by unfold Closed; decide +kernel) (by decide)
    _ hprog (by
      intro e he hs
      exact absurd (regsOf_sub _ e he) hs) (fun _ => numberCodec) (fun _ _ => false) _
    (shippedEnv_ok _ _ _ _) { doc := licenceDoc, about := "uuid:1".toList } licenceDoc_ok licence_json (fun _ => none)
  obtain ⟨jd2, h3, h4⟩ := h2 jd (jdocSame_refl jd)
  obtain ⟨p', h5, h6, -, rs, h7, h8⟩ := h4 jd2 (jdocSame_refl jd2)
  refine ⟨jd, jd2, p', h1, h3, h5, h6, ?_⟩
  have c1 : HasContent licenceDoc.roots[0] := Or.inr (Or.inr ⟨3, _, _, _, rfl, rfl, rfl, by decide +kernel⟩)
  have c2 : HasContent licenceDoc.roots[1] := Or.inr (Or.inr ⟨0, _, _, _, rfl, rfl, rfl, by decide +kernel⟩)
  have hw : withContent licenceDoc.roots = licenceDoc.roots :=
    (withContent_cons_pos c1).trans (congrArg _ ((withContent_cons_pos c2).trans rfl))
  rw [← h8.length_eq, h7.length_eq]
  show (withContent licenceDoc.roots).length = 2
  rw [hw]
  rfl

end Xmp.Props
