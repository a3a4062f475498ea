import Verif.Props.ShippedSpec
import Verif.Props.Shipped

/-! C72: documents of the shipped models survive being written and read. -/

namespace Xmp.Props

open GoStr Shipped

/-! ### Specification -/

/-- The prefixes that a program with the packages `P` can use in documents. -/
def UsablePrefix (P : List Str) (p : Str) : Prop :=
  p ∈ (regsOf P).map (·.1.name) ∧ p ∉ ["x".toList, "xml".toList, "rdf".toList]

/-- A model of the declared type `d` with a value; `s` is the entry of the table of types. -/
def shippedMdl (K : Str → Codec) (Z : Str → List Val → Bool) (d : Decl) (s : Sk) (v : Val) : Mdl := ⟨[d.ns], [d.can], s.modelTy K Z, v⟩

/-- What lies outside of a document in a program with the packages `P`: the registry, and the factories, which make models of
the declared types with the zero values. -/
structure ShippedEnv (P : List Str) (h : RegHistory) (K : Str → Codec) (Z : Str → List Val → Bool) (env : Env) : Prop where
  reg : env.reg = runReg h
  make : ∀ e ∈ regsOf P, ∀ d, newModel e.1 = some d → ∀ s, (d.typ, s) ∈ modelTypes →
    env.newModel e.1 = some (shippedMdl K Z d s (s.modelTy K Z).zero)

/-- The fields of models with a prefix of another namespace, by the name of the type. -/
def foreignFields : List (Str × Str) :=
  [(chars!"dji.DJI", [chars!"tiff:Model"]),
   (chars!"exif.ExifInfo", [chars!"tiff:Artist", chars!"dc:creator", chars!"tiff:BitsPerSample", chars!"tiff:Compression", chars!"tiff:Copyright", chars!"dc:rights",
     chars!"tiff:DateTime", chars!"xmp:ModifyDate", chars!"tiff:ImageDescription", chars!"dc:description", chars!"tiff:ImageLength", chars!"tiff:ImageWidth",
     chars!"tiff:Make", chars!"tiff:Model", chars!"tiff:Orientation", chars!"tiff:PhotometricInterpretation", chars!"tiff:PlanarConfiguration",
     chars!"tiff:PrimaryChromaticities", chars!"tiff:ReferenceBlackWhite", chars!"tiff:ResolutionUnit", chars!"tiff:SamplesPerPixel",
     chars!"tiff:Software", chars!"xmp:CreatorTool", chars!"tiff:TransferFunction", chars!"tiff:WhitePoint", chars!"tiff:XResolution",
     chars!"tiff:YCbCrCoefficients", chars!"tiff:YCbCrPositioning", chars!"tiff:YCbCrSubSampling", chars!"tiff:YResolution", chars!"photoshop:DateCreated"]),
   (chars!"pdf.PDFInfo", [chars!"dc:title", chars!"dc:creator", chars!"dc:description", chars!"xmp:CreatorTool", chars!"xmp:CreateDate", chars!"xmp:ModifyDate"]),
   (chars!"riff.RiffInfo", [chars!"xmpDM:artist", chars!"xmpDM:logComment", chars!"dc:rights", chars!"xmp:CreateDate", chars!"xmpDM:engineer", chars!"xmpDM:genre",
     chars!"dc:subject", chars!"dc:source", chars!"dc:description", chars!"xmp:CreatorTool", chars!"dc:type"]),
   (chars!"tiff.TiffInfo", [chars!"dc:creator", chars!"xmp:ModifyDate", chars!"xmp:CreatorTool", chars!"dc:description", chars!"dc:rights"])].flatMap
    (fun (x : Str × List Str) => x.2.map (fun f => (x.1, f)))

/-- A top-level node with a model of a package of the program: the value can be read back, and the fields with a prefix of
another namespace are not written. -/
structure ShippedRoot (P : List Str) (K : Str → Codec) (Z : Str → List Val → Bool) (r : Root) : Prop where
  exact : ∃ p ∈ packages, p.name ∈ P ∧ ∃ d ∈ p.models, ∃ s, (d.typ, s) ∈ modelTypes ∧
    r.node = Node.new ⟨[], d.ns.name⟩ ∧ ∃ v, r.model = some (shippedMdl K Z d s v) ∧ Clean (s.modelTy K Z) v ∧
    ∀ (i : Nat) f t w, (rootInfos r)[i]? = some f → (rootTys r)[i]? = some t → (rootVals r)[i]? = some w →
      fieldWritten f t w = true → (d.typ, f.name) ∉ foreignFields

/-- A document of such nodes, not two of the same namespace, that knows registered namespaces only. -/
structure ShippedDoc (P : List Str) (K : Str → Codec) (Z : Str → List Val → Bool) (d : XDoc) : Prop where
  roots : ∀ r ∈ d.roots, ShippedRoot P K Z r
  distinct : d.roots.Pairwise (fun r r' => r.node.xmlName ≠ r'.node.xmlName)
  int : ∀ e ∈ d.intNs, e.2 ∈ (regsOf P).map (·.1)
  ext : ∀ e ∈ d.extNs, e.2 ∈ (regsOf P).map (·.1)

/-! ### The tables -/

/-- The prefixes registered by a package, the packages it imports and those imported by them; `xmp_tpg` also needs
`xmp_base` (C71). -/
def availPrefixes (p : Pkg) : List Str :=
  let one := fun (p : Pkg) => packages.filter (fun q => decide (q.name ∈ p.imports ∨ (p.name = "xmp_tpg".toList ∧ q.name = "xmp_base".toList)))
  "stArea".toList :: ([p] ++ one p ++ (one p).flatMap one).flatMap (fun q => q.regs.map (·.1.name))

/-- The check of one model. -/
def modelGood (ps : List Str) (d : Decl) (s : Sk) : Bool :=
  match s with
  | .struct n h fs ts =>
    (Sk.struct n h fs ts).distinct && decide ((Sk.struct n h fs ts).writes = .fields) &&
      decide (fs.length = ts.length) &&
      (fs.zip ts).all (fun x => fieldGood d.can ps x.1 x.2 || decide ((d.typ, x.1.name) ∈ foreignFields))
  | _ => false

/-- The check of the models of a package. -/
def pkgGood (p : Pkg) : Bool :=
  p.models.all fun d => decide (d.typ ∈ modelTypes.map (·.1)) &&
    (modelTypes.filter (fun x => x.1 = d.typ)).all (fun x => modelGood (availPrefixes p) d x.2)

set_option maxRecDepth 100000 in
theorem packages_good : ∀ p ∈ packages, pkgGood p = true := by
  decide +kernel

/-- The models of a package belong to a namespace that it registers, with a factory that makes them. -/
theorem models_registered : ∀ p ∈ packages, ∀ d ∈ p.models,
    d.ns ∈ p.regs.map (·.1) ∧ newModel d.ns = some d ∧ d.can = d.ns.name := by decide +kernel

/-- Prefixes and URIs that the library does not register, or only for itself. -/
theorem regs_plain : (∀ e ∈ shippedRegs, e.1.name ≠ [] ∧ ':' ∉ e.1.name ∧ e.1.name ≠ "xmlns".toList ∧ e.1.uri ≠ [] ∧
      e.1.uri ≠ "xmlns".toList ∧
      e.1.name ∉ ["parseType".toList, "Seq".toList, "Bag".toList, "Alt".toList, "li".toList, "lang".toList]) ∧
    (∀ p ∈ packages, ∀ e ∈ p.regs, e.1.name ∉ ["x".toList, "xml".toList, "rdf".toList]) := by decide +kernel

theorem core_in (P : List Str) : ∀ ns ∈ [nsX, nsRDF, nsXML], ∃ e ∈ regsOf P, e.1 = ns := by
  have tab : ∀ ns ∈ [nsX, nsRDF, nsXML], ∃ e ∈ coreRegs, e.1 = ns := by decide +kernel
  intro ns hn
  obtain ⟨e, he, h⟩ := tab ns hn
  exact ⟨e, List.mem_append_left _ he, h⟩

/-! ### Proof -/

section

variable {P : List Str} {h : RegHistory} {K : Str → Codec} {Z : Str → List Val → Bool} {env : Env}

theorem pkg_regs_in {p : Pkg} (hp : p ∈ packages) (hs : p.name ∈ P) {e : Namespace × List Group} (he : e ∈ p.regs) : e ∈ regsOf P :=
  List.mem_append_right _ (List.mem_flatMap.2 ⟨p, List.mem_filter.2 ⟨hp, by simpa using hs⟩, he⟩)

theorem avail_usable (hc : Closed P) (hx : "xmp_tpg".toList ∈ P → "xmp_base".toList ∈ P) {p : Pkg} (hp : p ∈ packages)
    (hs : p.name ∈ P) {q : Str} (hq : q ∈ availPrefixes p) : UsablePrefix P q := by
  have one : ∀ p ∈ packages, p.name ∈ P → ∀ q ∈ packages.filter (fun q => decide (q.name ∈ p.imports ∨ (p.name = "xmp_tpg".toList ∧ q.name = "xmp_base".toList))),
      q ∈ packages ∧ q.name ∈ P := by
    intro p hp hs q hq
    rw [List.mem_filter, decide_eq_true_eq] at hq
    refine ⟨hq.1, ?_⟩
    rcases hq.2 with h | ⟨h1, h2⟩
    · exact hc p hp hs _ h
    · rw [h2]; exact hx (h1 ▸ hs)
  have fin : ∀ p ∈ packages, p.name ∈ P → ∀ q ∈ p.regs.map (·.1.name), UsablePrefix P q := by
    intro p hp hs q hq
    obtain ⟨e, he, rfl⟩ := List.mem_map.1 hq
    exact ⟨List.mem_map.2 ⟨e, pkg_regs_in hp hs he, rfl⟩, regs_plain.2 p hp e he⟩
  unfold availPrefixes at hq
  simp only at hq
  rcases List.mem_cons.1 hq with rfl | hq
  · refine ⟨List.mem_map.2 ⟨(⟨"stArea".toList, "http://ns.adobe.com/xmp/sType/Area#".toList, none⟩, []), List.mem_append_left _ (by simp [coreRegs]), rfl⟩, by decide⟩
  · obtain ⟨r, hr, hq⟩ := List.mem_flatMap.1 hq
    rcases List.mem_append.1 hr with hr | hr
    · rcases List.mem_append.1 hr with hr | hr
      · rw [List.mem_singleton.1 hr] at hq
        exact fin p hp hs q hq
      · obtain ⟨h1, h2⟩ := one p hp hs r hr
        exact fin r h1 h2 q hq
    · obtain ⟨m, hm, hr⟩ := List.mem_flatMap.1 hr
      obtain ⟨h1, h2⟩ := one p hp hs m hm
      obtain ⟨h3, h4⟩ := one m h1 h2 r hr
      exact fin r h3 h4 q hq

theorem shipped_findNs (hp : Program P h) (hr : env.reg = runReg h) {d : XDoc} (hi : ∀ e ∈ d.intNs, e.2 ∈ (regsOf P).map (·.1))
    (he : ∀ e ∈ d.extNs, e.2 ∈ (regsOf P).map (·.1)) {e : Namespace × List Group} (hm : e ∈ regsOf P) :
    d.findNsByPrefix env e.1.name = some e.1 := by
  have uniq : ∀ ns ∈ (regsOf P).map (·.1), ns.name = e.1.name → ns = e.1 := by
    intro ns hns en
    obtain ⟨e', he', rfl⟩ := List.mem_map.1 hns
    rw [eq_of_nodup_map shipped_names_nodup (regsOf_sub P e' he') (regsOf_sub P e hm) en]
  unfold XDoc.findNsByPrefix
  cases h1 : d.intNs.find? (fun x => x.2.name = e.1.name) with
  | some x =>
    simp only [Option.some.injEq]
    exact uniq _ (hi x (List.mem_of_find?_eq_some h1)) (by simpa using List.find?_some h1)
  | none =>
    cases h2 : d.extNs.find? (fun x => x.2.name = e.1.name) with
    | some x =>
      simp only [Option.some.injEq]
      exact uniq _ (he x (List.mem_of_find?_eq_some h2)) (by simpa using List.find?_some h2)
    | none =>
      simp only
      rw [hr]
      exact (shipped_resolved P h hp e hm).1

theorem shipped_known (hp : Program P h) {e : Namespace × List Group} (hm : e ∈ regsOf P) : KnownUri (runReg h) e.1.uri e.1.name :=
  ⟨(regs_plain.1 e (regsOf_sub P e hm)).1, (shipped_resolved P h hp e hm).2.1, e.1, (shipped_resolved P h hp e hm).1, rfl, rfl⟩

theorem shipped_docNs (hp : Program P h) (hr : env.reg = runReg h) {d : XDoc} (hi : ∀ e ∈ d.intNs, e.2 ∈ (regsOf P).map (·.1))
    (he : ∀ e ∈ d.extNs, e.2 ∈ (regsOf P).map (·.1)) : DocNs h env d (UsablePrefix P) where
  reg := hr
  core := by
    intro ns hn
    obtain ⟨e, hm, rfl⟩ := core_in P ns hn
    exact shipped_known hp hm
  rdf := by
    obtain ⟨e, hm, h2⟩ := core_in P nsRDF (by simp)
    have := shipped_findNs hp hr hi he hm
    rw [h2] at this
    exact this
  xml := by
    obtain ⟨e, hm, h2⟩ := core_in P nsXML (by simp)
    have := shipped_findNs hp hr hi he hm
    rw [h2] at this
    exact this
  plain := by
    rintro p ⟨h1, h2⟩
    obtain ⟨e, hm, rfl⟩ := List.mem_map.1 h1
    obtain ⟨a, b, c, -⟩ := regs_plain.1 e (regsOf_sub P e hm)
    simp only [List.mem_cons, List.not_mem_nil, or_false, not_or] at h2
    exact ⟨a, b, h2.2.2, h2.2.1, c⟩
  found := by
    rintro p ⟨h1, h2⟩
    obtain ⟨e, hm, rfl⟩ := List.mem_map.1 h1
    obtain ⟨a, b, c, d, f, -⟩ := regs_plain.1 e (regsOf_sub P e hm)
    exact ⟨e.1, shipped_findNs hp hr hi he hm, d, f, Or.inl (shipped_known hp hm)⟩
  inj := by
    rintro p q ns ns' ⟨h1, -⟩ ⟨h2, -⟩ e1 e2 eu
    obtain ⟨e, hm, rfl⟩ := List.mem_map.1 h1
    obtain ⟨e', hm', rfl⟩ := List.mem_map.1 h2
    rw [shipped_findNs hp hr hi he hm] at e1
    rw [shipped_findNs hp hr hi he hm'] at e2
    cases e1; cases e2
    rw [eq_of_nodup_map shipped_uris_nodup (regsOf_sub P e hm) (regsOf_sub P e' hm') eu]
  markup := by
    rintro m hm ⟨h1, -⟩
    obtain ⟨e, he, rfl⟩ := List.mem_map.1 h1
    exact (regs_plain.1 e (regsOf_sub P e he)).2.2.2.2.2 hm

/-- What the check says about a model. -/
theorem model_checked {p : Pkg} (hp : p ∈ packages) {d : Decl} (hd : d ∈ p.models) {s : Sk} (hs : (d.typ, s) ∈ modelTypes) :
    ∃ n hk fs ts, s = .struct n hk fs ts ∧ s.distinct = true ∧ s.writes = .fields ∧ fs.length = ts.length ∧
      ∀ (i : Nat) f x, fs[i]? = some f → ts[i]? = some x → fieldGood d.can (availPrefixes p) f x = true ∨ (d.typ, f.name) ∈ foreignFields := by
  have h1 := List.all_eq_true.1 (packages_good p hp) d hd
  rw [Bool.and_eq_true] at h1
  have h2 := List.all_eq_true.1 h1.2 (d.typ, s) (List.mem_filter.2 ⟨hs, by simp⟩)
  cases s with
  | struct n hk fs ts =>
    simp only [modelGood, Bool.and_eq_true, decide_eq_true_eq] at h2
    refine ⟨n, hk, fs, ts, rfl, h2.1.1.1, h2.1.1.2, h2.1.2, ?_⟩
    intro i f x hf hx
    have hz : (fs.zip ts)[i]? = some (f, x) := by
      rw [List.getElem?_zip_eq_some]
      exact ⟨hf, hx⟩
    have := List.all_eq_true.1 h2.2 _ (List.mem_of_getElem? hz)
    simpa using this
  | _ => simp [modelGood] at h2

theorem shipped_rootOK (hc : Closed P) (hx : "xmp_tpg".toList ∈ P → "xmp_base".toList ∈ P) (hp : Program P h)
    (he : ShippedEnv P h K Z env) {d : XDoc} (hd : ShippedDoc P K Z d) {r : Root} (hr : r ∈ d.roots) :
    RootOK h env d Version.zero (UsablePrefix P) r := by
  obtain ⟨p, hpk, hpP, dc, hdc, s, hs, hnode, v, hmod, hclean, hfor⟩ := (hd.roots r hr).exact
  obtain ⟨n, hk, fs, ts, rfl, hdist, hw, hlen, hgood⟩ := model_checked hpk hdc hs
  obtain ⟨hreg, hnew, hcan⟩ := models_registered p hpk dc hdc
  obtain ⟨e, hep, hens⟩ := List.mem_map.1 hreg
  have heP : e ∈ regsOf P := pkg_regs_in hpk hpP hep
  have hty : (Sk.struct n hk fs ts).modelTy K Z = .struct (if hk.zero = .none then none else some (Z n)) fs (Sk.tys K Z fs ts) := by
    simp only [Sk.modelTy, hw, if_true]
  rw [hty, Clean] at hclean
  obtain ⟨vals, rfl, hcf, -⟩ := hclean
  have hri : rootInfos r = fs := by simp [rootInfos, hmod, shippedMdl, hty]
  have hrt : rootTys r = Sk.tys K Z fs ts := by simp [rootTys, hmod, shippedMdl, hty]
  have hrv : rootVals r = vals := by simp [rootVals, hmod, shippedMdl]
  have husable : UsablePrefix P dc.ns.name := by
    rw [← hens]
    exact ⟨List.mem_map.2 ⟨e, heP, rfl⟩, regs_plain.2 p hpk e hep⟩
  have hown : ∀ q, Owned r q → q = dc.ns.name := by
    rintro q (hq | ⟨m, hm, hq⟩)
    · rw [hq, hnode]; rfl
    · rw [hmod] at hm
      cases hm
      simp only [shippedMdl, List.mem_singleton] at hq
      rw [hq, hcan]
  have hdi : DistinctTys (Sk.tys K Z fs ts) ∧ (fs.map (·.name)).Nodup := by
    rw [Sk.distinct, Bool.and_eq_true, Bool.and_eq_true] at hdist
    exact ⟨tys_all_distinct K Z fs ts hdist.2, distinctNames_nodup _ hdist.1.2⟩
  refine ⟨by rw [hnode]; rfl, by rw [hnode]; rfl, fun q hq => hown q hq ▸ husable, ?_, ?_, ?_, ?_, ?_, ?_, ?_, ?_, ?_, ?_⟩
  · intro m q ns hm hq hf
    rw [hown q hq, ← hens, shipped_findNs hp he.reg hd.int hd.ext heP] at hf
    cases hf
    rw [hown q hq, ← hens]
    exact shipped_known hp heP
  · intro q ns hq hf
    rw [hown q hq, ← hens, (shipped_resolved P h hp e heP).1] at hf
    cases hf
    rw [he.make e heP dc (by rw [hens]; exact hnew) _ hs, hmod]
    rfl
  · intro m hm
    rw [hmod] at hm
    cases hm
    exact ⟨dc.ns, [], rfl, by rw [hnode]; rfl⟩
  · intro m hm
    rw [hmod] at hm
    cases hm
    refine ⟨if hk.zero = .none then none else some (Z n), ?_, ?_⟩
    · rw [hri, hrt]; exact hty
    · rw [hrv]; rfl
  · rw [hri, hrt, hrv]
    exact cleanFields_faithful _ fs 0 fs vals hdi.2 hdi.1 (fun j => by simp) hcf
  · intro i f t w hf ht hv hwr
    have hnf := hfor i f t w hf ht hv hwr
    rw [hri] at hf
    rw [hrt] at ht
    obtain ⟨x, hx1, hx2⟩ := tys_get K Z fs ts i f t hf ht
    have hg := (hgood i f x hf hx1).resolve_right hnf
    simp only [fieldGood, Bool.and_eq_true] at hg
    obtain ⟨g1, g2⟩ := nameIn_nameS hg.1
    rw [List.mem_singleton] at g2
    obtain ⟨pp, loc, k1, k2, k3, k4⟩ := g1
    rw [List.mem_singleton] at k4
    refine ⟨⟨pp, loc, k1, k2, k3, by rw [k4, hcan]; exact husable⟩, ⟨_, hmod, by rw [g2]; simp [shippedMdl]⟩, ?_⟩
    rw [hx2]
    split
    · split
      · exact textTy_names K _ _
      · exact lost_names _
    · rename_i hat
      rw [if_neg hat] at hg
      refine ty_names K Z _ x (fun nm hnm => ?_)
      obtain ⟨⟨a, b, c1, c2, c3, c4⟩, -⟩ := nameIn_nameS (List.all_eq_true.1 hg.2 nm hnm)
      exact ⟨a, b, c1, c2, c3, avail_usable hc hx hpk hpP c4⟩
  · intro a ha; rw [hnode] at ha; cases ha
  · rw [hnode]; exact List.nodup_nil
  · intro a ha; rw [hnode] at ha; cases ha
  · rw [hnode]; exact List.nodup_nil

end

/-- **C72.** In every program that uses packages of the library (with `xmp_base` if it uses `xmp_tpg`), whatever the text forms
and `IsZero` methods of the types are: a document of models of these packages, whose values can be read back and whose fields
with a prefix of another namespace are not set, is written and read back as the same models with the same values; models
without content are left out. -/
theorem shipped_roundtrip_partial (P : List Str) (hc : Closed P) (hx : "xmp_tpg".toList ∈ P → "xmp_base".toList ∈ P)
    (h : RegHistory) (hp : Program P h) (K : Str → Codec) (Z : Str → List Val → Bool) (env : Env) (he : ShippedEnv P h K Z env)
    (p : Packet) (hd : ShippedDoc P K Z p.doc)
    (order : Node → List Namespace → List Namespace) (ho : ∀ w l, (order w l).Perm l) (ind : Option (Str × Str)) (hb : Blank ind) :
    ∃ q, docTrip env Version.zero order ind p = some q ∧ q.doc.roots = withContent p.doc.roots := by
  refine docTrip_some_partial h env Version.zero (UsablePrefix P) p ⟨shipped_docNs hp he.reg hd.int hd.ext,
    fun r hr => shipped_rootOK hc hx hp he hd hr, ?_⟩ order ho ind hb ?_
  · refine hd.distinct.imp_of_mem ?_
    intro r r' hr hr' hne q hq hq'
    have own : ∀ r ∈ p.doc.roots, ∀ q, Owned r q → r.node.xmlName = ⟨[], q⟩ := by
      intro r hr q hq
      obtain ⟨pk, hpk, -, dc, hdc, s, -, hnode, v, hmod, -⟩ := (hd.roots r hr).exact
      rcases hq with hq | ⟨m, hm, hq⟩
      · rw [hq, hnode]; rfl
      · rw [hmod] at hm
        cases hm
        simp only [shippedMdl, List.mem_singleton] at hq
        rw [hq, hnode, (models_registered pk hpk dc hdc).2.2]; rfl
    exact hne ((own r hr q hq).trans (own r' hr' q hq').symm)
  · intro _ r hr
    obtain ⟨pk, hpk, -, dc, hdc, s, -, hnode, -⟩ := (hd.roots r hr).exact
    rw [hnode]
    trivial

end Xmp.Props
