import Verif.Props.SavedDoc

/-! C78: sessions of editing, saving and loading. -/

namespace Xmp.Props

open GoStr SyncFlags Utf8 XmlBytes Shipped

/-! ### Specification -/

/-- The documents of a session that starts with a document: values are set by path (`Edit`), and the document is saved and
loaded, any number of times in any order. -/
inductive Session (P : List Str) (K : Str → Codec) (Z : Str → List Val → Bool) (env : Env) (order : Node → List Namespace → List Namespace) :
    XDoc → XDoc → Prop
  | start {d} : Session P K Z env order d d
  | set {d d' desc} (hs : Session P K Z env order d d') (he : Edit P K Z d' desc) : Session P K Z env order d (d'.setPath env desc).1
  | reload {d p q ind} (hs : Session P K Z env order d p.doc) (hb : Blank ind) (hq : docTrip env Version.zero order ind p = some q) :
      Session P K Z env order d q.doc

/-- A path that is not touched by an edit: its prefix is another one, or the two part in the type of the model: they name
different fields, different elements of a slice, or go on in different ways in the same struct. -/
def Parted (P : List Str) (K : Str → Codec) (Z : Str → List Val → Bool) (desc : PathValue) (q : Path) : Prop :=
  q.namespacePrefix ≠ desc.path.namespacePrefix ∨
  ∀ pk ∈ packages, pk.name ∈ P → ∀ dc ∈ pk.models, ∀ s, (dc.typ, s) ∈ modelTypes → desc.path.namespacePrefix = dc.ns.name →
    Apart (s.modelTy K Z) desc.path q

/-- The documents of a session in which no edit touches a path. -/
inductive SessionApart (P : List Str) (K : Str → Codec) (Z : Str → List Val → Bool) (env : Env) (order : Node → List Namespace → List Namespace)
    (q : Path) : XDoc → XDoc → Prop
  | start {d} : SessionApart P K Z env order q d d
  | set {d d' desc} (hs : SessionApart P K Z env order q d d') (he : Edit P K Z d' desc) (hq : Parted P K Z desc q) :
      SessionApart P K Z env order q d (d'.setPath env desc).1
  | reload {d p p' ind} (hs : SessionApart P K Z env order q d p.doc) (hb : Blank ind) (hq : docTrip env Version.zero order ind p = some p') :
      SessionApart P K Z env order q d p'.doc

/-! ### Helper lemmas -/

mutual
theorem visible_idem : ∀ v : Val, visible (visible v) = visible v
  | .slice l _ => by rw [visible, visible, visibles_idem l]
  | .ptr v => by rw [visible, visible, visible_idem v]
  | .struct vals => by rw [visible, visible, visibles_idem vals]
  | .int _ => by simp [visible]
  | .bool _ => by simp [visible]
  | .str _ => by simp [visible]
  | .bytes _ => by simp [visible]
  | .opq _ => by simp [visible]
  | .alt _ => by simp [visible]
  | .nil => by simp [visible]
theorem visibles_idem : ∀ l : List Val, visibles (visibles l) = visibles l
  | [] => by simp [visibles]
  | v :: vs => by rw [visibles, visibles, visible_idem v, visibles_idem vs]
end

theorem root_visible_idem (r : Root) : Root.visible (Root.visible r) = Root.visible r := by
  obtain ⟨n, m⟩ := r
  cases m with
  | none => rfl
  | some m => simp [Root.visible, visible_idem]

mutual
theorem hasTy_visible : ∀ (t : Ty) (v : Val), HasTy t v → HasTy t (visible v)
  | .slice _ t, .slice l sp, h => by
    rw [HasTy] at h
    rw [visible, HasTy]
    refine ⟨?_, by simp⟩
    intro x hx
    rw [visibles_eq] at hx
    obtain ⟨y, hy, rfl⟩ := List.mem_map.1 hx
    exact hasTy_visible t y (h.1 y hy)
  | .ptr t, .ptr v, h => by
    rw [HasTy] at h
    rw [visible, HasTy]
    exact hasTy_visible t v h
  | .struct z i tys, .struct vals, h => by
    rw [HasTy] at h
    rw [visible, HasTy]
    exact hasTys_visible tys vals h
  | .ptr t, .nil, h => by simpa [visible] using h
  | .int _, .int _, h | .uint _, .int _, h | .bool, .bool _, h | .str, .str _, h | .bytes, .bytes _, h | .text _, .opq _, h | .alt, .alt _, h => by
    simpa [visible] using h
theorem hasTys_visible : ∀ (ts : List Ty) (vs : List Val), HasTys ts vs → HasTys ts (visibles vs)
  | [], vs, h => by
    cases vs with
    | nil => simpa [visibles] using h
    | cons v vs => simp [HasTys] at h
  | t :: ts, [], h => by simp [HasTys] at h
  | t :: ts, v :: vs, h => by
    rw [HasTys] at h
    rw [visibles, HasTys]
    exact ⟨hasTy_visible t v h.1, hasTys_visible ts vs h.2⟩
end

section

variable {P : List Str} {h : RegHistory} {K : Str → Codec} {Z : Str → List Val → Bool} {env : Env}

/-- The namespaces of a decoder that read declarations of registered namespaces are registered. -/
theorem decoder_registered (hp : Program P h) (he : env.reg = runReg h) {d : XDoc} (hi : ∀ e ∈ d.intNs, e.2 ∈ (regsOf P).map (·.1))
    (hx : ∀ e ∈ d.extNs, e.2 ∈ (regsOf P).map (·.1)) {l : List (Str × Str)} (hl : Declares env d (UsablePrefix P) l) :
    (∀ e ∈ (decoder h l).int, e.2 ∈ (regsOf P).map (·.1)) ∧ ∀ e ∈ (decoder h l).ext, e.2 ∈ (regsOf P).map (·.1) := by
  have ok := decoder_ok h l
  have known : ∀ q, UsablePrefix P q → ∃ e ∈ regsOf P, e.1.name = q ∧ bindOf env d q = e.1.uri ∧ KnownUri (runReg h) e.1.uri q ∧ (runReg h).getNamespace q = some e.1 := by
    rintro q ⟨hq, -⟩
    obtain ⟨e, hm, rfl⟩ := List.mem_map.1 hq
    have h1 := shipped_findNs hp he hi hx hm
    have h2 := shipped_findNs hp he (d := {}) (by intro e he; cases he) (by intro e he; cases he) hm
    have h3 := shipped_known hp hm
    refine ⟨e, hm, rfl, bindOf_some h1, h3, ?_⟩
    rw [← he]
    simpa [XDoc.findNsByPrefix] using h2
  refine ⟨?_, ?_⟩
  · intro e hm
    obtain ⟨h1, h2, h3⟩ := ok.intNames e hm
    obtain ⟨⟨q, u⟩, hx', hxe⟩ := List.mem_map.1 h1
    obtain ⟨hq1, hq2⟩ := hl _ hx'
    simp only at hxe hq1 hq2
    subst hxe
    obtain ⟨e', hm', hn, hb, hk, hg⟩ := known q hq1
    rw [hq2, hb] at h2
    rw [hk.2.1, hg] at h2
    exact List.mem_map.2 ⟨e', hm', Option.some.inj h2⟩
  · intro e hm
    obtain ⟨h1, h2, h2u, h3⟩ := ok.extNames e hm
    obtain ⟨hq1, hq2⟩ := hl _ h2
    obtain ⟨e', hm', hn, hb, hk, hg⟩ := known _ hq1
    simp only at hq2 hb
    rw [hq2, hb, hk.2.1] at h1
    exact absurd h1 hk.1

/-- A document that was saved and loaded can be saved. -/
theorem reload_savable (hc : Closed P) (hx : "xmp_tpg".toList ∈ P → "xmp_base".toList ∈ P) (hp : Program P h) (hz : ZeroMethods P K Z)
    (he : ShippedEnv P h K Z env) {p q : Packet} (hd : Savable P K Z p.doc) {order : Node → List Namespace → List Namespace}
    (ho : ∀ w l, (order w l).Perm l) {ind : Option (Str × Str)} (hb : Blank ind) (hq : docTrip env Version.zero order ind p = some q) :
    Savable P K Z q.doc ∧ q.doc.roots = withContent (visibleDoc p.doc).roots ∧
      ∀ path s, s ≠ [] → p.doc.getPath env path = .ok s → q.doc.getPath env path = .ok s := by
  have hsees := savable_sees hz hd
  have hok : DocOK h env (visibleDoc p.doc) Version.zero (UsablePrefix P) := shipped_docOK hc hx hp he hd.shipped
  have hun : ∀ r ∈ (visibleDoc p.doc).roots, UnmixedAll r.node.nodes := by
    intro r hr
    obtain ⟨_, _, _, _, _, _, _, hnode, _⟩ := (hd.shipped.roots r hr).exact
    rw [hnode]
    trivial
  obtain ⟨t, t', q', h1, h2, h3, h4, -, -, ⟨l, hl, hint, hext⟩, h5⟩ := document_roundtrip_core h env Version.zero (UsablePrefix P)
    { p with doc := visibleDoc p.doc } hok order ho ind hb (fun _ => hun)
  rw [encode_visible env order p hsees] at h1
  have hqq : q = q' := by
    unfold docTrip at hq
    simp only [h1, h2, h3, Option.some.injEq] at hq
    exact hq.symm
  subst hqq
  obtain ⟨hr1, hr2⟩ := decoder_registered hp he.reg hd.shipped.int hd.shipped.ext hl
  have hmem : ∀ r ∈ q.doc.roots, ∃ r0 ∈ p.doc.roots, r = Root.visible r0 := by
    intro r hr
    rw [h4, mem_withContent] at hr
    obtain ⟨r0, hr0, rfl⟩ := List.mem_map.1 hr.1
    exact ⟨r0, hr0, rfl⟩
  have hvis : (visibleDoc q.doc).roots = q.doc.roots := by
    show q.doc.roots.map Root.visible = q.doc.roots
    conv_rhs => rw [← List.map_id q.doc.roots]
    apply List.map_congr_left
    intro r hr
    obtain ⟨r0, -, rfl⟩ := hmem r hr
    exact root_visible_idem r0
  refine ⟨⟨⟨?_, ?_, ?_, ?_⟩, ?_⟩, h4, ?_⟩
  · intro r hr
    rw [hvis] at hr
    obtain ⟨r0, hr0, rfl⟩ := hmem r hr
    exact savable_root hd hr0
  · rw [hvis, h4]
    exact hd.shipped.distinct.sublist (by unfold withContent; exact List.filter_sublist)
  · intro e hm
    exact hr1 e (hint ▸ hm)
  · intro e hm
    exact hr2 e (hext ▸ hm)
  · intro r hr m hm
    obtain ⟨r0, hr0, rfl⟩ := hmem r hr
    cases hm0 : r0.model with
    | none => simp [Root.visible, hm0] at hm
    | some m0 =>
      simp only [Root.visible, hm0, Option.map_some, Option.some.injEq] at hm
      subst hm
      exact hasTy_visible _ _ (hd.typed r0 hr0 m0 hm0)
  · intro path s hs hg
    rw [← getPath_visible env p.doc hsees] at hg
    exact getPath_kept hok q.doc (fun r => by rw [h4, mem_withContent]) h5 hs hg

/-- What is read by a path is read from the model of its prefix. -/
theorem savable_reads (hp : Program P h) (he : ShippedEnv P h K Z env) {d : XDoc} (hd : Savable P K Z d) {q : Path} {t : Str} (ht : t ≠ [])
    (hg : d.getPath env q = .ok t) :
    q.isXmpPath = true ∧ ∃ ns j r m, ns.name = q.namespacePrefix ∧ d.findNode ns = some j ∧ d.roots[j]? = some r ∧ r.model = some m ∧
      r.node.xmlName.loc = q.namespacePrefix ∧ getModelPath m.ty m.val q = .ok t ∧
      ∀ d0 : XDoc, (∀ e ∈ d0.intNs, e.2 ∈ (regsOf P).map (·.1)) → (∀ e ∈ d0.extNs, e.2 ∈ (regsOf P).map (·.1)) → d0.pathNs env q = some ns := by
  unfold XDoc.getPath at hg
  split at hg
  · cases hg
  rename_i hx
  have hx : q.isXmpPath = true := by simpa using hx
  cases hpn : d.pathNs env q with
  | none => rw [hpn] at hg; cases hg
  | some ns =>
  rw [hpn] at hg
  dsimp only at hg
  obtain ⟨i, hi, hf⟩ := pathNs_pfx hpn
  have hname := findNs_name he.reg hf
  have hpfx : q.namespacePrefix = q.take i := by unfold Path.namespacePrefix; rw [hi]
  cases hfn : d.findNode ns with
  | none => rw [hfn] at hg; cases hg
  | some j =>
  rw [hfn] at hg
  dsimp only at hg
  cases hrj : d.roots[j]? with
  | none => rw [hrj] at hg; cases hg
  | some r =>
  rw [hrj] at hg
  dsimp only at hg
  have hmem := List.mem_of_getElem? hrj
  have hmatch : XDoc.rootMatches ns.name r = true := by
    unfold XDoc.findNode at hfn
    rw [List.findIdx?_eq_some_iff_getElem] at hfn
    obtain ⟨hlt, hm, -⟩ := hfn
    rw [List.getElem?_eq_getElem hlt, Option.some.injEq] at hrj
    rw [← hrj]; exact hm
  have hloc := ((savable_matches hd hmem ns.name).1).1 hmatch
  obtain ⟨pk, hpk, hpP, dc, hdc, s, hs, hnode, v, hmod, -⟩ := (savable_root hd hmem).exact
  have hn : r.node = Node.new ⟨[], dc.ns.name⟩ := hnode
  have hreg := models_registered pk hpk dc hdc
  obtain ⟨e, hem, hen⟩ := List.mem_map.1 hreg.1
  have hdcn : dc.ns.name = q.take i := by
    rw [← hname, ← hloc, hn]
    rfl
  have hall : ∀ d0 : XDoc, (∀ e ∈ d0.intNs, e.2 ∈ (regsOf P).map (·.1)) → (∀ e ∈ d0.extNs, e.2 ∈ (regsOf P).map (·.1)) →
      d0.pathNs env q = some dc.ns := by
    intro d0 h1 h2
    have := shipped_findNs hp he.reg h1 h2 (pkg_regs_in hpk hpP hem)
    rw [hen, hdcn] at this
    unfold XDoc.pathNs
    rw [hi]
    exact this
  have hns : ns = dc.ns := by
    have := hall d hd.shipped.int hd.shipped.ext
    rw [hpn] at this
    exact Option.some.inj this
  cases hm : r.model with
  | none => simp [Root.visible, hm] at hmod
  | some m =>
  refine ⟨hx, ns, j, r, m, by rw [hname, hpfx], hfn, hrj, hm, by rw [hloc, hname, hpfx], ?_, by rw [hns]; exact hall⟩
  rw [hm] at hg
  dsimp only at hg
  cases hq : getModelPath m.ty m.val q with
  | ok u => rw [hq] at hg; exact hg
  | err => rw [hq] at hg; cases hg
  | notFound =>
    rw [hq] at hg
    dsimp only at hg
    cases hq2 : r.node.getPath q with
    | none => rw [hq2] at hg; cases hg
    | some u =>
      rw [hq2] at hg
      cases hg
      rcases getPathF_content _ _ _ _ (by rw [hn]; rfl) hq2 ht with e | e
      · rw [hn] at e; exact absurd rfl e
      · rw [hn] at e; exact absurd rfl e

/-- **C78.** An edit changes nothing that is read by a path it does not touch: neither in other models nor in its own. -/
theorem edit_frame (hp : Program P h) (he : ShippedEnv P h K Z env) (hz : ZeroMethods P K Z) {d : XDoc} (hd : Savable P K Z d) {desc : PathValue}
    (hE : Edit P K Z d desc) {q : Path} (hq : Parted P K Z desc q) {t : Str} (ht : t ≠ []) (hg : d.getPath env q = .ok t) :
    (d.setPath env desc).1.getPath env q = .ok t := by
  obtain ⟨pk, hpk, hpP, dc, hdc, s, hs, hpre, v, hv, -, -, _, _, _, hsets, -⟩ := hE.target
  obtain ⟨d1, j, r, hd1, hj, hr, hloc, hm, ⟨l, hl⟩, hx, hlen, hns1, hmod, hserved, hsame⟩ :=
    edit_via hp he hd hE.value hE.flagsC hpk hpP hdc hs hpre hv hsets
  obtain ⟨hxq, ns, jq, rq, mq, hname, hjq, hrq, hmq, hlocq, hgq, hall⟩ := savable_reads hp he hd ht hg
  have hlt : jq < d.roots.length := (List.getElem?_eq_some_iff.mp hrq).1
  have hjq1 : d1.findNode ns = some jq := by
    unfold XDoc.findNode at hjq ⊢
    rw [hl, List.findIdx?_append, hjq]
    rfl
  have hrq1 : d1.roots[jq]? = some rq := by rw [hl, List.getElem?_append_left hlt, hrq]
  have hpn1 := hall d1 hd1.shipped.int hd1.shipped.ext
  have hg1 : d1.getPath env q = .ok t := by
    unfold XDoc.getPath
    simp only [hxq, Bool.not_true, Bool.false_eq_true, if_false, hpn1, hjq1, hrq1, hmq, hgq]
  rw [hsame]
  by_cases hjj : j = jq
  · subst hjj
    rw [hr] at hrq1
    have hrr := Option.some.inj hrq1
    subst hrr
    rcases hq with hq | hq
    · exact absurd (by rw [hpre, ← hlocq, hloc]) hq
    · have ha := hq pk hpk hpP dc hdc s hs hpre
      rw [hm] at hmq
      have hmm := Option.some.inj hmq
      subst hmm
      exact (setPath_frame_model (m := shippedMdl K Z dc s v) hj hmod hr hm hx hxq hns1 hE.value hlen hpn1 hjq1 (modelTy_wf K Z hpk hdc hs).1
        (hz.law pk hpk hpP dc hdc s hs) (hd1.typed r (List.mem_of_getElem? hr) _ hm) ha ht hgq).2
  · rw [setPath_other_namespace hserved hx hns1 (Or.inl hlen) hpn1 hjq1 (by rw [hj]; simpa using hjj)]
    exact hg1

/-- **C78.** Sessions do not end in documents that cannot be saved: whatever is set by path, saved, loaded, set again and so on,
in any order and any number of times, every setting succeeds and is what is read, every saving and loading succeeds, and what a
path gave before it gives after it. -/
theorem session_saved_partial (P : List Str) (hc : Closed P) (hx : "xmp_tpg".toList ∈ P → "xmp_base".toList ∈ P)
    (h : RegHistory) (hp : Program P h) (K : Str → Codec) (Z : Str → List Val → Bool) (hz : ZeroMethods P K Z) (env : Env) (he : ShippedEnv P h K Z env)
    (order : Node → List Namespace → List Namespace) (ho : ∀ w l, (order w l).Perm l) (d d' : XDoc) (hd : Savable P K Z d)
    (hs : Session P K Z env order d d') :
    (∀ desc, Edit P K Z d' desc → (d'.setPath env desc).2.2 = .ok ∧ (d'.setPath env desc).1.getPath env desc.path = .ok desc.value) ∧
    ∀ ind about toolkit, Blank ind → ∃ q, docTrip env Version.zero order ind ⟨d', about, toolkit⟩ = some q ∧
      ∀ path s, s ≠ [] → d'.getPath env path = .ok s → q.doc.getPath env path = .ok s := by
  have hsav : Savable P K Z d' := by
    induction hs with
    | start => exact hd
    | set _ hE ih => exact (edit_saves hp he hz ih hE).1
    | reload _ hb hq ih => exact (reload_savable hc hx hp hz he ih ho hb hq).1
  refine ⟨fun desc hE => ⟨(edit_saves hp he hz hsav hE).2.1, (edit_saves hp he hz hsav hE).2.2.2⟩, ?_⟩
  intro ind about toolkit hb
  exact (edits_saved_partial P hc hx h hp K Z hz env he d' hsav [] ⟨d', about, toolkit⟩ .nil order ho).1 ind hb

/-- **C78.** A value stays until it is set again: set it by path, and whatever then is done in a session that does not touch the
path, other values set in any models, the document saved and loaded any number of times, the path gives it at the end. -/
theorem session_keeps_partial (P : List Str) (hc : Closed P) (hx : "xmp_tpg".toList ∈ P → "xmp_base".toList ∈ P)
    (h : RegHistory) (hp : Program P h) (K : Str → Codec) (Z : Str → List Val → Bool) (hz : ZeroMethods P K Z) (env : Env) (he : ShippedEnv P h K Z env)
    (order : Node → List Namespace → List Namespace) (ho : ∀ w l, (order w l).Perm l) (d d' d'' : XDoc) (hd : Savable P K Z d)
    (hs : Session P K Z env order d d') (desc : PathValue) (hE : Edit P K Z d' desc)
    (hs' : SessionApart P K Z env order desc.path (d'.setPath env desc).1 d'') : d''.getPath env desc.path = .ok desc.value := by
  have hsav : Savable P K Z d' := by
    clear hs' hE
    induction hs with
    | start => exact hd
    | set _ hE ih => exact (edit_saves hp he hz ih hE).1
    | reload _ hb hq ih => exact (reload_savable hc hx hp hz he ih ho hb hq).1
  obtain ⟨h1, -, -, h2⟩ := edit_saves hp he hz hsav hE
  have : Savable P K Z d'' ∧ d''.getPath env desc.path = .ok desc.value := by
    generalize (d'.setPath env desc).1 = d1 at hs' h1 h2
    generalize hq : desc.path = q at hs' h2 ⊢
    induction hs' with
    | start => exact ⟨h1, h2⟩
    | set _ hE' hq' ih => exact ⟨(edit_saves hp he hz ih.1 hE').1, edit_frame hp he hz ih.1 hE' hq' hE.value ih.2⟩
    | reload _ hb hr ih =>
      obtain ⟨a1, a2⟩ := ih
      obtain ⟨b1, -, b2⟩ := reload_savable hc hx hp hz he a1 ho hb hr
      exact ⟨b1, b2 _ _ hE.value a2⟩
  exact this.2

end

end Xmp.Props
