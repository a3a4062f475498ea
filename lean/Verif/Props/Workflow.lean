import Verif.Props.Formats
import Verif.Props.SavedCases

/-! C83: documents that are edited by path and passed on as XMP packets and as JSON texts, in any order. -/

namespace Xmp.Props

open GoStr SyncFlags Utf8 XmlBytes Shipped Info JsonText List

/-! ### Specification -/

/-- The document without the hidden elements of backing arrays. -/
def seenPacket (p : Packet) : Packet := { p with doc := visibleDoc p.doc }

/-- The texts of a document can be written in both formats. -/
structure Portables (p : Packet) : Prop where
  xml : XmlTexts (seenPacket p)
  json : JsonTexts (seenPacket p)

/-- What happens to a document: values are set by path, by edits that meet `free`, and the document is saved and loaded as a
packet or as JSON (`Reload`), any number of times and in any order. -/
inductive Work (P : List Str) (K : Str → Codec) (Z : Str → List Val → Bool) (uni : Str → Bool) (env : Env) (free : PathValue → Prop) :
    Packet → Packet → Prop
  | start {p} : Work P K Z uni env free p p
  | set {p p' desc} (hs : Work P K Z uni env free p p') (he : Edit P K Z p'.doc desc) (hf : free desc) :
      Work P K Z uni env free p { p' with doc := (p'.doc.setPath env desc).1 }
  | reload {p p' p''} (hs : Work P K Z uni env free p p') (ht : Portables p') (hr : Reload uni env p' p'') : Work P K Z uni env free p p''

/-! ### Hidden elements do not matter -/

theorem namespacesOf_visible (env : Env) (d : XDoc) : ∀ (ws : List Node) (m : GoMap Str),
    JDoc.namespacesOf env (visibleDoc d) ws m = JDoc.namespacesOf env d ws m
  | [], _ => rfl
  | w :: ws, m => by rw [JDoc.namespacesOf, JDoc.namespacesOf, namespaces_visible, namespacesOf_visible env d ws]

theorem ofDoc_visible (env : Env) (p : Packet) (hs : DocSees p.doc) : JDoc.ofDoc env (seenPacket p) = JDoc.ofDoc env p := by
  unfold JDoc.ofDoc seenPacket
  dsimp only
  rw [show (visibleDoc p.doc).roots = p.doc.roots.map Root.visible from rfl, enc_roots_visible env p.doc _ _ hs]
  cases Enc.roots env p.doc p.doc.roots [] with
  | none => rfl
  | some ws => simp only [namespacesOf_visible]

theorem reload_visible {uni : Str → Bool} {env : Env} {p p' : Packet} (hs : DocSees p.doc) (hr : Reload uni env p p') :
    Reload uni env (seenPacket p) p' := by
  cases hr with
  | xmp ho hi h1 h2 => exact .xmp ho hi (by rw [seenPacket, encode_visible env _ p hs]; exact h1) h2
  | json h1 h2 h3 h4 h5 h6 => exact .json (by rw [ofDoc_visible env p hs]; exact h1) h2 h3 h4 h5 h6

theorem bothWays_visible {uni : Str → Bool} {env : Env} {p : Packet} (hs : DocSees p.doc) (h : BothWays uni env (seenPacket p)) :
    BothWays uni env p where
  xmp := by
    intro order ind pad rest ho hi
    obtain ⟨t, p', h1, h2⟩ := h.xmp order ind pad rest ho hi
    rw [seenPacket, encode_visible env _ p hs] at h1
    exact ⟨t, p', h1, h2⟩
  json := by
    have := h.json
    rw [ofDoc_visible env p hs] at this
    exact this

section
variable {P : List Str} {h : RegHistory} {K : Str → Codec} {Z : Str → List Val → Bool} {env : Env}

/-- One step of saving and loading. -/
theorem work_reload (hc : Closed P) (hx : "xmp_tpg".toList ∈ P → "xmp_base".toList ∈ P) (hp : Program P h) {uni : Str → Bool}
    (hn : ∀ e ∈ h, e ∉ shippedRegs → DeclOK uni e.1 ∧ JsonNs e.1) (hz : ZeroMethods P K Z) (he : ShippedEnv P h K Z env) {p p' : Packet}
    (hd : Savable P K Z p.doc) (ht : Portables p) (hr : Reload uni env p p') :
    Savable P K Z p'.doc ∧ Portables p' ∧ p'.doc.roots ~ withContent (visibleDoc p.doc).roots ∧
      (withContent (visibleDoc p.doc).roots ≠ [] → p'.about = p.about) ∧
      ∀ path s, s ≠ [] → p.doc.getPath env path = .ok s → p'.doc.getPath env path = .ok s := by
  have hsees := savable_sees hz hd
  obtain ⟨k1, k2, k3, k4⟩ := reload_kept hc hx hp hn he (p := seenPacket p) ⟨hd.shipped, ht.xml, ht.json⟩ (reload_visible hsees hr)
  have hmem : ∀ r ∈ p'.doc.roots, ∃ r0 ∈ p.doc.roots, r = Root.visible r0 := by
    intro r hr
    obtain ⟨r0, hr0, rfl⟩ := mem_map.1 (mem_withContent.1 (k2.mem_iff.1 hr)).1
    exact ⟨r0, hr0, rfl⟩
  have hvis : visibleDoc p'.doc = p'.doc := by
    have : p'.doc.roots.map Root.visible = p'.doc.roots := by
      conv_rhs => rw [← map_id p'.doc.roots]
      apply map_congr_left
      intro r hr
      obtain ⟨r0, -, rfl⟩ := hmem r hr
      exact root_visible_idem r0
    unfold visibleDoc
    rw [this]
  have hseen : seenPacket p' = p' := by unfold seenPacket; rw [hvis]
  refine ⟨⟨by rw [hvis]; exact k1.doc, ?_⟩, ⟨by rw [hseen]; exact k1.xml, by rw [hseen]; exact k1.json⟩, k2, k3, ?_⟩
  · intro r hr m hm
    obtain ⟨r0, hr0, rfl⟩ := hmem r hr
    cases hm0 : r0.model with
    | none => simp [Root.visible, hm0] at hm
    | some m0 =>
      simp only [Root.visible, hm0, Option.map_some, Option.some.injEq] at hm
      subst hm
      exact hasTy_visible _ _ (hd.typed r0 hr0 m0 hm0)
  · intro path s hs hg
    rw [← getPath_visible env p.doc hsees] at hg
    exact k4 path s hs hg

theorem work_savable (hc : Closed P) (hx : "xmp_tpg".toList ∈ P → "xmp_base".toList ∈ P) (hp : Program P h) {uni : Str → Bool}
    (hn : ∀ e ∈ h, e ∉ shippedRegs → DeclOK uni e.1 ∧ JsonNs e.1) (hz : ZeroMethods P K Z) (he : ShippedEnv P h K Z env) {free : PathValue → Prop}
    {p q : Packet} (hd : Savable P K Z p.doc) (hw : Work P K Z uni env free p q) : Savable P K Z q.doc := by
  induction hw with
  | start => exact hd
  | set _ hE _ ih => exact (edit_saves hp he hz ih hE).1
  | reload _ ht hr ih => exact (work_reload hc hx hp hn hz he ih ht hr).1

end

/-- **C83.** In every program that uses packages of the library: a document is edited by path, saved as a packet or as JSON in any
form, loaded, edited again and so on, in any order and as often as one likes.  Every edit succeeds and is what its path gives;
as long as the texts can be written in both formats, no saving or loading fails; and loading gives exactly the top-level nodes with
content, the same description of the resource, the same values for all paths, and texts that can be written in both formats. -/
theorem work_saved_partial (P : List Str) (hc : Closed P) (hx : "xmp_tpg".toList ∈ P → "xmp_base".toList ∈ P) (h : RegHistory) (hp : Program P h)
    (uni : Str → Bool) (hn : ∀ e ∈ h, e ∉ shippedRegs → DeclOK uni e.1 ∧ JsonNs e.1) (K : Str → Codec) (Z : Str → List Val → Bool)
    (hz : ZeroMethods P K Z) (env : Env) (he : ShippedEnv P h K Z env) (p q : Packet) (hd : Savable P K Z p.doc)
    (hw : Work P K Z uni env (fun _ => True) p q) :
    (∀ desc, Edit P K Z q.doc desc → (q.doc.setPath env desc).2.2 = .ok ∧ (q.doc.setPath env desc).1.getPath env desc.path = .ok desc.value) ∧
    (Portables q → BothWays uni env q ∧ ∀ q', Reload uni env q q' → Portables q' ∧ q'.doc.roots ~ withContent (visibleDoc q.doc).roots ∧
      (withContent (visibleDoc q.doc).roots ≠ [] → q'.about = q.about) ∧
      ∀ path s, s ≠ [] → q.doc.getPath env path = .ok s → q'.doc.getPath env path = .ok s) := by
  have hsav := work_savable hc hx hp hn hz he hd hw
  refine ⟨fun desc hE => ⟨(edit_saves hp he hz hsav hE).2.1, (edit_saves hp he hz hsav hE).2.2.2⟩, fun ht => ⟨?_, fun q' hr => ?_⟩⟩
  · exact bothWays_visible (savable_sees hz hsav)
      (formats_mixed_partial P hc hx h hp uni hn K Z env he (seenPacket q) hsav.shipped ht.xml ht.json _ .start).1
  · exact (work_reload hc hx hp hn hz he hsav ht hr).2

/-- **C83.** A value that was set stays until it is set again, whatever else is set and however often and in whatever format the
document is saved and loaded. -/
theorem work_keeps_partial (P : List Str) (hc : Closed P) (hx : "xmp_tpg".toList ∈ P → "xmp_base".toList ∈ P) (h : RegHistory) (hp : Program P h)
    (uni : Str → Bool) (hn : ∀ e ∈ h, e ∉ shippedRegs → DeclOK uni e.1 ∧ JsonNs e.1) (K : Str → Codec) (Z : Str → List Val → Bool)
    (hz : ZeroMethods P K Z) (env : Env) (he : ShippedEnv P h K Z env) (p p' q : Packet) (hd : Savable P K Z p.doc)
    (hw : Work P K Z uni env (fun _ => True) p p') (desc : PathValue) (hE : Edit P K Z p'.doc desc)
    (hw' : Work P K Z uni env (fun e => Parted P K Z e desc.path) { p' with doc := (p'.doc.setPath env desc).1 } q) :
    q.doc.getPath env desc.path = .ok desc.value := by
  have hsav := work_savable hc hx hp hn hz he hd hw
  obtain ⟨h1, -, -, h2⟩ := edit_saves hp he hz hsav hE
  have : Savable P K Z q.doc ∧ q.doc.getPath env desc.path = .ok desc.value := by
    generalize hp1 : ({ p' with doc := (p'.doc.setPath env desc).1 } : Packet) = p1 at hw'
    have e1 : p1.doc = (p'.doc.setPath env desc).1 := by rw [← hp1]
    rw [← e1] at h1 h2
    clear e1 hp1
    induction hw' with
    | start => exact ⟨h1, h2⟩
    | set _ hE' hq' ih =>
      obtain ⟨a1, a2⟩ := ih
      exact ⟨(edit_saves hp he hz a1 hE').1, edit_frame hp he hz a1 hE' hq' hE.value a2⟩
    | reload _ ht hr ih =>
      obtain ⟨a1, a2⟩ := ih
      obtain ⟨b1, -, -, -, b2⟩ := work_reload hc hx hp hn hz he a1 ht hr
      exact ⟨b1, b2 _ _ hE.value a2⟩
  exact this.2

/-! ### A sample -/

/-- The document after the name of a licence was set in an empty one. -/
theorem made1_eq : made1.roots = [⟨Node.new ⟨[], "cc".toList⟩, some (shippedMdl (fun _ => numberCodec) (fun _ _ => false)
    ⟨"cc.CC".toList, ⟨"cc".toList, "http://creativecommons.org/ns#".toList, some 0⟩, "cc".toList⟩ t_cc_CC
    (.struct [.opq 0, .opq 0, .opq 0, .str chars!"A. Name"]))⟩] := rfl

theorem seen1_eq : (seenPacket { doc := made1 }).doc.roots = made1.roots := rfl

theorem made1_portable : Portables { doc := made1 } where
  xml := by
    refine ⟨by decide, by decide, ?_⟩
    have ho : XmlVal (.text numberCodec) (.opq 0) := by
      rw [XmlVal]
      refine ⟨(by intro s hs; rcases hs with hs | hs <;> cases hs), ?_⟩
      intro k' s hk hs
      cases hk
      simp only [numberCodec, Option.some.injEq] at hs
      rw [← hs, ← itoa_natCast]
      exact xmlText_itoa _
    intro r hr m hm
    rw [seen1_eq, made1_eq, mem_singleton] at hr
    subst hr
    cases hm
    show XmlVal (t_cc_CC.modelTy (fun _ => numberCodec) (fun _ _ => false)) _
    rw [cc_type, XmlVal]
    refine ⟨(by intro s hs; rcases hs with hs | hs <;> cases hs), ?_⟩
    intro vals hv
    cases hv
    simp only [XmlFields]
    refine ⟨fun _ => ho, fun _ => ho, fun _ => ho, fun _ => ?_, trivial⟩
    rw [XmlVal]
    intro s' h'
    rcases h' with h' | h' <;> cases h'
    decide
  json := by
    have hne : ∀ k, natToStr k ≠ [] := fun k => by rw [← itoa_natCast]; exact itoa_ne_nil _
    refine ⟨nil8, nil8, ?_, ?_, ?_⟩
    · have ho : Utf8Val (.text numberCodec) (.opq 0) := by
        rw [Utf8Val]
        refine ⟨(by intro s hs; rcases hs with hs | hs <;> cases hs), ?_⟩
        intro k' s hk hs
        cases hk
        simp only [numberCodec, Option.some.injEq] at hs
        rw [← hs, ← itoa_natCast]
        exact utf8_itoa _
      intro r hr m hm
      rw [seen1_eq, made1_eq, mem_singleton] at hr
      subst hr
      cases hm
      show Utf8Val (t_cc_CC.modelTy (fun _ => numberCodec) (fun _ _ => false)) _
      rw [cc_type, Utf8Val]
      refine ⟨(by intro s hs; rcases hs with hs | hs <;> cases hs), ?_⟩
      intro vals hv
      cases hv
      simp only [Utf8Vals]
      refine ⟨fun _ => ho, fun _ => ho, fun _ => ho, fun _ => ?_, trivial⟩
      rw [Utf8Val]
      intro s' h'
      rcases h' with h' | h' <;> cases h'
      exact ascii_utf8 (by decide)
    · have ho : JsonVal (.text numberCodec) (.opq 0) := by
        rw [JsonVal]
        intro k' e o ho
        cases e
        simp only [numberCodec, Option.some.injEq] at ho
        subst ho
        exact parseUint_natToStr (show 0 < 2 ^ 64 by decide)
      intro r hr
      rw [seen1_eq, made1_eq, mem_singleton] at hr
      subst hr
      show JsonVals [.text numberCodec, .text numberCodec, .text numberCodec, .str] ccInfos [.opq 0, .opq 0, .opq 0, .str chars!"A. Name"]
      simp only [JsonVals, and_true]
      exact ⟨fun _ _ => ho, fun _ _ => ho, fun _ _ => ho, fun _ _ => by simp [JsonVal]⟩
    · intro r hr i f t v hf ht hv hw
      rw [seen1_eq, made1_eq, mem_singleton] at hr
      subst hr
      match i with
      | 0 => cases hf; cases ht; cases hv; cases hw
      | 1 => cases hf; cases ht; cases hv; cases hw
      | 2 => cases hf; cases ht; cases hv; cases hw
      | 3 =>
        cases hf; cases ht; cases hv
        rw [if_neg (by decide)]
        exact ⟨_, rfl, by decide⟩
      | i + 4 => cases hf

/-- A job can be added to every document that has no list of jobs. -/
theorem edit_job (d : XDoc) (hd : ∀ r ∈ d.roots, r.node.xmlName.loc ≠ chars!"xmpBJ") :
    Edit ["cc".toList, "xmp_bj".toList] (fun _ => numberCodec) (fun _ _ => false) d setJob where
  flagsR := by decide
  flagsC := by decide
  value := by decide
  target := by
    obtain ⟨h1, h2, h3, h4, h5⟩ := str_set "first".toList (by decide) (by decide)
    refine ⟨pkg_xmp_bj, by simp [packages], by decide, _, by simp only [pkg_xmp_bj]; exact List.mem_singleton.2 rfl, t_xmp_bj_JobTicket, by simp [modelTypes], by decide,
      _, Or.inr ⟨hd, rfl, ?_⟩, ?_, ?_, .str, false, _, ?_, h1, h2, h3, h4, fun _ => h5⟩
    · refine ⟨pkg_xmp_bj, by simp [packages], by decide, _, by simp only [pkg_xmp_bj]; exact List.mem_singleton.2 rfl, t_xmp_bj_JobTicket, by simp [modelTypes], rfl, _, rfl, ?_, ?_⟩
      · rw [job_type, Clean]
        refine ⟨_, rfl, ?_, by intro z hz; cases hz⟩
        simp only [CleanFields]
        exact ⟨_, _, _, _, rfl, rfl, rfl, rfl, rfl⟩
      · intro i f t w _ _ _ _ hm
        exact (licence_not_foreign _ hm).2 rfl
    · exact ⟨[], rfl⟩
    · intro infos tys z _ i fi fty idx lang _ hm
      exact (licence_not_foreign _ hm).2 rfl
    · rw [job_type]
      exact Sets.fresh (i := 0) (fi := elF chars!"xmpBJ:JobRef") (fv := .slice [] []) (l := []) (sp := []) (idx := 0) (lang := [])
        ⟨by decide, by decide, ⟨"JobRef".toList, by decide, by decide⟩, rfl, rfl⟩ rfl rfl rfl rfl rfl rfl rfl job_zeros (by decide)
        (Sets.leaf (i := 1) (fi := atF chars!"stJob:name") (fty := .str) (fv := .str []) (idx := -1) (lang := [])
          ⟨by decide, by decide, ⟨"name".toList, by decide, by decide⟩, rfl, rfl⟩ rfl rfl (by decide) trivial)

/-- The name of a licence is set in an empty document; the document is saved as indented JSON and loaded; it is saved as a packet and
loaded; a job is added.  The name is still there. -/
example : ∃ q1 q2, Reload (fun _ => false) madeEnv { doc := made1 } q1 ∧ Reload (fun _ => false) madeEnv q1 q2 ∧
    (q2.doc.setPath madeEnv setJob).2.2 = .ok ∧ (q2.doc.setPath madeEnv setJob).1.getPath madeEnv setName.path = .ok setName.value := by
  have hc : Closed ["cc".toList, "xmp_bj".toList] := by unfold Closed; decide +kernel
  have hprog : Program ["cc".toList, "xmp_bj".toList] (regsOf ["cc".toList, "xmp_bj".toList]) := ⟨fun _ he => he, fun _ he => Or.inl he⟩
  have main := fun q => work_saved_partial ["cc".toList, "xmp_bj".toList] hc (by decide)
    (regsOf ["cc".toList, "xmp_bj".toList]) hprog (fun _ => false) (fun e he hs => absurd (regsOf_sub _ e he) hs)
    (fun _ => numberCodec) (fun _ _ => false) made_zero madeEnv (shippedEnv_ok _ _ _ _) {} q savable_empty
  have s1 : Work ["cc".toList, "xmp_bj".toList] (fun _ => numberCodec) (fun _ _ => false) (fun _ => false) madeEnv (fun _ => True) {} { doc := made1 } :=
    .set .start edit1 trivial
  obtain ⟨b1, l1⟩ := (main _ s1).2 made1_portable
  obtain ⟨jd, k3, k4, k5⟩ := b1.json
  have hf := (k4 jd (jdocSame_refl jd)).2 [] "  ".toList blanks_nil indent_unit
  obtain ⟨jd2, k6, k7⟩ := k5 jd _ some (jdocSame_refl jd) hf
  obtain ⟨q1, k8⟩ := k7 jd2 (jdocSame_refl jd2)
  have r1 := Reload.json (uni := fun _ => false) k3 (jdocSame_refl jd) hf k6 (jdocSame_refl jd2) k8
  obtain ⟨t1, p1, -⟩ := l1 q1 r1
  have s2 := Work.reload s1 made1_portable r1
  obtain ⟨b2, l2⟩ := (main _ s2).2 t1
  have tabs : IndentOK (some ([], "\t".toList)) := ⟨by decide, by decide⟩
  obtain ⟨t, q2, k9, k10⟩ := b2.xmp (fun _ l => l) (some ([], "\t".toList)) [] "\n".toList (fun _ l => Perm.refl l) tabs
  have r2 := Reload.xmp (fun _ l => Perm.refl l) tabs k9 k10
  obtain ⟨-, p2, -⟩ := l2 q2 r2
  have s3 := Work.reload s2 t1 r2
  have hno : ∀ r ∈ q2.doc.roots, r.node.xmlName.loc ≠ chars!"xmpBJ" := by
    intro r hr
    obtain ⟨r', hr', rfl⟩ := mem_map.1 (mem_withContent.1 (p2.mem_iff.1 hr)).1
    obtain ⟨r0, hr0, rfl⟩ := mem_map.1 (mem_withContent.1 (p1.mem_iff.1 hr')).1
    rw [show ({ doc := made1 } : Packet).doc.roots = made1.roots from rfl, made1_eq, mem_singleton] at hr0
    subst hr0
    show "cc".toList ≠ _
    decide
  refine ⟨q1, q2, r1, r2, ((main _ s3).1 _ (edit_job _ hno)).1, ?_⟩
  exact work_keeps_partial ["cc".toList, "xmp_bj".toList] hc (by decide)
    (regsOf ["cc".toList, "xmp_bj".toList]) hprog (fun _ => false) (fun e he hs => absurd (regsOf_sub _ e he) hs)
    (fun _ => numberCodec) (fun _ _ => false) made_zero madeEnv (shippedEnv_ok _ _ _ _) {} {} { q2 with doc := (q2.doc.setPath madeEnv setJob).1 } savable_empty
    .start setName edit1 (.set (.reload (.reload (p' := { doc := made1 }) .start made1_portable r1) t1 r2) (edit_job _ hno) (Or.inl (by decide)))

end Xmp.Props
