import Verif.Props.Merge

/-! C42: merging into a document that does not have the model yet, as `XmpMM.AddPantry` does (models/xmp_mm/model.go:117-123). -/

namespace Xmp.Props

open GoStr SyncFlags

/-! ### Specification -/

/-- No top-level node of the document serves the prefix. -/
def Absent (d : XDoc) (pre : Str) : Prop := ∀ r ∈ d.roots, XDoc.rootMatches pre r = false

/-- The document in which `AddPantry` collects the values, models/xmp_mm/model.go:119-120: the result of `Merge` is ignored, so that
it may be incomplete. -/
def pantryDoc (env : Env) (l : PathValueList) (int ext : GoMap Namespace) : XDoc × Registry :=
  let r := ({} : XDoc).merge env l int ext SyncFlags.MERGE
  (r.1, r.2.1)

/-! ### Lemmas -/

theorem absent_find {d : XDoc} {pre : Str} (h : Absent d pre) : d.roots.findIdx? (XDoc.rootMatches pre) = none := by
  rw [List.findIdx?_eq_none_iff]; exact h

theorem absent_model {d : XDoc} {pre : Str} (h : Absent d pre) : d.roots.findIdx? (XDoc.modelMatches pre) = none := by
  rw [List.findIdx?_eq_none_iff]
  intro r hr
  have := h r hr
  unfold XDoc.rootMatches at this
  simp only [Bool.or_eq_false_iff] at this
  exact this.2

/-- A value of a model that is missing creates the model. -/
theorem absent_adds {env : Env} {d : XDoc} {desc : PathValue} {ns ns0 : Namespace} {rest : List Namespace} {m : Mdl}
    (hreg : ∀ pre ns, env.reg.getNamespace pre = some ns → ns.name = pre)
    (hk : (env.reg.getNamespace desc.path.namespacePrefix).isSome = true)
    (hns : d.pathNs env desc.path = some ns) (habs : Absent d desc.path.namespacePrefix) (hm : env.newModel ns = some m)
    (hnss : m.nss = ns0 :: rest) (habs0 : Absent d ns0.name) (hc : m.can desc.path.namespacePrefix = true)
    (hty : HasTy m.ty m.val) (hw : m.ty.Wf) (hz : ZeroLaw m.ty) (hq : Straight m.ty desc.path)
    (hcur : getModelPath m.ty m.val desc.path = .ok [])
    (hval : desc.value ≠ []) (htr : Trimmed desc.value) (hf : desc.flags ≠ 0) (hC : desc.flags.has CREATE = true)
    (hD : desc.flags.has DELETE = false) :
    Present (d.setPath env desc).2.1 (d.setPath env desc).1 desc.path d.roots.length ⟨[], expandName ns0.name []⟩ m
      (fun v => getModelPath m.ty v desc.path = .ok desc.value) ∧ (d.setPath env desc).2.2 = .ok := by
  have heff : eff desc.flags = desc.flags := by unfold eff; rw [if_neg hf]
  have hx := addr_isXmpPath (straight_addr hq)
  have hname := pathNs_name hreg hns
  have hfm : d.findModel ns = none := by unfold XDoc.findModel; rw [hname]; exact absent_model habs
  have hfn : d.findNode ns = none := by unfold XDoc.findNode; rw [hname]; exact absent_find habs
  have hfn0 : d.findNode ns0 = none := absent_find habs0
  obtain ⟨d1, hprep, hroots⟩ : ∃ d1, d.prepare env ns = (some d.roots.length, some d.roots.length, d1) ∧
      d1.roots = d.roots ++ [⟨Node.new ⟨[], expandName ns0.name []⟩, some m⟩] := by
    unfold XDoc.prepare
    simp only [hfm, hm, XDoc.addModel, hnss, hfn0]
    exact ⟨_, rfl, rfl⟩
  have h1 : d1.roots[d.roots.length]? = some ⟨Node.new ⟨[], expandName ns0.name []⟩, some m⟩ := by rw [hroots]; simp
  have hfound : d1.roots.findIdx? (XDoc.rootMatches desc.path.namespacePrefix) = some d.roots.length := by
    rw [findIdx_some_iff]
    refine ⟨⟨_, h1, ?_⟩, ?_⟩
    · unfold XDoc.rootMatches; simp [hc]
    · intro k a hk' ha
      rw [hroots, List.getElem?_append_left hk'] at ha
      exact habs a (List.mem_of_getElem? ha)
  have hok := model_adds_missing hq hz hty hcur desc.value desc.flags
  have hparse : ∀ u, HasTy .str u → parseLeaf .str u desc.value = some (.str desc.value) := by
    intro u _
    simp [parseLeaf, setValue, trimSpace_of_trimmed htr]
  have hafter := model_read_after_write (straight_addr hq) hw hz hty hparse (s := desc.value) rfl
    (by
      intro _
      cases hv : desc.value with
      | nil => exact absurd hv hval
      | cons c cs => rfl) hval (flags := desc.flags)
    (v' := (setModelPath m.ty m.val desc.path desc.value desc.flags).1) (Prod.ext rfl hok)
  have hupd : d1.update env (some d.roots.length) (some d.roots.length) desc.path desc.value desc.flags =
      ({ d1.setVal d.roots.length (setModelPath m.ty m.val desc.path desc.value desc.flags).1 with dirty := true }, .ok) := by
    have hcc : d1.current (some d.roots.length) (some d.roots.length) desc.path = some (.ok []) := by
      unfold XDoc.current
      simp only [Option.bind_some, h1, hcur]
    unfold XDoc.update
    simp only [hcc]
    rw [if_neg (fun h' => hval h'.symm), if_neg (by rintro ⟨_, h'⟩; rw [has_or_left (has_or_left hC)] at h'; cases h'),
      if_neg (by rintro ⟨h', _⟩; exact h' rfl)]
    unfold XDoc.write
    simp only [h1, Option.bind_some, hok]
  have hset : d.setPath env desc =
      ({ d1.setVal d.roots.length (setModelPath m.ty m.val desc.path desc.value desc.flags).1 with dirty := true }, env.reg, .ok) := by
    have hr : d.resolveNs env desc = some (ns, env.reg) := by unfold XDoc.resolveNs; rw [hns]
    unfold XDoc.setPath
    simp only [show (if desc.flags = 0 then DEFAULT else desc.flags) = eff desc.flags from rfl, heff, hx, Bool.not_true,
      Bool.false_eq_true, if_false, hr, hC, hD, and_false, reduceCtorEq, hprep, hupd, hval, false_and]
  have hu := update_untouched env d1 (some d.roots.length) (some d.roots.length) desc.path desc.value desc.flags
  rw [hupd] at hu
  rw [hset]
  refine ⟨⟨hreg, hk, ?_, Node.new ⟨[], expandName ns0.name []⟩, _, ?_, rfl, ?_, hafter⟩, rfl⟩
  · rw [← (sameRoles_find hu.roles desc.path.namespacePrefix).1]; exact hfound
  · unfold XDoc.setVal
    simp only [List.getElem?_modify, h1, if_true, Option.map_eq_map, Option.map_some]
  · unfold setModelPath
    simp only
    generalize (if desc.flags = 0 then DEFAULT else desc.flags) = fl
    split
    · exact hty
    · exact setModelPathF_typed _ _ _ _ _ _ hw hty

theorem setPaths_after {flags : SyncFlags} {l2 : PathValueList} {d1 : XDoc} {reg : Registry} (l1 : PathValueList) : ∀ (env : Env) (d : XDoc),
    XDoc.setPaths env flags d l1 = (d1, reg, .ok) →
      XDoc.setPaths env flags d (l1 ++ l2) = XDoc.setPaths { env with reg := reg } flags d1 l2 := by
  induction l1 with
  | nil =>
    intro env d h
    rw [XDoc.setPaths] at h
    simp only [Prod.mk.injEq, and_true] at h
    obtain ⟨rfl, rfl⟩ := h
    rfl
  | cons x xs ih =>
    intro env d h
    rw [XDoc.setPaths] at h
    rw [List.cons_append, XDoc.setPaths]
    generalize d.setPath env { x with flags := flags } = r at h ⊢
    obtain ⟨d2, reg2, res⟩ := r
    cases res with
    | ok => exact ih _ _ h
    | notFound => cases h
    | err => cases h
    | panic => cases h

/-! ### Theorems -/

/-- **C42.** A string of a model that the destination does not have when its turn comes is added together with the model, and stays
through the rest of the merge, also when the merge fails later on. -/
theorem merge_creates_partial {env : Env} {d D : XDoc} {reg : Registry} {x : PathValue} {ns ns0 : Namespace} {rest : List Namespace} {m : Mdl}
    {flags : SyncFlags} {bInt bExt : GoMap Namespace} (l1 l2 : PathValueList)
    (hD1 : d.merge env l1 bInt bExt flags = (D, reg, .ok))
    (hreg : ∀ pre ns, reg.getNamespace pre = some ns → ns.name = pre)
    (hk : (reg.getNamespace x.path.namespacePrefix).isSome = true)
    (hns : D.pathNs { env with reg := reg } x.path = some ns)
    (habs : Absent D x.path.namespacePrefix) (hm : env.newModel ns = some m)
    (hnss : m.nss = ns0 :: rest) (habs0 : Absent D ns0.name) (hc : m.can x.path.namespacePrefix = true)
    (hr : NoRival env x.path.namespacePrefix ⟨[], expandName ns0.name []⟩ m)
    (hty : HasTy m.ty m.val) (hw : m.ty.Wf) (hz : ZeroLaw m.ty) (hq : Straight m.ty x.path)
    (hcur : getModelPath m.ty m.val x.path = .ok [])
    (hval : x.value ≠ []) (htr : Trimmed x.value) (hf : flags ≠ 0) (hC : flags.has CREATE = true)
    (hR : flags.has REPLACE = false) (hD : flags.has DELETE = false) :
    (d.merge env (l1 ++ x :: l2) bInt bExt flags).1.getPath
      { env with reg := (d.merge env (l1 ++ x :: l2) bInt bExt flags).2.1 } x.path = .ok x.value := by
  have heff : eff flags = flags := by unfold eff; rw [if_neg hf]
  have hx := addr_isXmpPath (straight_addr hq)
  have key : Present (d.merge env (l1 ++ x :: l2) bInt bExt flags).2.1 (d.merge env (l1 ++ x :: l2) bInt bExt flags).1 x.path
      D.roots.length ⟨[], expandName ns0.name []⟩ m (fun v => getModelPath m.ty v x.path = .ok x.value) := by
    unfold XDoc.merge at hD1 ⊢
    simp only at hD1 ⊢
    generalize XDoc.mk d.roots d.dirty (bInt.foldl (fun m e => m.set e.1 e.2) d.intNs)
      (bExt.foldl (fun m e => m.set e.1 e.2) d.extNs) = d0 at hD1 ⊢
    have hs : ∃ d1, XDoc.setPaths env flags d0 l1 = (d1, reg, .ok) ∧ D = { d1 with dirty := true } := by
      generalize XDoc.setPaths env flags d0 l1 = r at hD1 ⊢
      obtain ⟨d1, reg1, res⟩ := r
      cases res <;> simp only [Prod.mk.injEq, reduceCtorEq, and_false, and_true] at hD1
      obtain ⟨rfl, rfl⟩ := hD1
      exact ⟨d1, rfl, rfl⟩
    obtain ⟨d1, hs1, rfl⟩ := hs
    rw [setPaths_after l1 env d0 hs1, XDoc.setPaths]
    obtain ⟨hp, hok⟩ := absent_adds (env := { env with reg := reg }) (d := d1)
      (desc := { x with flags := flags }) hreg hk hns habs hm hnss habs0 hc hty hw hz hq hcur hval htr hf hC hD
    generalize XDoc.setPath { env with reg := reg } d1 { x with flags := flags } = r at hp hok ⊢
    obtain ⟨d2, reg2, res⟩ := r
    simp only at hp hok
    subst hok
    have h1 := present_setPaths (flags := flags) (P := fun v => getModelPath m.ty v x.path = .ok x.value) hw (by rw [heff]; exact hD) l2
      (by
        intro y _ v hv hyv hg
        rw [heff]
        exact model_keeps_simple (straight_simple hq) hw hz hv hyv hval hf hR hg y.path) { env with reg := reg2 } d2 hp hr
    simp only
    generalize XDoc.setPaths { env with reg := reg2 } flags d2 l2 = r at h1 ⊢
    obtain ⟨d3, reg3, res3⟩ := r
    cases res3 with
    | ok => exact present_dirty h1 true
    | notFound => exact h1
    | err => exact h1
    | panic => exact h1
  obtain ⟨v, h3, _, h4⟩ := present_read
    (env := { env with reg := (d.merge env (l1 ++ x :: l2) bInt bExt flags).2.1 }) key hx
  exact h4 x.value h3

/-- A value of another namespace comes first; the string creates its model; anything may follow. -/
example (l : PathValueList) :
    (({} : XDoc).merge envM ([pv "y:b" "2"] ++ pv "x:ref/st:id" "c" :: l) [] [] ADD).1.getPath
      { envM with reg := (({} : XDoc).merge envM ([pv "y:b" "2"] ++ pv "x:ref/st:id" "c" :: l) [] [] ADD).2.1 } "x:ref/st:id".toList =
        .ok "c".toList :=
  merge_creates_partial (D := (({} : XDoc).merge envM [pv "y:b" "2"] [] [] ADD).1) (reg := envM.reg) (x := pv "x:ref/st:id" "c") (ns := nsX)
    (ns0 := nsX) (rest := []) (m := mdlX (sample0 refZero)) [pv "y:b" "2"] l (by rfl) envM_names (by rfl) (by rfl)
    (by intro r h; rw [List.mem_singleton.1 (show r ∈ [_] from h)]; rfl) (by rfl) rfl
    (by intro r h; rw [List.mem_singleton.1 (show r ∈ [_] from h)]; rfl) rfl (envM_noRival _ _) (hasTy_zero _) (sampleTy_wf _)
    sampleTy_zeroLaw sample_straight.2 rfl (by decide) (by decide) (by decide) (by decide) (by decide) (by decide)

theorem merge_setPaths (env : Env) (d : XDoc) (bInt bExt : GoMap Namespace) (flags : SyncFlags) : ∃ d0 : XDoc, ∀ l,
    d.merge env l bInt bExt flags = (match XDoc.setPaths env flags d0 l with
      | (d2, reg, .ok) => ({ d2 with dirty := true }, reg, .ok)
      | r => r) := ⟨_, fun _ => rfl⟩

theorem merge_ok {env : Env} {d d0 : XDoc} {bInt bExt : GoMap Namespace} {flags : SyncFlags} {l : PathValueList} {D : XDoc} {reg : Registry}
    (h0 : d.merge env l bInt bExt flags = (match XDoc.setPaths env flags d0 l with
      | (d2, reg, .ok) => ({ d2 with dirty := true }, reg, .ok)
      | r => r)) (h : d.merge env l bInt bExt flags = (D, reg, .ok)) :
    ∃ d1, XDoc.setPaths env flags d0 l = (d1, reg, .ok) ∧ D = { d1 with dirty := true } := by
  rw [h0] at h
  generalize XDoc.setPaths env flags d0 l = r at h ⊢
  obtain ⟨d1, reg1, res⟩ := r
  cases res <;> simp only [Prod.mk.injEq, reduceCtorEq, and_false, and_true] at h
  obtain ⟨rfl, rfl⟩ := h
  exact ⟨d1, rfl, rfl⟩

/-- **C42.** Once the model is there, be it from the start or created on the way, every string of it that is listed later is there
after a successful merge; it is the listed one, if it was missing when its turn came. -/
theorem merge_adds_later_partial {env : Env} {d D D' : XDoc} {reg reg' : Registry} {x : PathValue} {j : Nat} {xn : QName} {m0 : Mdl}
    {flags : SyncFlags} {bInt bExt : GoMap Namespace} {l1 l2 : PathValueList}
    (hD1 : d.merge env l1 bInt bExt flags = (D, reg, .ok)) (hp : Present reg D x.path j xn m0 (fun _ => True))
    (hr : NoRival env x.path.namespacePrefix xn m0) (hc : m0.can x.path.namespacePrefix = true) (hw : m0.ty.Wf)
    (hz : ZeroLaw m0.ty) (hq : Straight m0.ty x.path) (hval : x.value ≠ []) (htr : Trimmed x.value) (hf : flags ≠ 0)
    (hC : flags.has CREATE = true) (hR : flags.has REPLACE = false) (hD : flags.has DELETE = false)
    (hok : d.merge env (l1 ++ x :: l2) bInt bExt flags = (D', reg', .ok)) :
    ∃ s, s ≠ [] ∧ D'.getPath { env with reg := reg' } x.path = .ok s ∧ (D.getPath { env with reg := reg } x.path = .ok [] → s = x.value) := by
  have heff : eff flags = flags := by unfold eff; rw [if_neg hf]
  have hD' : (eff flags).has DELETE = false := by rw [heff]; exact hD
  have hx := addr_isXmpPath (straight_addr hq)
  obtain ⟨d0, h0⟩ := merge_setPaths env d bInt bExt flags
  obtain ⟨d1, hs1, rfl⟩ := merge_ok (h0 _) hD1
  obtain ⟨d3, hs3, rfl⟩ := merge_ok (h0 _) hok
  rw [setPaths_after l1 env d0 hs1, XDoc.setPaths] at hs3
  have hp1 : Present reg d1 x.path j xn m0 (fun _ => True) := present_dirty hp d1.dirty
  have hp2 := present_adds (env := { env with reg := reg }) (desc := { x with flags := flags }) hp1 hr hc hw hz hq hval htr hf hC hR hD
  generalize d1.setPath { env with reg := reg } { x with flags := flags } = r2 at hp2 hs3
  obtain ⟨d2, reg2, res2⟩ := r2
  cases res2 with
  | notFound => simp at hs3
  | err => simp at hs3
  | panic => simp at hs3
  | ok =>
    simp only at hp2 hs3
    have hp3 := present_setPaths (flags := flags) hw hD' l2
      (by
        rintro y _ v hv hyv ⟨s, h1, h2, h3⟩
        refine ⟨s, h1, ?_, h3⟩
        rw [heff]
        exact model_keeps_simple (straight_simple hq) hw hz hv hyv h1 hf hR h2 y.path)
      { env with reg := reg2 } d2 hp2 hr
    rw [hs3] at hp3
    obtain ⟨v, ⟨s, h1, h2, h3⟩, _, h4⟩ := present_read (env := { env with reg := reg' }) (present_dirty hp3 true) hx
    exact ⟨s, h1, h4 s h2, h3⟩

/-- Two strings come into a new document; the first one creates the model. -/
example : ∃ s, s ≠ [] ∧ (({} : XDoc).merge envM ([pv "x:name" "b"] ++ pv "x:ref/st:id" "c" :: []) [] [] ADD).1.getPath envM
      "x:ref/st:id".toList = .ok s ∧ s = "c".toList := by
  obtain ⟨s, h1, h2, h3⟩ := merge_adds_later_partial (env := envM) (x := pv "x:ref/st:id" "c") (l1 := [pv "x:name" "b"]) (l2 := [])
    (bInt := []) (bExt := []) (flags := ADD) (d := {}) (reg := envM.reg) (reg' := envM.reg) (j := 0) (xn := ⟨[], "x".toList⟩)
    (m0 := mdlX (sample0 refZero)) (D := (({} : XDoc).merge envM [pv "x:name" "b"] [] [] ADD).1)
    (D' := (({} : XDoc).merge envM ([pv "x:name" "b"] ++ pv "x:ref/st:id" "c" :: []) [] [] ADD).1)
    (by rfl) ⟨envM_names, by rfl, by rfl, Node.new ⟨[], "x".toList⟩, (put refZero (sample0 refZero) "x:name" "b").1, by rfl, rfl,
      setModelPathF_typed _ _ _ _ _ _ (sampleTy_wf _) (hasTy_zero _), trivial⟩
    (envM_noRival _ _)
    rfl (sampleTy_wf _) sampleTy_zeroLaw sample_straight.2 (by decide) (by decide) (by decide) (by decide)
    (by decide) (by decide) (by rfl)
  exact ⟨s, h1, h2, h3 rfl⟩

/-- **C42, finding.** `AddPantry` ignores that its merge fails: after a path that can not be read from a model, the values that
follow are silently missing from the pantry. -/
theorem pantry_incomplete :
    (pantryDoc envM [pv "x:ref/st:id" "c", pv "x:ref" "a", pv "x:name" "b"] [] []).1.getPath envM "x:ref/st:id".toList = .ok "c".toList ∧
    (pantryDoc envM [pv "x:ref/st:id" "c", pv "x:ref" "a", pv "x:name" "b"] [] []).1.getPath envM "x:name".toList = .ok [] :=
  ⟨rfl, rfl⟩

end Xmp.Props
