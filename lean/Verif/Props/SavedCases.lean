import Verif.Props.Session
import Verif.Props.ShippedDocCases

/-! C78: a document made by path. -/

namespace Xmp.Props

open GoStr SyncFlags Utf8 XmlBytes Shipped

/-- Set the name in a licence. -/
def setName : PathValue := { path := "cc:attributionName".toList, value := "A. Name".toList }

/-- Set the name of the first job of a list. -/
def setJob : PathValue := { path := "xmpBJ:JobRef[0]/stJob:name".toList, value := "first".toList }

/-- Set the number of the same job. -/
def setJobId : PathValue := { path := "xmpBJ:JobRef[0]/id".toList, value := "12".toList }

/-- The environment of the sample. -/
def madeEnv : Env := shippedEnv (regsOf ["cc".toList, "xmp_bj".toList]) (fun _ => numberCodec) (fun _ _ => false)

/-- The document after each call. -/
def made1 : XDoc := (XDoc.setPath madeEnv {} setName).1
/-- The same. -/
def made2 : XDoc := (XDoc.setPath madeEnv made1 setJob).1

theorem made_packages : ∀ pk ∈ packages, pk.name ∈ ["cc".toList, "xmp_bj".toList] → pk = pkg_cc ∨ pk = pkg_xmp_bj := by
  have hn : (packages.map (·.name)).Nodup := by decide +kernel
  intro pk hp hm
  rcases List.mem_cons.1 hm with h | h
  · exact Or.inl (eq_of_nodup_map hn hp (by simp [packages]) h)
  · exact Or.inr (eq_of_nodup_map hn hp (by simp [packages]) (List.mem_singleton.1 h))

/-- The fields of a licence. -/
abbrev ccInfos : List FieldInfo := [elF chars!"cc:license", elF chars!"cc:morePermissions", elF chars!"cc:attributionURL", elF chars!"cc:attributionName"]

/-- The fields of a job. -/
abbrev jobInfos : List FieldInfo := [atF chars!"stJob:id", atF chars!"stJob:name", atF chars!"stJob:url"]

/-- The type of a job. -/
abbrev jobTy : Ty := .struct (some (fun _ => false)) jobInfos [.str, .str, .text numberCodec]

theorem cc_type : t_cc_CC.modelTy (fun _ => numberCodec) (fun _ _ => false) =
    .struct none ccInfos [.text numberCodec, .text numberCodec, .text numberCodec, .str] := rfl

theorem job_type : t_xmp_bj_JobTicket.modelTy (fun _ => numberCodec) (fun _ _ => false) =
    .struct none [elF chars!"xmpBJ:JobRef"] [.slice .unordered (.ptr jobTy)] := rfl

theorem made_zero : ZeroMethods ["cc".toList, "xmp_bj".toList] (fun _ => numberCodec) (fun _ _ => false) := by
  have hn : (modelTypes.map (·.1)).Nodup := by decide +kernel
  have key : ∀ pk ∈ packages, pk.name ∈ ["cc".toList, "xmp_bj".toList] → ∀ dc ∈ pk.models, ∀ s, (dc.typ, s) ∈ modelTypes →
      s = t_cc_CC ∨ s = t_xmp_bj_JobTicket := by
    intro pk hp hm dc hd s hs
    rcases made_packages pk hp hm with rfl | rfl
    · simp only [pkg_cc, List.mem_singleton] at hd
      subst hd
      have := eq_of_nodup_map hn hs (b := ("cc.CC".toList, t_cc_CC)) (by simp [modelTypes]) rfl
      exact Or.inl (congrArg Prod.snd this)
    · simp only [pkg_xmp_bj, List.mem_singleton] at hd
      subst hd
      have := eq_of_nodup_map hn hs (b := ("xmp_bj.JobTicket".toList, t_xmp_bj_JobTicket)) (by simp [modelTypes]) rfl
      exact Or.inr (congrArg Prod.snd this)
  refine ⟨?_, ?_⟩
  · intro pk hp hm dc hd s hs
    rcases key pk hp hm dc hd s hs with rfl | rfl
    · rw [cc_type]; simp [ZeroLaw, ZeroLawAll]
    · rw [job_type]; simp [ZeroLaw, ZeroLawAll]
  · intro pk hp hm dc hd s hs
    rcases key pk hp hm dc hd s hs with rfl | rfl
    · rw [cc_type]; simp [SeesVisible, SeesVisibleAll]
    · rw [job_type]; simp [SeesVisible, SeesVisibleAll]

/-- A string can be set to a text without surrounding blanks. -/
theorem str_set (s : Str) (hs : s ≠ []) (ht : Trimmed s) : (∀ u, HasTy .str u → parseLeaf .str u s = some (.str s)) ∧
    leafText .str (.str s) = some (some s) ∧ Clean .str (.str s) ∧ LeafFaithful .str (.str s) ∧ isEmptyValue .str (.str s) = false := by
  refine ⟨fun u _ => by show some (Val.str (trimSpace s)) = _; rw [trimSpace_of_trimmed ht], rfl, (str_clean s ht).1, (str_clean s ht).2, ?_⟩
  cases s with
  | nil => exact absurd rfl hs
  | cons c s => rfl

theorem edit1 : Edit ["cc".toList, "xmp_bj".toList] (fun _ => numberCodec) (fun _ _ => false) {} setName where
  flagsR := by decide
  flagsC := by decide
  value := by decide
  target := by
    obtain ⟨h1, h2, h3, h4, h5⟩ := str_set "A. Name".toList (by decide) (by decide)
    refine ⟨pkg_cc, by simp [packages], by decide, _, by simp only [pkg_cc]; exact List.mem_singleton.2 rfl, t_cc_CC, by simp [modelTypes], by decide,
      _, Or.inr ⟨by intro r hr; simp at hr, rfl, ?_⟩, ?_, ?_, .str, false, _, ?_, h1, h2, h3, h4, fun _ => h5⟩
    · refine ⟨pkg_cc, by simp [packages], by decide, _, by simp only [pkg_cc]; exact List.mem_singleton.2 rfl, t_cc_CC, by simp [modelTypes], rfl, _, rfl, ?_, ?_⟩
      · rw [cc_type, Clean]
        refine ⟨_, rfl, ?_, by intro z hz; cases hz⟩
        simp only [CleanFields]
        exact ⟨_, _, _, _, rfl, rfl, rfl, _, _, _, _, rfl, rfl, rfl, _, _, _, _, rfl, rfl, rfl, _, _, _, _, rfl, rfl, rfl, rfl, rfl⟩
      · intro i f t w _ _ _ _ hm
        exact (licence_not_foreign _ hm).1 rfl
    · exact ⟨[], rfl⟩
    · intro infos tys z _ i fi fty idx lang _ hm
      exact (licence_not_foreign _ hm).1 rfl
    · rw [cc_type]
      exact Sets.leaf (i := 3) (fi := elF chars!"cc:attributionName") (fty := .str) (fv := .str []) (idx := -1) (lang := [])
        ⟨by decide, by decide, ⟨"attributionName".toList, by decide, by decide⟩, rfl, rfl⟩ rfl rfl (by decide) trivial

/-- The fields of a new job can be read back. -/
theorem job_zeros : CleanFields [.str, .str, .text numberCodec] jobInfos (Ty.zeros [.str, .str, .text numberCodec]) := by
  simp only [CleanFields, Ty.zeros]
  exact ⟨_, _, _, _, rfl, rfl, rfl, _, _, _, _, rfl, rfl, rfl, _, _, _, _, rfl, rfl, rfl, rfl, rfl⟩

theorem edit2 : Edit ["cc".toList, "xmp_bj".toList] (fun _ => numberCodec) (fun _ _ => false) made1 setJob where
  flagsR := by decide
  flagsC := by decide
  value := by decide
  target := by
    obtain ⟨h1, h2, h3, h4, h5⟩ := str_set "first".toList (by decide) (by decide)
    refine ⟨pkg_xmp_bj, by simp [packages], by decide, _, by simp only [pkg_xmp_bj]; exact List.mem_singleton.2 rfl, t_xmp_bj_JobTicket, by simp [modelTypes], by decide,
      _, Or.inr ⟨by decide +kernel, rfl, ?_⟩, ?_, ?_, .str, false, _, ?_, h1, h2, h3, h4, fun _ => h5⟩
    · refine ⟨pkg_xmp_bj, by simp [packages], by decide, _, by simp only [pkg_xmp_bj]; exact List.mem_singleton.2 rfl, t_xmp_bj_JobTicket, by simp [modelTypes], rfl, _, rfl, ?_, ?_⟩
      · rw [job_type, Clean]
        refine ⟨_, rfl, ?_, by intro z hz; cases hz⟩
        simp only [CleanFields]
        exact ⟨_, _, _, _, rfl, rfl, rfl, rfl, rfl⟩
      · intro i f t w _ _ _ _ hm
        exact (licence_not_foreign _ hm).2 rfl
    · exact ⟨[], rfl⟩
    · intro infos tys z _ i fi fty idx lang _ hm
      exact (licence_not_foreign _ hm).2 rfl
    · rw [job_type]
      exact Sets.fresh (i := 0) (fi := elF chars!"xmpBJ:JobRef") (fv := .slice [] []) (l := []) (sp := []) (idx := 0) (lang := [])
        ⟨by decide, by decide, ⟨"JobRef".toList, by decide, by decide⟩, rfl, rfl⟩ rfl rfl rfl rfl rfl rfl rfl job_zeros (by decide)
        (Sets.leaf (i := 1) (fi := atF chars!"stJob:name") (fty := .str) (fv := .str []) (idx := -1) (lang := [])
          ⟨by decide, by decide, ⟨"name".toList, by decide, by decide⟩, rfl, rfl⟩ rfl rfl (by decide) trivial)

/-- The two values are in the document that is read. -/
example : ∃ q, docTrip madeEnv Version.zero (fun _ l => l) (some ([], "  ".toList)) { doc := made2 } = some q ∧
    q.doc.getPath madeEnv "cc:attributionName".toList = .ok "A. Name".toList ∧
    q.doc.getPath madeEnv "xmpBJ:JobRef[0]/stJob:name".toList = .ok "first".toList := by
  obtain ⟨q, h1, h2⟩ := (edits_saved_partial ["cc".toList, "xmp_bj".toList] (by unfold Closed; decide +kernel) (by decide)
    (regsOf ["cc".toList, "xmp_bj".toList]) ⟨fun _ he => he, fun _ he => Or.inl he⟩ (fun _ => numberCodec) (fun _ _ => false) made_zero madeEnv
    (shippedEnv_ok _ _ _ _) {} savable_empty [setName, setJob] { doc := made2 } (.cons edit1 (.cons edit2 .nil))
    (fun _ l => l) (fun _ l => List.Perm.refl l)).1 (some ([], "  ".toList)) ⟨by decide, by decide⟩
  exact ⟨q, h1, h2 _ _ (by decide) (by decide +kernel), h2 _ _ (by decide) (by decide +kernel)⟩

/-- A document of this kind that was made in another way. -/
theorem licence_savable : Savable ["cc".toList, "xmp_bj".toList] (fun _ => numberCodec) (fun _ _ => false) licenceDoc where
  shipped := licenceDoc_ok
  typed := by
    intro r hr m hm
    simp only [licenceDoc, List.mem_cons, List.not_mem_nil, or_false] at hr
    rcases hr with rfl | rfl
    · cases hm
      show HasTy (t_cc_CC.modelTy (fun _ => numberCodec) (fun _ _ => false)) _
      rw [cc_type]
      simp [shippedMdl, HasTy, HasTys]
    · cases hm
      show HasTy (t_xmp_bj_JobTicket.modelTy (fun _ => numberCodec) (fun _ _ => false)) _
      rw [job_type]
      simp [shippedMdl, HasTy, HasTys]

/-- Its only job gets another number. -/
theorem edit3 : Edit ["cc".toList, "xmp_bj".toList] (fun _ => numberCodec) (fun _ _ => false) licenceDoc setJobId where
  flagsR := by decide
  flagsC := by decide
  value := by decide
  target := by
    obtain ⟨h1, h2, h3, h4, h5⟩ := str_set "12".toList (by decide) (by decide)
    refine ⟨pkg_xmp_bj, by simp [packages], by decide, _, by simp only [pkg_xmp_bj]; exact List.mem_singleton.2 rfl, t_xmp_bj_JobTicket, by simp [modelTypes], by decide,
      .struct [.slice [.ptr (.struct [.str chars!"1", .str chars!"first", .opq 5])] []],
      Or.inl ⟨_, List.mem_cons_of_mem _ (List.mem_cons_self ..), rfl, rfl⟩, ?_, ?_, .str, false, _, ?_, h1, h2, h3, h4, fun _ => h5⟩
    · rw [job_type]; exact ⟨"1".toList, by decide +kernel⟩
    · intro infos tys z _ i fi fty idx lang _ hm
      exact (licence_not_foreign _ hm).2 rfl
    · rw [job_type]
      exact Sets.item (i := 0) (fi := elF chars!"xmpBJ:JobRef") (fv := .slice [.ptr (.struct [.str chars!"1", .str chars!"first", .opq 5])] []) (idx := 0) (lang := [])
        ⟨by decide, by decide, ⟨"JobRef".toList, by decide, by decide⟩, rfl, rfl⟩ rfl rfl rfl rfl rfl rfl rfl rfl (by decide)
        (Sets.leaf (i := 0) (fi := atF chars!"stJob:id") (fty := .str) (fv := .str chars!"1") (idx := -1) (lang := [])
          ⟨by decide, by decide, ⟨"id".toList, by decide, by decide⟩, rfl, rfl⟩ rfl rfl (by decide) trivial)

/-- It is in the document that is read, and so is the name of the job, which was not touched. -/
example : ∃ q, docTrip madeEnv Version.zero (fun _ l => l) none { doc := (licenceDoc.setPath madeEnv setJobId).1 } = some q ∧
    q.doc.getPath madeEnv "xmpBJ:JobRef[0]/id".toList = .ok "12".toList ∧
    q.doc.getPath madeEnv "xmpBJ:JobRef[0]/name".toList = .ok "first".toList := by
  obtain ⟨q, h1, h2⟩ := (edits_saved_partial ["cc".toList, "xmp_bj".toList] (by unfold Closed; decide +kernel) (by decide)
    (regsOf ["cc".toList, "xmp_bj".toList]) ⟨fun _ he => he, fun _ he => Or.inl he⟩ (fun _ => numberCodec) (fun _ _ => false) made_zero madeEnv
    (shippedEnv_ok _ _ _ _) licenceDoc licence_savable [setJobId] { doc := (licenceDoc.setPath madeEnv setJobId).1 } (.cons edit3 .nil)
    (fun _ l => l) (fun _ l => List.Perm.refl l)).1 none trivial
  exact ⟨q, h1, h2 _ _ (by decide) (edit_saves (h := regsOf ["cc".toList, "xmp_bj".toList]) ⟨fun _ he => he, fun _ he => Or.inl he⟩ (shippedEnv_ok _ _ _ _) made_zero licence_savable edit3).2.2.2,
    h2 _ _ (by decide) (by decide +kernel)⟩

/-- A session: the name is set in an empty document, the job is added, and the document is saved and loaded; it can be saved
again, with the same name. -/
example : ∃ q q', docTrip madeEnv Version.zero (fun _ l => l) (some ([], "  ".toList)) { doc := made2 } = some q ∧
    docTrip madeEnv Version.zero (fun _ l => l) none { doc := q.doc } = some q' ∧
    q'.doc.getPath madeEnv "cc:attributionName".toList = .ok "A. Name".toList := by
  have main := session_saved_partial ["cc".toList, "xmp_bj".toList] (by unfold Closed; decide +kernel) (by decide)
    (regsOf ["cc".toList, "xmp_bj".toList]) ⟨fun _ he => he, fun _ he => Or.inl he⟩ (fun _ => numberCodec) (fun _ _ => false) made_zero madeEnv
    (shippedEnv_ok _ _ _ _) (fun _ l => l) (fun _ l => List.Perm.refl l) {}
  have s1 : Session ["cc".toList, "xmp_bj".toList] (fun _ => numberCodec) (fun _ _ => false) madeEnv (fun _ l => l) {} made2 := .set (.set .start edit1) edit2
  obtain ⟨q, h1, h2⟩ := (main made2 savable_empty s1).2 (some ([], "  ".toList)) [] [] ⟨by decide, by decide⟩
  obtain ⟨q', h3, h4⟩ := (main q.doc savable_empty (.reload (p := { doc := made2 }) (ind := some ([], "  ".toList)) s1 ⟨by decide, by decide⟩ h1)).2 none [] [] trivial
  exact ⟨q, q', h1, h3, h4 _ _ (by decide) (h2 _ _ (by decide) (by decide +kernel))⟩

/-- The name is set, the job is added and the document is saved and loaded: the name is still the one that was set. -/
example : ∃ q, docTrip madeEnv Version.zero (fun _ l => l) none { doc := made2 } = some q ∧
    q.doc.getPath madeEnv setName.path = .ok setName.value := by
  obtain ⟨q, h1, -⟩ := (session_saved_partial ["cc".toList, "xmp_bj".toList] (by unfold Closed; decide +kernel) (by decide)
    (regsOf ["cc".toList, "xmp_bj".toList]) ⟨fun _ he => he, fun _ he => Or.inl he⟩ (fun _ => numberCodec) (fun _ _ => false) made_zero madeEnv
    (shippedEnv_ok _ _ _ _) (fun _ l => l) (fun _ l => List.Perm.refl l) {} made2 savable_empty (.set (.set .start edit1) edit2)).2 none [] [] trivial
  refine ⟨q, h1, session_keeps_partial ["cc".toList, "xmp_bj".toList] (by unfold Closed; decide +kernel) (by decide)
    (regsOf ["cc".toList, "xmp_bj".toList]) ⟨fun _ he => he, fun _ he => Or.inl he⟩ (fun _ => numberCodec) (fun _ _ => false) made_zero madeEnv
    (shippedEnv_ok _ _ _ _) (fun _ l => l) (fun _ l => List.Perm.refl l) {} {} q.doc savable_empty .start setName edit1 ?_⟩
  exact .reload (p := { doc := made2 }) (ind := none) (.set (d' := made1) .start edit2 (Or.inl (by decide))) trivial h1

/-- Setting the number of a job does not touch its name. -/
theorem name_parted : Parted ["cc".toList, "xmp_bj".toList] (fun _ => numberCodec) (fun _ _ => false) setJobId "xmpBJ:JobRef[0]/name".toList := by
  have hn : (modelTypes.map (·.1)).Nodup := by decide +kernel
  refine Or.inr ?_
  intro pk hp hm dc hd s hs hpre
  rcases made_packages pk hp hm with rfl | rfl
  · simp only [pkg_cc, List.mem_singleton] at hd
    subst hd
    exact absurd hpre (by decide)
  · simp only [pkg_xmp_bj, List.mem_singleton] at hd
    subst hd
    have := eq_of_nodup_map hn hs (b := ("xmp_bj.JobTicket".toList, t_xmp_bj_JobTicket)) (by simp [modelTypes]) rfl
    have hs' : s = t_xmp_bj_JobTicket := congrArg Prod.snd this
    subst hs'
    rw [job_type]
    refine .item (i := 0) (fi := elF chars!"xmpBJ:JobRef") (idx := 0) (lang := []) (idx' := 0) (lang' := [])
      ⟨by decide, by decide, ⟨"JobRef".toList, by decide, by decide⟩, rfl, rfl⟩
      ⟨by decide, by decide, ⟨"JobRef".toList, by decide, by decide⟩, rfl, rfl⟩ rfl rfl rfl (by decide) (by decide) ?_
    exact .field (i := 0) (fi := atF chars!"stJob:id") (idx := -1) (lang := []) (j := 1) (fj := atF chars!"stJob:name") (idx' := -1) (lang' := [])
      ⟨by decide, by decide, ⟨"id".toList, by decide, by decide⟩, rfl, rfl⟩
      ⟨by decide, by decide, ⟨"name".toList, by decide, by decide⟩, rfl, rfl⟩ (by decide) rfl

example : (licenceDoc.setPath madeEnv setJobId).1.getPath madeEnv "xmpBJ:JobRef[0]/name".toList = .ok "first".toList :=
  edit_frame (h := regsOf ["cc".toList, "xmp_bj".toList]) ⟨fun _ he => he, fun _ he => Or.inl he⟩ (shippedEnv_ok _ _ _ _) made_zero licence_savable edit3
    name_parted (by decide) (by decide +kernel)

/-- Set a property of the first job that jobs do not have. -/
def setUnknown : PathValue := { path := "xmpBJ:JobRef[0]/note".toList, value := "x".toList }

/-- **C78, finding.** Setting a property that the struct in an array does not have succeeds, and it can be read back from the
document, but the file that is saved cannot be read: it has the array twice, as the model writes it and as an `rdf:Seq` with
the unknown property, which structs refuse (C76). -/
theorem unknown_item_unreadable : (XDoc.setPath madeEnv {} setUnknown).2.2 = .ok ∧
    (XDoc.setPath madeEnv {} setUnknown).1.getPath madeEnv setUnknown.path = .ok setUnknown.value ∧
    (Enc.encode madeEnv (fun _ l => l) { doc := (XDoc.setPath madeEnv {} setUnknown).1 }).isSome = true ∧
    docTrip madeEnv Version.zero (fun _ l => l) none { doc := (XDoc.setPath madeEnv {} setUnknown).1 } = none :=
  ⟨by decide +kernel, by decide +kernel, by decide +kernel, Option.isNone_iff_eq_none.1 (by decide +kernel)⟩

end Xmp.Props
