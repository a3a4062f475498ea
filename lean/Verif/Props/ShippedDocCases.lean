import Verif.Props.ShippedDoc

/-! C72: a document of shipped models, and fields that are lost. -/

namespace Xmp.Props

open GoStr Shipped

/-! ### A program and a document -/

/-- The environment of a program: the factories of the library. -/
def shippedEnv (h : RegHistory) (K : Str → Codec) (Z : Str → List Val → Bool) : Env where
  reg := runReg h
  make := fun f n =>
    match newModel ⟨n, [], some f⟩ with
    | none => none
    | some d => (modelTypes.find? (fun x => decide (x.1 = d.typ))).map (fun x => shippedMdl K Z d x.2 (x.2.modelTy K Z).zero)

/-- Every program has such an environment. -/
theorem shippedEnv_ok (P : List Str) (h : RegHistory) (K : Str → Codec) (Z : Str → List Val → Bool) :
    ShippedEnv P h K Z (shippedEnv h K Z) := by
  refine ⟨rfl, ?_⟩
  intro e _ d hd s hs
  have hn : (modelTypes.map (·.1)).Nodup := by decide +kernel
  unfold Env.newModel shippedEnv
  unfold newModel at hd ⊢
  cases hf : e.1.factory with
  | none => rw [hf] at hd; cases hd
  | some f =>
    rw [hf] at hd
    simp only at hd ⊢
    rw [hd]
    simp only
    cases hx : modelTypes.find? (fun x => decide (x.1 = d.typ)) with
    | none =>
      rw [List.find?_eq_none] at hx
      have := hx _ hs
      simp at this
    | some x =>
      have h1 : x = (d.typ, s) := eq_of_nodup_map hn (List.mem_of_find?_eq_some hx) hs (by simpa using List.find?_some hx)
      rw [h1]
      rfl

/-- Text forms for the sample: decimal numbers. -/
def numberCodec : Codec :=
  ⟨fun n => some (some (natToStr n)), fun _ s => parseUint 64 s, fun n => n == 0, true⟩

/-- A licence and a job. -/
def licenceDoc : XDoc where
  roots :=
    [⟨Node.new ⟨[], "cc".toList⟩, some (shippedMdl (fun _ => numberCodec) (fun _ _ => false)
        ⟨"cc.CC".toList, ⟨"cc".toList, "http://creativecommons.org/ns#".toList, some 0⟩, "cc".toList⟩ t_cc_CC
        (.struct [.opq 7, .opq 0, .opq 0, .str chars!"A. Name"]))⟩,
     ⟨Node.new ⟨[], "xmpBJ".toList⟩, some (shippedMdl (fun _ => numberCodec) (fun _ _ => false)
        ⟨"xmp_bj.JobTicket".toList, ⟨"xmpBJ".toList, "http://ns.adobe.com/xap/1.0/bj/".toList, some 17⟩, "xmpBJ".toList⟩ t_xmp_bj_JobTicket
        (.struct [.slice [.ptr (.struct [.str chars!"1", .str chars!"first", .opq 5])] []]))⟩]
  intNs := [("http://creativecommons.org/ns#".toList, ⟨"cc".toList, "http://creativecommons.org/ns#".toList, some 0⟩)]

theorem licence_not_foreign : ∀ x ∈ foreignFields, x.1 ≠ "cc.CC".toList ∧ x.1 ≠ "xmp_bj.JobTicket".toList := by decide +kernel

/-- A text written by the sample codec. -/
theorem numberCodec_clean (k : Nat) (hk : k < 2 ^ 64) : Clean (.text numberCodec) (.opq k) ∧ LeafFaithful (.text numberCodec) (.opq k) := by
  have h1 : parseUint 64 (natToStr k) = some k := parseUint_natToStr hk
  have h2 : trimSpace (natToStr k) = natToStr k := by rw [← itoa_natCast, trimSpace_itoa]
  refine ⟨?_, ?_⟩
  · rw [Clean]
    exact ⟨k, _, rfl, rfl, by simp [numberCodec, h2, h1]⟩
  · simp only [LeafFaithful]
    exact ⟨_, rfl, by simp [numberCodec, h1]⟩

theorem str_clean (s : Str) (h : Trimmed s) : Clean .str (.str s) ∧ LeafFaithful .str (.str s) := by
  rw [Clean]
  exact ⟨h, h⟩

theorem licenceDoc_ok : ShippedDoc ["cc".toList, "xmp_bj".toList] (fun _ => numberCodec) (fun _ _ => false) licenceDoc where
  roots := by
    intro r hr
    simp only [licenceDoc, List.mem_cons, List.not_mem_nil, or_false] at hr
    rcases hr with rfl | rfl
    · refine ⟨pkg_cc, by simp [packages], by decide, _, by simp [pkg_cc], t_cc_CC, ?_, rfl, _, rfl, ?_, ?_⟩
      · simp [modelTypes]
      · rw [show t_cc_CC.modelTy (fun _ => numberCodec) (fun _ _ => false) = .struct none _ _ from rfl, Clean]
        refine ⟨_, rfl, ?_, by intro z hz; cases hz⟩
        simp only [CleanFields, Sk.tys, List.map]
        refine ⟨_, _, _, _, rfl, rfl, ?_, _, _, _, _, rfl, rfl, rfl, _, _, _, _, rfl, rfl, rfl, _, _, _, _, rfl, rfl, ?_, rfl, rfl⟩
        · exact (numberCodec_clean 7 (by decide)).1
        · exact (str_clean chars!"A. Name" (by decide)).1
      · intro i f t w _ _ _ _ hm
        exact (licence_not_foreign _ hm).1 rfl
    · refine ⟨pkg_xmp_bj, by simp [packages], by decide, _, by simp [pkg_xmp_bj], t_xmp_bj_JobTicket, ?_, rfl, _, rfl, ?_, ?_⟩
      · simp [modelTypes]
      · rw [show t_xmp_bj_JobTicket.modelTy (fun _ => numberCodec) (fun _ _ => false) = .struct none _ _ from rfl, Clean]
        refine ⟨_, rfl, ?_, by intro z hz; cases hz⟩
        simp only [CleanFields, Sk.tys, List.map]
        refine ⟨_, _, _, _, rfl, rfl, ?_, rfl, rfl⟩
        show Clean (.slice .unordered (.ptr (.struct (some (fun _ => false)) _ [.str, .str, .text numberCodec]))) _
        rw [Clean]
        refine ⟨_, rfl, by simp, ?_⟩
        intro x hx
        rw [List.mem_singleton] at hx
        rw [hx, Clean]
        refine ⟨_, rfl, ?_⟩
        rw [Clean]
        refine ⟨_, rfl, ?_, by intro z hz; cases hz; simp⟩
        simp only [CleanFields]
        refine ⟨_, _, _, _, rfl, rfl, ?_, _, _, _, _, rfl, rfl, ?_, _, _, _, _, rfl, rfl, ?_, rfl, rfl⟩
        · exact (str_clean chars!"1" (by decide)).2
        · exact (str_clean chars!"first" (by decide)).2
        · exact (numberCodec_clean 5 (by decide)).2
      · intro i f t w _ _ _ _ hm
        exact (licence_not_foreign _ hm).2 rfl
  distinct := by decide
  int := by
    intro e he
    simp only [licenceDoc, List.mem_singleton] at he
    rw [he]
    decide +kernel
  ext := by intro e he; cases he

/-- The document survives, with indentation, in a program that uses the two packages. -/
example : ∃ q, docTrip (shippedEnv (regsOf ["cc".toList, "xmp_bj".toList]) (fun _ => numberCodec) (fun _ _ => false)) Version.zero
    (fun _ l => l) (some ([], "  ".toList)) { doc := licenceDoc } = some q ∧ q.doc.roots = licenceDoc.roots := by
  obtain ⟨q, h1, h2⟩ := shipped_roundtrip_partial ["cc".toList, "xmp_bj".toList] (by unfold Closed; decide +kernel) (by decide)
    (regsOf ["cc".toList, "xmp_bj".toList]) ⟨fun _ he => he, fun _ he => Or.inl he⟩ (fun _ => numberCodec) (fun _ _ => false) _
    (shippedEnv_ok _ _ _ _) { doc := licenceDoc } licenceDoc_ok (fun _ l => l) (fun _ l => List.Perm.refl l)
    (some ([], "  ".toList)) ⟨by decide, by decide⟩
  refine ⟨q, h1, h2.trans ?_⟩
  have c1 : HasContent licenceDoc.roots[0] := Or.inr (Or.inr ⟨3, _, _, _, rfl, rfl, rfl, by decide +kernel⟩)
  have c2 : HasContent licenceDoc.roots[1] := Or.inr (Or.inr ⟨0, _, _, _, rfl, rfl, rfl, by decide +kernel⟩)
  exact (withContent_cons_pos c1).trans (congrArg _ ((withContent_cons_pos c2).trans rfl))

end Xmp.Props
