import Mathlib.Tactic.Common
import Verif.Model.ModelPath
import Verif.Lemmas.GoStr

/-! Typing of the values that the path functions work on. -/

namespace Xmp

open GoStr SyncFlags

/-- The type behind a pointer type. -/
def Ty.deref : Ty → Ty
  | .ptr t => t
  | t => t

mutual
/-- Well formed types: as many field infos as fields, no pointers to pointers. -/
def Ty.Wf : Ty → Prop
  | .slice _ t => Ty.Wf t
  | .ptr t => Ty.Wf t ∧ t.deref = t
  | .struct _ infos tys => infos.length = tys.length ∧ Ty.WfAll tys
  | _ => True
/-- All types of a list are well formed. -/
def Ty.WfAll : List Ty → Prop
  | [] => True
  | t :: ts => Ty.Wf t ∧ Ty.WfAll ts
end

theorem wf_get {tys : List Ty} (h : Ty.WfAll tys) {i : Nat} {t : Ty} (ht : tys[i]? = some t) : t.Wf := by
  induction tys generalizing i with
  | nil => simp at ht
  | cons a as ih =>
    rw [Ty.WfAll] at h
    cases i with
    | zero => simp only [List.getElem?_cons_zero, Option.some.injEq] at ht; exact ht ▸ h.1
    | succ i => simp only [List.getElem?_cons_succ] at ht; exact ih h.2 ht

theorem wf_deref {t : Ty} (h : t.Wf) : t.deref.Wf := by
  cases t with
  | ptr t => rw [Ty.Wf] at h; exact h.1
  | _ => exact h

theorem deref_deref {t : Ty} (h : t.Wf) : t.deref.deref = t.deref := by
  cases t with
  | ptr t => rw [Ty.Wf] at h; exact h.2
  | _ => rfl

mutual
theorem hasTy_zero (t : Ty) : HasTy t t.zero := by
  cases t with
  | int b =>
    rw [Ty.zero, HasTy]
    have : (0 : Int) < 2 ^ (b - 1) := Int.pow_pos (by decide)
    constructor <;> omega
  | uint b =>
    rw [Ty.zero, HasTy]
    have : (0 : Int) < 2 ^ b := Int.pow_pos (by decide)
    constructor <;> omega
  | bool => simp [Ty.zero, HasTy]
  | str => simp [Ty.zero, HasTy]
  | bytes => simp [Ty.zero, HasTy]
  | text c => simp [Ty.zero, HasTy]
  | alt => simp [Ty.zero, HasTy]
  | slice a t => simp [Ty.zero, HasTy]
  | ptr t => simp [Ty.zero, HasTy]
  | struct z i tys => rw [Ty.zero, HasTy]; exact hasTys_zeros tys
theorem hasTys_zeros (ts : List Ty) : HasTys ts (Ty.zeros ts) := by
  cases ts with
  | nil => simp [Ty.zeros, HasTys]
  | cons t ts => rw [Ty.zeros, HasTys]; exact ⟨hasTy_zero t, hasTys_zeros ts⟩
end

theorem hasTys_length {ts : List Ty} {vs : List Val} (h : HasTys ts vs) : vs.length = ts.length := by
  induction ts generalizing vs with
  | nil => cases vs with
    | nil => rfl
    | cons v vs => simp [HasTys] at h
  | cons t ts ih => cases vs with
    | nil => simp [HasTys] at h
    | cons v vs => rw [HasTys] at h; simp [ih h.2]

theorem hasTys_get {ts : List Ty} {vs : List Val} (h : HasTys ts vs) {i : Nat} {t : Ty} {v : Val}
    (ht : ts[i]? = some t) (hv : vs[i]? = some v) : HasTy t v := by
  induction ts generalizing vs i with
  | nil => simp at ht
  | cons a as ih =>
    cases vs with
    | nil => simp at hv
    | cons b bs =>
      rw [HasTys] at h
      cases i with
      | zero =>
        simp only [List.getElem?_cons_zero, Option.some.injEq] at ht hv
        exact ht ▸ hv ▸ h.1
      | succ i =>
        simp only [List.getElem?_cons_succ] at ht hv
        exact ih h.2 ht hv

theorem hasTys_set {ts : List Ty} {vs : List Val} (h : HasTys ts vs) {i : Nat} {t : Ty} {v : Val}
    (ht : ts[i]? = some t) (hv : HasTy t v) : HasTys ts (vs.set i v) := by
  induction ts generalizing vs i with
  | nil => simp at ht
  | cons a as ih =>
    cases vs with
    | nil => simp [HasTys] at h
    | cons b bs =>
      rw [HasTys] at h
      cases i with
      | zero =>
        simp only [List.getElem?_cons_zero, Option.some.injEq] at ht
        rw [List.set_cons_zero, HasTys]
        exact ⟨ht ▸ hv, h.2⟩
      | succ i =>
        simp only [List.getElem?_cons_succ] at ht
        rw [List.set_cons_succ, HasTys]
        exact ⟨h.1, ih h.2 ht⟩

theorem derefVal_fst {t : Ty} {v : Val} (h : HasTy t v) : (derefVal t v).1 = t.deref := by
  cases t <;> cases v <;> first | rfl | simp [HasTy] at h

theorem hasTy_deref {t : Ty} {v : Val} (h : HasTy t v) : HasTy t.deref (derefVal t v).2 := by
  cases t with
  | ptr t =>
    cases v with
    | nil => exact hasTy_zero t
    | ptr v => rw [HasTy] at h; exact h
    | _ => simp [HasTy] at h
  | _ => simpa [derefVal, Ty.deref] using h

theorem hasTy_rewrap {t : Ty} {v : Val} (h : HasTy t.deref v) : HasTy t (rewrap t v) := by
  cases t with
  | ptr t => rw [rewrap, HasTy]; exact h
  | _ => simpa [rewrap, Ty.deref] using h

theorem derefVal_rewrap (t : Ty) (v : Val) : derefVal t (rewrap t v) = (t.deref, v) := by
  cases t <;> rfl

theorem parseInt_range {bits : Nat} {s : Str} {i : Int} (h : parseInt bits s = some i) :
    -(2 ^ (bits - 1) : Int) ≤ i ∧ i < (2 ^ (bits - 1) : Int) := by
  unfold parseInt at h
  split at h
  · split at h
    · cases h; assumption
    · cases h
  · cases h

theorem parseUint_range {bits : Nat} {s : Str} {n : Nat} (h : parseUint bits s = some n) : n < 2 ^ bits := by
  unfold parseUint at h
  split at h
  · split at h
    · cases h; assumption
    · cases h
  · cases h

theorem hasTy_setValue {t : Ty} {v w : Val} {s : Str} (hv : HasTy t v) (h : setValue t v s = some w) :
    HasTy t w := by
  cases t with
  | int b =>
    simp only [setValue, Option.map_eq_some_iff] at h
    obtain ⟨i, hi, rfl⟩ := h
    rw [HasTy]; exact parseInt_range hi
  | uint b =>
    simp only [setValue, Option.map_eq_some_iff] at h
    obtain ⟨i, hi, rfl⟩ := h
    rw [HasTy]
    have := parseUint_range hi
    constructor
    · exact Int.natCast_nonneg i
    · exact_mod_cast this
  | bool =>
    simp only [setValue, Option.map_eq_some_iff] at h
    obtain ⟨i, hi, rfl⟩ := h
    simp [HasTy]
  | str => simp only [setValue, Option.some.injEq] at h; subst h; simp [HasTy]
  | bytes => simp only [setValue, Option.some.injEq] at h; subst h; simp [HasTy]
  | slice a t => simp only [setValue, Option.some.injEq] at h; subst h; exact hv
  | alt => simp only [setValue, Option.some.injEq] at h; subst h; exact hv
  | text c => simp [setValue] at h
  | ptr t => simp [setValue] at h
  | struct z i ts => simp [setValue] at h

theorem hasTy_parseLeaf {t : Ty} {v w : Val} {s : Str} (hv : HasTy t v) (h : parseLeaf t v s = some w) :
    HasTy t w := by
  cases t with
  | text c =>
    cases v with
    | opq n =>
      simp only [parseLeaf, Option.map_eq_some_iff] at h
      obtain ⟨i, hi, rfl⟩ := h
      simp [HasTy]
    | _ => simp [HasTy] at hv
  | _ => exact hasTy_setValue hv (by simpa only [parseLeaf] using h)

theorem growSlice_typed {ety : Ty} {n : Nat} {l sp : List Val} (hl : ∀ v ∈ l, HasTy ety v)
    (hs : ∀ v ∈ sp, HasTy ety v) :
    (∀ v ∈ (growSlice ety n l sp).1, HasTy ety v) ∧ (∀ v ∈ (growSlice ety n l sp).2, HasTy ety v) := by
  unfold growSlice
  split
  · split
    · constructor
      · intro v hv
        simp only [List.mem_append, List.mem_replicate] at hv
        rcases hv with h | ⟨_, rfl⟩
        · exact hl v h
        · exact hasTy_zero ety
      · intro v hv
        rw [(List.mem_replicate.mp hv).2]
        exact hasTy_zero ety
    · constructor
      · intro v hv
        simp only [List.mem_append] at hv
        rcases hv with h | h
        · exact hl v h
        · exact hs v (List.mem_of_mem_take h)
      · intro v hv; exact hs v (List.mem_of_mem_drop hv)
  · exact ⟨hl, hs⟩

theorem growSlice_length {ety : Ty} {n : Nat} {l sp : List Val} : n < (growSlice ety n l sp).1.length := by
  unfold growSlice
  split
  · split
    · simp; omega
    · simp; omega
  · simp only; omega

theorem growSlice_get {ety : Ty} {n : Nat} {l sp : List Val} {j : Nat} (hj : j < l.length) :
    (growSlice ety n l sp).1[j]? = l[j]? := by
  unfold growSlice
  split
  · split
    · exact List.getElem?_append_left hj
    · exact List.getElem?_append_left hj
  · rfl

theorem mem_set_of {α : Type} {l : List α} {i : Nat} {a x : α} (h : x ∈ l.set i a) : x ∈ l ∨ x = a :=
  List.mem_or_eq_of_mem_set h

theorem setSliceEnd_typed {ety : Ty} {l sp : List Val} {idx : Int} {value : Str} {flags : SyncFlags}
    (hl : ∀ v ∈ l, HasTy ety v) (hs : ∀ v ∈ sp, HasTy ety v) :
    (∀ v ∈ (setSliceEnd ety l sp idx value flags).1.1, HasTy ety v) ∧
    (∀ v ∈ (setSliceEnd ety l sp idx value flags).1.2, HasTy ety v) := by
  have hp : ∀ w, parseElem ety value = some w → HasTy ety w := fun w h => hasTy_parseLeaf (hasTy_zero ety) h
  have happ : ∀ w, HasTy ety w →
      (∀ v ∈ (appendVal ety l sp w).1, HasTy ety v) ∧ (∀ v ∈ (appendVal ety l sp w).2, HasTy ety v) := by
    intro w hw
    have h1 : ∀ v ∈ l ++ [w], HasTy ety v := by
      intro v hv
      simp only [List.mem_append, List.mem_singleton] at hv
      rcases hv with h | rfl
      · exact hl v h
      · exact hw
    cases sp with
    | nil =>
      refine ⟨h1, ?_⟩
      intro v hv
      simp only [appendVal, List.mem_replicate] at hv
      rw [hv.2]; exact hasTy_zero ety
    | cons x sp =>
      exact ⟨h1, fun v hv => hs v (List.mem_cons_of_mem _ hv)⟩
  unfold setSliceEnd
  split
  · cases uniqueCheck ety value l with
    | some r => exact ⟨hl, hs⟩
    | none =>
      cases hpe : parseElem ety value with
      | none => exact ⟨hl, hs⟩
      | some w => exact happ w (hp w hpe)
  · split
    · cases hpe : parseElem ety value with
      | none => exact ⟨hl, hs⟩
      | some w => exact happ w (hp w hpe)
    · split
      · cases hpe : parseElem ety value with
        | none => exact ⟨hl, hs⟩
        | some w =>
          have hg := growSlice_typed (n := idx.toNat) hl hs
          refine ⟨?_, hg.2⟩
          intro v hv
          rcases mem_set_of hv with h | rfl
          · exact hg.1 v h
          · exact hp _ hpe
      · split
        · cases hpe : parseElem ety value with
          | none => exact ⟨hl, hs⟩
          | some w =>
            constructor
            · intro v hv; simp only [List.mem_singleton] at hv; subst hv; exact hp _ hpe
            · intro v hv; simp at hv
        · split
          · split
            · exact ⟨hl, hs⟩
            · split
              · exact ⟨fun v hv => hl v (List.mem_of_mem_drop hv), hs⟩
              · split
                · refine ⟨fun v hv => hl v (List.mem_of_mem_take hv), ?_⟩
                  intro v hv
                  simp only [List.mem_append] at hv
                  rcases hv with h | h
                  · exact hl v (List.mem_of_mem_drop h)
                  · exact hs v h
                · refine ⟨?_, by intro v hv; simp at hv⟩
                  intro v hv
                  simp only [List.mem_append] at hv
                  rcases hv with h | h
                  · exact hl v (List.mem_of_mem_take h)
                  · exact hl v (List.mem_of_mem_drop h)
          · split
            · constructor <;> intro v hv <;> simp at hv
            · exact ⟨hl, hs⟩

theorem setSimple_typed {t : Ty} {v : Val} {value : Str} {flags : SyncFlags} (h : HasTy t v) :
    HasTy t (setSimple t v value flags).1 := by
  unfold setSimple
  split
  · exact h
  · cases hp : parseLeaf t v value with
    | none => exact h
    | some w => exact hasTy_parseLeaf h hp

theorem setField_typed {recur : Ty → Val → Val × SetRes} {t : Ty} {v : Val} {plen : Nat} {idx : Int}
    {lang value : Str} {flags : SyncFlags} (hw : t.Wf) (h : HasTy t v)
    (hr : ∀ t v, t.Wf → HasTy t v → HasTy t (recur t v).1) :
    HasTy t (setField recur t v plen idx lang value flags).1 := by
  cases t with
  | struct z infos tys =>
    cases v with
    | struct vals =>
      unfold setField
      simp only
      split
      · exact hr _ _ hw h
      · exact setSimple_typed h
    | _ => simp [HasTy] at h
  | alt =>
    cases v with
    | alt a => simp [setField, HasTy]
    | _ => simp [HasTy] at h
  | slice a ety =>
    cases v with
    | slice l sp =>
      have hwe : ety.Wf := by rw [Ty.Wf] at hw; exact hw
      have h0 := h
      rw [HasTy] at h
      obtain ⟨hl, hs⟩ := h
      have hg := fun n => growSlice_typed (n := n) hl hs
      have hset : ∀ (l sp : List Val) (i : Nat) (w : Val), (∀ v ∈ l, HasTy ety v) → (∀ v ∈ sp, HasTy ety v) →
          HasTy ety.deref w → HasTy (.slice a ety) (.slice (l.set i (rewrap ety w)) sp) := by
        intro l sp i w hl hs hw
        rw [HasTy]
        refine ⟨?_, hs⟩
        intro v hv
        rcases mem_set_of hv with h | rfl
        · exact hl v h
        · exact hasTy_rewrap hw
      unfold setField
      simp only
      split
      · split
        · split
          · exact h0
          · split
            · exact h0
            · have hz := hasTy_deref (hasTy_zero ety)
              have hz1 := derefVal_fst (hasTy_zero ety)
              apply hset _ _ _ _ (hg _).1 (hg _).2
              rw [hz1]
              have hwd := wf_deref hwe
              generalize ety.deref = d at *
              cases d with
              | struct z infos tys => exact hr _ _ hwd hz
              | _ => exact hz
        · split
          · exact h0
          · rename_i e he
            have hle := hl e (List.mem_of_getElem? he)
            apply hset _ _ _ _ hl hs
            rw [derefVal_fst hle]
            exact hr _ _ (wf_deref hwe) (hasTy_deref hle)
      · rw [HasTy]; exact setSliceEnd_typed hl hs
    | _ => simp [HasTy] at h
  | _ => unfold setField; exact setSimple_typed h

/-- Writing a path keeps a model well typed. -/
theorem setModelPathF_typed (value : Str) (flags : SyncFlags) (f : Nat) : ∀ (ty : Ty) (v : Val) (p : Path),
    ty.Wf → HasTy ty v → HasTy ty (setModelPathF value flags f ty v p).1 := by
  induction f with
  | zero => intro ty v p _ h; exact h
  | succ f ih =>
    intro ty v p hw h
    unfold setModelPathF
    simp only
    split
    · exact h
    · split
      · exact h
      · split
        · rename_i z infos tys vals
          split
          · exact h
          · rename_i i hi
            cases ht : tys[i]? with
            | none => exact h
            | some fty =>
              cases hv : vals[i]? with
              | none => exact h
              | some fv =>
                have hw' := hw
                rw [Ty.Wf] at hw'
                rw [HasTy] at h ⊢
                have hty := hasTys_get h ht hv
                have hwf := wf_get hw'.2 ht
                apply hasTys_set h ht
                apply hasTy_rewrap
                rw [derefVal_fst hty]
                exact setField_typed (wf_deref hwf) (hasTy_deref hty) (fun t v a b => ih t v _ a b)
        · exact h

end Xmp
