import Verif.Props.Visible
import Verif.Props.ShippedSpec

/-! C78: values set by path can be read back after saving. -/

namespace Xmp.Props

open GoStr SyncFlags

/-! ### Specification -/

/-- `Sets ty v p t k`: in the struct `v` of type `ty`, the path `p` leads through struct fields and array elements that exist,
or are next to be appended, to a leaf of type `t`; with `k = false` the leaf is a field, with `k = true` an array element.  No
field on the way has the `omit` option, fields that are arrays or structs are no attributes, and new structs can be written
(`CleanFields` of the zero values). -/
inductive Sets : Ty → Val → Path → Ty → Bool → Prop
  | leaf {z infos tys vals p i fi fty fv idx lang} (hn : Names infos tys p i fi fty idx lang) (hv : vals[i]? = some fv)
      (ho : fi.omitted = false) (hp : p.popFront.2.len = 0) (hl : IsLeaf fty.deref) : Sets (.struct z infos tys) (.struct vals) p fty.deref false
  | elem {z infos tys vals p i fi fty fv a ety l sp idx lang} (hn : Names infos tys p i fi fty idx lang) (hv : vals[i]? = some fv)
      (ho : fi.omitted = false) (ha : fi.attr = false) (ht : fty.deref = .slice a ety) (hd : (derefVal fty fv).2 = .slice l sp)
      (hi : 0 ≤ idx) (hg : idx.toNat ≤ l.length) (hp : p.popFront.2.len = 0) (hl : IsLeaf ety) :
      Sets (.struct z infos tys) (.struct vals) p ety true
  | field {z infos tys vals p i fi fty fv z' infos' tys' dvals t k idx lang} (hn : Names infos tys p i fi fty idx lang)
      (hv : vals[i]? = some fv) (ho : fi.omitted = false) (ha : fi.attr = false) (ht : fty.deref = .struct z' infos' tys')
      (hd : (derefVal fty fv).2 = .struct dvals) (hz : CleanFields tys' infos' (Ty.zeros tys')) (hp : 0 < p.popFront.2.len)
      (hr : Sets (.struct z' infos' tys') (.struct dvals) p.popFront.2 t k) : Sets (.struct z infos tys) (.struct vals) p t k
  | item {z infos tys vals p i fi fty fv a ety l sp e z' infos' tys' evals t k idx lang} (hn : Names infos tys p i fi fty idx lang)
      (hv : vals[i]? = some fv) (ho : fi.omitted = false) (ha : fi.attr = false) (ht : fty.deref = .slice a ety)
      (he : ety.deref = .struct z' infos' tys') (hd : (derefVal fty fv).2 = .slice l sp) (hg : l[idx.toNat]? = some e)
      (hde : (derefVal ety e).2 = .struct evals) (hp : 0 < p.popFront.2.len)
      (hr : Sets (.struct z' infos' tys') (.struct evals) p.popFront.2 t k) : Sets (.struct z infos tys) (.struct vals) p t k
  | fresh {z infos tys vals p i fi fty fv a ety l sp z' infos' tys' t k idx lang} (hn : Names infos tys p i fi fty idx lang)
      (hv : vals[i]? = some fv) (ho : fi.omitted = false) (ha : fi.attr = false) (ht : fty.deref = .slice a ety)
      (he : ety.deref = .struct z' infos' tys') (hd : (derefVal fty fv).2 = .slice l sp) (hg : idx.toNat = l.length)
      (hz : CleanFields tys' infos' (Ty.zeros tys')) (hp : 0 < p.popFront.2.len)
      (hr : Sets (.struct z' infos' tys') (.struct (Ty.zeros tys')) p.popFront.2 t k) : Sets (.struct z infos tys) (.struct vals) p t k

/-- A field that can be read back. -/
def CleanAt (f : FieldInfo) (t : Ty) (v : Val) : Prop :=
  if fieldWritten f t v then (if f.attr then AttrFaithful t v else Clean t v) else v = t.zero

/-! ### Fields -/

theorem sets_addr {ty : Ty} {v : Val} {p : Path} {t : Ty} {k : Bool} (h : Sets ty v p t k) : Addr ty p t k := by
  induction h with
  | leaf hn _ ho _ hl => exact .leaf hn ho hl
  | elem hn _ ho _ ht _ hi _ hp hl => exact .elem hn ho ht hi hp hl
  | field hn _ ho _ ht _ _ hp _ ih => exact .field hn ho ht hp ih
  | item hn _ ho _ ht he _ _ _ hp _ ih => exact .item hn ho ht he hp ih
  | fresh hn _ ho _ ht he _ _ _ hp _ ih => exact .item hn ho ht he hp ih

theorem cleanFields_get : ∀ {ts : List Ty} {fs : List FieldInfo} {vs : List Val}, CleanFields ts fs vs → ∀ {i : Nat} {t f v},
    ts[i]? = some t → fs[i]? = some f → vs[i]? = some v → CleanAt f t v
  | [], _, _, _, i, t, f, v, h, _, _ => by simp at h
  | t :: ts, fs, vs, hc, i, t', f', v', h1, h2, h3 => by
    rw [CleanFields] at hc
    obtain ⟨f, fs, v, vs, rfl, rfl, hc, hr⟩ := hc
    cases i with
    | zero =>
      simp only [List.getElem?_cons_zero, Option.some.injEq] at h1 h2 h3
      subst h1 h2 h3
      exact hc
    | succ i =>
      simp only [List.getElem?_cons_succ] at h1 h2 h3
      exact cleanFields_get hr h1 h2 h3

theorem cleanFields_set : ∀ {ts : List Ty} {fs : List FieldInfo} {vs : List Val}, CleanFields ts fs vs → ∀ {i : Nat} {t f w},
    ts[i]? = some t → fs[i]? = some f → CleanAt f t w → CleanFields ts fs (vs.set i w)
  | [], _, _, _, i, t, f, v, h, _, _ => by simp at h
  | t :: ts, fs, vs, hc, i, t', f', w, h1, h2, h3 => by
    rw [CleanFields] at hc
    obtain ⟨f, fs, v, vs, rfl, rfl, hc, hr⟩ := hc
    rw [CleanFields]
    cases i with
    | zero =>
      simp only [List.getElem?_cons_zero, Option.some.injEq] at h1 h2
      subst h1 h2
      exact ⟨f, fs, w, vs, rfl, rfl, h3, hr⟩
    | succ i =>
      simp only [List.getElem?_cons_succ] at h1 h2
      exact ⟨f, fs, v, vs.set i w, rfl, rfl, hc, cleanFields_set hr h1 h2 h3⟩

theorem clean_not_nil (t : Ty) (h : Clean t .nil) : False := by
  cases t <;> simp [Clean, LeafFaithful] at h

theorem clean_rewrap {t : Ty} {x : Val} (h : Clean t.deref x) : Clean t (rewrap t x) := by
  cases t with
  | ptr t => rw [rewrap, Clean]; exact ⟨x, rfl, h⟩
  | _ => exact h

/-- A new value that can be read back and does not count as empty. -/
theorem cleanAt_new {f : FieldInfo} {t : Ty} {x : Val} (ha : f.attr = false) (ho : f.omitted = false) (hc : Clean t.deref x)
    (he : isEmptyValue t.deref x = false) : CleanAt f t (rewrap t x) := by
  unfold CleanAt
  have hw : fieldWritten f t (rewrap t x) = true := by
    unfold fieldWritten
    have hn : (rewrap t x).isNil = false := by
      cases hr : rewrap t x <;> first | rfl | skip
      have := clean_rewrap hc
      rw [hr] at this
      exact (clean_not_nil t this).elim
    rw [ho, zero_between, hn, isEmpty_rewrap he]
    simp
  rw [if_pos hw, ha]
  exact clean_rewrap hc

/-- What stands behind a field that can be read back: the zero value or a value that can be read back. -/
theorem cleanAt_deref {f : FieldInfo} {t : Ty} {v : Val} (ha : f.attr = false) (h : CleanAt f t v) (hw : t.Wf) :
    (derefVal t v).2 = t.deref.zero ∨ Clean t.deref (derefVal t v).2 := by
  unfold CleanAt at h
  split at h
  · right
    rw [ha] at h
    cases t with
    | ptr t =>
      simp only [Bool.false_eq_true, if_false, Clean] at h
      obtain ⟨x, rfl, hx⟩ := h
      exact hx
    | _ => exact h
  · left
    subst h
    cases t <;> rfl

theorem clean_struct {z : Option (List Val → Bool)} {infos : List FieldInfo} {tys : List Ty} {vals : List Val}
    (hs : SeesVisible (.struct z infos tys)) (hc : CleanFields tys infos (visibles vals))
    (he : isEmptyValue (.struct z infos tys) (.struct vals) = false) : Clean (.struct z infos tys) (visible (.struct vals)) := by
  rw [visible, Clean]
  refine ⟨_, rfl, hc, ?_⟩
  rintro zf rfl hz
  rw [← isEmptyValue_visible _ _ hs, visible, isEmptyValue] at he
  rw [hz] at he
  cases he

theorem visible_leaf {t : Ty} {w : Val} (hl : IsLeaf t) (hw : HasTy t w) : visible w = w := by
  cases t <;> simp [IsLeaf] at hl <;> cases w <;> simp [HasTy] at hw <;> rfl

/-! ### The main induction -/

theorem grow_next {ety : Ty} {n : Nat} {l sp : List Val} (h : n = l.length) (w : Val) : (growSlice ety n l sp).1.set n w = l ++ [w] := by
  subst h
  unfold growSlice
  rw [if_pos (Nat.le_refl _)]
  split
  · have : l.length + 1 - l.length = 1 := by omega
    simp [this]
  · have : l.length + 1 - l.length = 1 := by omega
    rename_i hsp
    cases sp with
    | nil => simp at hsp
    | cons s sp => simp [this]

theorem set_clean_aux {ty : Ty} {v0 : Val} {p : Path} {t : Ty} {k : Bool} (ha : Sets ty v0 p t k) {value : Str}
    {w : Val} (hparse : ∀ u, HasTy t u → parseLeaf t u value = some w) (hcl : Clean t w) (hlf : LeafFaithful t w)
    (hne : k = false → isEmptyValue t w = false) (hval : value ≠ []) (flags : SyncFlags) :
    ∀ (f : Nat), p.len < f → ty.Wf → ZeroLaw ty → SeesVisible ty → HasTy ty v0 → ∀ v',
      (∀ z infos tys vals, ty = .struct z infos tys → v0 = .struct vals → CleanFields tys infos (visibles vals)) →
      setModelPathF value flags f ty v0 p = (v', .ok) → Clean ty (visible v') ∧ isEmptyValue ty v' = false := by
  have sliceNe : ∀ {ty : Ty} {a ety} {l sp : List Val}, ty = .slice a ety → l ≠ [] → isEmptyValue ty (.slice l sp) = false := by
    rintro _ a ety l sp rfl h
    cases l with
    | nil => exact absurd rfl h
    | cons x xs => rfl
  induction ha with
  | @leaf z infos tys vals p i fi fty fv idx lang hn hfv ho _ hl =>
    intro f hf hw hz hsee hv v' hc hset
    obtain ⟨g, rfl⟩ : ∃ g, f = g + 1 := ⟨f - 1, by omega⟩
    have hc := hc _ _ _ _ rfl rfl
    rw [HasTy] at hv
    rw [Ty.Wf] at hw
    have hty : tys[i]? = some fty := hn.2.2.2.2
    have hlt : i < vals.length := (List.getElem?_eq_some_iff.mp hfv).1
    have hfty := hasTys_get hv hty hfv
    have hwf := wf_get hw.2 hty
    rw [set_step hn hfv hfty] at hset
    simp only [Prod.mk.injEq] at hset
    obtain ⟨hv', hok⟩ := hset
    rw [leaf_setField hl] at hok hv'
    have hpl := setSimple_ok (v' := (setSimple fty.deref (derefVal fty fv).2 value flags).1) (Prod.ext rfl hok)
    rw [hparse _ (hasTy_deref hfty)] at hpl
    have hw1 := Option.some.inj hpl
    rw [← hw1] at hv'
    subst hv'
    have hget : (vals.set i (rewrap fty w))[i]? = some (rewrap fty w) := by rw [List.getElem?_set_self hlt]
    have htw : HasTy fty.deref w := hasTy_parseLeaf (hasTy_deref hfty) (hparse _ (hasTy_deref hfty))
    have hemp := struct_not_empty hz hty hget (isEmpty_rewrap (hne rfl))
    refine ⟨clean_struct hsee ?_ hemp, hemp⟩
    rw [visibles_set, visible_rewrap, visible_leaf hl htw]
    refine cleanFields_set hc hty hn.2.2.2.1 ?_
    cases hattr : fi.attr with
    | false => exact cleanAt_new hattr ho hcl (hne rfl)
    | true =>
      unfold CleanAt
      have hwr : fieldWritten fi fty (rewrap fty w) = true := by
        unfold fieldWritten
        have hn : (rewrap fty w).isNil = false := by
          cases hr : rewrap fty w <;> first | rfl | skip
          exact absurd hr (rewrap_ne_nil htw hwf)
        rw [ho, zero_between, hn, isEmpty_rewrap (hne rfl)]
        simp
      rw [if_pos hwr, if_pos hattr]
      cases fty with
      | ptr t => exact hlf
      | _ => exact hlf
  | @elem z infos tys vals p i fi fty fv a ety l sp idx lang hn hfv ho hat ht hdv hi hg hp hl =>
    intro f hf hw hz hsee hv v' hc hset
    obtain ⟨g, rfl⟩ : ∃ g, f = g + 1 := ⟨f - 1, by omega⟩
    have hc := hc _ _ _ _ rfl rfl
    rw [HasTy] at hv
    rw [Ty.Wf] at hw
    have hty : tys[i]? = some fty := hn.2.2.2.2
    have hlt : i < vals.length := (List.getElem?_eq_some_iff.mp hfv).1
    have hfty := hasTys_get hv hty hfv
    have hwf := wf_get hw.2 hty
    have hcv := cleanAt_deref hat (cleanFields_get hc hty hn.2.2.2.1 (by rw [visibles_get, hfv]; rfl)) hwf
    rw [derefVal_visible, hdv, ht] at hcv
    have hcl0 : ∀ x ∈ visibles l, Clean ety x := by
      simp only [visible] at hcv
      rcases hcv with e | e
      · simp only [Ty.zero, Val.slice.injEq] at e
        rw [e.1]
        intro x hx
        cases hx
      · rw [Clean] at e
        obtain ⟨l', e1, -, e2⟩ := e
        simp only [Val.slice.injEq] at e1
        rw [e1.1]
        exact e2
    rw [set_step hn hfv hfty] at hset
    simp only [Prod.mk.injEq] at hset
    obtain ⟨hv', hok⟩ := hset
    rw [ht, hdv] at hok hv'
    have hs1 : setField (fun t v => setModelPathF value flags g t v p.popFront.2) (.slice a ety) (.slice l sp)
        p.popFront.2.len idx lang value flags =
        (.slice (setSliceEnd ety l sp idx value flags).1.1 (setSliceEnd ety l sp idx value flags).1.2,
          (setSliceEnd ety l sp idx value flags).2) := by
      rw [hp]; rfl
    rw [hs1] at hok hv'
    obtain ⟨w', hw', hr⟩ := setSliceEnd_index hi hval (r := (setSliceEnd ety l sp idx value flags).1) (Prod.ext rfl hok)
    rw [parseElem, hparse _ (hasTy_zero ety)] at hw'
    have hw1 := Option.some.inj hw'
    subst hw1
    rw [hr] at hv'
    simp only at hv'
    have htw : HasTy ety w := hasTy_parseLeaf (hasTy_zero ety) (hparse _ (hasTy_zero ety))
    have hvw := visible_leaf hl htw
    have hnew : (growSlice ety idx.toNat l sp).1.set idx.toNat w ≠ [] ∧
        ∀ x ∈ visibles ((growSlice ety idx.toNat l sp).1.set idx.toNat w), Clean ety x := by
      rcases Nat.lt_or_ge idx.toNat l.length with h | h
      · have : growSlice ety idx.toNat l sp = (l, sp) := by
          unfold growSlice
          rw [if_neg (by omega)]
        rw [this]
        constructor
        · cases l with
          | nil => simp at h
          | cons y ys => cases idx.toNat <;> simp
        · rw [visibles_set, hvw]
          intro x hx
          rcases mem_set_of hx with h | rfl
          · exact hcl0 x h
          · exact hcl
      · rw [grow_next (Nat.le_antisymm hg h)]
        refine ⟨by simp, ?_⟩
        rw [visibles_eq, List.map_append, ← visibles_eq]
        intro x hx
        rcases List.mem_append.1 hx with h | h
        · exact hcl0 x h
        · rw [List.map_singleton, List.mem_singleton] at h
          rw [h, hvw]
          exact hcl
    generalize hL : (growSlice ety idx.toNat l sp).1.set idx.toNat w = L at *
    generalize (growSlice ety idx.toNat l sp).2 = SP at *
    subst hv'
    have hex : isEmptyValue fty.deref (.slice L SP) = false := sliceNe ht hnew.1
    have hget : (vals.set i (rewrap fty (.slice L SP)))[i]? = some (rewrap fty (.slice L SP)) := by rw [List.getElem?_set_self hlt]
    have hemp := struct_not_empty hz hty hget (isEmpty_rewrap hex)
    refine ⟨clean_struct hsee ?_ hemp, hemp⟩
    rw [visibles_set, visible_rewrap, visible]
    refine cleanFields_set hc hty hn.2.2.2.1 (cleanAt_new hat ho ?_ (sliceNe ht ?_))
    · rw [ht, Clean]
      refine ⟨_, rfl, ?_, hnew.2⟩
      intro e
      exact hnew.1 (by simpa [visibles_eq] using e)
    · intro e
      exact hnew.1 (by simpa [visibles_eq] using e)
  | @field z infos tys vals p i fi fty fv z' infos' tys' dvals t k idx lang hn hfv ho hat ht hdv hzc hp hr ih =>
    intro f hf hw hz hsee hv v' hc hset
    obtain ⟨g, rfl⟩ : ∃ g, f = g + 1 := ⟨f - 1, by omega⟩
    have hlen := len_popFront p (len_pos_of_popFront hn.1)
    have hc := hc _ _ _ _ rfl rfl
    rw [HasTy] at hv
    rw [Ty.Wf] at hw
    have hty : tys[i]? = some fty := hn.2.2.2.2
    have hlt : i < vals.length := (List.getElem?_eq_some_iff.mp hfv).1
    have hfty := hasTys_get hv hty hfv
    have hwf := wf_get hw.2 hty
    have hzf := zeroLaw_deref (zeroLaw_get (by rw [ZeroLaw] at hz; exact hz.2) hty)
    have hsf := seesVisible_deref (seesVisible_get (by rw [SeesVisible] at hsee; exact hsee.2) hty)
    have hcv := cleanAt_deref hat (cleanFields_get hc hty hn.2.2.2.1 (by rw [visibles_get, hfv]; rfl)) hwf
    have hd := hasTy_deref hfty
    rw [derefVal_visible, hdv, ht] at hcv
    have hcl0 : CleanFields tys' infos' (visibles dvals) := by
      simp only [visible] at hcv
      rcases hcv with e | e
      · simp only [Ty.zero, Val.struct.injEq] at e
        rw [e]
        exact hzc
      · rw [Clean] at e
        obtain ⟨l', e1, e2, -⟩ := e
        simp only [Val.struct.injEq] at e1
        rw [e1]
        exact e2
    rw [set_step hn hfv hfty] at hset
    simp only [Prod.mk.injEq] at hset
    obtain ⟨hv', hok⟩ := hset
    have hwd := wf_deref hwf
    rw [ht] at hd hok hv' hzf hwd hsf
    rw [hdv] at hd hok hv'
    simp only [setField, if_pos hp] at hok hv'
    have hih := ih hparse hcl hlf hne g (by omega) hwd hzf hsf hd
      (setModelPathF value flags g (.struct z' infos' tys') (.struct dvals) p.popFront.2).1
      (by intro _ _ _ _ e1 e2; cases e1; cases e2; exact hcl0) (Prod.ext rfl hok)
    generalize (setModelPathF value flags g (.struct z' infos' tys') (.struct dvals) p.popFront.2).1 = x at *
    subst hv'
    have hex : isEmptyValue fty.deref x = false := by rw [ht]; exact hih.2
    have hget : (vals.set i (rewrap fty x))[i]? = some (rewrap fty x) := by rw [List.getElem?_set_self hlt]
    have hemp := struct_not_empty hz hty hget (isEmpty_rewrap hex)
    refine ⟨clean_struct hsee ?_ hemp, hemp⟩
    rw [visibles_set, visible_rewrap]
    refine cleanFields_set hc hty hn.2.2.2.1 (cleanAt_new hat ho ?_ ?_)
    · rw [ht]; exact hih.1
    · rw [ht, isEmptyValue_visible _ _ hsf]; exact hih.2
  | @item z infos tys vals p i fi fty fv a ety l sp e z' infos' tys' evals t k idx lang hn hfv ho hat ht he hdv hg hde hp hr ih =>
    intro f hf hw hz hsee hv v' hc hset
    obtain ⟨g, rfl⟩ : ∃ g, f = g + 1 := ⟨f - 1, by omega⟩
    have hlen := len_popFront p (len_pos_of_popFront hn.1)
    have hc := hc _ _ _ _ rfl rfl
    rw [HasTy] at hv
    rw [Ty.Wf] at hw
    have hty : tys[i]? = some fty := hn.2.2.2.2
    have hlt : i < vals.length := (List.getElem?_eq_some_iff.mp hfv).1
    have hfty := hasTys_get hv hty hfv
    have hwf := wf_get hw.2 hty
    have hzf := zeroLaw_deref (zeroLaw_get (by rw [ZeroLaw] at hz; exact hz.2) hty)
    have hsf := seesVisible_deref (seesVisible_get (by rw [SeesVisible] at hsee; exact hsee.2) hty)
    have hcv := cleanAt_deref hat (cleanFields_get hc hty hn.2.2.2.1 (by rw [visibles_get, hfv]; rfl)) hwf
    have hd := hasTy_deref hfty
    rw [derefVal_visible, hdv, ht] at hcv
    rw [set_step hn hfv hfty] at hset
    simp only [Prod.mk.injEq] at hset
    obtain ⟨hv', hok⟩ := hset
    have hwd := wf_deref hwf
    rw [ht] at hd hok hv' hzf hwd hsf
    rw [hdv] at hd hok hv'
    have hwe : ety.Wf := by rw [Ty.Wf] at hwd; exact hwd
    have hze : ZeroLaw ety := by rw [ZeroLaw] at hzf; exact hzf
    have hse : SeesVisible ety := by rw [SeesVisible] at hsf; exact hsf
    have hwed := wf_deref hwe
    have hzed := zeroLaw_deref hze
    have hsed := seesVisible_deref hse
    rw [HasTy] at hd
    have hlti : idx.toNat < l.length := (List.getElem?_eq_some_iff.mp hg).1
    have hte := hd.1 _ (List.mem_of_getElem? hg)
    have hted := hasTy_deref hte
    rw [he] at hwed hzed hsed hted
    rw [hde] at hted
    have hcl0 : ∀ x ∈ visibles l, Clean ety x := by
      simp only [visible] at hcv
      rcases hcv with e | e
      · simp only [Ty.zero, Val.slice.injEq] at e
        rw [e.1]
        intro x hx
        cases hx
      · rw [Clean] at e
        obtain ⟨l', e1, -, e2⟩ := e
        simp only [Val.slice.injEq] at e1
        rw [e1.1]
        exact e2
    have hce : Clean ety (visible e) := hcl0 _ (by rw [visibles_eq]; exact List.mem_map.2 ⟨e, List.mem_of_getElem? hg, rfl⟩)
    have hce2 : CleanFields tys' infos' (visibles evals) := by
      have h1 : Clean ety.deref (derefVal ety (visible e)).2 := by
        cases ety with
        | ptr t =>
          rw [Clean] at hce
          obtain ⟨x, e1, e2⟩ := hce
          rw [e1]
          exact e2
        | _ => exact hce
      rw [derefVal_visible, hde, he, visible, Clean] at h1
      obtain ⟨l', e1, e2, -⟩ := h1
      simp only [Val.struct.injEq] at e1
      rw [e1]
      exact e2
    have hsfd : setField (fun t v => setModelPathF value flags g t v p.popFront.2) (.slice a ety) (.slice l sp)
        p.popFront.2.len idx lang value flags =
        (.slice (l.set idx.toNat (rewrap ety (setModelPathF value flags g (.struct z' infos' tys') (.struct evals) p.popFront.2).1)) sp,
          (setModelPathF value flags g (.struct z' infos' tys') (.struct evals) p.popFront.2).2) := by
      simp only [setField, if_pos hp, if_neg (Nat.not_le.2 hlti), hg, derefVal_fst hte, he, hde]
    rw [hsfd] at hok hv'
    simp only at hok hv'
    have hih := ih hparse hcl hlf hne g (by omega) hwed hzed hsed hted
      (setModelPathF value flags g (.struct z' infos' tys') (.struct evals) p.popFront.2).1
      (by intro _ _ _ _ e1 e2; cases e1; cases e2; exact hce2) (Prod.ext rfl hok)
    generalize (setModelPathF value flags g (.struct z' infos' tys') (.struct evals) p.popFront.2).1 = x at *
    subst hv'
    have hne' : l.set idx.toNat (rewrap ety x) ≠ [] := by
      cases l with
      | nil => simp at hlti
      | cons y ys => cases idx.toNat <;> simp
    have hex : isEmptyValue fty.deref (.slice (l.set idx.toNat (rewrap ety x)) sp) = false := sliceNe ht hne'
    have hget : (vals.set i (rewrap fty (.slice (l.set idx.toNat (rewrap ety x)) sp)))[i]? =
        some (rewrap fty (.slice (l.set idx.toNat (rewrap ety x)) sp)) := by rw [List.getElem?_set_self hlt]
    have hemp := struct_not_empty hz hty hget (isEmpty_rewrap hex)
    refine ⟨clean_struct hsee ?_ hemp, hemp⟩
    rw [visibles_set, visible_rewrap, visible]
    refine cleanFields_set hc hty hn.2.2.2.1 (cleanAt_new hat ho ?_ (sliceNe ht ?_))
    · rw [ht, Clean]
      refine ⟨_, rfl, ?_, ?_⟩
      · intro e
        exact hne' (by simpa [visibles_eq] using e)
      · rw [visibles_set, visible_rewrap]
        intro y hy
        rcases mem_set_of hy with h | rfl
        · exact hcl0 y h
        · exact clean_rewrap (by rw [he]; exact hih.1)
    · intro e
      exact hne' (by simpa [visibles_eq] using e)
  | @fresh z infos tys vals p i fi fty fv a ety l sp z' infos' tys' t k idx lang hn hfv ho hat ht he hdv hg hzc hp hr ih =>
    intro f hf hw hz hsee hv v' hc hset
    obtain ⟨g, rfl⟩ : ∃ g, f = g + 1 := ⟨f - 1, by omega⟩
    have hlen := len_popFront p (len_pos_of_popFront hn.1)
    have hc := hc _ _ _ _ rfl rfl
    rw [HasTy] at hv
    rw [Ty.Wf] at hw
    have hty : tys[i]? = some fty := hn.2.2.2.2
    have hlt : i < vals.length := (List.getElem?_eq_some_iff.mp hfv).1
    have hfty := hasTys_get hv hty hfv
    have hwf := wf_get hw.2 hty
    have hzf := zeroLaw_deref (zeroLaw_get (by rw [ZeroLaw] at hz; exact hz.2) hty)
    have hsf := seesVisible_deref (seesVisible_get (by rw [SeesVisible] at hsee; exact hsee.2) hty)
    have hcv := cleanAt_deref hat (cleanFields_get hc hty hn.2.2.2.1 (by rw [visibles_get, hfv]; rfl)) hwf
    rw [derefVal_visible, hdv, ht] at hcv
    rw [set_step hn hfv hfty] at hset
    simp only [Prod.mk.injEq] at hset
    obtain ⟨hv', hok⟩ := hset
    have hwd := wf_deref hwf
    rw [ht] at hok hv' hzf hwd hsf
    rw [hdv] at hok hv'
    have hwe : ety.Wf := by rw [Ty.Wf] at hwd; exact hwd
    have hze : ZeroLaw ety := by rw [ZeroLaw] at hzf; exact hzf
    have hse : SeesVisible ety := by rw [SeesVisible] at hsf; exact hsf
    have hwed := wf_deref hwe
    have hzed := zeroLaw_deref hze
    have hsed := seesVisible_deref hse
    rw [he] at hwed hzed hsed
    have hcl0 : ∀ x ∈ visibles l, Clean ety x := by
      simp only [visible] at hcv
      rcases hcv with e | e
      · simp only [Ty.zero, Val.slice.injEq] at e
        rw [e.1]
        intro x hx
        cases hx
      · rw [Clean] at e
        obtain ⟨l', e1, -, e2⟩ := e
        simp only [Val.slice.injEq] at e1
        rw [e1.1]
        exact e2
    have hdz : derefVal ety ety.zero = (.struct z' infos' tys', .struct (Ty.zeros tys')) := by
      cases ety with
      | ptr t =>
        have : t = .struct z' infos' tys' := he
        subst this
        rfl
      | struct _ _ _ => cases he; rfl
      | _ => cases he
    by_cases hcr : flags.has (CREATE ||| APPEND) = true
    · have hsfd : setField (fun t v => setModelPathF value flags g t v p.popFront.2) (.slice a ety) (.slice l sp)
          p.popFront.2.len idx lang value flags =
          (.slice ((growSlice ety idx.toNat l sp).1.set idx.toNat
              (rewrap ety (setModelPathF value flags g (.struct z' infos' tys') (.struct (Ty.zeros tys')) p.popFront.2).1)) (growSlice ety idx.toNat l sp).2,
            (setModelPathF value flags g (.struct z' infos' tys') (.struct (Ty.zeros tys')) p.popFront.2).2) := by
        simp only [setField, if_pos hp, if_pos (Nat.le_of_eq hg.symm), hval, decide_false, Bool.and_false, Bool.false_eq_true,
          if_false, hcr, Bool.not_true, hdz]
      rw [hsfd] at hok hv'
      simp only [grow_next hg] at hok hv'
      have hih := ih hparse hcl hlf hne g (by omega) hwed hzed hsed (hasTy_zero (.struct z' infos' tys'))
        (setModelPathF value flags g (.struct z' infos' tys') (.struct (Ty.zeros tys')) p.popFront.2).1
        (by intro _ _ _ _ e1 e2; cases e1; cases e2; rw [visibles_zero]; exact hzc) (Prod.ext rfl hok)
      generalize (setModelPathF value flags g (.struct z' infos' tys') (.struct (Ty.zeros tys')) p.popFront.2).1 = x at *
      generalize (growSlice ety idx.toNat l sp).2 = SP at *
      subst hv'
      have hne' : l ++ [rewrap ety x] ≠ [] := by simp
      have hex : isEmptyValue fty.deref (.slice (l ++ [rewrap ety x]) SP) = false := sliceNe ht hne'
      have hget : (vals.set i (rewrap fty (.slice (l ++ [rewrap ety x]) SP)))[i]? =
          some (rewrap fty (.slice (l ++ [rewrap ety x]) SP)) := by rw [List.getElem?_set_self hlt]
      have hemp := struct_not_empty hz hty hget (isEmpty_rewrap hex)
      refine ⟨clean_struct hsee ?_ hemp, hemp⟩
      rw [visibles_set, visible_rewrap, visible]
      refine cleanFields_set hc hty hn.2.2.2.1 (cleanAt_new hat ho ?_ (sliceNe ht ?_))
      · rw [ht, Clean]
        refine ⟨_, rfl, ?_, ?_⟩
        · simp [visibles_eq]
        · rw [visibles_eq, List.map_append, ← visibles_eq]
          intro y hy
          rcases List.mem_append.1 hy with h | h
          · exact hcl0 y h
          · rw [List.map_singleton, List.mem_singleton] at h
            rw [h, visible_rewrap]
            exact clean_rewrap (by rw [he]; exact hih.1)
      · simp [visibles_eq]
    · exfalso
      have : (setField (fun t v => setModelPathF value flags g t v p.popFront.2) (.slice a ety) (.slice l sp)
          p.popFront.2.len idx lang value flags).2 ≠ .ok := by
        simp [setField, if_pos hp, if_pos (Nat.le_of_eq hg.symm), hval, hcr]
      exact this hok

/-- Setting a value by path at the top of a model. -/
theorem set_clean {z : Option (List Val → Bool)} {infos : List FieldInfo} {tys : List Ty} {vals : List Val} {p : Path} {t : Ty} {k : Bool}
    (ha : Sets (.struct z infos tys) (.struct vals) p t k) {value : Str} {w : Val}
    (hparse : ∀ u, HasTy t u → parseLeaf t u value = some w) (hcl : Clean t w) (hlf : LeafFaithful t w)
    (hne : k = false → isEmptyValue t w = false) (hval : value ≠ []) {flags : SyncFlags}
    (hw : (Ty.struct z infos tys).Wf) (hz : ZeroLaw (.struct z infos tys)) (hs : SeesVisible (.struct z infos tys))
    (ht : HasTy (.struct z infos tys) (.struct vals)) (hc : CleanFields tys infos (visibles vals)) {v' : Val}
    (hset : setModelPath (.struct z infos tys) (.struct vals) p value flags = (v', .ok)) :
    Clean (.struct z infos tys) (visible v') ∧ HasTy (.struct z infos tys) v' ∧
      ∃ i fi fty idx lang x, Names infos tys p i fi fty idx lang ∧ v' = .struct (vals.set i x) := by
  unfold setModelPath at hset
  simp only at hset
  split at hset
  · simp at hset
  · refine ⟨(set_clean_aux ha hparse hcl hlf hne hval _ (p.len + 1) (by omega) hw hz hs ht v'
      (by intro _ _ _ _ e1 e2; cases e1; cases e2; exact hc) hset).1, ?_, ?_⟩
    · have := setModelPathF_typed value (if flags = 0 then DEFAULT else flags) (p.len + 1) _ _ p hw ht
      rw [hset] at this
      exact this
    · have key : ∀ {i fi fty fv idx lang}, Names infos tys p i fi fty idx lang → vals[i]? = some fv →
          ∃ i fi fty idx lang x, Names infos tys p i fi fty idx lang ∧ v' = .struct (vals.set i x) := by
        intro i fi fty fv idx lang hn hfv
        rw [HasTy] at ht
        rw [set_step hn hfv (hasTys_get ht hn.2.2.2.2 hfv)] at hset
        simp only [Prod.mk.injEq] at hset
        exact ⟨i, fi, fty, idx, lang, _, hn, hset.1.symm⟩
      cases ha with
      | leaf hn hv => exact key hn hv
      | elem hn hv => exact key hn hv
      | field hn hv => exact key hn hv
      | item hn hv => exact key hn hv
      | fresh hn hv => exact key hn hv

end Xmp.Props
