import Verif.Lemmas.Typed
import Verif.Props.NodePath
import Verif.Props.AltString

/-! Properties of path access to typed models (C31, C32). -/

namespace Xmp.Props

open GoStr SyncFlags

/-! ### Specification -/

mutual
/-- `IsZero` methods hold only of structs all of whose fields count as empty. -/
def ZeroLaw : Ty → Prop
  | .slice _ t => ZeroLaw t
  | .ptr t => ZeroLaw t
  | .struct z _ tys =>
    (∀ zf, z = some zf → ∀ vals, zf vals = true → ∀ (i : Nat) t fv, tys[i]? = some t → vals[i]? = some fv →
      isEmptyValue t fv = true) ∧ ZeroLawAll tys
  | _ => True
/-- `ZeroLaw` of all types of a list. -/
def ZeroLawAll : List Ty → Prop
  | [] => True
  | t :: ts => ZeroLaw t ∧ ZeroLawAll ts
end

/-- Types whose values have a text: all but structs, arrays and pointers. -/
def IsLeaf : Ty → Prop
  | .int _ | .uint _ | .bool | .str | .bytes | .text _ => True
  | _ => False

/-- The struct field that the first segment of a path names, with the rest of the segment. -/
def Names (infos : List FieldInfo) (tys : List Ty) (p : Path) (i : Nat) (fi : FieldInfo) (fty : Ty) (idx : Int)
    (lang : Str) : Prop :=
  p.popFront.1 ≠ [] ∧ -1 ≤ idx ∧ (∃ name, parsePathSegment p.popFront.1 = (name, idx, lang) ∧
    findField infos name = some i) ∧ infos[i]? = some fi ∧ tys[i]? = some fty

/-- `Addr ty p t k`: in structs of type `ty`, the path `p` leads through struct fields and array elements
to a leaf of type `t`; with `k = false` the leaf is a field, with `k = true` it is an array element with
an index.  No field on the way has the `omit` option. -/
inductive Addr : Ty → Path → Ty → Bool → Prop
  | leaf {z infos tys p i fi fty idx lang} (hn : Names infos tys p i fi fty idx lang) (ho : fi.omitted = false)
      (hl : IsLeaf fty.deref) : Addr (.struct z infos tys) p fty.deref false
  | elem {z infos tys p i fi fty a ety idx lang} (hn : Names infos tys p i fi fty idx lang)
      (ho : fi.omitted = false) (ht : fty.deref = .slice a ety) (hi : 0 ≤ idx) (hp : p.popFront.2.len = 0)
      (hl : IsLeaf ety) : Addr (.struct z infos tys) p ety true
  | field {z infos tys p i fi fty z' infos' tys' t k idx lang} (hn : Names infos tys p i fi fty idx lang)
      (ho : fi.omitted = false) (ht : fty.deref = .struct z' infos' tys') (hp : 0 < p.popFront.2.len)
      (hr : Addr (.struct z' infos' tys') p.popFront.2 t k) : Addr (.struct z infos tys) p t k
  | item {z infos tys p i fi fty a ety z' infos' tys' t k idx lang} (hn : Names infos tys p i fi fty idx lang)
      (ho : fi.omitted = false) (ht : fty.deref = .slice a ety) (he : ety.deref = .struct z' infos' tys')
      (hp : 0 < p.popFront.2.len)
      (hr : Addr (.struct z' infos' tys') p.popFront.2 t k) : Addr (.struct z infos tys) p t k

/-! ### Helper lemmas -/

theorem zeroLaw_get {tys : List Ty} (h : ZeroLawAll tys) {i : Nat} {t : Ty} (ht : tys[i]? = some t) :
    ZeroLaw t := by
  induction tys generalizing i with
  | nil => simp at ht
  | cons a as ih =>
    rw [ZeroLawAll] at h
    cases i with
    | zero => simp only [List.getElem?_cons_zero, Option.some.injEq] at ht; exact ht ▸ h.1
    | succ i => simp only [List.getElem?_cons_succ] at ht; exact ih h.2 ht

theorem zeroLaw_deref {t : Ty} (h : ZeroLaw t) : ZeroLaw t.deref := by
  cases t with
  | ptr t => rw [ZeroLaw] at h; exact h
  | _ => exact h

theorem len_pos_of_popFront {p : Path} (h : p.popFront.1 ≠ []) : 0 < p.len := by
  rcases Nat.eq_zero_or_pos p.len with h0 | h0
  · rw [popFront_of_len_zero p h0] at h; exact absurd rfl h
  · exact h0

theorem get_step {f : Nat} {z : Option (List Val → Bool)} {infos : List FieldInfo} {tys : List Ty}
    {vals : List Val} {p : Path} {i : Nat} {fi : FieldInfo} {fty : Ty} {fv : Val} {idx : Int} {lang : Str}
    (hn : Names infos tys p i fi fty idx lang) (hv : vals[i]? = some fv) :
    getModelPathF (f + 1) (.struct z infos tys) (.struct vals) p =
      getField (fun t v => getModelPathF f t v p.popFront.2) fi fty fv p.popFront.2.len idx lang := by
  obtain ⟨h1, h2, ⟨name, h3, h4⟩, h5, h6⟩ := hn
  rw [getModelPathF]
  simp only [if_neg h1, h3, if_neg (Int.not_lt.mpr h2), h4, h5, h6, hv]

theorem set_step {value : Str} {flags : SyncFlags} {f : Nat} {z : Option (List Val → Bool)}
    {infos : List FieldInfo} {tys : List Ty}
    {vals : List Val} {p : Path} {i : Nat} {fi : FieldInfo} {fty : Ty} {fv : Val} {idx : Int} {lang : Str}
    (hn : Names infos tys p i fi fty idx lang) (hv : vals[i]? = some fv) (ht : HasTy fty fv) :
    setModelPathF value flags (f + 1) (.struct z infos tys) (.struct vals) p =
      (.struct (vals.set i (rewrap fty (setField (fun t v => setModelPathF value flags f t v p.popFront.2)
          fty.deref (derefVal fty fv).2 p.popFront.2.len idx lang value flags).1)),
        (setField (fun t v => setModelPathF value flags f t v p.popFront.2)
          fty.deref (derefVal fty fv).2 p.popFront.2.len idx lang value flags).2) := by
  obtain ⟨h1, h2, ⟨name, h3, h4⟩, h5, h6⟩ := hn
  rw [setModelPathF]
  simp only [if_neg h1, h3, if_neg (Int.not_lt.mpr h2), h4, h6, hv, derefVal_fst ht]

theorem isEmpty_rewrap {t : Ty} {v : Val} (h : isEmptyValue t.deref v = false) :
    isEmptyValue t (rewrap t v) = false := by
  cases t with
  | ptr t =>
    have h' : isEmptyValue t v = false := h
    rw [rewrap, isEmptyValue, h', Bool.and_false]
  | _ => exact h

theorem rewrap_ne_nil {t : Ty} {v : Val} (hv : HasTy t.deref v) (hw : t.Wf) : rewrap t v ≠ .nil := by
  cases t with
  | ptr t => intro h; cases h
  | _ => cases v <;> simp_all [HasTy, rewrap, Ty.deref]

theorem getField_rewrap {recur : Ty → Val → GetRes} {fi : FieldInfo} {fty : Ty} {w : Val} {plen : Nat} {idx : Int}
    {lang : Str} (hv : HasTy fty.deref w) (hw : fty.Wf) (ho : fi.omitted = false)
    (he : isEmptyValue fty.deref w = false) :
    getField recur fi fty (rewrap fty w) plen idx lang = getDeref recur fty.deref w plen idx lang := by
  have h1 := isEmpty_rewrap he
  have h2 := rewrap_ne_nil hv hw
  have h3 := derefVal_rewrap fty w
  generalize rewrap fty w = x at *
  unfold getField
  split
  · exact absurd rfl h2
  · rw [h1, ho, h3]; simp

theorem struct_not_empty {z : Option (List Val → Bool)} {infos : List FieldInfo} {tys : List Ty} {vals : List Val}
    (hz : ZeroLaw (.struct z infos tys)) {i : Nat} {fty : Ty} {fv : Val} (ht : tys[i]? = some fty)
    (hv : vals[i]? = some fv) (he : isEmptyValue fty fv = false) :
    isEmptyValue (.struct z infos tys) (.struct vals) = false := by
  rw [ZeroLaw] at hz
  cases z with
  | none => rfl
  | some zf =>
    rw [isEmptyValue]
    cases hzf : zf vals with
    | false => rfl
    | true => rw [hz.1 zf rfl vals hzf i fty fv ht hv] at he; cases he

theorem leaf_setField {recur : Ty → Val → Val × SetRes} {t : Ty} {v : Val} {plen : Nat} {idx : Int}
    {lang value : Str} {flags : SyncFlags} (hl : IsLeaf t) :
    setField recur t v plen idx lang value flags = setSimple t v value flags := by
  cases t <;> simp [IsLeaf] at hl <;> unfold setField <;> cases v <;> rfl

theorem leaf_getDeref {recur : Ty → Val → GetRes} {t : Ty} {v : Val} {plen : Nat} {idx : Int}
    {lang : Str} (hl : IsLeaf t) :
    getDeref recur t v plen idx lang = leafRes t v := by
  cases t <;> simp [IsLeaf] at hl <;> unfold getDeref <;> cases v <;> rfl

theorem leaf_deref {t : Ty} (hl : IsLeaf t) (v : Val) : derefVal t v = (t, v) := by
  cases t <;> simp [IsLeaf] at hl <;> rfl

theorem setSimple_ok {t : Ty} {v v' : Val} {value : Str} {flags : SyncFlags}
    (h : setSimple t v value flags = (v', .ok)) : parseLeaf t v value = some v' := by
  unfold setSimple at h
  split at h
  · simp at h
  · cases hp : parseLeaf t v value with
    | none => rw [hp] at h; simp at h
    | some w => rw [hp] at h; simp at h; rw [h]

/-- What a successful write with an index at the end of a path does to a slice. -/
theorem setSliceEnd_index {ety : Ty} {l sp : List Val} {idx : Int} {value : Str} {flags : SyncFlags}
    {r : List Val × List Val} (hi : 0 ≤ idx) (hval : value ≠ [])
    (h : setSliceEnd ety l sp idx value flags = (r, .ok)) :
    ∃ w, parseElem ety value = some w ∧
      r = ((growSlice ety idx.toNat l sp).1.set idx.toNat w, (growSlice ety idx.toNat l sp).2) := by
  have h1 : ¬ idx = -1 := by omega
  have h2 : idx > -1 := by omega
  unfold setSliceEnd at h
  simp only [h1, h2, hval, ne_eq, not_false_eq_true, decide_true, decide_false, Bool.and_false, Bool.and_true,
    Bool.false_eq_true, if_false] at h
  split at h
  · cases hp : parseElem ety value with
    | none => rw [hp] at h; simp at h
    | some w =>
      rw [hp] at h
      simp only [Prod.mk.injEq, and_true] at h
      exact ⟨w, rfl, h.symm⟩
  · simp at h

/-- The main induction for C32. -/
theorem read_after_write_aux {ty : Ty} {p : Path} {t : Ty} {k : Bool} (ha : Addr ty p t k) {value s : Str}
    {w : Val} (hparse : ∀ u, HasTy t u → parseLeaf t u value = some w) (hs : leafText t w = some (some s))
    (hne : k = false → isEmptyValue t w = false) (hval : value ≠ []) (flags : SyncFlags) :
    ∀ (f : Nat), p.len < f → ty.Wf → ZeroLaw ty → ∀ v v', HasTy ty v →
      setModelPathF value flags f ty v p = (v', .ok) →
      getModelPathF f ty v' p = .ok s ∧ isEmptyValue ty v' = false := by
  induction ha with
  | @leaf z infos tys p i fi fty idx lang hn ho hl =>
    intro f hf hw hz v v' hv hset
    obtain ⟨g, rfl⟩ : ∃ g, f = g + 1 := ⟨f - 1, by omega⟩
    cases v with
    | struct vals =>
      rw [HasTy] at hv
      rw [Ty.Wf] at hw
      have hty : tys[i]? = some fty := hn.2.2.2.2
      have hlt : i < vals.length := by
        rw [hasTys_length hv]
        exact (List.getElem?_eq_some_iff.mp hty).1
      obtain ⟨fv, hfv⟩ : ∃ fv, vals[i]? = some fv := ⟨vals[i], List.getElem?_eq_getElem hlt⟩
      have hfty := hasTys_get hv hty hfv
      have hwf := wf_get hw.2 hty
      rw [set_step hn hfv hfty] at hset
      simp only [Prod.mk.injEq] at hset
      obtain ⟨hv', hok⟩ := hset
      rw [leaf_setField hl] at hok hv'
      have hpl := setSimple_ok (v' := (setSimple fty.deref (derefVal fty fv).2 value flags).1)
        (Prod.ext rfl hok)
      rw [hparse _ (hasTy_deref hfty)] at hpl
      have hw1 := Option.some.inj hpl
      rw [← hw1] at hv'
      subst hv'
      have hget : (vals.set i (rewrap fty w))[i]? = some (rewrap fty w) := by
        rw [List.getElem?_set_self hlt]
      have htw : HasTy fty.deref w := hasTy_parseLeaf (hasTy_deref hfty) (hparse _ (hasTy_deref hfty))
      have hne' := hne rfl
      constructor
      · rw [get_step hn hget, getField_rewrap htw hwf ho hne', leaf_getDeref hl, leafRes, hs]
      · exact struct_not_empty hz hty hget (isEmpty_rewrap hne')
    | _ => simp [HasTy] at hv
  | @elem z infos tys p i fi fty a ety idx lang hn ho ht hi hp hl =>
    intro f hf hw hz v v' hv hset
    obtain ⟨g, rfl⟩ : ∃ g, f = g + 1 := ⟨f - 1, by omega⟩
    cases v with
    | struct vals =>
      rw [HasTy] at hv
      rw [Ty.Wf] at hw
      have hty : tys[i]? = some fty := hn.2.2.2.2
      have hlt : i < vals.length := by
        rw [hasTys_length hv]
        exact (List.getElem?_eq_some_iff.mp hty).1
      obtain ⟨fv, hfv⟩ : ∃ fv, vals[i]? = some fv := ⟨vals[i], List.getElem?_eq_getElem hlt⟩
      have hfty := hasTys_get hv hty hfv
      have hwf := wf_get hw.2 hty
      have hd := hasTy_deref hfty
      rw [set_step hn hfv hfty] at hset
      simp only [Prod.mk.injEq] at hset
      obtain ⟨hv', hok⟩ := hset
      rw [ht] at hd hok hv'
      generalize (derefVal fty fv).2 = dv at *
      cases dv with
      | slice l sp =>
        have hs1 : setField (fun t v => setModelPathF value flags g t v p.popFront.2) (.slice a ety) (.slice l sp)
            p.popFront.2.len idx lang value flags =
            (.slice (setSliceEnd ety l sp idx value flags).1.1 (setSliceEnd ety l sp idx value flags).1.2,
              (setSliceEnd ety l sp idx value flags).2) := by
          rw [hp]; rfl
        rw [hs1] at hok hv'
        obtain ⟨w', hw', hr⟩ := setSliceEnd_index hi hval
          (r := (setSliceEnd ety l sp idx value flags).1) (Prod.ext rfl hok)
        rw [parseElem, hparse _ (hasTy_zero ety)] at hw'
        have hw1 := Option.some.inj hw'
        subst hw1
        rw [hr] at hv'
        simp only at hv'
        have hgl := growSlice_length (ety := ety) (n := idx.toNat) (l := l) (sp := sp)
        have hgt := growSlice_typed (n := idx.toNat) (by rw [HasTy] at hd; exact hd.1) (by rw [HasTy] at hd; exact hd.2)
        generalize growSlice ety idx.toNat l sp = gs at *
        subst hv'
        have htw : HasTy ety w := hasTy_parseLeaf (hasTy_zero ety) (hparse _ (hasTy_zero ety))
        have htx : HasTy fty.deref (.slice (gs.1.set idx.toNat w) gs.2) := by
          rw [ht, HasTy]
          refine ⟨?_, hgt.2⟩
          intro x hx
          rcases mem_set_of hx with h | rfl
          · exact hgt.1 x h
          · exact htw
        have hex : isEmptyValue fty.deref (.slice (gs.1.set idx.toNat w) gs.2) = false := by
          rw [ht, isEmptyValue]
          cases hgs : gs.1 with
          | nil => rw [hgs] at hgl; simp at hgl
          | cons x xs => cases idx.toNat <;> rfl
        have hget : (vals.set i (rewrap fty (.slice (gs.1.set idx.toNat w) gs.2)))[i]? =
            some (rewrap fty (.slice (gs.1.set idx.toNat w) gs.2)) := by
          rw [List.getElem?_set_self hlt]
        constructor
        · rw [get_step hn hget, getField_rewrap htx hwf ho hex, ht]
          simp only [getDeref, List.getElem?_set_self hgl, hp, leaf_deref hl]
          simp [leafRes, hs]
        · exact struct_not_empty hz hty hget (isEmpty_rewrap hex)
      | _ => simp [HasTy] at hd
    | _ => simp [HasTy] at hv
  | @field z infos tys p i fi fty z' infos' tys' t k idx lang hn ho ht hp hr ih =>
    intro f hf hw hz v v' hv hset
    obtain ⟨g, rfl⟩ : ∃ g, f = g + 1 := ⟨f - 1, by omega⟩
    have hlen := len_popFront p (len_pos_of_popFront hn.1)
    cases v with
    | struct vals =>
      rw [HasTy] at hv
      rw [Ty.Wf] at hw
      have hty : tys[i]? = some fty := hn.2.2.2.2
      have hlt : i < vals.length := by
        rw [hasTys_length hv]
        exact (List.getElem?_eq_some_iff.mp hty).1
      obtain ⟨fv, hfv⟩ : ∃ fv, vals[i]? = some fv := ⟨vals[i], List.getElem?_eq_getElem hlt⟩
      have hfty := hasTys_get hv hty hfv
      have hwf := wf_get hw.2 hty
      have hzf := zeroLaw_deref (zeroLaw_get (by rw [ZeroLaw] at hz; exact hz.2) hty)
      have hd := hasTy_deref hfty
      rw [set_step hn hfv hfty] at hset
      simp only [Prod.mk.injEq] at hset
      obtain ⟨hv', hok⟩ := hset
      have hwd := wf_deref hwf
      rw [ht] at hd hok hv' hzf hwd
      generalize (derefVal fty fv).2 = dv at *
      cases dv with
      | struct dvals =>
        simp only [setField, if_pos hp] at hok hv'
        have htx := setModelPathF_typed value flags g _ _ p.popFront.2 hwd hd
        have hih := ih hparse hs hne g (by omega) hwd hzf _
          (setModelPathF value flags g (.struct z' infos' tys') (.struct dvals) p.popFront.2).1 hd (Prod.ext rfl hok)
        generalize (setModelPathF value flags g (.struct z' infos' tys') (.struct dvals) p.popFront.2).1 = x at *
        subst hv'
        rw [← ht] at htx
        have hex : isEmptyValue fty.deref x = false := by rw [ht]; exact hih.2
        have hget : (vals.set i (rewrap fty x))[i]? = some (rewrap fty x) := by
          rw [List.getElem?_set_self hlt]
        constructor
        · rw [get_step hn hget, getField_rewrap htx hwf ho hex, ht]
          rw [ht] at htx
          cases x with
          | struct xs => simp only [getDeref, if_pos hp]; exact hih.1
          | _ => simp [HasTy] at htx
        · exact struct_not_empty hz hty hget (isEmpty_rewrap hex)
      | _ => simp [HasTy] at hd
    | _ => simp [HasTy] at hv
  | @item z infos tys p i fi fty a ety z' infos' tys' t k idx lang hn ho ht he hp hr ih =>
    intro f hf hw hz v v' hv hset
    obtain ⟨g, rfl⟩ : ∃ g, f = g + 1 := ⟨f - 1, by omega⟩
    have hlen := len_popFront p (len_pos_of_popFront hn.1)
    cases v with
    | struct vals =>
      rw [HasTy] at hv
      rw [Ty.Wf] at hw
      have hty : tys[i]? = some fty := hn.2.2.2.2
      have hlt : i < vals.length := by
        rw [hasTys_length hv]
        exact (List.getElem?_eq_some_iff.mp hty).1
      obtain ⟨fv, hfv⟩ : ∃ fv, vals[i]? = some fv := ⟨vals[i], List.getElem?_eq_getElem hlt⟩
      have hfty := hasTys_get hv hty hfv
      have hwf := wf_get hw.2 hty
      have hzf := zeroLaw_deref (zeroLaw_get (by rw [ZeroLaw] at hz; exact hz.2) hty)
      have hd := hasTy_deref hfty
      rw [set_step hn hfv hfty] at hset
      simp only [Prod.mk.injEq] at hset
      obtain ⟨hv', hok⟩ := hset
      have hwd := wf_deref hwf
      rw [ht] at hd hok hv' hzf hwd
      have hwe : ety.Wf := by rw [Ty.Wf] at hwd; exact hwd
      have hze : ZeroLaw ety := by rw [ZeroLaw] at hzf; exact hzf
      have hwed := wf_deref hwe
      have hzed := zeroLaw_deref hze
      rw [he] at hwed hzed
      generalize (derefVal fty fv).2 = dv at *
      cases dv with
      | slice l sp =>
        -- the element that is written, and the list it is written to
        obtain ⟨e, l', sp', hee, hl', hli, hsf⟩ : ∃ (e : Val) (l' sp' : List Val), HasTy ety.deref e ∧
            (∀ x ∈ l', HasTy ety x) ∧ idx.toNat < l'.length ∧
            (setField (fun t v => setModelPathF value flags g t v p.popFront.2) (.slice a ety) (.slice l sp)
              p.popFront.2.len idx lang value flags =
            (.slice (l'.set idx.toNat (rewrap ety (setModelPathF value flags g ety.deref e p.popFront.2).1)) sp',
              (setModelPathF value flags g ety.deref e p.popFront.2).2) ∨
            (setField (fun t v => setModelPathF value flags g t v p.popFront.2) (.slice a ety) (.slice l sp)
              p.popFront.2.len idx lang value flags).2 ≠ .ok) := by
          rw [HasTy] at hd
          by_cases hlen' : l.length ≤ idx.toNat
          · by_cases hc : flags.has (CREATE ||| APPEND) = true
            · have hz1 := derefVal_fst (hasTy_zero ety)
              have hz2 := hasTy_deref (hasTy_zero ety)
              refine ⟨(derefVal ety ety.zero).2, (growSlice ety idx.toNat l sp).1, (growSlice ety idx.toNat l sp).2,
                hz2, (growSlice_typed hd.1 hd.2).1, growSlice_length, Or.inl ?_⟩
              simp only [setField, if_pos hp, if_pos hlen', hval, decide_false, Bool.and_false, Bool.false_eq_true,
                if_false, hc, Bool.not_true, hz1]
              rw [he]
            · refine ⟨(derefVal ety ety.zero).2, (growSlice ety idx.toNat l sp).1, [], hasTy_deref (hasTy_zero ety),
                (growSlice_typed hd.1 hd.2).1, growSlice_length, Or.inr ?_⟩
              simp [setField, if_pos hp, if_pos hlen', hval, hc]
          · have hlt' : idx.toNat < l.length := by omega
            have hgete : l[idx.toNat]? = some l[idx.toNat] := List.getElem?_eq_getElem hlt'
            have hte := hd.1 _ (List.getElem_mem hlt')
            refine ⟨(derefVal ety l[idx.toNat]).2, l, sp, hasTy_deref hte, hd.1, hlt', Or.inl ?_⟩
            simp only [setField, if_pos hp, if_neg hlen', hgete, derefVal_fst hte]
        rcases hsf with hsf | hsf
        · rw [hsf] at hok hv'
          simp only at hok hv'
          rw [he] at hee hok hv'
          have htx := setModelPathF_typed value flags g _ _ p.popFront.2 hwed hee
          have hih := ih hparse hs hne g (by omega) hwed hzed _
            (setModelPathF value flags g (.struct z' infos' tys') e p.popFront.2).1 hee (Prod.ext rfl hok)
          generalize (setModelPathF value flags g (.struct z' infos' tys') e p.popFront.2).1 = x at *
          subst hv'
          rw [← he] at htx
          have hex : isEmptyValue fty.deref (.slice (l'.set idx.toNat (rewrap ety x)) sp') = false := by
            rw [ht, isEmptyValue]
            cases l' with
            | nil => simp at hli
            | cons y ys => cases idx.toNat <;> rfl
          have hnn : rewrap fty (.slice (l'.set idx.toNat (rewrap ety x)) sp') ≠ .nil := by
            cases fty <;> simp [rewrap]
          have hget : (vals.set i (rewrap fty (.slice (l'.set idx.toNat (rewrap ety x)) sp')))[i]? =
              some (rewrap fty (.slice (l'.set idx.toNat (rewrap ety x)) sp')) := by
            rw [List.getElem?_set_self hlt]
          constructor
          · rw [get_step hn hget]
            have hgf : ∀ recur plen, getField recur fi fty (rewrap fty (.slice (l'.set idx.toNat (rewrap ety x)) sp')) plen idx lang
                = getDeref recur fty.deref (.slice (l'.set idx.toNat (rewrap ety x)) sp') plen idx lang := by
              intro recur plen
              have h1 := isEmpty_rewrap hex
              have h3 := derefVal_rewrap fty (.slice (l'.set idx.toNat (rewrap ety x)) sp')
              generalize rewrap fty (.slice (l'.set idx.toNat (rewrap ety x)) sp') = y at *
              unfold getField
              split
              · exact absurd rfl hnn
              · rw [h1, ho, h3]; simp
            rw [hgf, ht]
            simp only [getDeref, List.getElem?_set_self hli, if_pos hp, derefVal_rewrap]
            rw [he]
            exact hih.1
          · exact struct_not_empty hz hty hget (isEmpty_rewrap hex)
        · exact absurd hok hsf
      | _ => simp [HasTy] at hd
    | _ => simp [HasTy] at hv

/-- C32: after a successful write of a non-empty string to a path that leads to a value, reading the path
returns the text of the value written (`s`, the canonical form of the string), provided that the value does
not count as empty.  Elements of arrays are read back even when they count as empty. -/
theorem model_read_after_write {ty t : Ty} {p : Path} {k : Bool} (ha : Addr ty p t k) (hw : ty.Wf)
    (hz : ZeroLaw ty) {v v' w : Val} (hv : HasTy ty v) {value s : Str} {flags : SyncFlags}
    (hparse : ∀ u, HasTy t u → parseLeaf t u value = some w) (hs : leafText t w = some (some s))
    (hne : k = false → isEmptyValue t w = false) (hval : value ≠ [])
    (hset : setModelPath ty v p value flags = (v', .ok)) : getModelPath ty v' p = .ok s := by
  unfold setModelPath at hset
  simp only at hset
  split at hset
  · simp at hset
  · exact (read_after_write_aux ha hparse hs hne hval _ (p.len + 1) (by omega) hw hz v v' hv hset).1

/-! ### Writing succeeds -/

theorem has_or_left {f a b : SyncFlags} (h : f.has a = true) : f.has (a ||| b) = true := by
  unfold has at *
  simp only [bne_iff_ne, ne_eq] at *
  intro h0
  apply h
  apply Nat.eq_of_testBit_eq
  intro i
  have := congrArg (fun n => n.testBit i) h0
  simp only [Nat.testBit_and, Nat.testBit_or, Nat.zero_testBit] at this ⊢
  cases hf : f.testBit i <;> cases ha : a.testBit i <;> simp_all

theorem has_or_right {f a b : SyncFlags} (h : f.has b = true) : f.has (a ||| b) = true := by
  rw [Nat.or_comm]; exact has_or_left h

theorem set_ok_aux {ty : Ty} {p : Path} {t : Ty} {k : Bool} (ha : Addr ty p t k) {value : Str}
    {w : Val} (hparse : ∀ u, HasTy t u → parseLeaf t u value = some w) (hval : value ≠ []) {flags : SyncFlags}
    (hR : flags.has REPLACE = true) (hC : flags.has CREATE = true) :
    ∀ (f : Nat), p.len < f → ty.Wf → ∀ v, HasTy ty v → (setModelPathF value flags f ty v p).2 = .ok := by
  have hRC : flags.has (REPLACE ||| CREATE) = true := has_or_left hR
  have hCA : flags.has (CREATE ||| APPEND) = true := has_or_left hC
  induction ha with
  | @leaf z infos tys p i fi fty idx lang hn ho hl =>
    intro f hf hw v hv
    obtain ⟨g, rfl⟩ : ∃ g, f = g + 1 := ⟨f - 1, by omega⟩
    cases v with
    | struct vals =>
      rw [HasTy] at hv
      have hty : tys[i]? = some fty := hn.2.2.2.2
      have hlt : i < vals.length := by
        rw [hasTys_length hv]
        exact (List.getElem?_eq_some_iff.mp hty).1
      obtain ⟨fv, hfv⟩ : ∃ fv, vals[i]? = some fv := ⟨vals[i], List.getElem?_eq_getElem hlt⟩
      have hfty := hasTys_get hv hty hfv
      rw [set_step hn hfv hfty, leaf_setField hl, setSimple, hR, hparse _ (hasTy_deref hfty)]
      simp
    | _ => simp [HasTy] at hv
  | @elem z infos tys p i fi fty a ety idx lang hn ho ht hi hp hl =>
    intro f hf hw v hv
    obtain ⟨g, rfl⟩ : ∃ g, f = g + 1 := ⟨f - 1, by omega⟩
    cases v with
    | struct vals =>
      rw [HasTy] at hv
      have hty : tys[i]? = some fty := hn.2.2.2.2
      have hlt : i < vals.length := by
        rw [hasTys_length hv]
        exact (List.getElem?_eq_some_iff.mp hty).1
      obtain ⟨fv, hfv⟩ : ∃ fv, vals[i]? = some fv := ⟨vals[i], List.getElem?_eq_getElem hlt⟩
      have hfty := hasTys_get hv hty hfv
      have hd := hasTy_deref hfty
      rw [set_step hn hfv hfty]
      rw [ht] at hd ⊢
      generalize (derefVal fty fv).2 = dv at *
      cases dv with
      | slice l sp =>
        have h1 : ¬ idx = -1 := by omega
        have h2 : idx > -1 := by omega
        simp only [setField, hp, setSliceEnd]
        simp only [Nat.lt_irrefl, gt_iff_lt, if_false, h1, h2, hval, ne_eq, not_false_eq_true, decide_true, decide_false,
          Bool.and_false, Bool.and_true, Bool.false_eq_true, hRC, if_true, parseElem, hparse _ (hasTy_zero ety)]
      | _ => simp [HasTy] at hd
    | _ => simp [HasTy] at hv
  | @field z infos tys p i fi fty z' infos' tys' t k idx lang hn ho ht hp hr ih =>
    intro f hf hw v hv
    obtain ⟨g, rfl⟩ : ∃ g, f = g + 1 := ⟨f - 1, by omega⟩
    have hlen := len_popFront p (len_pos_of_popFront hn.1)
    cases v with
    | struct vals =>
      rw [HasTy] at hv
      rw [Ty.Wf] at hw
      have hty : tys[i]? = some fty := hn.2.2.2.2
      have hlt : i < vals.length := by
        rw [hasTys_length hv]
        exact (List.getElem?_eq_some_iff.mp hty).1
      obtain ⟨fv, hfv⟩ : ∃ fv, vals[i]? = some fv := ⟨vals[i], List.getElem?_eq_getElem hlt⟩
      have hfty := hasTys_get hv hty hfv
      have hwd := wf_deref (wf_get hw.2 hty)
      have hd := hasTy_deref hfty
      rw [set_step hn hfv hfty]
      rw [ht] at hd hwd ⊢
      generalize (derefVal fty fv).2 = dv at *
      cases dv with
      | struct dvals =>
        simp only [setField, if_pos hp]
        exact ih hparse g (by omega) hwd _ hd
      | _ => simp [HasTy] at hd
    | _ => simp [HasTy] at hv
  | @item z infos tys p i fi fty a ety z' infos' tys' t k idx lang hn ho ht he hp hr ih =>
    intro f hf hw v hv
    obtain ⟨g, rfl⟩ : ∃ g, f = g + 1 := ⟨f - 1, by omega⟩
    have hlen := len_popFront p (len_pos_of_popFront hn.1)
    cases v with
    | struct vals =>
      rw [HasTy] at hv
      rw [Ty.Wf] at hw
      have hty : tys[i]? = some fty := hn.2.2.2.2
      have hlt : i < vals.length := by
        rw [hasTys_length hv]
        exact (List.getElem?_eq_some_iff.mp hty).1
      obtain ⟨fv, hfv⟩ : ∃ fv, vals[i]? = some fv := ⟨vals[i], List.getElem?_eq_getElem hlt⟩
      have hfty := hasTys_get hv hty hfv
      have hwd := wf_deref (wf_get hw.2 hty)
      have hd := hasTy_deref hfty
      rw [set_step hn hfv hfty]
      rw [ht] at hd hwd ⊢
      have hwe : ety.Wf := by rw [Ty.Wf] at hwd; exact hwd
      have hwed := wf_deref hwe
      rw [he] at hwed
      generalize (derefVal fty fv).2 = dv at *
      cases dv with
      | slice l sp =>
        rw [HasTy] at hd
        by_cases hlen' : l.length ≤ idx.toNat
        · have hz1 := derefVal_fst (hasTy_zero ety)
          have hz2 := hasTy_deref (hasTy_zero ety)
          simp only [setField, if_pos hp, if_pos hlen', hval, decide_false, Bool.and_false, Bool.false_eq_true,
                if_false, hCA, Bool.not_true, hz1]
          rw [he] at hz2 ⊢
          exact ih hparse g (by omega) hwed _ hz2
        · have hlt' : idx.toNat < l.length := by omega
          have hgete : l[idx.toNat]? = some l[idx.toNat] := List.getElem?_eq_getElem hlt'
          have hte := hd.1 _ (List.getElem_mem hlt')
          have hte2 := hasTy_deref hte
          simp only [setField, if_pos hp, if_neg hlen', hgete, derefVal_fst hte]
          rw [he] at hte2 ⊢
          exact ih hparse g (by omega) hwed _ hte2
      | _ => simp [HasTy] at hd
    | _ => simp [HasTy] at hv

theorem addr_isXmpPath {ty t : Ty} {p : Path} {k : Bool} (ha : Addr ty p t k) : p.isXmpPath = true := by
  have h : p.popFront.1 ≠ [] := by
    cases ha with
    | leaf hn _ _ => exact hn.1
    | elem hn _ _ _ _ _ => exact hn.1
    | field hn _ _ _ _ => exact hn.1
    | item hn _ _ _ _ _ => exact hn.1
  have hp := len_pos_of_popFront h
  unfold Path.len at hp
  unfold Path.isXmpPath
  cases hx : indexChar ':' p with
  | none => rw [hx] at hp; simp at hp
  | some i => rfl

/-- C32: writing a string that the addressed type accepts succeeds when the flags allow to create and to
replace values (as the default flags do). -/
theorem model_write_succeeds {ty t : Ty} {p : Path} {k : Bool} (ha : Addr ty p t k) (hw : ty.Wf)
    {v w : Val} (hv : HasTy ty v) {value : Str} {flags : SyncFlags}
    (hparse : ∀ u, HasTy t u → parseLeaf t u value = some w) (hval : value ≠ [])
    (hf : flags = 0 ∨ (flags.has REPLACE = true ∧ flags.has CREATE = true)) :
    (setModelPath ty v p value flags).2 = .ok := by
  unfold setModelPath
  simp only [addr_isXmpPath ha, Bool.not_true, Bool.false_eq_true, if_false]
  apply set_ok_aux ha hparse hval _ _ _ (by omega) hw v hv
  · rcases hf with rfl | h
    · decide
    · split
      · decide
      · exact h.1
  · rcases hf with rfl | h
    · decide
    · split
      · decide
      · exact h.2

/-! ### Other paths -/

/-- `Apart ty p q`: the paths part ways somewhere: they name different fields of a struct or different
elements of an array.  Where they name different fields, the one of `q` has no `empty` option; the index of
`p` must be given where it ends in the array. -/
inductive Apart : Ty → Path → Path → Prop
  | field {z infos tys p q i j fi fj ft gt idx lang idx' lang'} (hp : Names infos tys p i fi ft idx lang)
      (hq : Names infos tys q j fj gt idx' lang') (hij : i ≠ j) (he : fj.empty = false) :
      Apart (.struct z infos tys) p q
  | deeper {z infos tys p q i fi ft idx lang idx' lang' z' infos' tys'} (hp : Names infos tys p i fi ft idx lang)
      (hq : Names infos tys q i fi ft idx' lang') (ht : ft.deref = .struct z' infos' tys')
      (hpl : 0 < p.popFront.2.len) (hql : 0 < q.popFront.2.len)
      (hr : Apart (.struct z' infos' tys') p.popFront.2 q.popFront.2) : Apart (.struct z infos tys) p q
  | index {z infos tys p q i fi ft idx lang idx' lang' a ety} (hp : Names infos tys p i fi ft idx lang)
      (hq : Names infos tys q i fi ft idx' lang') (ht : ft.deref = .slice a ety)
      (hi : idx.toNat ≠ idx'.toNat) (h0 : p.popFront.2.len = 0 → 0 ≤ idx) :
      Apart (.struct z infos tys) p q
  | item {z infos tys p q i fi ft idx lang idx' lang' a ety z' infos' tys'} (hp : Names infos tys p i fi ft idx lang)
      (hq : Names infos tys q i fi ft idx' lang') (ht : ft.deref = .slice a ety)
      (he : ety.deref = .struct z' infos' tys') (hi : idx.toNat = idx'.toNat)
      (hpl : 0 < p.popFront.2.len) (hql : 0 < q.popFront.2.len)
      (hr : Apart (.struct z' infos' tys') p.popFront.2 q.popFront.2) : Apart (.struct z infos tys) p q

theorem getField_ok {recur : Ty → Val → GetRes} {fi : FieldInfo} {fty : Ty} {fv : Val} {plen : Nat} {idx : Int}
    {lang s : Str} (h : getField recur fi fty fv plen idx lang = .ok s) (hs : s ≠ []) :
    fi.omitted = false ∧ (fi.empty = true ∨ isEmptyValue fty fv = false) ∧
    getDeref recur (derefVal fty fv).1 (derefVal fty fv).2 plen idx lang = .ok s := by
  unfold getField at h
  split at h
  · simp only [GetRes.ok.injEq] at h; exact absurd h.symm hs
  · split at h
    · simp only [GetRes.ok.injEq] at h; exact absurd h.symm hs
    · rename_i hc
      refine ⟨?_, ?_, h⟩
      · cases ho : fi.omitted with
        | false => rfl
        | true => simp [ho] at hc
      · cases he : fi.empty with
        | true => exact Or.inl rfl
        | false => right; cases hx : isEmptyValue fty fv with
          | false => rfl
          | true => simp [he, hx] at hc

theorem setField_slice_get {recur : Ty → Val → Val × SetRes} {a : ArrayType} {ety : Ty} {l sp : List Val} {plen : Nat}
    {idx : Int} {lang value : Str} {flags : SyncFlags} (hval : value ≠ []) (h0 : plen = 0 → 0 ≤ idx) {j : Nat}
    (hj : j < l.length) (hij : idx.toNat ≠ j) :
    ∃ l' sp', (setField recur (.slice a ety) (.slice l sp) plen idx lang value flags).1 = .slice l' sp' ∧
      l'[j]? = l[j]? := by
  unfold setField
  simp only
  split
  · split
    · split
      · exact ⟨l, sp, rfl, rfl⟩
      · split
        · exact ⟨l, sp, rfl, rfl⟩
        · refine ⟨_, _, rfl, ?_⟩
          rw [List.getElem?_set_ne hij, growSlice_get hj]
    · split
      · exact ⟨l, sp, rfl, rfl⟩
      · refine ⟨_, _, rfl, ?_⟩
        rw [List.getElem?_set_ne hij]
  · rename_i hpl
    have h00 := h0 (by omega)
    refine ⟨_, _, rfl, ?_⟩
    have h1 : ¬ idx = -1 := by omega
    have h2 : idx > -1 := by omega
    unfold setSliceEnd
    simp only [h1, h2, hval, ne_eq, not_false_eq_true, decide_true, decide_false, Bool.and_false, Bool.and_true,
      Bool.false_eq_true, if_false]
    split
    · cases hp : parseElem ety value with
      | none => rfl
      | some w =>
        simp only
        rw [List.getElem?_set_ne hij, growSlice_get hj]
    · rfl

theorem frame_aux {ty : Ty} {p q : Path} (ha : Apart ty p q) {value s : Str} (hval : value ≠ []) (hs : s ≠ [])
    (flags : SyncFlags) : ∀ (f g : Nat), p.len < f → q.len < g → ty.Wf → ZeroLaw ty → ∀ v, HasTy ty v →
      getModelPathF g ty v q = .ok s →
      getModelPathF g ty (setModelPathF value flags f ty v p).1 q = .ok s ∧
        isEmptyValue ty (setModelPathF value flags f ty v p).1 = false := by
  induction ha with
  | @field z infos tys p q i j fi fj ft gt idx lang idx' lang' hp hq hij he =>
    intro f g hf hg hw hz v hv hget
    obtain ⟨f, rfl⟩ : ∃ k, f = k + 1 := ⟨f - 1, by omega⟩
    obtain ⟨g, rfl⟩ : ∃ k, g = k + 1 := ⟨g - 1, by omega⟩
    cases v with
    | struct vals =>
      rw [HasTy] at hv
      have hty : tys[i]? = some ft := hp.2.2.2.2
      have htj : tys[j]? = some gt := hq.2.2.2.2
      have hlt : i < vals.length := by
        rw [hasTys_length hv]
        exact (List.getElem?_eq_some_iff.mp hty).1
      have hlj : j < vals.length := by
        rw [hasTys_length hv]
        exact (List.getElem?_eq_some_iff.mp htj).1
      obtain ⟨fv, hfv⟩ : ∃ fv, vals[i]? = some fv := ⟨vals[i], List.getElem?_eq_getElem hlt⟩
      obtain ⟨gv, hgv⟩ : ∃ gv, vals[j]? = some gv := ⟨vals[j], List.getElem?_eq_getElem hlj⟩
      have hfty := hasTys_get hv hty hfv
      rw [set_step hp hfv hfty]
      simp only
      have hgv' : ∀ x, (vals.set i x)[j]? = some gv := fun x => by rw [List.getElem?_set_ne hij, hgv]
      rw [get_step hq hgv] at hget
      constructor
      · rw [get_step hq (hgv' _)]; exact hget
      · refine struct_not_empty hz htj (hgv' _) ?_
        rcases (getField_ok hget hs).2.1 with h | h
        · rw [he] at h; cases h
        · exact h
    | _ => simp [HasTy] at hv
  | @deeper z infos tys p q i fi ft idx lang idx' lang' z' infos' tys' hp hq ht hpl hql hr ih =>
    intro f g hf hg hw hz v hv hget
    obtain ⟨f, rfl⟩ : ∃ k, f = k + 1 := ⟨f - 1, by omega⟩
    obtain ⟨g, rfl⟩ : ∃ k, g = k + 1 := ⟨g - 1, by omega⟩
    have hlp := len_popFront p (len_pos_of_popFront hp.1)
    have hlq := len_popFront q (len_pos_of_popFront hq.1)
    cases v with
    | struct vals =>
      rw [HasTy] at hv
      rw [Ty.Wf] at hw
      have hty : tys[i]? = some ft := hp.2.2.2.2
      have hlt : i < vals.length := by
        rw [hasTys_length hv]
        exact (List.getElem?_eq_some_iff.mp hty).1
      obtain ⟨fv, hfv⟩ : ∃ fv, vals[i]? = some fv := ⟨vals[i], List.getElem?_eq_getElem hlt⟩
      have hfty := hasTys_get hv hty hfv
      have hwf := wf_get hw.2 hty
      have hwd := wf_deref hwf
      have hzf := zeroLaw_deref (zeroLaw_get (by rw [ZeroLaw] at hz; exact hz.2) hty)
      have hd := hasTy_deref hfty
      rw [get_step hq hfv] at hget
      obtain ⟨ho, _, hgd⟩ := getField_ok hget hs
      rw [set_step hp hfv hfty]
      rw [derefVal_fst hfty] at hgd
      rw [ht] at hd hwd hzf hgd ⊢
      simp only
      generalize (derefVal ft fv).2 = dv at *
      cases dv with
      | struct dvals =>
        simp only [getDeref, if_pos hql] at hgd
        simp only [setField, if_pos hpl]
        have hih := ih f g (by omega) (by omega) hwd hzf _ hd hgd
        have htx := setModelPathF_typed value flags f _ _ p.popFront.2 hwd hd
        generalize (setModelPathF value flags f (.struct z' infos' tys') (.struct dvals) p.popFront.2).1 = x at *
        have hex : isEmptyValue ft.deref x = false := by rw [ht]; exact hih.2
        have hgx : (vals.set i (rewrap ft x))[i]? = some (rewrap ft x) := by
          rw [List.getElem?_set_self hlt]
        constructor
        · rw [get_step hq hgx, getField_rewrap (by rw [ht]; exact htx) hwf ho hex, ht]
          cases x with
          | struct xs => simp only [getDeref, if_pos hql]; exact hih.1
          | _ => simp [HasTy] at htx
        · exact struct_not_empty hz hty hgx (isEmpty_rewrap hex)
      | _ => simp [HasTy] at hd
    | _ => simp [HasTy] at hv
  | @index z infos tys p q i fi ft idx lang idx' lang' a ety hp hq ht hi h0 =>
    intro f g hf hg hw hz v hv hget
    obtain ⟨f, rfl⟩ : ∃ k, f = k + 1 := ⟨f - 1, by omega⟩
    obtain ⟨g, rfl⟩ : ∃ k, g = k + 1 := ⟨g - 1, by omega⟩
    cases v with
    | struct vals =>
      rw [HasTy] at hv
      rw [Ty.Wf] at hw
      have hty : tys[i]? = some ft := hp.2.2.2.2
      have hlt : i < vals.length := by
        rw [hasTys_length hv]
        exact (List.getElem?_eq_some_iff.mp hty).1
      obtain ⟨fv, hfv⟩ : ∃ fv, vals[i]? = some fv := ⟨vals[i], List.getElem?_eq_getElem hlt⟩
      have hfty := hasTys_get hv hty hfv
      have hwf := wf_get hw.2 hty
      have hwd := wf_deref hwf
      have hd := hasTy_deref hfty
      rw [get_step hq hfv] at hget
      obtain ⟨ho, _, hgd⟩ := getField_ok hget hs
      rw [set_step hp hfv hfty]
      rw [derefVal_fst hfty] at hgd
      rw [ht] at hd hwd hgd ⊢
      simp only
      have htx := setField_typed (recur := fun t v => setModelPathF value flags f t v p.popFront.2)
        (plen := p.popFront.2.len) (idx := idx) (lang := lang) (value := value) (flags := flags) hwd hd
        (fun t v a b => setModelPathF_typed value flags f t v _ a b)
      generalize (derefVal ft fv).2 = dv at *
      cases dv with
      | slice l sp =>
        have hj : idx'.toNat < l.length := by
          by_contra hc
          have hnone : l[idx'.toNat]? = none := List.getElem?_eq_none (by omega)
          simp [getDeref, hnone] at hgd
        obtain ⟨l', sp', hsl, hlj⟩ := setField_slice_get
          (recur := fun t v => setModelPathF value flags f t v p.popFront.2) (a := a) (ety := ety) (sp := sp) (lang := lang)
          (flags := flags) hval h0 hj hi
        rw [hsl] at htx ⊢
        have hex : isEmptyValue ft.deref (.slice l' sp') = false := by
          rw [ht, isEmptyValue]
          cases l' with
          | nil => rw [List.getElem?_eq_getElem hj] at hlj; simp at hlj
          | cons y ys => rfl
        have hgx : (vals.set i (rewrap ft (.slice l' sp')))[i]? = some (rewrap ft (.slice l' sp')) := by
          rw [List.getElem?_set_self hlt]
        constructor
        · rw [get_step hq hgx, getField_rewrap (by rw [ht]; exact htx) hwf ho hex, ht]
          simp only [getDeref, hlj] at hgd ⊢
          exact hgd
        · exact struct_not_empty hz hty hgx (isEmpty_rewrap hex)
      | _ => simp [HasTy] at hd
    | _ => simp [HasTy] at hv
  | @item z infos tys p q i fi ft idx lang idx' lang' a ety z' infos' tys' hp hq ht he hi hpl hql hr ih =>
    intro f g hf hg hw hz v hv hget
    obtain ⟨f, rfl⟩ : ∃ k, f = k + 1 := ⟨f - 1, by omega⟩
    obtain ⟨g, rfl⟩ : ∃ k, g = k + 1 := ⟨g - 1, by omega⟩
    have hlp := len_popFront p (len_pos_of_popFront hp.1)
    have hlq := len_popFront q (len_pos_of_popFront hq.1)
    cases v with
    | struct vals =>
      rw [HasTy] at hv
      rw [Ty.Wf] at hw
      have hty : tys[i]? = some ft := hp.2.2.2.2
      have hlt : i < vals.length := by
        rw [hasTys_length hv]
        exact (List.getElem?_eq_some_iff.mp hty).1
      obtain ⟨fv, hfv⟩ : ∃ fv, vals[i]? = some fv := ⟨vals[i], List.getElem?_eq_getElem hlt⟩
      have hfty := hasTys_get hv hty hfv
      have hwf := wf_get hw.2 hty
      have hwd := wf_deref hwf
      have hzf := zeroLaw_deref (zeroLaw_get (by rw [ZeroLaw] at hz; exact hz.2) hty)
      have hd := hasTy_deref hfty
      rw [get_step hq hfv] at hget
      obtain ⟨ho, _, hgd⟩ := getField_ok hget hs
      rw [set_step hp hfv hfty]
      rw [derefVal_fst hfty] at hgd
      rw [ht] at hd hwd hzf hgd ⊢
      have hwe : ety.Wf := by rw [Ty.Wf] at hwd; exact hwd
      have hze : ZeroLaw ety := by rw [ZeroLaw] at hzf; exact hzf
      have hwed := wf_deref hwe
      have hzed := zeroLaw_deref hze
      rw [he] at hwed hzed
      simp only
      generalize (derefVal ft fv).2 = dv at *
      cases dv with
      | slice l sp =>
        have hj : idx'.toNat < l.length := by
          by_contra hc
          have hnone : l[idx'.toNat]? = none := List.getElem?_eq_none (by omega)
          simp [getDeref, hnone] at hgd
        rw [HasTy] at hd
        have hle : ¬ l.length ≤ idx.toNat := by omega
        have hlt' : idx.toNat < l.length := by omega
        have hgete : l[idx.toNat]? = some l[idx.toNat] := List.getElem?_eq_getElem hlt'
        have hte := hd.1 _ (List.getElem_mem hlt')
        have hte2 := hasTy_deref hte
        simp only [setField, if_pos hpl, if_neg hle, hgete, derefVal_fst hte]
        simp only [getDeref, if_pos hql, ← hi, hgete, derefVal_fst hte] at hgd
        rw [he] at hte2 hgd ⊢
        have hih := ih f g (by omega) (by omega) hwed hzed _ hte2 hgd
        have htx := setModelPathF_typed value flags f _ _ p.popFront.2 hwed hte2
        generalize (setModelPathF value flags f (.struct z' infos' tys') (derefVal ety l[idx.toNat]).2 p.popFront.2).1 = x at *
        have hex : isEmptyValue ft.deref (.slice (l.set idx.toNat (rewrap ety x)) sp) = false := by
          rw [ht, isEmptyValue]
          cases l with
          | nil => simp at hlt'
          | cons y ys => cases idx.toNat <;> rfl
        have htl : HasTy ft.deref (.slice (l.set idx.toNat (rewrap ety x)) sp) := by
          rw [ht, HasTy]
          refine ⟨?_, hd.2⟩
          intro y hy
          rcases mem_set_of hy with h | rfl
          · exact hd.1 y h
          · exact hasTy_rewrap (by rw [he]; exact htx)
        have hgx : (vals.set i (rewrap ft (.slice (l.set idx.toNat (rewrap ety x)) sp)))[i]? =
            some (rewrap ft (.slice (l.set idx.toNat (rewrap ety x)) sp)) := by
          rw [List.getElem?_set_self hlt]
        constructor
        · rw [get_step hq hgx, getField_rewrap htl hwf ho hex, ht]
          simp only [getDeref, ← hi, List.getElem?_set_self hlt', if_pos hql, derefVal_rewrap]
          rw [he]
          exact hih.1
        · exact struct_not_empty hz hty hgx (isEmpty_rewrap hex)
      | _ => simp [HasTy] at hd
    | _ => simp [HasTy] at hv

/-- C32: writing a non-empty string to one path, successfully or not, does not change what is read from any
path that parts from it. -/
theorem model_frame {ty : Ty} {p q : Path} (ha : Apart ty p q) (hw : ty.Wf) (hz : ZeroLaw ty) {v : Val}
    (hv : HasTy ty v) {value s : Str} (hval : value ≠ []) (hs : s ≠ []) (flags : SyncFlags)
    (hget : getModelPath ty v q = .ok s) :
    getModelPath ty (setModelPath ty v p value flags).1 q = .ok s := by
  unfold setModelPath
  simp only
  split
  · exact hget
  · exact (frame_aux ha hval hs _ _ _ (by omega) (by omega) hw hz v hv hget).1

/-! ### Language alternatives -/

/-- `Leads ty p sty q`: following the first segments of `p` from a struct of type `ty` leads, through struct
fields and array elements, to a struct of type `sty` in which the rest `q` of the path is looked up. -/
inductive Leads : Ty → Path → Ty → Path → Prop
  | here {z infos tys p} : Leads (.struct z infos tys) p (.struct z infos tys) p
  | field {z infos tys p i fi fty z' infos' tys' sty q idx lang} (hn : Names infos tys p i fi fty idx lang)
      (ho : fi.omitted = false) (ht : fty.deref = .struct z' infos' tys') (hp : 0 < p.popFront.2.len)
      (hr : Leads (.struct z' infos' tys') p.popFront.2 sty q) : Leads (.struct z infos tys) p sty q
  | item {z infos tys p i fi fty a ety z' infos' tys' sty q idx lang} (hn : Names infos tys p i fi fty idx lang)
      (ho : fi.omitted = false) (ht : fty.deref = .slice a ety) (he : ety.deref = .struct z' infos' tys')
      (hp : 0 < p.popFront.2.len)
      (hr : Leads (.struct z' infos' tys') p.popFront.2 sty q) : Leads (.struct z infos tys) p sty q

/-- A write through a path is a write to the struct it leads to (or fails on the way), and what is written
there is read through the path unless the struct counts as empty. -/
theorem lift_set {ty sty : Ty} {p q : Path} (ha : Leads ty p sty q) {value : Str} (hval : value ≠ [])
    (flags : SyncFlags) : ∀ (f : Nat), p.len < f → ty.Wf → ZeroLaw ty → ∀ v, HasTy ty v →
      (∃ f' u, q.len < f' ∧ HasTy sty u ∧ sty.Wf ∧ ZeroLaw sty ∧
        (setModelPathF value flags f ty v p).2 = (setModelPathF value flags f' sty u q).2 ∧
        (isEmptyValue sty (setModelPathF value flags f' sty u q).1 = false →
          getModelPathF f ty (setModelPathF value flags f ty v p).1 p =
            getModelPathF f' sty (setModelPathF value flags f' sty u q).1 q ∧
          isEmptyValue ty (setModelPathF value flags f ty v p).1 = false)) ∨
      (setModelPathF value flags f ty v p).2 ≠ .ok := by
  induction ha with
  | here =>
    intro f hf hw hz v hv
    exact Or.inl ⟨f, v, hf, hv, hw, hz, rfl, fun h => ⟨rfl, h⟩⟩
  | @field z infos tys p i fi fty z' infos' tys' sty q idx lang hn ho ht hp hr ih =>
    intro f hf hw hz v hv
    obtain ⟨g, rfl⟩ : ∃ g, f = g + 1 := ⟨f - 1, by omega⟩
    have hlen := len_popFront p (len_pos_of_popFront hn.1)
    cases v with
    | struct vals =>
      rw [HasTy] at hv
      rw [Ty.Wf] at hw
      have hty : tys[i]? = some fty := hn.2.2.2.2
      have hlt : i < vals.length := by
        rw [hasTys_length hv]
        exact (List.getElem?_eq_some_iff.mp hty).1
      obtain ⟨fv, hfv⟩ : ∃ fv, vals[i]? = some fv := ⟨vals[i], List.getElem?_eq_getElem hlt⟩
      have hfty := hasTys_get hv hty hfv
      have hwf := wf_get hw.2 hty
      have hzf := zeroLaw_deref (zeroLaw_get (by rw [ZeroLaw] at hz; exact hz.2) hty)
      have hd := hasTy_deref hfty
      have hwd := wf_deref hwf
      rw [set_step hn hfv hfty]
      rw [ht] at hd hzf hwd ⊢
      generalize (derefVal fty fv).2 = dv at *
      cases dv with
      | struct dvals =>
        simp only [setField, if_pos hp]
        rcases ih g (by omega) hwd hzf _ hd with ⟨f', u, h1, h2, h3, h4, h5, h6⟩ | h
        · refine Or.inl ⟨f', u, h1, h2, h3, h4, h5, ?_⟩
          intro hemp
          have hih := h6 hemp
          have htx := setModelPathF_typed value flags g _ _ p.popFront.2 hwd hd
          generalize (setModelPathF value flags g (.struct z' infos' tys') (.struct dvals) p.popFront.2).1 = x at *
          have hex : isEmptyValue fty.deref x = false := by rw [ht]; exact hih.2
          have hget : (vals.set i (rewrap fty x))[i]? = some (rewrap fty x) := by
            rw [List.getElem?_set_self hlt]
          constructor
          · rw [get_step hn hget, getField_rewrap (by rw [ht]; exact htx) hwf ho hex, ht]
            cases x with
            | struct xs => simp only [getDeref, if_pos hp]; exact hih.1
            | _ => simp [HasTy] at htx
          · exact struct_not_empty hz hty hget (isEmpty_rewrap hex)
        · exact Or.inr h
      | _ => simp [HasTy] at hd
    | _ => simp [HasTy] at hv
  | @item z infos tys p i fi fty a ety z' infos' tys' sty q idx lang hn ho ht he hp hr ih =>
    intro f hf hw hz v hv
    obtain ⟨g, rfl⟩ : ∃ g, f = g + 1 := ⟨f - 1, by omega⟩
    have hlen := len_popFront p (len_pos_of_popFront hn.1)
    cases v with
    | struct vals =>
      rw [HasTy] at hv
      rw [Ty.Wf] at hw
      have hty : tys[i]? = some fty := hn.2.2.2.2
      have hlt : i < vals.length := by
        rw [hasTys_length hv]
        exact (List.getElem?_eq_some_iff.mp hty).1
      obtain ⟨fv, hfv⟩ : ∃ fv, vals[i]? = some fv := ⟨vals[i], List.getElem?_eq_getElem hlt⟩
      have hfty := hasTys_get hv hty hfv
      have hwf := wf_get hw.2 hty
      have hzf := zeroLaw_deref (zeroLaw_get (by rw [ZeroLaw] at hz; exact hz.2) hty)
      have hd := hasTy_deref hfty
      have hwd := wf_deref hwf
      rw [set_step hn hfv hfty]
      rw [ht] at hd hzf hwd ⊢
      have hwe : ety.Wf := by rw [Ty.Wf] at hwd; exact hwd
      have hze : ZeroLaw ety := by rw [ZeroLaw] at hzf; exact hzf
      have hwed := wf_deref hwe
      have hzed := zeroLaw_deref hze
      rw [he] at hwed hzed
      generalize (derefVal fty fv).2 = dv at *
      cases dv with
      | slice l sp =>
        obtain ⟨e, l', sp', hee, hl', hs', hli, hsf⟩ : ∃ (e : Val) (l' sp' : List Val), HasTy ety.deref e ∧
            (∀ x ∈ l', HasTy ety x) ∧ (∀ x ∈ sp', HasTy ety x) ∧ idx.toNat < l'.length ∧
            (setField (fun t v => setModelPathF value flags g t v p.popFront.2) (.slice a ety) (.slice l sp)
              p.popFront.2.len idx lang value flags =
            (.slice (l'.set idx.toNat (rewrap ety (setModelPathF value flags g ety.deref e p.popFront.2).1)) sp',
              (setModelPathF value flags g ety.deref e p.popFront.2).2) ∨
            (setField (fun t v => setModelPathF value flags g t v p.popFront.2) (.slice a ety) (.slice l sp)
              p.popFront.2.len idx lang value flags).2 ≠ .ok) := by
          rw [HasTy] at hd
          by_cases hlen' : l.length ≤ idx.toNat
          · by_cases hc : flags.has (CREATE ||| APPEND) = true
            · have hz1 := derefVal_fst (hasTy_zero ety)
              have hz2 := hasTy_deref (hasTy_zero ety)
              refine ⟨(derefVal ety ety.zero).2, (growSlice ety idx.toNat l sp).1, (growSlice ety idx.toNat l sp).2,
                hz2, (growSlice_typed hd.1 hd.2).1, (growSlice_typed hd.1 hd.2).2, growSlice_length, Or.inl ?_⟩
              simp only [setField, if_pos hp, if_pos hlen', hval, decide_false, Bool.and_false, Bool.false_eq_true,
                if_false, hc, Bool.not_true, hz1]
              rw [he]
            · refine ⟨(derefVal ety ety.zero).2, (growSlice ety idx.toNat l sp).1, [], hasTy_deref (hasTy_zero ety),
                (growSlice_typed hd.1 hd.2).1, by simp, growSlice_length, Or.inr ?_⟩
              simp [setField, if_pos hp, if_pos hlen', hval, hc]
          · have hlt' : idx.toNat < l.length := by omega
            have hgete : l[idx.toNat]? = some l[idx.toNat] := List.getElem?_eq_getElem hlt'
            have hte := hd.1 _ (List.getElem_mem hlt')
            refine ⟨(derefVal ety l[idx.toNat]).2, l, sp, hasTy_deref hte, hd.1, hd.2, hlt', Or.inl ?_⟩
            simp only [setField, if_pos hp, if_neg hlen', hgete, derefVal_fst hte]
        rcases hsf with hsf | hsf
        · rw [hsf]
          rw [he] at hee
          simp only [he]
          rcases ih g (by omega) hwed hzed _ hee with ⟨f', u, h1, h2, h3, h4, h5, h6⟩ | h
          · refine Or.inl ⟨f', u, h1, h2, h3, h4, h5, ?_⟩
            intro hemp
            have hih := h6 hemp
            have htx := setModelPathF_typed value flags g _ _ p.popFront.2 hwed hee
            generalize (setModelPathF value flags g (.struct z' infos' tys') e p.popFront.2).1 = x at *
            have hex : isEmptyValue fty.deref (.slice (l'.set idx.toNat (rewrap ety x)) sp') = false := by
              rw [ht, isEmptyValue]
              cases l' with
              | nil => simp at hli
              | cons y ys => cases idx.toNat <;> rfl
            have htl : HasTy fty.deref (.slice (l'.set idx.toNat (rewrap ety x)) sp') := by
              rw [ht, HasTy]
              refine ⟨?_, hs'⟩
              intro y hy
              rcases mem_set_of hy with h | rfl
              · exact hl' y h
              · exact hasTy_rewrap (by rw [he]; exact htx)
            have hget : (vals.set i (rewrap fty (.slice (l'.set idx.toNat (rewrap ety x)) sp')))[i]? =
                some (rewrap fty (.slice (l'.set idx.toNat (rewrap ety x)) sp')) := by
              rw [List.getElem?_set_self hlt]
            constructor
            · rw [get_step hn hget, getField_rewrap htl hwf ho hex, ht]
              simp only [getDeref, List.getElem?_set_self hli, if_pos hp, derefVal_rewrap]
              rw [he]
              exact hih.1
            · exact struct_not_empty hz hty hget (isEmpty_rewrap hex)
          · exact Or.inr h
        · exact Or.inr hsf
      | _ => simp [HasTy] at hd
    | _ => simp [HasTy] at hv

/-- Setting a language of any alternative, if it does not panic, makes the text readable. -/
theorem alt_set_get {a b : AltString} {lang value : Str} (hl : lang ≠ []) (hv : value ≠ [])
    (h : a.set lang value = some b) : b.get lang = value := by
  rw [AltString.set, if_neg hv] at h
  rw [AltString.get, if_neg hl]
  cases hi : a.index lang with
  | some i =>
    rw [hi] at h
    simp only [Option.some.injEq] at h
    subst h
    have hi' : a.findIdx? (fun x => decide (x.lang = lang)) = some i := hi
    rw [find?_modify_value a i value _ (fun x => rfl), if_pos hi']
    obtain ⟨x, hx, _⟩ := find?_some_of_findIdx? hi'
    rw [hx]
    rfl
  | none =>
    rw [hi] at h
    simp only [AltString.add, if_neg hv] at h
    have hno : ∀ x ∈ a, x.lang ≠ lang := by
      intro x hx hxl
      have hi' : a.findIdx? (fun x => decide (x.lang = lang)) = none := hi
      rw [List.findIdx?_eq_none_iff] at hi'
      have := hi' x hx
      simp [hxl] at this
    have hp := ((ensureDefault_spec _).2 b h).2.1
    have hmem : ∀ x ∈ b, x.lang = lang → x.value = value := by
      intro x hx hxl
      have h1 : (x.value, x.lang) ∈ b.map (fun x => (x.value, x.lang)) := List.mem_map_of_mem hx
      have h2 := hp.mem_iff.mp h1
      simp only [List.map_append, List.map_cons, List.map_nil, List.mem_append, List.mem_map, List.mem_singleton] at h2
      rcases h2 with ⟨y, hy, hyx⟩ | h2
      · simp only [Prod.mk.injEq] at hyx
        exact absurd (hyx.2.trans hxl) (hno y hy)
      · simp only [Prod.mk.injEq] at h2; exact h2.1
    have hex : ∃ x ∈ b, x.lang = lang := by
      have h1 : (value, lang) ∈ b.map (fun x => (x.value, x.lang)) := hp.mem_iff.mpr (by simp)
      simp only [List.mem_map, Prod.mk.injEq] at h1
      obtain ⟨x, hx, _, hxl⟩ := h1
      exact ⟨x, hx, hxl⟩
    cases hf : b.find? (fun x => decide (x.lang = lang)) with
    | none =>
      obtain ⟨x, hx, hxl⟩ := hex
      rw [List.find?_eq_none] at hf
      have := hf x hx
      simp [hxl] at this
    | some y =>
      have h1 := List.mem_of_find?_eq_some hf
      have h2 := List.find?_some hf
      exact hmem y h1 (by simpa using h2)

theorem alt_set_ne_nil {a b : AltString} {lang value : Str} (hv : value ≠ [])
    (h : a.set lang value = some b) : b ≠ [] := by
  rw [AltString.set, if_neg hv] at h
  cases hi : a.index lang with
  | some i =>
    rw [hi] at h
    simp only [Option.some.injEq] at h
    subst h
    intro h0
    have := congrArg List.length h0
    simp only [List.length_modify, List.length_nil] at this
    rw [List.length_eq_zero_iff] at this
    subst this
    simp [AltString.index] at hi
  | none =>
    rw [hi] at h
    simp only [AltString.add, if_neg hv] at h
    have hp := ((ensureDefault_spec _).2 b h).2.1
    intro h0
    subst h0
    have := hp.length_eq
    simp at this

/-- C32 for language alternatives: after a successful write of a text in a language (or, without a language,
of the default text) with flags that replace, reading the same path returns the text. -/
theorem model_read_after_write_alt {ty : Ty} {z : Option (List Val → Bool)} {infos : List FieldInfo} {tys : List Ty}
    {p q : Path} (ha : Leads ty p (.struct z infos tys) q) {i : Nat} {fi : FieldInfo} {fty : Ty} {idx : Int}
    {lang : Str} (hn : Names infos tys q i fi fty idx lang) (ho : fi.omitted = false) (ht : fty.deref = .alt)
    (hw : ty.Wf) (hz : ZeroLaw ty) {v v' : Val} (hv : HasTy ty v) {value : Str} (hval : value ≠ [])
    {flags : SyncFlags} (h0 : flags ≠ 0) (hU : flags.has UNIQUE = false) (hA : flags.has APPEND = false)
    (hset : setModelPath ty v p value flags = (v', .ok)) (hR : flags.has (REPLACE ||| CREATE) = true) :
    getModelPath ty v' p = .ok value := by
  unfold setModelPath at hset
  simp only [if_neg h0] at hset
  split at hset
  · simp at hset
  · unfold getModelPath
    rcases lift_set ha hval flags (p.len + 1) (by omega) hw hz v hv with ⟨f', u, h1, h2, h3, h4, h5, h6⟩ | h
    · rw [hset] at h5 h6
      simp only at h5 h6
      obtain ⟨g, rfl⟩ : ∃ g, f' = g + 1 := ⟨f' - 1, by omega⟩
      cases u with
      | struct vals =>
        rw [HasTy] at h2
        rw [Ty.Wf] at h3
        have hty : tys[i]? = some fty := hn.2.2.2.2
        have hlt : i < vals.length := by
          rw [hasTys_length h2]
          exact (List.getElem?_eq_some_iff.mp hty).1
        obtain ⟨fv, hfv⟩ : ∃ fv, vals[i]? = some fv := ⟨vals[i], List.getElem?_eq_getElem hlt⟩
        have hfty := hasTys_get h2 hty hfv
        have hwf := wf_get h3.2 hty
        have hd := hasTy_deref hfty
        rw [set_step hn hfv hfty] at h5 h6
        rw [ht] at hd h5 h6
        generalize (derefVal fty fv).2 = dv at *
        cases dv with
        | alt a =>
          simp only [setField] at h5 h6
          have hsa : ∃ b, setAltField a lang value flags = (b, .ok) ∧ b ≠ [] ∧
              (if lang ≠ [] then b.get lang else b.default) = value := by
            unfold setAltField at h5 ⊢
            simp only [hU, hA, hR, hval, Bool.false_and, Bool.false_eq_true, if_false, ne_eq, not_false_eq_true, decide_true,
              Bool.and_self, if_true] at h5 ⊢
            by_cases hl : lang = []
            · simp only [hl, not_true_eq_false, if_false] at h5 ⊢
              have hnew : AltString.new [.str value] = some [{ value := value, isDefault := true }] := by
                simp [AltString.new, AltString.Arg.toItems, hval, AltString.ensureDefault]
              rw [hnew]
              exact ⟨_, rfl, by simp, by simp [AltString.default]⟩
            · simp only [hl, not_false_eq_true, if_true] at h5 ⊢
              cases hs : a.set lang value with
              | none => rw [hs] at h5; simp at h5
              | some b => exact ⟨b, rfl, alt_set_ne_nil hval hs, alt_set_get hl hval hs⟩
          obtain ⟨b, hb, hbn, hbv⟩ := hsa
          rw [hb] at h6
          simp only at h6
          have hex : isEmptyValue fty.deref (.alt b) = false := by
            rw [ht, isEmptyValue]
            cases b with
            | nil => exact absurd rfl hbn
            | cons x xs => rfl
          have hget : (vals.set i (rewrap fty (.alt b)))[i]? = some (rewrap fty (.alt b)) := by
            rw [List.getElem?_set_self hlt]
          rw [(h6 (struct_not_empty h4 hty hget (isEmpty_rewrap hex))).1, get_step hn hget,
            getField_rewrap (by rw [ht]; simp [HasTy]) hwf ho hex, ht]
          simp only [getDeref]
          split at hbv
          · rename_i hl; rw [if_pos hl, hbv]
          · rename_i hl; rw [if_neg hl, hbv]
        | _ => simp [HasTy] at hd
      | _ => simp [HasTy] at h2
    · rw [hset] at h; exact absurd rfl h

end Xmp.Props
