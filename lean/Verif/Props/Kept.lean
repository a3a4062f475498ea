import Verif.Props.ModelPath

/-! Writing to a typed model without the replace flag keeps the simple values that are there (C42). -/

namespace Xmp.Props

open GoStr SyncFlags

/-! ### Specification -/

/-- `Simple ty q t`: in structs of type `ty`, the path `q` leads through struct fields and array elements that
are structs to a field of the leaf type `t` that is neither a pointer nor has one of the options `omit` and
`empty`. -/
inductive Simple : Ty → Path → Ty → Prop
  | leaf {z infos tys q i fi t idx lang} (hn : Names infos tys q i fi t idx lang) (ho : fi.omitted = false)
      (he : fi.empty = false) (hl : IsLeaf t) : Simple (.struct z infos tys) q t
  | field {z infos tys q i fi fty z' infos' tys' t idx lang} (hn : Names infos tys q i fi fty idx lang)
      (ht : fty.deref = .struct z' infos' tys') (hp : 0 < q.popFront.2.len)
      (hr : Simple (.struct z' infos' tys') q.popFront.2 t) : Simple (.struct z infos tys) q t
  | item {z infos tys q i fi fty a ety z' infos' tys' t idx lang} (hn : Names infos tys q i fi fty idx lang)
      (ht : fty.deref = .slice a ety) (he : ety.deref = .struct z' infos' tys')
      (hp : 0 < q.popFront.2.len)
      (hr : Simple (.struct z' infos' tys') q.popFront.2 t) : Simple (.struct z infos tys) q t

/-- `Straight ty q`: in structs of type `ty`, the path `q` leads through struct fields to a string field,
neither of them with the options `omit` and `empty`. -/
inductive Straight : Ty → Path → Prop
  | leaf {z infos tys q i fi idx lang} (hn : Names infos tys q i fi .str idx lang) (ho : fi.omitted = false)
      (he : fi.empty = false) : Straight (.struct z infos tys) q
  | field {z infos tys q i fi fty z' infos' tys' idx lang} (hn : Names infos tys q i fi fty idx lang)
      (ho : fi.omitted = false) (he : fi.empty = false)
      (ht : fty.deref = .struct z' infos' tys') (hp : 0 < q.popFront.2.len)
      (hr : Straight (.struct z' infos' tys') q.popFront.2) : Straight (.struct z infos tys) q

/-! ### Helper lemmas -/

/-- A write changes at most one field. -/
theorem set_cases (value : Str) (flags : SyncFlags) (f : Nat) (z : Option (List Val → Bool)) (infos : List FieldInfo)
    (tys : List Ty) (vals : List Val) (p : Path) (hv : HasTys tys vals) :
    (setModelPathF value flags f (.struct z infos tys) (.struct vals) p).1 = .struct vals ∨
    ∃ i fty fv g idx lang, tys[i]? = some fty ∧ vals[i]? = some fv ∧
      (setModelPathF value flags f (.struct z infos tys) (.struct vals) p).1 =
        .struct (vals.set i (rewrap fty (setField (fun t v => setModelPathF value flags g t v p.popFront.2)
          fty.deref (derefVal fty fv).2 p.popFront.2.len idx lang value flags).1)) := by
  cases f with
  | zero => exact Or.inl rfl
  | succ g =>
    rw [setModelPathF]
    simp only
    split
    · exact Or.inl rfl
    · split
      · exact Or.inl rfl
      · cases hf : findField infos (parsePathSegment p.popFront.1).1 with
        | none => exact Or.inl rfl
        | some i =>
          simp only
          cases ht : tys[i]? with
          | none => exact Or.inl rfl
          | some fty =>
            cases hvi : vals[i]? with
            | none => exact Or.inl rfl
            | some fv =>
              right
              refine ⟨i, fty, fv, g, (parsePathSegment p.popFront.1).2.1, (parsePathSegment p.popFront.1).2.2, ht, hvi, ?_⟩
              rw [← derefVal_fst (hasTys_get hv ht hvi)]

/-- Text does not make a struct, nor a pointer to one. -/
theorem parse_struct {t : Ty} {z infos tys} (h : t.deref = .struct z infos tys) (v : Val) (s : Str) :
    parseLeaf t v s = none := by
  cases t with
  | struct z i t => simp [parseLeaf, setValue]
  | ptr t => simp [parseLeaf, setValue]
  | _ => simp [Ty.deref] at h

/-- At the end of a path, an array of structs is not changed by a value that is not empty. -/
theorem setSliceEnd_structs {ety : Ty} {z infos tys} (h : ety.deref = .struct z infos tys) (l sp : List Val) (idx : Int)
    {value : Str} (hval : value ≠ []) (flags : SyncFlags) : (setSliceEnd ety l sp idx value flags).1 = (l, sp) := by
  have hp : parseElem ety value = none := parse_struct h _ _
  unfold setSliceEnd
  simp only [hp, hval, decide_false, Bool.and_false, Bool.false_and, Bool.false_eq_true, if_false]
  split
  · split <;> rfl
  · split
    · rfl
    · split
      · rfl
      · split <;> rfl

theorem setSimple_struct {z infos tys} (v : Val) (value : Str) (flags : SyncFlags) :
    (setSimple (.struct z infos tys) v value flags).1 = v := by
  unfold setSimple
  rw [parse_struct rfl]
  split <;> rfl

theorem rewrap_deref {t : Ty} {v : Val} (hv : HasTy t v) (hn : v ≠ .nil) : rewrap t (derefVal t v).2 = v := by
  cases t with
  | ptr t =>
    cases v with
    | nil => exact absurd rfl hn
    | ptr v => rfl
    | _ => simp [HasTy] at hv
  | _ => cases v <;> rfl

theorem getField_nil {recur : Ty → Val → GetRes} {fi : FieldInfo} {fty : Ty} {plen : Nat} {idx : Int} {lang : Str} :
    getField recur fi fty .nil plen idx lang = .ok [] := rfl

theorem kept_aux {ty t : Ty} {q : Path} (hk : Simple ty q t) {value s : Str} (hval : value ≠ []) (hs : s ≠ [])
    {flags : SyncFlags} (hR : flags.has REPLACE = false) : ∀ (g : Nat), q.len < g → ty.Wf → ZeroLaw ty → ∀ v, HasTy ty v →
      getModelPathF g ty v q = .ok s → isEmptyValue ty v = false ∧ ∀ (f : Nat) (p : Path),
      getModelPathF g ty (setModelPathF value flags f ty v p).1 q = .ok s ∧
        isEmptyValue ty (setModelPathF value flags f ty v p).1 = false := by
  induction hk with
  | @leaf z infos tys q j fj t idx' lang' hn ho he hl =>
    intro g hg hw hz v hv hget
    obtain ⟨g, rfl⟩ : ∃ k, g = k + 1 := ⟨g - 1, by omega⟩
    cases v with
    | struct vals =>
      rw [HasTy] at hv
      have htj : tys[j]? = some t := hn.2.2.2.2
      have hlj : j < vals.length := by
        rw [hasTys_length hv]
        exact (List.getElem?_eq_some_iff.mp htj).1
      obtain ⟨gv, hgv⟩ : ∃ gv, vals[j]? = some gv := ⟨vals[j], List.getElem?_eq_getElem hlj⟩
      have hread := hget
      rw [get_step hn hgv] at hread
      have hne : isEmptyValue t gv = false := by
        rcases (getField_ok hread hs).2.1 with h | h
        · rw [he] at h; cases h
        · exact h
      have h0 := struct_not_empty hz htj hgv hne
      refine ⟨h0, ?_⟩
      intro f p
      rcases set_cases value flags f z infos tys vals p hv with h | ⟨i, fty, fv, g', idx, lang, hti, hvi, h⟩
      · rw [h]; exact ⟨hget, h0⟩
      · have hsame : (vals.set i (rewrap fty (setField (fun t v => setModelPathF value flags g' t v p.popFront.2)
            fty.deref (derefVal fty fv).2 p.popFront.2.len idx lang value flags).1))[j]? = some gv := by
          by_cases hij : i = j
          · subst hij
            rw [htj] at hti
            cases hti
            rw [hgv] at hvi
            cases hvi
            rw [List.getElem?_set_self hlj]
            have hd : t.deref = t := by cases t <;> simp [IsLeaf] at hl <;> rfl
            have hdv : (derefVal t gv).2 = gv := by rw [leaf_deref hl]
            have hrw : ∀ x, rewrap t x = x := by intro x; cases t <;> simp [IsLeaf] at hl <;> rfl
            rw [hd, leaf_setField hl, hdv, hrw]
            unfold setSimple
            rw [hR, hne]
            simp [hval]
          · rw [List.getElem?_set_ne hij, hgv]
        rw [h]
        refine ⟨?_, struct_not_empty hz htj hsame hne⟩
        rw [get_step hn hsame]
        exact hread
    | _ => simp [HasTy] at hv
  | @field z infos tys q j fj gty z' infos' tys' t idx' lang' hn ht hp hr ih =>
    intro g hg hw hz v hv hget
    obtain ⟨g, rfl⟩ : ∃ k, g = k + 1 := ⟨g - 1, by omega⟩
    have hlq := len_popFront q (len_pos_of_popFront hn.1)
    cases v with
    | struct vals =>
      rw [HasTy] at hv
      rw [Ty.Wf] at hw
      have htj : tys[j]? = some gty := hn.2.2.2.2
      have hlj : j < vals.length := by
        rw [hasTys_length hv]
        exact (List.getElem?_eq_some_iff.mp htj).1
      obtain ⟨gv, hgv⟩ : ∃ gv, vals[j]? = some gv := ⟨vals[j], List.getElem?_eq_getElem hlj⟩
      have hgt := hasTys_get hv htj hgv
      have hwf := wf_get hw.2 htj
      have hwd := wf_deref hwf
      have hzf := zeroLaw_deref (zeroLaw_get (by rw [ZeroLaw] at hz; exact hz.2) htj)
      have hd := hasTy_deref hgt
      have hread := hget
      rw [get_step hn hgv] at hread
      have hnil : gv ≠ .nil := by
        rintro rfl
        rw [getField_nil] at hread
        simp only [GetRes.ok.injEq] at hread
        exact hs hread.symm
      obtain ⟨ho, _, hgd⟩ := getField_ok hread hs
      rw [derefVal_fst hgt] at hgd
      rw [ht] at hwd hzf hd hgd
      have hback := rewrap_deref hgt hnil
      generalize hdv : (derefVal gty gv).2 = dv at *
      cases dv with
      | struct dvals =>
        simp only [getDeref, if_pos hp] at hgd
        have hih := ih g (by omega) hwd hzf _ hd hgd
        have hne : isEmptyValue gty gv = false := by
          rw [← hback]
          apply isEmpty_rewrap
          rw [ht]; exact hih.1
        have h0 := struct_not_empty hz htj hgv hne
        refine ⟨h0, ?_⟩
        intro f p
        rcases set_cases value flags f z infos tys vals p hv with h | ⟨i, fty, fv, g', idx, lang, hti, hvi, h⟩
        · rw [h]; exact ⟨hget, h0⟩
        · rw [h]
          by_cases hij : i = j
          · subst hij
            rw [htj] at hti
            cases hti
            rw [hgv] at hvi
            cases hvi
            rw [hdv, ht]
            -- the struct after the write
            obtain ⟨x, hx, htx, hgx, hex⟩ : ∃ x, (setField (fun t v => setModelPathF value flags g' t v p.popFront.2)
                (.struct z' infos' tys') (.struct dvals) p.popFront.2.len idx lang value flags).1 = x ∧
                HasTy (.struct z' infos' tys') x ∧
                getModelPathF g (.struct z' infos' tys') x q.popFront.2 = .ok s ∧
                isEmptyValue (.struct z' infos' tys') x = false := by
              by_cases hpl : 0 < p.popFront.2.len
              · refine ⟨_, rfl, ?_⟩
                simp only [setField, if_pos hpl]
                exact ⟨setModelPathF_typed value flags g' _ _ p.popFront.2 hwd hd, (hih.2 g' p.popFront.2).1,
                  (hih.2 g' p.popFront.2).2⟩
              · refine ⟨.struct dvals, ?_, hd, hgd, hih.1⟩
                simp only [setField, if_neg hpl]
                exact setSimple_struct _ _ _
            rw [hx]
            have hgx' : (vals.set i (rewrap gty x))[i]? = some (rewrap gty x) := by
              rw [List.getElem?_set_self hlj]
            have hex' : isEmptyValue gty.deref x = false := by rw [ht]; exact hex
            constructor
            · rw [get_step hn hgx', getField_rewrap (by rw [ht]; exact htx) hwf ho hex', ht]
              cases x with
              | struct xs => simp only [getDeref, if_pos hp]; exact hgx
              | _ => simp [HasTy] at htx
            · exact struct_not_empty hz htj hgx' (isEmpty_rewrap hex')
          · have hsame : ∀ y, (vals.set i y)[j]? = some gv := fun y => by rw [List.getElem?_set_ne hij, hgv]
            refine ⟨?_, struct_not_empty hz htj (hsame _) hne⟩
            rw [get_step hn (hsame _)]
            exact hread
      | _ => simp [HasTy] at hd
    | _ => simp [HasTy] at hv
  | @item z infos tys q j fj gty a ety z' infos' tys' t idx' lang' hn ht he hp hr ih =>
    intro g hg hw hz v hv hget
    obtain ⟨g, rfl⟩ : ∃ k, g = k + 1 := ⟨g - 1, by omega⟩
    have hlq := len_popFront q (len_pos_of_popFront hn.1)
    cases v with
    | struct vals =>
      rw [HasTy] at hv
      rw [Ty.Wf] at hw
      have htj : tys[j]? = some gty := hn.2.2.2.2
      have hlj : j < vals.length := by
        rw [hasTys_length hv]
        exact (List.getElem?_eq_some_iff.mp htj).1
      obtain ⟨gv, hgv⟩ : ∃ gv, vals[j]? = some gv := ⟨vals[j], List.getElem?_eq_getElem hlj⟩
      have hgt := hasTys_get hv htj hgv
      have hwf := wf_get hw.2 htj
      have hwd := wf_deref hwf
      have hzf := zeroLaw_deref (zeroLaw_get (by rw [ZeroLaw] at hz; exact hz.2) htj)
      have hd := hasTy_deref hgt
      have hread := hget
      rw [get_step hn hgv] at hread
      have hnil : gv ≠ .nil := by
        rintro rfl
        rw [getField_nil] at hread
        simp only [GetRes.ok.injEq] at hread
        exact hs hread.symm
      obtain ⟨ho, _, hgd⟩ := getField_ok hread hs
      rw [derefVal_fst hgt] at hgd
      rw [ht] at hwd hzf hd hgd
      have hwe : ety.Wf := by rw [Ty.Wf] at hwd; exact hwd
      have hwed := wf_deref hwe
      have hze := zeroLaw_deref (by rw [ZeroLaw] at hzf; exact hzf : ZeroLaw ety)
      rw [he] at hwed hze
      have hback := rewrap_deref hgt hnil
      generalize hdv : (derefVal gty gv).2 = dv at *
      cases dv with
      | slice l sp =>
        have hd' := hd
        rw [HasTy] at hd'
        obtain ⟨hdl, hds⟩ := hd'
        simp only [getDeref, if_pos hp] at hgd
        cases hle : l[idx'.toNat]? with
        | none => rw [hle] at hgd; simp at hgd
        | some e =>
          rw [hle] at hgd
          simp only at hgd
          have hte := hdl e (List.mem_of_getElem? hle)
          have hted := hasTy_deref hte
          rw [derefVal_fst hte, he] at hgd
          rw [he] at hted
          have hil : idx'.toNat < l.length := (List.getElem?_eq_some_iff.mp hle).1
          have hih := ih g (by omega) hwed hze _ hted hgd
          have hsl : ∀ l' sp', l' ≠ [] → isEmptyValue gty.deref (.slice l' sp') = false := by
            intro l' sp' h
            rw [ht, isEmptyValue]
            cases l' with
            | nil => exact absurd rfl h
            | cons y ys => rfl
          have hlne : l ≠ [] := by rintro rfl; simp at hil
          have hne : isEmptyValue gty gv = false := by
            rw [← hback]
            exact isEmpty_rewrap (hsl _ _ hlne)
          have h0 := struct_not_empty hz htj hgv hne
          refine ⟨h0, ?_⟩
          intro f p
          rcases set_cases value flags f z infos tys vals p hv with h | ⟨i, fty, fv, g', idx, lang, hti, hvi, h⟩
          · rw [h]; exact ⟨hget, h0⟩
          · rw [h]
            by_cases hij : i = j
            · subst hij
              rw [htj] at hti
              cases hti
              rw [hgv] at hvi
              cases hvi
              rw [hdv, ht]
              -- the array after the write
              obtain ⟨l', sp', e', hx, hle', hg'⟩ : ∃ l' sp' e',
                  (setField (fun t v => setModelPathF value flags g' t v p.popFront.2)
                  (.slice a ety) (.slice l sp) p.popFront.2.len idx lang value flags).1 = .slice l' sp' ∧
                  l'[idx'.toNat]? = some e' ∧
                  getModelPathF g (derefVal ety e').1 (derefVal ety e').2 q.popFront.2 = .ok s := by
                have hgd' : getModelPathF g (derefVal ety e).1 (derefVal ety e).2 q.popFront.2 = .ok s := by
                  rw [derefVal_fst hte, he]; exact hgd
                by_cases hpl : 0 < p.popFront.2.len
                · by_cases hii : idx.toNat = idx'.toNat
                  · simp only [setField, if_pos hpl, hii, hle, if_neg (show ¬ l.length ≤ idx'.toNat by omega)]
                    refine ⟨_, _, _, rfl, List.getElem?_set_self hil, ?_⟩
                    rw [derefVal_rewrap, derefVal_fst hte, he]
                    exact (hih.2 g' p.popFront.2).1
                  · obtain ⟨l', sp', h1, h2⟩ := setField_slice_get
                      (recur := fun t v => setModelPathF value flags g' t v p.popFront.2) (a := a) (ety := ety) (l := l)
                      (sp := sp) (plen := p.popFront.2.len) (idx := idx) (lang := lang) (value := value) (flags := flags)
                      hval (fun h => absurd hpl (by omega)) hil hii
                    exact ⟨l', sp', e, h1, by rw [h2, hle], hgd'⟩
                · simp only [setField, if_neg hpl, setSliceEnd_structs he l sp idx hval flags]
                  exact ⟨l, sp, e, rfl, hle, hgd'⟩
              rw [hx]
              have hl'ne : l' ≠ [] := by rintro rfl; simp at hle'
              have hgx' : (vals.set i (rewrap gty (.slice l' sp')))[i]? = some (rewrap gty (.slice l' sp')) := by
                rw [List.getElem?_set_self hlj]
              have hex' := hsl l' sp' hl'ne
              constructor
              · rw [get_step hn hgx']
                have hnn : rewrap gty (.slice l' sp') ≠ .nil := by
                  cases gty <;> simp [rewrap]
                have hgf : ∀ recur plen, getField recur fj gty (rewrap gty (.slice l' sp')) plen idx' lang'
                    = getDeref recur gty.deref (.slice l' sp') plen idx' lang' := by
                  intro recur plen
                  have h1 := isEmpty_rewrap hex'
                  have h3 := derefVal_rewrap gty (.slice l' sp')
                  generalize rewrap gty (.slice l' sp') = y at *
                  unfold getField
                  split
                  · exact absurd rfl hnn
                  · rw [h1, ho, h3]; simp
                rw [hgf, ht]
                simp only [getDeref, hle', if_pos hp]
                exact hg'
              · exact struct_not_empty hz htj hgx' (isEmpty_rewrap hex')
            · have hsame : ∀ y, (vals.set i y)[j]? = some gv := fun y => by rw [List.getElem?_set_ne hij, hgv]
              refine ⟨?_, struct_not_empty hz htj (hsame _) hne⟩
              rw [get_step hn (hsame _)]
              exact hread
      | _ => simp [HasTy] at hd
    | _ => simp [HasTy] at hv

/-! ### Theorem -/

/-- C42 for one model: without the replace flag, writing a value that is not empty to any path keeps every
simple value that is not empty. -/
theorem model_keeps_simple {ty t : Ty} {q : Path} (hk : Simple ty q t) (hw : ty.Wf) (hz : ZeroLaw ty) {v : Val}
    (hv : HasTy ty v) {value s : Str} (hval : value ≠ []) (hs : s ≠ []) {flags : SyncFlags}
    (hf : flags ≠ 0) (hR : flags.has REPLACE = false) (hget : getModelPath ty v q = .ok s) (p : Path) :
    getModelPath ty (setModelPath ty v p value flags).1 q = .ok s := by
  unfold setModelPath
  simp only [if_neg hf]
  split
  · exact hget
  · exact ((kept_aux hk hval hs hR (q.len + 1) (by omega) hw hz v hv hget).2 _ p).1

/-! ### Writing to missing values -/

theorem straight_addr {ty : Ty} {q : Path} (h : Straight ty q) : Addr ty q .str false := by
  induction h with
  | leaf hn ho he => exact .leaf (fty := .str) hn ho trivial
  | field hn ho he ht hp hr ih => exact .field hn ho ht hp ih

theorem straight_simple {ty : Ty} {q : Path} (h : Straight ty q) : Simple ty q .str := by
  induction h with
  | leaf hn ho he => exact .leaf hn ho he trivial
  | field hn ho he ht hp hr ih => exact .field hn ht hp ih

theorem zeros_get {tys : List Ty} {i : Nat} {t : Ty} (h : tys[i]? = some t) : (Ty.zeros tys)[i]? = some t.zero := by
  induction tys generalizing i with
  | nil => simp at h
  | cons a as ih =>
    cases i with
    | zero => simp only [List.getElem?_cons_zero, Option.some.injEq] at h; subst h; rfl
    | succ i => simp only [List.getElem?_cons_succ] at h; exact ih h

/-- A string is always read. -/
theorem straight_read {ty : Ty} {q : Path} (h : Straight ty q) : ∀ g v, HasTy ty v →
    ∃ s, getModelPathF g ty v q = .ok s := by
  induction h with
  | @leaf z infos tys q i fi idx lang hn ho he =>
    intro g v hv
    cases g with
    | zero => exact ⟨[], rfl⟩
    | succ g =>
      cases v with
      | struct vals =>
        rw [HasTy] at hv
        have hty : tys[i]? = some .str := hn.2.2.2.2
        have hlt : i < vals.length := by
          rw [hasTys_length hv]
          exact (List.getElem?_eq_some_iff.mp hty).1
        obtain ⟨fv, hfv⟩ : ∃ fv, vals[i]? = some fv := ⟨vals[i], List.getElem?_eq_getElem hlt⟩
        have hft := hasTys_get hv hty hfv
        rw [get_step hn hfv]
        cases fv with
        | str s =>
          unfold getField
          simp only
          split
          · exact ⟨[], rfl⟩
          · exact ⟨s, rfl⟩
        | _ => simp [HasTy] at hft
      | _ => simp [HasTy] at hv
  | @field z infos tys q i fi fty z' infos' tys' idx lang hn ho he ht hp hr ih =>
    intro g v hv
    cases g with
    | zero => exact ⟨[], rfl⟩
    | succ g =>
      cases v with
      | struct vals =>
        rw [HasTy] at hv
        have hty : tys[i]? = some fty := hn.2.2.2.2
        have hlt : i < vals.length := by
          rw [hasTys_length hv]
          exact (List.getElem?_eq_some_iff.mp hty).1
        obtain ⟨fv, hfv⟩ : ∃ fv, vals[i]? = some fv := ⟨vals[i], List.getElem?_eq_getElem hlt⟩
        have hft := hasTys_get hv hty hfv
        have hd := hasTy_deref hft
        rw [get_step hn hfv]
        unfold getField
        split
        · exact ⟨[], rfl⟩
        · split
          · exact ⟨[], rfl⟩
          · rw [derefVal_fst hft]
            rw [ht] at hd ⊢
            generalize (derefVal fty fv).2 = dv at *
            cases dv with
            | struct dvals => simp only [getDeref, if_pos hp]; exact ih g _ hd
            | _ => simp [HasTy] at hd
      | _ => simp [HasTy] at hv

/-- Strings of zero values are empty. -/
theorem straight_zero {ty : Ty} {q : Path} (h : Straight ty q) : ∀ g, getModelPathF g ty ty.zero q = .ok [] := by
  induction h with
  | @leaf z infos tys q i fi idx lang hn ho he =>
    intro g
    cases g with
    | zero => rfl
    | succ g =>
      have hty : tys[i]? = some .str := hn.2.2.2.2
      rw [Ty.zero, get_step hn (zeros_get hty)]
      unfold getField
      simp [Ty.zero, isEmptyValue, he]
  | @field z infos tys q i fi fty z' infos' tys' idx lang hn ho he ht hp hr ih =>
    intro g
    cases g with
    | zero => rfl
    | succ g =>
      have hty : tys[i]? = some fty := hn.2.2.2.2
      rw [Ty.zero, get_step hn (zeros_get hty)]
      cases fty with
      | ptr t => rfl
      | struct z1 i1 t1 =>
        simp only [Ty.deref] at ht
        cases ht
        rw [Ty.zero] at ih ⊢
        unfold getField
        simp only [derefVal]
        split
        · rfl
        · simp only [getDeref, if_pos hp]; exact ih g
      | _ => simp [Ty.deref] at ht

theorem straight_write_aux {ty : Ty} {q : Path} (h : Straight ty q) (value : Str) (flags : SyncFlags) :
    ∀ f g, q.len < f → q.len < g → ZeroLaw ty → ∀ v, HasTy ty v →
      (getModelPathF g ty v q = .ok [] ∨ isEmptyValue ty v = true) → (setModelPathF value flags f ty v q).2 = .ok := by
  induction h with
  | @leaf z infos tys q i fi idx lang hn ho he =>
    intro f g hf hg hz v hv hr
    obtain ⟨f, rfl⟩ : ∃ k, f = k + 1 := ⟨f - 1, by omega⟩
    obtain ⟨g, rfl⟩ : ∃ k, g = k + 1 := ⟨g - 1, by omega⟩
    cases v with
    | struct vals =>
      rw [HasTy] at hv
      have hty : tys[i]? = some .str := hn.2.2.2.2
      have hlt : i < vals.length := by
        rw [hasTys_length hv]
        exact (List.getElem?_eq_some_iff.mp hty).1
      obtain ⟨fv, hfv⟩ : ∃ fv, vals[i]? = some fv := ⟨vals[i], List.getElem?_eq_getElem hlt⟩
      have hft := hasTys_get hv hty hfv
      have hempty : isEmptyValue .str fv = true := by
        rcases hr with hr | hr
        · rw [get_step hn hfv] at hr
          cases hx : isEmptyValue .str fv with
          | true => rfl
          | false =>
            cases fv with
            | str s =>
              unfold getField at hr
              simp only [ho, he, hx, Bool.and_false, Bool.or_false, Bool.false_eq_true, if_false, derefVal, getDeref,
                leafRes, leafText, marshalSimple, Option.map_some, GetRes.ok.injEq] at hr
              subst hr
              simp [isEmptyValue] at hx
            | _ => simp [HasTy] at hft
        · cases hxx : isEmptyValue .str fv with
          | true => rfl
          | false => rw [struct_not_empty hz hty hfv hxx] at hr; cases hr
      rw [set_step hn hfv hft, leaf_setField (by exact trivial)]
      have hdd : (derefVal .str fv).2 = fv := rfl
      simp only [Ty.deref, setSimple, hdd, hempty, Bool.not_true, Bool.and_false, Bool.false_eq_true, if_false, parseLeaf,
        setValue]
    | _ => simp [HasTy] at hv
  | @field z infos tys q i fi fty z' infos' tys' idx lang hn ho he ht hp hr ih =>
    intro f g hf hg hz v hv hread
    obtain ⟨f, rfl⟩ : ∃ k, f = k + 1 := ⟨f - 1, by omega⟩
    obtain ⟨g, rfl⟩ : ∃ k, g = k + 1 := ⟨g - 1, by omega⟩
    have hlq := len_popFront q (len_pos_of_popFront hn.1)
    cases v with
    | struct vals =>
      rw [HasTy] at hv
      have hty : tys[i]? = some fty := hn.2.2.2.2
      have hlt : i < vals.length := by
        rw [hasTys_length hv]
        exact (List.getElem?_eq_some_iff.mp hty).1
      obtain ⟨fv, hfv⟩ : ∃ fv, vals[i]? = some fv := ⟨vals[i], List.getElem?_eq_getElem hlt⟩
      have hft := hasTys_get hv hty hfv
      have hd := hasTy_deref hft
      have hzf := zeroLaw_deref (zeroLaw_get (by rw [ZeroLaw] at hz; exact hz.2) hty)
      have hempty : isEmptyValue fty fv = true → getModelPathF g fty.deref (derefVal fty fv).2 q.popFront.2 = .ok [] ∨
          isEmptyValue fty.deref (derefVal fty fv).2 = true := by
        intro hx
        cases fty with
        | ptr t =>
          cases fv with
          | nil =>
            left
            simp only [Ty.deref] at ht
            subst ht
            exact straight_zero hr g
          | ptr v => rw [isEmptyValue, Bool.and_eq_true] at hx; exact Or.inr hx.2
          | _ => simp [HasTy] at hft
        | _ => exact Or.inr hx
      have hcases : getModelPathF g fty.deref (derefVal fty fv).2 q.popFront.2 = .ok [] ∨
          isEmptyValue fty.deref (derefVal fty fv).2 = true := by
        cases hx : isEmptyValue fty fv with
        | true => exact hempty hx
        | false =>
          rcases hread with hread | hread
          · rw [get_step hn hfv] at hread
            left
            unfold getField at hread
            split at hread
            · cases fty with
              | ptr t => simp [isEmptyValue] at hx
              | _ => simp [HasTy] at hft
            · rw [ho, he, hx] at hread
              simp only [Bool.and_false, Bool.or_false, Bool.false_eq_true, if_false] at hread
              rw [derefVal_fst hft] at hread
              rw [ht] at hd hread ⊢
              generalize (derefVal fty fv).2 = dv at *
              cases dv with
              | struct dvals => simp only [getDeref, if_pos hp] at hread; exact hread
              | _ => simp [HasTy] at hd
          · rw [struct_not_empty hz hty hfv hx] at hread; cases hread
      rw [set_step hn hfv hft]
      rw [ht] at hd hzf hcases ⊢
      generalize (derefVal fty fv).2 = dv at *
      cases dv with
      | struct dvals =>
        simp only [setField, if_pos hp]
        exact ih f g (by omega) (by omega) hzf _ hd hcases
      | _ => simp [HasTy] at hd
    | _ => simp [HasTy] at hv

/-- C42 for one model: a missing string can be written with any flags. -/
theorem model_adds_missing {ty : Ty} {q : Path} (h : Straight ty q) (hz : ZeroLaw ty) {v : Val} (hv : HasTy ty v)
    (hget : getModelPath ty v q = .ok []) (value : Str) (flags : SyncFlags) :
    (setModelPath ty v q value flags).2 = .ok := by
  unfold setModelPath
  simp only [addr_isXmpPath (straight_addr h), Bool.not_true, Bool.false_eq_true, if_false]
  exact straight_write_aux h value _ _ _ (by omega) (by omega) hz v hv (Or.inl hget)

end Xmp.Props
