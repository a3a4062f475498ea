import Verif.Model.Collect
import Verif.Props.Sync
import Verif.Props.Identifier

/-! Collecting values from several models in one list (C67). -/

namespace Xmp.Props

open GoStr SyncFlags Collect

/-! ### Specification -/

/-- Add the value `f s` of the source `s` to a list: not if the source is empty, not if the list has the value already.
A source that equals the first value of the list is left out, too. -/
def addOne (ts : List Str) (x : Str × (Str → Str)) : List Str :=
  if x.1 = [] ∨ ts.head? = some x.1 ∨ x.2 x.1 ∈ ts then ts else ts ++ [x.2 x.1]

/-- Add the values of several sources. -/
def gathered (ts : List Str) (xs : List (Str × (Str → Str))) : List Str := xs.foldl addOne ts

/-- The text of the property at a path in a document; the empty text if there is none. -/
def srcText (env : Env) (d : XDoc) (p : Path) : Str :=
  if p.isXmpPath then
    match (d.pathNs env p).bind d.findModel with
    | some si =>
      match (d.roots[si]?).bind (·.model) with
      | some s => match getModelPath s.ty s.val p with | .ok v => v | _ => []
      | none => []
    | none => []
  else []

/-- The path belongs to the model at position `i`. -/
def SourceIn (env : Env) (d : XDoc) (p : Path) (i : Nat) : Prop := (d.pathNs env p).bind d.findModel = some i

/-- The texts of the elements of a list. -/
def Texts (ety : Ty) (l : List Val) (ts : List Str) : Prop :=
  List.Forall₂ (fun v s => leafText ety v = some (some s)) l ts

/-- The text `s` can be an element: it is read as a value whose text it is. -/
def ElemText (ety : Ty) (s : Str) : Prop := ∃ w, parseElem ety s = some w ∧ leafText ety w = some (some s)

/-- The model `t` at position `i` of the document has a list of elements of type `ety` at the path `p`: field `k`. -/
structure ListAt (env : Env) (d : XDoc) (i : Nat) (p : Path) (t : Mdl) (k : Nat) (ety : Ty) (vals l sp : List Val) : Prop where
  model : (d.roots[i]?).bind (·.model) = some t
  ns : ∃ n, d.pathNs env p = some n
  pre : ∃ n ns, t.nss = n :: ns ∧ n.name = p.namespacePrefix
  isx : p.isXmpPath = true
  val : t.val = .struct vals
  field : ∃ z infos tys fi a lang, t.ty = .struct z infos tys ∧ Names infos tys p k fi (.slice a ety) (-1) lang ∧
    p.popFront.2.len = 0 ∧ fi.omitted = false ∧ fi.empty = false
  leaf : IsLeaf ety
  get : vals[k]? = some (.slice l sp)
  typed : (∀ v ∈ l, HasTy ety v) ∧ ∀ v ∈ sp, HasTy ety v

/-! ### Helper lemmas -/

theorem addOne_prefix (ts : List Str) (x : Str × (Str → Str)) : ts <+: addOne ts x := by
  unfold addOne
  split
  · exact List.prefix_rfl
  · exact List.prefix_append _ _

theorem gathered_prefix (xs : List (Str × (Str → Str))) : ∀ ts, ts <+: gathered ts xs := by
  induction xs with
  | nil => intro ts; exact List.prefix_rfl
  | cons x xs ih => intro ts; exact (addOne_prefix ts x).trans (ih _)

theorem addOne_fixed {ts us : List Str} {x : Str × (Str → Str)} (h : addOne ts x <+: us) : addOne us x = us := by
  unfold addOne at h ⊢
  rw [if_pos]
  split at h
  · rename_i hc
    rcases hc with hc | hc | hc
    · exact Or.inl hc
    · refine Or.inr (Or.inl ?_)
      obtain ⟨r, rfl⟩ := h
      cases ts with
      | nil => cases hc
      | cons a as => exact hc
    · exact Or.inr (Or.inr (h.subset hc))
  · exact Or.inr (Or.inr (h.subset (by simp)))

theorem gathered_fixed (xs : List (Str × (Str → Str))) : ∀ ts, ∀ x ∈ xs, addOne (gathered ts xs) x = gathered ts xs := by
  induction xs with
  | nil => intro ts x hx; cases hx
  | cons y ys ih =>
    intro ts x hx
    rcases List.mem_cons.mp hx with rfl | hx
    · exact addOne_fixed (ts := ts) (gathered_prefix ys _)
    · exact ih (addOne ts y) x hx

theorem texts_append {ety : Ty} {l : List Val} {ts : List Str} (h : Texts ety l ts) {w : Val} {s : Str}
    (hw : leafText ety w = some (some s)) : Texts ety (l ++ [w]) (ts ++ [s]) := by
  induction h with
  | nil => exact .cons hw .nil
  | cons h _ ih => exact .cons h ih

theorem unique_absent {ety : Ty} (hl : IsLeaf ety) {l : List Val} {ts : List Str} (h : Texts ety l ts) {s : Str} (hs : s ∉ ts) :
    uniqueCheck ety s l = none := by
  induction h with
  | nil => rfl
  | @cons v u l ts h _ ih =>
    unfold uniqueCheck
    simp only [leaf_deref hl, h]
    rw [if_neg (by rintro rfl; simp at hs)]
    exact ih (fun hm => hs (List.mem_cons_of_mem _ hm))

theorem unique_present {ety : Ty} (hl : IsLeaf ety) {l : List Val} {ts : List Str} (h : Texts ety l ts) {s : Str} (hs : s ∈ ts) :
    uniqueCheck ety s l = some .err := by
  induction h with
  | nil => cases hs
  | @cons v u l ts h _ ih =>
    unfold uniqueCheck
    simp only [leaf_deref hl, h]
    by_cases hu : s = u
    · rw [if_pos hu]
    · rw [if_neg hu]
      exact ih ((List.mem_cons.mp hs).resolve_left hu)

theorem findModel_some {d : XDoc} {ns : Namespace} {i : Nat} (h : d.findModel ns = some i) :
    ∃ m, (d.roots[i]?).bind (·.model) = some m := by
  unfold XDoc.findModel at h
  rw [List.findIdx?_eq_some_iff_getElem] at h
  obtain ⟨hi, hm, _⟩ := h
  rw [List.getElem?_eq_getElem hi]
  unfold XDoc.modelMatches at hm
  cases hmm : d.roots[i].model with
  | none => rw [hmm] at hm; cases hm
  | some m => exact ⟨m, by simp [hmm]⟩

theorem findModel_setVal (d : XDoc) (i : Nat) (v : Val) (b : Bool) (ns : Namespace) :
    ({ d.setVal i v with dirty := b } : XDoc).findModel ns = d.findModel ns := by
  unfold XDoc.findModel XDoc.setVal
  simp only
  generalize d.roots = rs
  induction rs generalizing i with
  | nil => cases i <;> rfl
  | cons r rs ih =>
    cases i with
    | zero =>
      simp only [List.modify_zero_cons, List.findIdx?_cons]
      have hm : XDoc.modelMatches ns.name { r with model := r.model.map (fun m => { m with val := v }) } =
          XDoc.modelMatches ns.name r := by
        unfold XDoc.modelMatches
        cases r.model <;> rfl
      rw [hm]
    | succ i =>
      simp only [List.modify_succ_cons, List.findIdx?_cons, ih]

theorem pathNs_setVal (env : Env) (d : XDoc) (i : Nat) (v : Val) (b : Bool) (p : Path) :
    ({ d.setVal i v with dirty := b } : XDoc).pathNs env p = d.pathNs env p := rfl

theorem setVal_same {d : XDoc} {i : Nat} {t : Mdl} (h : (d.roots[i]?).bind (·.model) = some t) : d.setVal i t.val = d := by
  unfold XDoc.setVal
  have hr : d.roots.modify i (fun r => { r with model := r.model.map (fun m => { m with val := t.val }) }) = d.roots := by
    apply List.ext_getElem?
    intro j
    rw [List.getElem?_modify]
    by_cases hj : i = j
    · subst hj
      cases hr : d.roots[i]? with
      | none => rfl
      | some r =>
        rw [hr] at h
        simp only [Option.bind_some] at h
        obtain ⟨n, m⟩ := r
        simp only at h
        subst h
        simp
    · simp [hj]
  rw [hr]

theorem setVal_twice (d : XDoc) (i : Nat) (v w : Val) (b c : Bool) :
    ({ ({ d.setVal i v with dirty := b } : XDoc).setVal i w with dirty := c } : XDoc) = { d.setVal i w with dirty := c } := by
  unfold XDoc.setVal
  simp only [XDoc.mk.injEq, and_true]
  rw [List.modify_modify_eq]
  congr 1
  funext r
  obtain ⟨n, m⟩ := r
  cases m <;> rfl

theorem srcText_setVal {env : Env} {d : XDoc} {p : Path} {i : Nat} (h : ¬ SourceIn env d p i) (v : Val) (b : Bool) :
    srcText env { d.setVal i v with dirty := b } p = srcText env d p := by
  unfold srcText
  have h1 : (({ d.setVal i v with dirty := b } : XDoc).pathNs env p).bind ({ d.setVal i v with dirty := b } : XDoc).findModel =
      (d.pathNs env p).bind d.findModel := by
    rw [pathNs_setVal]
    cases d.pathNs env p with
    | none => rfl
    | some ns => exact findModel_setVal d i v b ns
  rw [h1]
  unfold SourceIn at h
  cases hm : (d.pathNs env p).bind d.findModel with
  | none => rfl
  | some si =>
    rw [hm] at h
    have hne : i ≠ si := fun e => h (by rw [e])
    have h2 : ({ d.setVal i v with dirty := b } : XDoc).roots[si]? = d.roots[si]? := setVal_other d _ hne
    simp only [h2]

theorem sourceIn_setVal {env : Env} {d : XDoc} {p : Path} {i : Nat} (h : ¬ SourceIn env d p i) (v : Val) (b : Bool) :
    ¬ SourceIn env { d.setVal i v with dirty := b } p i := by
  unfold SourceIn at h ⊢
  rw [pathNs_setVal]
  cases hp : d.pathNs env p with
  | none => simp
  | some ns =>
    rw [hp] at h
    simp only [Option.bind_some] at h ⊢
    rw [findModel_setVal]
    exact h

theorem listAt_read {env : Env} {d : XDoc} {i : Nat} {p : Path} {t : Mdl} {k : Nat} {ety : Ty} {vals l sp : List Val} {ts : List Str}
    (h : ListAt env d i p t k ety vals l sp) (ht : Texts ety l ts) : getModelPath t.ty t.val p = .ok (ts.headD []) := by
  obtain ⟨_, _, _, hx, hval, ⟨z, infos, tys, fi, a, lang, hty, hn, hlen, ho, he⟩, hl, hg, _⟩ := h
  rw [hty, hval]
  unfold getModelPath
  rw [get_step hn hg]
  unfold getField
  simp only [ho, he, Bool.false_or, Bool.not_false, Bool.true_and, hlen]
  cases ht with
  | nil => rfl
  | @cons v u l ts h1 h2 =>
    simp only [isEmptyValue, List.isEmpty_cons, Bool.false_eq_true, if_false, derefVal]
    unfold getDeref
    simp only [leaf_deref hl, leafRes]
    simp [h1]

theorem listAt_write {env : Env} {d : XDoc} {i : Nat} {p : Path} {t : Mdl} {k : Nat} {ety : Ty} {vals l sp : List Val}
    (h : ListAt env d i p t k ety vals l sp) {value : Str} {flags : SyncFlags} (h0 : flags ≠ 0) :
    setModelPath t.ty t.val p value flags =
      (.struct (vals.set k (.slice (setSliceEnd ety l sp (-1) value flags).1.1 (setSliceEnd ety l sp (-1) value flags).1.2)),
        (setSliceEnd ety l sp (-1) value flags).2) := by
  obtain ⟨_, _, _, hx, hval, ⟨z, infos, tys, fi, a, lang, hty, hn, hlen, ho, he⟩, hl, hg, hT⟩ := h
  have ht : HasTy (.slice a ety) (.slice l sp) := by simpa only [HasTy] using hT
  rw [hty, hval]
  unfold setModelPath
  simp only [if_neg h0, hx, Bool.not_true, Bool.false_eq_true, if_false]
  rw [set_step hn hg ht]
  simp only [hlen, Ty.deref, derefVal, rewrap, setField]
  simp

theorem sync_into_list {env : Env} {d : XDoc} {i : Nat} {p q : Path} {t : Mdl} {k : Nat} {ety : Ty} {vals l sp : List Val}
    {f : Option (Str → Str)} (h : ListAt env d i p t k ety vals l sp) :
    d.sync env q p MERGE (some i) f =
      if q.isXmpPath then
        match (d.pathNs env q).bind d.findModel with
        | some si =>
          match (d.roots[si]?).bind (·.model) with
          | some s => d.syncValues s t i q p MERGE f
          | none => (d, .panic)
        | none => (d, .ok)
      else (d, .ok) := by
  obtain ⟨hm, ⟨n, hn⟩, ⟨n0, nr, hns, hpre⟩, hx, _⟩ := h
  unfold XDoc.sync
  have h0 : (if MERGE = 0 then DEFAULT else MERGE) = MERGE := rfl
  simp only [h0, hx, Bool.not_true, Bool.or_false, hn]
  cases hq : q.isXmpPath with
  | false => simp
  | true =>
    simp only [Bool.not_true, Bool.false_eq_true, if_false, if_true]
    cases hp : d.pathNs env q with
    | none => rfl
    | some ns =>
      simp only [Option.bind_some]
      cases hf : d.findModel ns with
      | none => rfl
      | some si =>
        obtain ⟨s, hs⟩ := findModel_some hf
        simp only [XDoc.syncDest, hm, hns, hpre, if_true, hs]

theorem sync_text {env : Env} {d : XDoc} {i : Nat} {p q : Path} {t : Mdl} {k : Nat} {ety : Ty} {vals l sp : List Val}
    {f : Option (Str → Str)} (h : ListAt env d i p t k ety vals l sp) {tv : Str} (hread : getModelPath t.ty t.val p = .ok tv) :
    d.sync env q p MERGE (some i) f =
      if srcText env d q = [] ∨ tv = srcText env d q then (d, .ok)
      else
        let r := setSliceEnd ety l sp (-1) (convert f (srcText env d q)) MERGE
        let d1 := d.setVal i (.struct (vals.set k (.slice r.1.1 r.1.2)))
        match r.2 with
        | .ok => ({ d1 with dirty := true }, .ok)
        | .panic => (d1, .panic)
        | _ => (d1, .ok) := by
  rw [sync_into_list h]
  unfold srcText
  cases hq : q.isXmpPath with
  | false => simp
  | true =>
    simp only [if_true]
    cases hf : (d.pathNs env q).bind d.findModel with
    | none => simp
    | some si =>
      obtain ⟨ns, hp, hf⟩ := Option.bind_eq_some_iff.mp hf
      obtain ⟨s, hs⟩ := findModel_some hf
      simp only [hs]
      cases hg : getModelPath s.ty s.val q with
      | notFound => simp [XDoc.syncValues, hg, XDoc.fail]; decide
      | err => simp [XDoc.syncValues, hg, XDoc.fail]; decide
      | ok sv =>
        simp only
        by_cases hd : SyncAllowed MERGE sv tv
        · have hc : ¬ (sv = [] ∨ tv = sv) := by
            rintro (rfl | h2)
            · exact absurd (hd.2.1 rfl) (by decide)
            · exact hd.1 h2.symm
          rw [if_neg hc]
          obtain ⟨h3, h4, h5, h6⟩ := hd
          unfold XDoc.syncValues
          simp only [hg, hread]
          rw [if_neg h3, if_neg (by rintro ⟨h, hh⟩; rw [h4 h] at hh; cases hh),
            if_neg (by rintro ⟨h, hh⟩; rw [h5 h] at hh; cases hh),
            if_neg (by rintro ⟨h, hh⟩; rw [h6 h] at hh; cases hh)]
          have hw := listAt_write h (value := convert f sv) (flags := MERGE) (by decide)
          have hnf : XDoc.fail MERGE = .ok := rfl
          cases f <;> simp only [convert] at hw ⊢ <;> simp only [hw, hnf] <;> rfl
        · rw [syncValues_denied hg hread hd, if_pos]
          by_contra hc
          apply hd
          refine ⟨?_, ?_, fun _ => rfl, fun _ => rfl⟩
          · intro e; exact hc (Or.inr e.symm)
          · intro e; exact absurd (Or.inl e) hc

theorem listAt_setVal {env : Env} {d : XDoc} {i : Nat} {p : Path} {t : Mdl} {k : Nat} {ety : Ty} {vals l sp l' sp' : List Val}
    (h : ListAt env d i p t k ety vals l sp) (h1 : ∀ v ∈ l', HasTy ety v) (h2 : ∀ v ∈ sp', HasTy ety v) (b : Bool) :
    ListAt env { d.setVal i (.struct (vals.set k (.slice l' sp'))) with dirty := b } i p
      { t with val := .struct (vals.set k (.slice l' sp')) } k ety (vals.set k (.slice l' sp')) l' sp' where
  model := setVal_model h.model _ _
  ns := h.ns
  pre := h.pre
  isx := h.isx
  val := rfl
  field := h.field
  leaf := h.leaf
  get := by
    have := (List.getElem?_eq_some_iff.mp h.get).1
    simp [this]
  typed := ⟨h1, h2⟩

theorem setSliceEnd_merge (ety : Ty) (l sp : List Val) {value : Str} (hne : value ≠ []) :
    setSliceEnd ety l sp (-1) value MERGE =
      match uniqueCheck ety value l with
      | some r => ((l, sp), r)
      | none =>
        match parseElem ety value with
        | none => ((l, sp), .err)
        | some v => (appendVal ety l sp v, .ok) := by
  unfold setSliceEnd
  rw [if_pos (by simp [hne]; decide)]
  cases uniqueCheck ety value l <;> rfl

theorem sync_adds {env : Env} {d : XDoc} {i : Nat} {p q : Path} {t : Mdl} {k : Nat} {ety : Ty} {vals l sp : List Val}
    {f : Option (Str → Str)} (h : ListAt env d i p t k ety vals l sp) {ts : List Str} (ht : Texts ety l ts)
    (hv : srcText env d q ≠ [] → convert f (srcText env d q) ≠ [] ∧ ElemText ety (convert f (srcText env d q))) :
    (addOne ts (srcText env d q, convert f) = ts ∧ d.sync env q p MERGE (some i) f = (d, .ok)) ∨
    (addOne ts (srcText env d q, convert f) = ts ++ [convert f (srcText env d q)] ∧
      ∃ w sp', d.sync env q p MERGE (some i) f =
        ({ d.setVal i (.struct (vals.set k (.slice (l ++ [w]) sp'))) with dirty := true }, .ok) ∧
        leafText ety w = some (some (convert f (srcText env d q))) ∧ HasTy ety w ∧ ∀ v ∈ sp', HasTy ety v) := by
  rw [sync_text h (listAt_read h ht)]
  have hh : (srcText env d q = [] ∨ ts.headD [] = srcText env d q) ↔ (srcText env d q = [] ∨ ts.head? = some (srcText env d q)) := by
    cases ts with
    | nil => exact ⟨fun h => Or.inl (h.elim id Eq.symm), fun h => Or.inl (h.resolve_right (by simp))⟩
    | cons a as => simp
  simp only [hh]
  by_cases hc : srcText env d q = [] ∨ ts.head? = some (srcText env d q)
  · left
    refine ⟨?_, if_pos hc⟩
    unfold addOne
    rw [if_pos]
    rcases hc with hc | hc
    · exact Or.inl hc
    · exact Or.inr (Or.inl hc)
  · rw [if_neg hc]
    obtain ⟨hne, w, hw, hwt⟩ := hv (fun e => hc (Or.inl e))
    rw [setSliceEnd_merge ety l sp hne]
    by_cases hm : convert f (srcText env d q) ∈ ts
    · left
      refine ⟨if_pos (Or.inr (Or.inr hm)), ?_⟩
      simp only [unique_present h.leaf ht hm]
      have : vals.set k (.slice l sp) = vals := by
        have := (List.getElem?_eq_some_iff.mp h.get)
        obtain ⟨h1, h2⟩ := this
        rw [← h2]
        exact List.set_getElem_self h1
      rw [this, ← h.val, setVal_same h.model]
    · right
      refine ⟨if_neg (by
        rintro (h1 | h1 | h1)
        · exact hc (Or.inl h1)
        · exact hc (Or.inr h1)
        · exact hm h1), w, (appendVal ety l sp w).2, ?_, hwt, hasTy_parseLeaf (hasTy_zero ety) hw, ?_⟩
      · simp only [unique_absent h.leaf ht hm, hw]
        have : (appendVal ety l sp w).1 = l ++ [w] := by unfold appendVal; cases sp <;> rfl
        rw [this]
      · intro v hvm
        unfold appendVal at hvm
        cases hsp : sp with
        | nil =>
          rw [hsp] at hvm
          rw [List.eq_of_mem_replicate hvm]
          exact hasTy_zero ety
        | cons a as =>
          rw [hsp] at hvm
          exact h.typed.2 v (by rw [hsp]; exact List.mem_cons_of_mem _ hvm)

/-! ### Theorems -/

/-- The texts of several sources, with their converters. -/
def sources (env : Env) (d : XDoc) (xs : List XDoc.SyncDesc) : List (Str × (Str → Str)) :=
  xs.map fun x => (srcText env d x.source, convert x.convert)

/-- The entries merge values of other models in the list at the path `p` of the model at position `i`, and their values
can be elements of the list. -/
def Merging (env : Env) (d : XDoc) (i : Nat) (p : Path) (ety : Ty) (xs : List XDoc.SyncDesc) : Prop :=
  ∀ x ∈ xs, x.dest = p ∧ x.flags = MERGE ∧ ¬ SourceIn env d x.source i ∧
    (srcText env d x.source ≠ [] →
      convert x.convert (srcText env d x.source) ≠ [] ∧ ElemText ety (convert x.convert (srcText env d x.source)))

theorem merging_setVal {env : Env} {d : XDoc} {i : Nat} {p : Path} {ety : Ty} {xs : List XDoc.SyncDesc}
    (h : Merging env d i p ety xs) (v : Val) (b : Bool) : Merging env { d.setVal i v with dirty := b } i p ety xs := by
  intro x hx
  obtain ⟨h1, h2, h3, h4⟩ := h x hx
  rw [srcText_setVal h3]
  exact ⟨h1, h2, sourceIn_setVal h3 v b, h4⟩

theorem sources_setVal {env : Env} {d : XDoc} {i : Nat} {p : Path} {ety : Ty} {xs : List XDoc.SyncDesc}
    (h : Merging env d i p ety xs) (v : Val) (b : Bool) : sources env { d.setVal i v with dirty := b } xs = sources env d xs := by
  unfold sources
  apply List.map_congr_left
  intro x hx
  rw [srcText_setVal (h x hx).2.2.1]

/-- **C67.** Merging values of other models in a list never fails.  The list afterwards has its old elements, in their
order, and behind them the values of the sources that are not empty and not there already; no other field and no other
model is touched.  The document is marked as changed if the list was. -/
theorem gather_list {env : Env} {i : Nat} {p : Path} {k : Nat} {ety : Ty} (xs : List XDoc.SyncDesc) :
    ∀ {d : XDoc} {t : Mdl} {vals l sp : List Val} {ts : List Str}, ListAt env d i p t k ety vals l sp → Texts ety l ts →
    Merging env d i p ety xs →
    ∃ l' sp', d.syncMulti env (some i) xs =
        ({ d.setVal i (.struct (vals.set k (.slice l' sp'))) with
            dirty := d.dirty || decide (gathered ts (sources env d xs) ≠ ts) }, .ok) ∧
      l <+: l' ∧ Texts ety l' (gathered ts (sources env d xs)) ∧
      (∀ v ∈ l', HasTy ety v) ∧ (∀ v ∈ sp', HasTy ety v) := by
  induction xs with
  | nil =>
    intro d t vals l sp ts h ht _
    refine ⟨l, sp, ?_, List.prefix_rfl, ht, h.typed.1, h.typed.2⟩
    have hs : vals.set k (.slice l sp) = vals := by
      obtain ⟨h1, h2⟩ := (List.getElem?_eq_some_iff.mp h.get)
      rw [← h2]
      exact List.set_getElem_self h1
    rw [hs, ← h.val, setVal_same h.model]
    simp [XDoc.syncMulti, sources, gathered]
  | cons x xs ih =>
    intro d t vals l sp ts h ht hm
    obtain ⟨hd, hf, hn, hv⟩ := hm x (List.mem_cons_self ..)
    have hm' : Merging env d i p ety xs := fun y hy => hm y (List.mem_cons_of_mem _ hy)
    have hg : gathered ts (sources env d (x :: xs)) =
        gathered (addOne ts (srcText env d x.source, convert x.convert)) (sources env d xs) := rfl
    rw [hg]
    unfold XDoc.syncMulti
    rw [hd, hf]
    rcases sync_adds h ht hv with ⟨e, hs⟩ | ⟨e, w, sp1, hs, hw, hT, hT'⟩
    · rw [hs, e]
      exact ih h ht hm'
    · rw [hs, e]
      have hl : ∀ v ∈ l ++ [w], HasTy ety v := by
        intro v hvm
        rcases List.mem_append.mp hvm with h1 | h1
        · exact h.typed.1 v h1
        · rw [List.mem_singleton.mp h1]; exact hT
      obtain ⟨l', sp', h1, h2, h3, h4⟩ := ih (listAt_setVal h hl hT' true) (texts_append ht hw) (merging_setVal hm' _ _)
      refine ⟨l', sp', ?_, (List.prefix_append l [w]).trans h2, ?_, h4⟩
      · simp only
        rw [h1, setVal_twice, List.set_set]
        have hne : gathered (ts ++ [convert x.convert (srcText env d x.source)]) (sources env d xs) ≠ ts := by
          intro e
          have h1 := (gathered_prefix (sources env d xs) (ts ++ [convert x.convert (srcText env d x.source)])).length_le
          rw [e] at h1
          simp at h1
          omega
        simp [hne]
      · rw [sources_setVal hm'] at h3
        exact h3

/-- **C67.** If each source is empty or there already, the document stays as it is, and is not marked as changed. -/
theorem gather_unchanged {env : Env} {i : Nat} {p : Path} {k : Nat} {ety : Ty} {d : XDoc} {t : Mdl} {vals l sp : List Val}
    {ts : List Str} (xs : List XDoc.SyncDesc) (h : ListAt env d i p t k ety vals l sp) (ht : Texts ety l ts)
    (hm : Merging env d i p ety xs) (hf : ∀ x ∈ xs, addOne ts (srcText env d x.source, convert x.convert) = ts) :
    d.syncMulti env (some i) xs = (d, .ok) := by
  induction xs with
  | nil => rfl
  | cons x xs ih =>
    obtain ⟨hd, hfl, hn, hv⟩ := hm x (List.mem_cons_self ..)
    unfold XDoc.syncMulti
    rw [hd, hfl]
    rcases sync_adds h ht hv with ⟨e, hs⟩ | ⟨e, _⟩
    · rw [hs]
      exact ih (fun y hy => hm y (List.mem_cons_of_mem _ hy)) (fun y hy => hf y (List.mem_cons_of_mem _ hy))
    · rw [hf x (List.mem_cons_self ..)] at e
      exact absurd (congrArg List.length e) (by simp)

/-- **C67.** Nothing is repeated: a list without repetitions has none afterwards. -/
theorem gather_nodup (xs : List (Str × (Str → Str))) : ∀ {ts : List Str}, ts.Nodup → (gathered ts xs).Nodup := by
  induction xs with
  | nil => intro ts h; exact h
  | cons x xs ih =>
    intro ts h
    refine ih ?_
    unfold addOne
    split
    · exact h
    · rename_i hc
      rw [List.nodup_append]
      refine ⟨h, List.nodup_singleton _, ?_⟩
      intro a ha b hb
      rw [List.mem_singleton.mp hb]
      rintro rfl
      exact hc (Or.inr (Or.inr ha))

/-- **C67.** Nothing is lost: the value of each source that is not empty is in the list afterwards, unless the text of the
source is the first element of the list. -/
theorem gather_has_sources {ts : List Str} {xs : List (Str × (Str → Str))} {x : Str × (Str → Str)} (hx : x ∈ xs) (hne : x.1 ≠ []) :
    x.2 x.1 ∈ gathered ts xs ∨ (gathered ts xs).head? = some x.1 := by
  have h := gathered_fixed xs ts x hx
  unfold addOne at h
  split at h
  · rename_i hc
    rcases hc with h1 | h1 | h1
    · exact absurd h1 hne
    · exact Or.inr h1
    · exact Or.inl h1
  · exact absurd (congrArg List.length h) (by simp)

/-- **C67.** Nothing is invented, and the order is that of the sources: what is added are values of sources that are not
empty, in their order. -/
theorem gather_only_sources (xs : List (Str × (Str → Str))) : ∀ ts : List Str, ∃ rs, gathered ts xs = ts ++ rs ∧
    rs.Sublist ((xs.filter (fun x => decide (x.1 ≠ []))).map (fun x => x.2 x.1)) := by
  induction xs with
  | nil => intro ts; exact ⟨[], (List.append_nil _).symm, List.Sublist.refl _⟩
  | cons x xs ih =>
    intro ts
    have hg : gathered ts (x :: xs) = gathered (addOne ts x) xs := rfl
    rw [hg]
    by_cases hc : x.1 = [] ∨ ts.head? = some x.1 ∨ x.2 x.1 ∈ ts
    · have e : addOne ts x = ts := if_pos hc
      rw [e]
      obtain ⟨rs, h1, h2⟩ := ih ts
      refine ⟨rs, h1, h2.trans (List.Sublist.map _ ?_)⟩
      rw [List.filter_cons]
      split
      · exact List.sublist_cons_self _ _
      · exact List.Sublist.refl _
    · have e : addOne ts x = ts ++ [x.2 x.1] := if_neg hc
      rw [e]
      obtain ⟨rs, h1, h2⟩ := ih (ts ++ [x.2 x.1])
      refine ⟨x.2 x.1 :: rs, by rw [h1]; simp, ?_⟩
      rw [List.filter_cons_of_pos (by simp only [decide_eq_true_eq]; exact fun h => hc (Or.inl h)), List.map_cons]
      exact h2.cons_cons _

/-- **C67.** Nothing is done twice: doing it again changes nothing, and the document is not marked as changed. -/
theorem gather_idempotent {env : Env} {i : Nat} {p : Path} {k : Nat} {ety : Ty} {xs : List XDoc.SyncDesc}
    {d : XDoc} {t : Mdl} {vals l sp : List Val} {ts : List Str} (h : ListAt env d i p t k ety vals l sp) (ht : Texts ety l ts)
    (hm : Merging env d i p ety xs) (c : Bool) :
    ({ (d.syncMulti env (some i) xs).1 with dirty := c } : XDoc).syncMulti env (some i) xs =
      ({ (d.syncMulti env (some i) xs).1 with dirty := c }, .ok) := by
  obtain ⟨l', sp', h1, h2, h3, h4, h5⟩ := gather_list xs h ht hm
  rw [h1]
  simp only
  refine gather_unchanged xs (listAt_setVal h h4 h5 c) h3 (merging_setVal hm _ c) ?_
  intro x hx
  rw [srcText_setVal (hm x hx).2.2.1]
  exact gathered_fixed (sources env d xs) ts _ (List.mem_map.mpr ⟨x, hx, rfl⟩)

/-! ### Identifiers -/

theorem strOf_strNum (s : Str) : strOf (strNum s) = s := by
  induction s with
  | nil => rw [strNum, strOf]
  | cons c s ih =>
    rw [strNum, strOf, Nat.unpair_pair]
    simp only [ih, Char.ofNat_toNat]

theorem idOf_idNum (x : Identifier) : idOf (idNum x) = x := by
  unfold idOf idNum
  rw [Nat.unpair_pair]
  simp only [strOf_strNum]

theorem idOf_zero : idOf 0 = {} := by
  have h : idNum {} = 0 := by decide
  rw [← h, idOf_idNum]

theorem identifier_elem {s : Str} (h : s ≠ []) : ElemText (.text idCodec) s := by
  refine ⟨.opq (idNum ⟨s, []⟩), ?_, ?_⟩
  · unfold parseElem
    simp [Ty.zero, parseLeaf, idCodec, idOf_zero, Identifier.ofText]
  · simp [leafText, idCodec, idOf_idNum, Identifier.text, h]

/-- The value of an identifier. -/
def idVal (x : Identifier) : Val := .opq (idNum x)

theorem idVal_texts {ids : List Identifier} (h : ∀ x ∈ ids, x.text ≠ []) :
    Texts (.text idCodec) (ids.map idVal) (ids.map Identifier.text) := by
  induction ids with
  | nil => exact .nil
  | cons x xs ih =>
    refine .cons ?_ (ih (fun y hy => h y (List.mem_cons_of_mem _ hy)))
    simp [leafText, idVal, idCodec, idOf_idNum, h x (List.mem_cons_self ..)]

/-- The model at position `i` is `XmpBase`, with a namespace of the document, and has the given identifiers. -/
structure BaseAt (env : Env) (d : XDoc) (i : Nat) (t : Mdl) (date : Codec) (vals : List Val) (ids : List Identifier) (sp : List Val) : Prop where
  model : (d.roots[i]?).bind (·.model) = some t
  ns : ∃ n, d.pathNs env "xmp:Identifier".toList = some n
  pre : ∃ n ns, t.nss = n :: ns ∧ n.name = "xmp".toList
  ty : t.ty = baseTy date
  val : t.val = .struct vals
  ids : vals[4]? = some (.slice (ids.map idVal) sp)
  spare : ∀ v ∈ sp, HasTy (.text idCodec) v
  others : ∀ x ∈ identifierDesc, ¬ SourceIn env d x.source i

theorem baseAt_list {env : Env} {d : XDoc} {i : Nat} {t : Mdl} {date : Codec} {vals : List Val} {ids : List Identifier} {sp : List Val}
    (h : BaseAt env d i t date vals ids sp) :
    ListAt env d i "xmp:Identifier".toList t 4 (.text idCodec) vals (ids.map idVal) sp where
  model := h.model
  ns := h.ns
  pre := h.pre
  isx := rfl
  val := h.val
  field := ⟨none, baseInfos, baseTys date, { name := "xmp:Identifier".toList }, .unordered, [], h.ty,
    ⟨by decide, by decide, ⟨"Identifier".toList, by decide, by decide⟩, rfl, rfl⟩, by decide, rfl, rfl⟩
  leaf := trivial
  get := h.ids
  typed := by
    refine ⟨?_, h.spare⟩
    intro v hv
    obtain ⟨x, _, rfl⟩ := List.mem_map.mp hv
    exact trivial

theorem identifierDesc_merges : ∀ x ∈ identifierDesc, x.dest = "xmp:Identifier".toList ∧ x.flags = MERGE := by
  simp [identifierDesc, desc]

theorem identifierDesc_values : ∀ x ∈ identifierDesc, ∀ s, s ≠ [] → convert x.convert s ≠ [] := by
  simp [identifierDesc, desc, convert, prefixer, join]

theorem identifierDesc_merging {env : Env} {d : XDoc} {i : Nat} (h : ∀ x ∈ identifierDesc, ¬ SourceIn env d x.source i) :
    Merging env d i "xmp:Identifier".toList (.text idCodec) identifierDesc := by
  intro x hx
  obtain ⟨h1, h2⟩ := identifierDesc_merges x hx
  refine ⟨h1, h2, h x hx, ?_⟩
  intro hne
  have h3 := identifierDesc_values x hx _ hne
  exact ⟨h3, identifier_elem h3⟩

/-- **C67.** Synchronising the base model adds the identifiers found in the other models of the document: with the texts of
the identifiers there before as a list, the texts afterwards are that list with the values of the sources merged.  It never
fails, touches no other property, and doing it again changes nothing.  No identifier is lost unless its text is the first
one of the list already. -/
theorem identifiers_gathered {env : Env} {d : XDoc} {i : Nat} {t : Mdl} {date : Codec} {vals : List Val} {ids : List Identifier}
    {sp : List Val} (h : BaseAt env d i t date vals ids sp) (hid : ∀ x ∈ ids, x.text ≠ []) :
    ∃ l' sp' b, syncModel env d i = ({ d.setVal i (.struct (vals.set 4 (.slice (ids.map idVal ++ l') sp'))) with dirty := b }, .ok) ∧
      (∀ c, syncModel env { (syncModel env d i).1 with dirty := c } i = ({ (syncModel env d i).1 with dirty := c }, .ok)) ∧
      ∃ ts, Texts (.text idCodec) l' ts ∧ (b = true → d.dirty = true ∨ ts ≠ []) ∧ (ts ≠ [] → b = true) ∧
        ((ids.map Identifier.text).Nodup → (ids.map Identifier.text ++ ts).Nodup) ∧
        ts.Sublist ((identifierDesc.filter (fun x => decide (srcText env d x.source ≠ []))).map
          (fun x => convert x.convert (srcText env d x.source))) ∧
        ∀ x ∈ identifierDesc, srcText env d x.source ≠ [] →
          convert x.convert (srcText env d x.source) ∈ ids.map Identifier.text ++ ts ∨
          (ids.map Identifier.text ++ ts).head? = some (srcText env d x.source) := by
  have hL := baseAt_list h
  have hT := idVal_texts hid
  have hM := identifierDesc_merging h.others
  obtain ⟨l1, sp', h1, ⟨l', rfl⟩, h3, _⟩ := gather_list identifierDesc hL hT hM
  obtain ⟨ts, hts, hsub⟩ := gather_only_sources (sources env d identifierDesc) (ids.map Identifier.text)
  replace hts := hts.symm
  refine ⟨l', sp', _, h1, gather_idempotent hL hT hM, ts, ?_, ?_, ?_, ?_, ?_, ?_⟩
  · rw [← hts] at h3
    have := List.forall₂_drop (n := ids.length) h3
    unfold Texts
    simpa using this
  · intro hb
    rcases Bool.or_eq_true_iff.mp hb with hb | hb
    · exact Or.inl hb
    · right
      rintro rfl
      simp only [List.append_nil] at hts
      exact of_decide_eq_true hb hts.symm
  · intro hne
    rw [← hts]
    simp [hne]
  · intro hn
    rw [hts]
    exact gather_nodup _ hn
  · unfold sources at hsub
    rw [List.filter_map, List.map_map] at hsub
    exact hsub
  · intro x hx hne
    rw [hts]
    exact gather_has_sources (x := (srcText env d x.source, convert x.convert)) (List.mem_map.mpr ⟨x, hx, rfl⟩) hne

/-- **C67, finding.** An identifier without text in front of the list stops everything: nothing is added, but the document is
marked as changed whenever a source is not empty. -/
theorem empty_identifier_blocks {env : Env} {d : XDoc} {i : Nat} {t : Mdl} {date : Codec} {vals : List Val} {x0 : Identifier}
    {ids : List Identifier} {sp : List Val} (h : BaseAt env d i t date vals (x0 :: ids) sp) (h0 : x0.text = []) :
    syncModel env d i =
      ({ d with dirty := d.dirty || identifierDesc.any (fun x => decide (srcText env d x.source ≠ [])) }, .ok) := by
  have hM := identifierDesc_merging h.others
  have hv : ∀ x ∈ identifierDesc, ∀ s, s ≠ [] → convert x.convert s ≠ [] := identifierDesc_values
  unfold syncModel
  generalize identifierDesc = xs at hM hv
  have hL := baseAt_list h
  clear h
  have htx : leafText (.text idCodec) (idVal x0) = some none := by
    simp [leafText, idVal, idCodec, idOf_idNum, h0]
  have hset : vals.set 4 (.slice ((x0 :: ids).map idVal) sp) = vals := by
    obtain ⟨h1, h2⟩ := (List.getElem?_eq_some_iff.mp hL.get)
    rw [← h2]
    exact List.set_getElem_self h1
  induction xs generalizing d with
  | nil => simp [XDoc.syncMulti]
  | cons x xs ih =>
    obtain ⟨hd, hf, hn, _⟩ := hM x (List.mem_cons_self ..)
    have hM' : Merging env d i "xmp:Identifier".toList (.text idCodec) xs := fun y hy => hM y (List.mem_cons_of_mem _ hy)
    have hv' : ∀ x ∈ xs, ∀ s, s ≠ [] → convert x.convert s ≠ [] := fun y hy => hv y (List.mem_cons_of_mem _ hy)
    have hread : getModelPath t.ty t.val "xmp:Identifier".toList = .ok [] := by
      obtain ⟨_, _, _, hx, hval, ⟨z, infos, tys, fi, a, lang, hty, hn, hlen, ho, he⟩, hl, hg, _⟩ := hL
      rw [hty, hval]
      unfold getModelPath
      rw [get_step hn hg]
      unfold getField
      simp only [ho, he, Bool.false_or, Bool.not_false, Bool.true_and, hlen, isEmptyValue, List.map_cons, List.isEmpty_cons,
        Bool.false_eq_true, if_false, derefVal]
      unfold getDeref
      simp only [leaf_deref hl, leafRes]
      simp [htx]
    unfold XDoc.syncMulti
    rw [hd, hf, sync_text hL hread]
    by_cases hs : srcText env d x.source = []
    · rw [if_pos (Or.inl hs)]
      simp only
      rw [ih hM' hv' hL]
      simp [hs]
    · rw [if_neg (by rintro (h1 | h1); exacts [hs h1, hs h1.symm])]
      have hr : setSliceEnd (.text idCodec) ((x0 :: ids).map idVal) sp (-1) (convert x.convert (srcText env d x.source)) MERGE =
          (((x0 :: ids).map idVal, sp), .ok) := by
        rw [setSliceEnd_merge _ _ _ (hv x (List.mem_cons_self ..) _ hs)]
        simp only [List.map_cons, uniqueCheck, leaf_deref (t := .text idCodec) trivial, htx]
      simp only [hr, hset]
      rw [← hL.val, setVal_same hL.model]
      have hL' : ListAt env { d with dirty := true } i "xmp:Identifier".toList t 4 (.text idCodec) vals ((x0 :: ids).map idVal) sp :=
        ⟨hL.model, hL.ns, hL.pre, hL.isx, hL.val, hL.field, hL.leaf, hL.get, hL.typed⟩
      rw [ih (d := { d with dirty := true }) hM' hv' hL']
      simp [hs]

/-- **C67, finding.** Four identifiers of QuickTime files are never found: the paths `qt:GUID`, `qt:ISRCCode`, `qt:ContentID`
and `qt:ClipID` name no field of the model, whatever it holds, and the error is hidden. -/
theorem quicktime_ids_missed {z : Option (List Val → Bool)} {tys : List Ty} {v : Val} {p : Path}
    (hp : p ∈ ["qt:GUID".toList, "qt:ISRCCode".toList, "qt:ContentID".toList, "qt:ClipID".toList]) :
    p ∈ identifierDesc.map (·.source) ∧ getModelPath (.struct z qtInfos tys) v p = .notFound := by
  have h1 : p ∈ identifierDesc.map (·.source) := by
    have : ["qt:GUID".toList, "qt:ISRCCode".toList, "qt:ContentID".toList, "qt:ClipID".toList] ⊆ identifierDesc.map (·.source) := by
      decide +kernel
    exact this hp
  have h2 : p.popFront.1 ≠ [] ∧ ¬ (parsePathSegment p.popFront.1).2.1 < -1 ∧
      findField qtInfos (parsePathSegment p.popFront.1).1 = none := by
    revert p
    decide +kernel
  refine ⟨h1, ?_⟩
  unfold getModelPath
  rw [getModelPathF]
  simp only [if_neg h2.1, if_neg h2.2.1]
  cases v <;> simp only [h2.2.2]

/-! ### Cases -/

/-- The namespace of the base model. -/
def nsBase : Namespace := ⟨"xmp".toList, "http://ns.adobe.com/xap/1.0/".toList, some 0⟩

/-- A model with an identifier: `id3`. -/
def nsTag : Namespace := ⟨"id3".toList, "http://id3.org/".toList, some 1⟩

/-- A codec for dates; it is of no importance here. -/
def anyDate : Codec := idCodec

/-- The base model with identifiers. -/
def baseVals (ids : List Identifier) : List Val :=
  ((baseTys anyDate).map Ty.zero).set 4 (.slice (ids.map idVal) [])

/-- A model with identifiers of a podcast. -/
def tagMdl (a b : String) : Mdl :=
  ⟨[nsTag], ["id3".toList], .struct none [{ name := "id3:podcastID".toList }, { name := "id3:uniqueFileIdentifier".toList }] [.str, .str],
    .struct [.str a.toList, .str b.toList]⟩

/-- A document with both. -/
def idDoc (ids : List Identifier) (a b : String) : XDoc :=
  { roots := [⟨Node.new ⟨[], "xmp".toList⟩, some ⟨[nsBase], ["xmp".toList], baseTy anyDate, .struct (baseVals ids)⟩⟩,
      ⟨Node.new ⟨[], "id3".toList⟩, some (tagMdl a b)⟩]
    intNs := [(nsBase.uri, nsBase), (nsTag.uri, nsTag)] }

theorem idDoc_base (ids : List Identifier) (a b : String) :
    BaseAt envX (idDoc ids a b) 0 ⟨[nsBase], ["xmp".toList], baseTy anyDate, .struct (baseVals ids)⟩ anyDate (baseVals ids) ids [] where
  model := rfl
  ns := ⟨nsBase, rfl⟩
  pre := ⟨nsBase, [], rfl, rfl⟩
  ty := rfl
  val := rfl
  ids := rfl
  spare := by intro v hv; cases hv
  others := by
    have h : ∀ p ∈ identifierDesc.map (·.source), ((idDoc ids a b).pathNs envX p).bind (idDoc ids a b).findModel ≠ some 0 := by
      intro p hp
      simp only [identifierDesc, desc, List.map_cons, List.map_nil, List.mem_cons, List.not_mem_nil, or_false] at hp
      rcases hp with rfl | rfl | rfl | rfl | rfl | rfl | rfl | rfl | rfl | rfl | rfl | rfl | rfl | rfl | rfl | rfl | rfl | rfl <;>
        exact (by intro h; cases h)
    intro x hx
    exact h _ (List.mem_map.mpr ⟨x, hx, rfl⟩)

/-- The sources of the sample. -/
example : srcText envX (idDoc [] "p1" "u2") "id3:podcastID".toList = "p1".toList ∧
    srcText envX (idDoc [] "p1" "u2") "id3:uniqueFileIdentifier".toList = "u2".toList := ⟨rfl, rfl⟩

/-- Hypotheses of `identifiers_gathered`. -/
example := identifiers_gathered (idDoc_base [⟨"a".toList, []⟩, ⟨"b".toList, "s".toList⟩] "p1" "u2") (by decide)

/-- The result in this sample: the identifiers `a` and `s:b` are kept, two are added. -/
example : Texts (.text idCodec) [idVal ⟨"a".toList, []⟩, idVal ⟨"b".toList, "s".toList⟩] ["a".toList, "s:b".toList] ∧
    gathered ["a".toList, "s:b".toList] (sources envX (idDoc [⟨"a".toList, []⟩, ⟨"b".toList, "s".toList⟩] "p1" "u2") identifierDesc) =
      ["a".toList, "s:b".toList, "uuid:podcast:p1".toList, "uuid:id3:u2".toList] :=
  ⟨idVal_texts (ids := [⟨"a".toList, []⟩, ⟨"b".toList, "s".toList⟩]) (by decide), rfl⟩

/-- Hypotheses of `empty_identifier_blocks`. -/
example : (syncModel envX (idDoc [{}] "p1" "u2") 0).1 = { idDoc [{}] "p1" "u2" with dirty := true } := by
  rw [empty_identifier_blocks (idDoc_base [{}] "p1" "u2") rfl]
  rfl

/-- **C67, finding.** If the first identifier is the bare text of a source, the identifier with its scheme in front is not
added: texts are compared before the conversion.  If it is the second identifier, it is added. -/
theorem bare_identifier_hides :
    syncModel envX (idDoc [⟨"p1".toList, []⟩] "p1" "") 0 = (idDoc [⟨"p1".toList, []⟩] "p1" "", .ok) ∧
    srcText envX (idDoc [⟨"p1".toList, []⟩] "p1" "") "id3:podcastID".toList = "p1".toList ∧
    gathered ["x".toList, "p1".toList] (sources envX (idDoc [⟨"x".toList, []⟩, ⟨"p1".toList, []⟩] "p1" "") identifierDesc) =
      ["x".toList, "p1".toList, "uuid:podcast:p1".toList] := by
  refine ⟨?_, rfl, rfl⟩
  have hB := idDoc_base [⟨"p1".toList, []⟩] "p1" ""
  refine gather_unchanged identifierDesc (baseAt_list hB) (idVal_texts (by decide)) (identifierDesc_merging hB.others) ?_
  have h : (sources envX (idDoc [⟨"p1".toList, []⟩] "p1" "") identifierDesc).all
      (fun y => decide (addOne ["p1".toList] y = ["p1".toList])) = true := rfl
  intro x hx
  exact of_decide_eq_true (List.all_eq_true.mp h _ (List.mem_map.mpr ⟨x, hx, rfl⟩))

/-- The path of a field that exists is found (compare `quicktime_ids_missed`). -/
example : findField qtInfos "mdta".toList = some 1 := by decide +kernel

end Xmp.Props
