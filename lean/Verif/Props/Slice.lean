import Verif.Props.ModelPath

/-! Properties of array elements addressed by index (C31). -/

namespace Xmp.Props

open GoStr SyncFlags

/-! ### Specification -/

/-- Changes of an array by index: set an element to a text, or delete it. -/
inductive SliceOp where
  | set (n : Nat) (value : Str)
  | del (n : Nat)

/-- The index of an operation. -/
def SliceOp.idx : SliceOp → Nat
  | .set n _ => n
  | .del n => n

/-- What an operation should do to the elements: replace the element, or append it after as many empty
elements as needed; remove the element, keeping the order of the others.  Texts that the element type does
not accept and indexes out of range of a deletion change nothing. -/
def SliceOp.spec (ety : Ty) (l : List Val) : SliceOp → List Val
  | .set n value =>
    match parseElem ety value with
    | none => l
    | some w => if n < l.length then l.set n w else l ++ List.replicate (n - l.length) ety.zero ++ [w]
  | .del n => l.eraseIdx n

/-- The operation on a model: `SetModelPath` with the path `pfx:name[n]`. -/
def SliceOp.run (ty : Ty) (pfx name : Str) (flags : SyncFlags) (v : Val) (op : SliceOp) : Val :=
  match op with
  | .set n value => (setModelPath ty v (Path.new pfx [name ++ ['['] ++ itoa n ++ [']']]) value flags).1
  | .del n => (setModelPath ty v (Path.new pfx [name ++ ['['] ++ itoa n ++ [']']]) [] flags).1

/-- The elements of the array field `i` of a struct, with what its backing array holds behind them. -/
def arrayField (v : Val) (i : Nat) : Option (List Val × List Val) :=
  match v with
  | .struct vals =>
    match vals[i]? with
    | some (.slice l sp) => some (l, sp)
    | _ => none
  | _ => none

/-- A deletion of the last of two or more elements (which leaves the element behind in the backing array). -/
def SliceOp.tailDelete (l : List Val) : SliceOp → Prop
  | .del n => n ≠ 0 ∧ n + 1 = l.length
  | .set _ _ => False

/-- No operation of the sequence deletes the last of two or more elements, and indexes fit into an `int`;
texts are not empty. -/
def Plain (ety : Ty) : List Val → List SliceOp → Prop
  | _, [] => True
  | l, op :: ops => ¬ op.tailDelete l ∧ (op.idx : Int) < 2 ^ 63 ∧ (∀ n, op ≠ .set n []) ∧ Plain ety (op.spec ety l) ops

/-! ### Helper lemmas -/

theorem indexed_path (pfx name : Str) (n : Nat) (hp : ':' ∉ pfx) (hc : ':' ∉ name)
    (hs : '/' ∉ name) :
    Path.popFront (Path.new pfx [name ++ ['['] ++ itoa n ++ [']']]) =
      (name ++ ['['] ++ itoa n ++ [']'], Path.new pfx []) ∧ (Path.new pfx []).len = 0 := by
  have hdig : ∀ c : Char, isDigit c = false → c ≠ '-' → c ∉ itoa (n : Int) := fun c h1 h2 => itoa_not_mem h1 h2 n
  have hs' : '/' ∉ name ++ ['['] ++ itoa n ++ [']'] := by
    simp only [List.mem_append, List.mem_singleton, not_or]
    exact ⟨⟨⟨hs, by decide⟩, hdig '/' (by decide) (by decide)⟩, by decide⟩
  have hc' : ':' ∉ name ++ ['['] ++ itoa n ++ [']'] := by
    simp only [List.mem_append, List.mem_singleton, not_or]
    exact ⟨⟨⟨hc, by decide⟩, hdig ':' (by decide) (by decide)⟩, by decide⟩
  have hok : SegsOk [name ++ ['['] ++ itoa n ++ [']']] := by
    refine ⟨by intro s h; simp only [List.mem_singleton] at h; subst h; exact hs', ?_⟩
    intro s h
    simp only [List.head?_cons, Option.some.injEq] at h
    subst h
    simp
  have hf := path_fields_new pfx _ hp hok
  have hnp : hasNsPrefix (name ++ ['['] ++ itoa n ++ [']']) = false := by
    unfold hasNsPrefix
    rw [indexChar_none.2 hc']
  constructor
  · unfold Path.popFront
    rw [hf.1]
    simp only [hnp, Bool.false_eq_true, if_false, hf.2.1]
  · rw [len_eq_length_fields, (path_fields_new pfx [] hp ⟨by simp, by simp⟩).1]
    rfl

theorem indexed_names {infos : List FieldInfo} {tys : List Ty} {i : Nat} {fi : FieldInfo} {fty : Ty} (pfx name : Str)
    (n : Nat) (hp : ':' ∉ pfx) (hn : FieldName name) (hc : ':' ∉ name) (hs : '/' ∉ name)
    (hf : findField infos name = some i) (hi : infos[i]? = some fi) (ht : tys[i]? = some fty)
    (hb : (n : Int) < 2 ^ 63) :
    Names infos tys (Path.new pfx [name ++ ['['] ++ itoa n ++ [']']]) i fi fty n [] := by
  have h := (indexed_path pfx name n hp hc hs).1
  refine ⟨by rw [h]; simp, by omega, ⟨name, ?_, hf⟩, hi, ht⟩
  rw [h]
  exact segment_index_roundtrip name n hn ⟨by omega, hb⟩

/-- The spare elements are all zero. -/
def ZeroSpare (ety : Ty) (sp : List Val) : Prop := ∀ x ∈ sp, x = ety.zero

theorem eraseIdx_eq_take_drop {α : Type} (l : List α) (n : Nat) : l.eraseIdx n = l.take n ++ l.drop (n + 1) :=
  List.eraseIdx_eq_take_drop_succ l n

theorem growSlice_zero {ety : Ty} {n : Nat} {l sp : List Val} (hz : ZeroSpare ety sp) :
    ((growSlice ety n l sp).1 = if n < l.length then l else l ++ List.replicate (n + 1 - l.length) ety.zero) ∧
    ZeroSpare ety (growSlice ety n l sp).2 := by
  unfold growSlice
  by_cases h : l.length ≤ n
  · rw [if_pos h, if_neg (by omega : ¬ n < l.length)]
    by_cases h2 : l.length + sp.length ≤ n
    · rw [if_pos h2]; exact ⟨rfl, fun x hx => (List.mem_replicate.mp hx).2⟩
    · rw [if_neg h2]
      refine ⟨?_, fun x hx => hz x (List.mem_of_mem_drop hx)⟩
      refine congrArg (l ++ ·) ?_
      rw [List.eq_replicate_iff]
      refine ⟨by rw [List.length_take]; omega, fun x hx => hz x (List.mem_of_mem_take hx)⟩
  · rw [if_neg h, if_pos (by omega)]; exact ⟨rfl, hz⟩

theorem grow_set_spec {ety : Ty} {n : Nat} {l : List Val} (w : Val) (h : ¬ n < l.length) :
    (l ++ List.replicate (n + 1 - l.length) ety.zero).set n w =
      l ++ List.replicate (n - l.length) ety.zero ++ [w] := by
  have h1 : n + 1 - l.length = (n - l.length) + 1 := by omega
  rw [h1, List.replicate_succ', ← List.append_assoc, List.set_append_right _ _ (by simp; omega)]
  congr 1
  simp only [List.length_append, List.length_replicate]
  have : n - (l.length + (n - l.length)) = 0 := by omega
  rw [this]
  rfl

/-- One operation on the elements. -/
theorem setSliceEnd_op {ety : Ty} {l sp : List Val} {flags : SyncFlags} (hR : flags.has (REPLACE ||| CREATE) = true)
    (hD : flags.has DELETE = true) (op : SliceOp) (hne : ∀ n, op ≠ .set n []) (hz : ZeroSpare ety sp)
    (hnt : ¬ op.tailDelete l) :
    ∃ sp', (setSliceEnd ety l sp op.idx (match op with | .set _ v => v | .del _ => []) flags).1 = (op.spec ety l, sp') ∧
      ZeroSpare ety sp' := by
  cases op with
  | set n value =>
    have hval : value ≠ [] := fun h => hne n (by rw [h])
    have h1 : ¬ (n : Int) = -1 := by omega
    have h2 : (n : Int) > -1 := by omega
    simp only [SliceOp.idx, SliceOp.spec]
    unfold setSliceEnd
    simp only [h1, h2, hval, ne_eq, not_false_eq_true, decide_true, decide_false, Bool.and_false, Bool.and_true,
      Bool.false_eq_true, if_false, hR, if_true]
    cases hp : parseElem ety value with
    | none => exact ⟨sp, rfl, hz⟩
    | some w =>
      have hg := growSlice_zero (n := n) (l := l) hz
      simp only [Int.toNat_natCast]
      refine ⟨(growSlice ety n l sp).2, ?_, hg.2⟩
      rw [hg.1]
      by_cases hn : n < l.length
      · rw [if_pos hn, if_pos hn]
      · rw [if_neg hn, if_neg hn, grow_set_spec w hn]
  | del n =>
    have h1 : ¬ (n : Int) = -1 := by omega
    have h2 : (n : Int) > -1 := by omega
    simp only [SliceOp.idx, SliceOp.spec]
    unfold setSliceEnd
    simp only [h1, h2, ne_eq, not_true_eq_false, decide_true, decide_false, Bool.and_false, Bool.and_true,
      Bool.false_eq_true, if_false, hD, if_true, Int.toNat_natCast]
    by_cases hlen : l.length ≤ n
    · rw [if_pos hlen, List.eraseIdx_of_length_le hlen]; exact ⟨sp, rfl, hz⟩
    · rw [if_neg hlen]
      by_cases h0 : n = 0
      · subst h0
        refine ⟨sp, ?_, hz⟩
        simp [eraseIdx_eq_take_drop]
      · rw [if_neg h0]
        have hnl : ¬ n = l.length - 1 := by
          intro h; exact hnt ⟨h0, by omega⟩
        rw [if_neg hnl, eraseIdx_eq_take_drop]
        exact ⟨[], rfl, by intro x hx; simp at hx⟩

/-- A write with an index to an array field of a struct is a write to the elements of that field. -/
theorem set_indexed {z : Option (List Val → Bool)} {infos : List FieldInfo} {tys : List Ty} {vals : List Val} {i : Nat}
    {fi : FieldInfo} {a : ArrayType} {ety : Ty} {l sp : List Val} {pfx name : Str} {n : Nat} {value : Str}
    {flags : SyncFlags} (h0 : flags ≠ 0) (hn : Names infos tys (Path.new pfx [name ++ ['['] ++ itoa n ++ [']']]) i fi (.slice a ety) n [])
    (hlen : (Path.new pfx [name ++ ['['] ++ itoa n ++ [']']]).popFront.2.len = 0)
    (hv : vals[i]? = some (.slice l sp)) (ht : HasTy (.slice a ety) (.slice l sp)) :
    setModelPath (.struct z infos tys) (.struct vals) (Path.new pfx [name ++ ['['] ++ itoa n ++ [']']]) value flags =
      (.struct (vals.set i (.slice (setSliceEnd ety l sp n value flags).1.1 (setSliceEnd ety l sp n value flags).1.2)),
        (setSliceEnd ety l sp n value flags).2) := by
  have hx : (Path.new pfx [name ++ ['['] ++ itoa n ++ [']']]).isXmpPath = true := by
    have hp := len_pos_of_popFront hn.1
    unfold Path.len at hp
    unfold Path.isXmpPath
    cases hx : indexChar ':' (Path.new pfx [name ++ ['['] ++ itoa n ++ [']']]) with
    | none => rw [hx] at hp; simp at hp
    | some i => rfl
  unfold setModelPath
  simp only [if_neg h0, hx, Bool.not_true, Bool.false_eq_true, if_false]
  rw [set_step hn hv ht]
  simp only [hlen, Ty.deref, derefVal, rewrap, setField]
  simp

/-! ### Theorems -/

/-- C31, one step: deleting an element by path, whatever happened before, removes exactly that element and
keeps the others in order; an index out of range is an error and changes nothing. -/
theorem delete_element {z : Option (List Val → Bool)} {infos : List FieldInfo} {tys : List Ty} {vals : List Val} {i : Nat}
    {fi : FieldInfo} {a : ArrayType} {ety : Ty} {l sp : List Val} {pfx name : Str} {flags : SyncFlags} (h0 : flags ≠ 0)
    (hD : flags.has DELETE = true) (hp : ':' ∉ pfx) (hn : FieldName name) (hc : ':' ∉ name) (hs : '/' ∉ name)
    (hf : findField infos name = some i) (hi : infos[i]? = some fi) (hty : tys[i]? = some (.slice a ety))
    (hv : vals[i]? = some (.slice l sp)) (ht : HasTy (.slice a ety) (.slice l sp)) (n : Nat) (hb : (n : Int) < 2 ^ 63) :
    ∃ sp', setModelPath (.struct z infos tys) (.struct vals) (Path.new pfx [name ++ ['['] ++ itoa n ++ [']']]) [] flags =
      (.struct (vals.set i (.slice (l.eraseIdx n) sp')), if n < l.length then .ok else .err) := by
  have hnm := indexed_names (tys := tys) pfx name n hp hn hc hs hf hi hty hb
  have hlen := indexed_path pfx name n hp hc hs
  rw [set_indexed h0 hnm (by rw [hlen.1]; exact hlen.2) hv ht]
  have h1 : ¬ (n : Int) = -1 := by omega
  have h2 : (n : Int) > -1 := by omega
  unfold setSliceEnd
  simp only [h1, h2, ne_eq, not_true_eq_false, decide_true, decide_false, Bool.and_false, Bool.and_true,
    Bool.false_eq_true, if_false, hD, if_true, Int.toNat_natCast]
  by_cases hl : l.length ≤ n
  · rw [if_pos hl, if_neg (by omega), List.eraseIdx_of_length_le hl]
    exact ⟨sp, rfl⟩
  · rw [if_neg hl, if_pos (by omega : n < l.length)]
    by_cases h0 : n = 0
    · subst h0
      refine ⟨sp, ?_⟩
      simp [eraseIdx_eq_take_drop]
    · rw [if_neg h0]
      by_cases hnl : n = l.length - 1
      · rw [if_pos hnl, eraseIdx_eq_take_drop]
        have : l.drop (n + 1) = [] := List.drop_eq_nil_of_le (by omega)
        rw [this, List.append_nil]
        exact ⟨_, rfl⟩
      · rw [if_neg hnl, eraseIdx_eq_take_drop]
        exact ⟨[], rfl⟩

/-- C31, one step: setting an element by path puts the value at the index and keeps every element that was
there, at its index. -/
theorem set_element {z : Option (List Val → Bool)} {infos : List FieldInfo} {tys : List Ty} {vals : List Val} {i : Nat}
    {fi : FieldInfo} {a : ArrayType} {ety : Ty} {l sp : List Val} {pfx name value : Str} {w : Val} {flags : SyncFlags}
    (h0 : flags ≠ 0) (hR : flags.has (REPLACE ||| CREATE) = true) (hp : ':' ∉ pfx) (hn : FieldName name)
    (hc : ':' ∉ name) (hs : '/' ∉ name) (hf : findField infos name = some i) (hi : infos[i]? = some fi)
    (hty : tys[i]? = some (.slice a ety)) (hv : vals[i]? = some (.slice l sp))
    (ht : HasTy (.slice a ety) (.slice l sp)) (n : Nat) (hb : (n : Int) < 2 ^ 63) (hval : value ≠ [])
    (hw : parseElem ety value = some w) :
    ∃ l' sp', setModelPath (.struct z infos tys) (.struct vals) (Path.new pfx [name ++ ['['] ++ itoa n ++ [']']]) value flags =
      (.struct (vals.set i (.slice l' sp')), .ok) ∧ l'[n]? = some w ∧ l'.length = max l.length (n + 1) ∧
      ∀ j, j < l.length → j ≠ n → l'[j]? = l[j]? := by
  have hnm := indexed_names (tys := tys) pfx name n hp hn hc hs hf hi hty hb
  have hlen := indexed_path pfx name n hp hc hs
  rw [set_indexed h0 hnm (by rw [hlen.1]; exact hlen.2) hv ht]
  have h1 : ¬ (n : Int) = -1 := by omega
  have h2 : (n : Int) > -1 := by omega
  unfold setSliceEnd
  simp only [h1, h2, hval, ne_eq, not_false_eq_true, decide_true, decide_false, Bool.and_false, Bool.and_true,
      Bool.false_eq_true, if_false, hR, if_true, hw, Int.toNat_natCast]
  refine ⟨_, _, rfl, List.getElem?_set_self growSlice_length, ?_, ?_⟩
  · rw [List.length_set]
    unfold growSlice
    split
    · split
      · simp; omega
      · simp; omega
    · simp only; omega
  · intro j hj hjn
    rw [List.getElem?_set_ne (Ne.symm hjn), growSlice_get hj]

/-- C31 over histories, partially: any sequence of sets and deletes by index acts on the elements as
specified - in particular gaps are filled with empty elements - as long as it never deletes the last of two
or more elements.  Missing: histories with such a deletion, for which the property fails
(`deleted_element_returns`). -/
theorem slice_history_partial {z : Option (List Val → Bool)} {infos : List FieldInfo} {tys : List Ty} {i : Nat}
    {fi : FieldInfo} {a : ArrayType} {ety : Ty} {pfx name : Str} {flags : SyncFlags} (h0 : flags ≠ 0)
    (hR : flags.has (REPLACE ||| CREATE) = true) (hD : flags.has DELETE = true) (hp : ':' ∉ pfx)
    (hn : FieldName name) (hc : ':' ∉ name) (hs : '/' ∉ name)
    (hf : findField infos name = some i) (hi : infos[i]? = some fi) (hty : tys[i]? = some (.slice a ety))
    (ops : List SliceOp) : ∀ (v : Val) (l sp : List Val), HasTy (.struct z infos tys) v → (Ty.struct z infos tys).Wf →
      arrayField v i = some (l, sp) → ZeroSpare ety sp → Plain ety l ops →
      ∃ sp', arrayField (ops.foldl (SliceOp.run (.struct z infos tys) pfx name flags) v) i =
        some (ops.foldl (SliceOp.spec ety) l, sp') := by
  induction ops with
  | nil => intro v l sp _ _ h _ _; exact ⟨sp, h⟩
  | cons op ops ih =>
    intro v l sp hv hw h hz hpl
    rw [Plain] at hpl
    obtain ⟨hnt, hb, hne, hrest⟩ := hpl
    have hlen := indexed_path pfx name op.idx hp hc hs
    have hnm := indexed_names (tys := tys) pfx name op.idx hp hn hc hs hf hi hty hb
    rw [List.foldl_cons, List.foldl_cons]
    have hv2 : HasTy (.struct z infos tys) (SliceOp.run (.struct z infos tys) pfx name flags v op) := by
      have hset : ∀ p value, HasTy (.struct z infos tys) (setModelPath (.struct z infos tys) v p value flags).1 := by
        intro p value
        unfold setModelPath
        simp only
        split
        · exact hv
        · exact setModelPathF_typed _ _ _ _ _ _ hw hv
      cases op with
      | set n value => exact hset _ _
      | del n => exact hset _ _
    cases v with
    | struct vals =>
      unfold arrayField at h
      simp only at h
      cases hvi : vals[i]? with
      | none => rw [hvi] at h; simp at h
      | some fv =>
        rw [hvi] at h
        cases fv with
        | slice l1 sp1 =>
          simp only [Option.some.injEq, Prod.mk.injEq] at h
          obtain ⟨rfl, rfl⟩ := h
          have hts := hv
          rw [HasTy] at hts
          have ht := hasTys_get hts hty hvi
          have hlt : i < vals.length := (List.getElem?_eq_some_iff.mp hvi).1
          obtain ⟨sp2, hop, hz2⟩ := setSliceEnd_op hR hD op hne hz hnt
          have hrun : SliceOp.run (.struct z infos tys) pfx name flags (.struct vals) op =
              .struct (vals.set i (.slice (op.spec ety l1) sp2)) := by
            cases op with
            | set n value =>
              simp only [SliceOp.run, SliceOp.idx] at *
              rw [set_indexed h0 hnm (by rw [hlen.1]; exact hlen.2) hvi ht, hop]
            | del n =>
              simp only [SliceOp.run, SliceOp.idx] at *
              rw [set_indexed h0 hnm (by rw [hlen.1]; exact hlen.2) hvi ht, hop]
          rw [hrun] at hv2 ⊢
          refine ih _ _ sp2 hv2 hw ?_ hz2 hrest
          unfold arrayField
          simp only [List.getElem?_set_self hlt]
        | _ => simp at h
    | _ => simp [HasTy] at hv

/-- A model with one array field, like `dc:subject`. -/
def subjectTy : Ty := .struct none [{ name := "dc:subject".toList }] [.slice .unordered .str]

/-- The operations on `dc:subject` used below. -/
def subjectRun (ops : List SliceOp) : Val :=
  ops.foldl (SliceOp.run subjectTy "dc".toList "subject".toList DEFAULT) subjectTy.zero

example : Plain .str [] [.set 0 "a".toList, .set 3 "d".toList, .del 1, .set 1 "x".toList] ∧
    subjectTy.Wf ∧ findField [{ name := "dc:subject".toList }] "subject".toList = some 0 ∧
    DEFAULT.has (REPLACE ||| CREATE) = true ∧ DEFAULT.has DELETE = true ∧
    arrayField (subjectRun [.set 0 "a".toList, .set 3 "d".toList, .del 1, .set 1 "x".toList]) 0 =
      some ([.str "a".toList, .str "x".toList, .str "d".toList], []) := by
  refine ⟨?_, ?_, by decide, by decide, by decide, rfl⟩
  · simp [Plain, SliceOp.tailDelete, SliceOp.idx, SliceOp.spec, parseElem, parseLeaf, setValue, Ty.zero]
  · simp [subjectTy, Ty.Wf, Ty.WfAll]

/-- C31 fails: after `a`, `b`, `c` were set and `c` deleted, setting the element behind the gap brings the
deleted `c` back into the gap, which should be empty. -/
theorem deleted_element_returns :
    arrayField (subjectRun [.set 0 "a".toList, .set 1 "b".toList, .set 2 "c".toList, .del 2, .set 3 "d".toList]) 0 =
      some ([.str "a".toList, .str "b".toList, .str "c".toList, .str "d".toList], []) := rfl

end Xmp.Props
