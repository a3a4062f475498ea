import Verif.Props.ModelPath

/-! Concrete consequences of the theorems about model paths (C32), and what the code does outside of their
hypotheses. -/

namespace Xmp.Props

open GoStr SyncFlags

/-- C32 for strings: with the default flags, a non-empty string without surrounding white space can be
written to any path that leads to a string, and is read back. -/
theorem model_string_roundtrip {ty : Ty} {p : Path} {k : Bool} (ha : Addr ty p .str k) (hw : ty.Wf)
    (hz : ZeroLaw ty) {v : Val} (hv : HasTy ty v) {value : Str} (hval : value ≠ []) (ht : Trimmed value) :
    (setModelPath ty v p value 0).2 = .ok ∧ getModelPath ty (setModelPath ty v p value 0).1 p = .ok value := by
  have hparse : ∀ u, HasTy .str u → parseLeaf .str u value = some (.str value) := by
    intro u _
    simp [parseLeaf, setValue, trimSpace_of_trimmed ht]
  have hok := model_write_succeeds ha hw hv hparse hval (Or.inl rfl)
  refine ⟨hok, model_read_after_write ha hw hz hv hparse (s := value) rfl ?_ hval
    (flags := 0) (v' := (setModelPath ty v p value 0).1) (Prod.ext rfl hok)⟩
  intro _
  cases value with
  | nil => exact absurd rfl hval
  | cons c cs => rfl

/-- C32 for integers: with the default flags, the decimal form of a non-zero integer of the right size can
be written to any path that leads to an integer, and is read back. -/
theorem model_int_roundtrip {ty : Ty} {p : Path} {k : Bool} {bits : Nat} (ha : Addr ty p (.int bits) k) (hw : ty.Wf)
    (hz : ZeroLaw ty) {v : Val} (hv : HasTy ty v) {n : Int} (h1 : -(2 ^ (bits - 1) : Int) ≤ n)
    (h2 : n < (2 ^ (bits - 1) : Int)) (h0 : n ≠ 0) :
    (setModelPath ty v p (itoa n) 0).2 = .ok ∧ getModelPath ty (setModelPath ty v p (itoa n) 0).1 p = .ok (itoa n) := by
  have hparse : ∀ u, HasTy (.int bits) u → parseLeaf (.int bits) u (itoa n) = some (.int n) := by
    intro u _
    simp [parseLeaf, setValue, parseInt_itoa h1 h2]
  have hval : itoa n ≠ [] := itoa_ne_nil n
  have hok := model_write_succeeds ha hw hv hparse hval (Or.inl rfl)
  refine ⟨hok, model_read_after_write ha hw hz hv hparse (s := itoa n) rfl ?_ hval
    (flags := 0) (v' := (setModelPath ty v p (itoa n) 0).1) (Prod.ext rfl hok)⟩
  intro _
  simp [isEmptyValue, h0]

/-! ### A sample model -/

/-- `IsZero` of the sample struct `Ref`: all fields are empty. -/
def refZero (vals : List Val) : Bool :=
  match vals with
  | [.str s, .int n] => s.isEmpty && n == 0
  | _ => false

/-- `IsZero` as in the models that use `||` between the fields (e.g. /repo/models/xmp_dm/types.go,
/repo/xmp/xmp_types.go:638). -/
def refZeroOr (vals : List Val) : Bool :=
  match vals with
  | [.str s, .int n] => s.isEmpty || n == 0
  | _ => false

/-- A struct with a string and an integer. -/
def refTy (z : List Val → Bool) : Ty :=
  .struct (some z) [{ name := "st:id".toList }, { name := "st:rank".toList }] [.str, .int 64]

/-- A sample model: a string attribute, an integer, an array of strings, a language alternative, an array of
structs, a pointer to a struct. -/
def sampleTy (z : List Val → Bool) : Ty :=
  .struct none
    [{ name := "x:name".toList, attr := true }, { name := "x:count".toList }, { name := "x:tags".toList },
     { name := "x:title".toList }, { name := "x:parts".toList }, { name := "x:ref".toList }]
    [.str, .int 64, .slice .unordered .str, .alt, .slice .ordered (refTy z), .ptr (refTy z)]

/-- Write to the sample model. -/
def put (z : List Val → Bool) (v : Val) (p value : String) (flags : SyncFlags := 0) : Val × SetRes :=
  setModelPath (sampleTy z) v p.toList value.toList flags

/-- Read from the sample model. -/
def got (z : List Val → Bool) (v : Val) (p : String) : GetRes := getModelPath (sampleTy z) v p.toList

theorem refTy_wf (z : List Val → Bool) : (refTy z).Wf := by simp [refTy, Ty.Wf, Ty.WfAll]

theorem sampleTy_wf (z : List Val → Bool) : (sampleTy z).Wf := by
  simp only [sampleTy, Ty.Wf, Ty.WfAll]
  exact ⟨rfl, trivial, trivial, trivial, trivial, refTy_wf z, ⟨refTy_wf z, rfl⟩, trivial⟩

theorem refTy_zeroLaw : ZeroLaw (refTy refZero) := by
  unfold refTy
  rw [ZeroLaw]
  refine ⟨?_, by simp [ZeroLawAll, ZeroLaw]⟩
  intro zf hzf vals hv i t fv ht hfv
  simp only [Option.some.injEq] at hzf
  subst hzf
  match vals, hv with
  | [.str s, .int n], hv =>
    simp only [refZero, Bool.and_eq_true] at hv
    match i with
    | 0 =>
      simp only [List.getElem?_cons_zero, Option.some.injEq] at ht hfv
      subst ht; subst hfv
      exact hv.1
    | 1 =>
      simp only [List.getElem?_cons_succ, List.getElem?_cons_zero, Option.some.injEq] at ht hfv
      subst ht; subst hfv
      exact hv.2
    | i + 2 => simp at ht

theorem sampleTy_zeroLaw : ZeroLaw (sampleTy refZero) := by
  unfold sampleTy
  rw [ZeroLaw]
  refine ⟨by intro zf h; simp at h, ?_⟩
  simp only [ZeroLawAll, ZeroLaw]
  exact ⟨trivial, trivial, trivial, trivial, refTy_zeroLaw, refTy_zeroLaw, trivial⟩

/-- Hypotheses of the theorems on the sample: a field of the struct behind a pointer, a field of the third
element of an array of structs, an array element. -/
theorem sample_addr : Addr (sampleTy refZero) "x:ref/st:rank".toList (.int 64) false ∧
    Addr (sampleTy refZero) "x:parts[2]/st:id".toList .str false ∧
    Addr (sampleTy refZero) "x:tags[1]".toList .str true := by
  refine ⟨?_, ?_, ?_⟩
  · refine .field (i := 5) (idx := -1) (lang := []) (fi := { name := "x:ref".toList }) (fty := .ptr (refTy refZero))
      ⟨by decide, by decide, ⟨"ref".toList, by decide, by decide⟩, rfl, rfl⟩ rfl rfl (by decide) ?_
    exact .leaf (i := 1) (idx := -1) (lang := []) (fi := { name := "st:rank".toList }) (fty := .int 64)
      ⟨by decide, by decide, ⟨"rank".toList, by decide, by decide⟩, rfl, rfl⟩ rfl trivial
  · refine .item (i := 4) (idx := 2) (lang := []) (fi := { name := "x:parts".toList })
      (fty := .slice .ordered (refTy refZero))
      ⟨by decide, by decide, ⟨"parts".toList, by decide, by decide⟩, rfl, rfl⟩ rfl rfl rfl (by decide) ?_
    exact .leaf (i := 0) (idx := -1) (lang := []) (fi := { name := "st:id".toList }) (fty := .str)
      ⟨by decide, by decide, ⟨"id".toList, by decide, by decide⟩, rfl, rfl⟩ rfl trivial
  · exact .elem (i := 2) (idx := 1) (lang := []) (fi := { name := "x:tags".toList }) (fty := .slice .unordered .str)
      ⟨by decide, by decide, ⟨"tags".toList, by decide, by decide⟩, rfl, rfl⟩ rfl rfl (by decide) (by decide) trivial

example (v : Val) (hv : HasTy (sampleTy refZero) v) :
    getModelPath (sampleTy refZero) (setModelPath (sampleTy refZero) v "x:ref/st:rank".toList (itoa (-7)) 0).1
      "x:ref/st:rank".toList = .ok (itoa (-7)) :=
  (model_int_roundtrip sample_addr.1 (sampleTy_wf _) sampleTy_zeroLaw hv (n := -7) (by decide) (by decide)
    (by decide)).2

example (v : Val) (hv : HasTy (sampleTy refZero) v) :
    getModelPath (sampleTy refZero) (setModelPath (sampleTy refZero) v "x:parts[2]/st:id".toList "b".toList 0).1
      "x:parts[2]/st:id".toList = .ok "b".toList :=
  (model_string_roundtrip sample_addr.2.1 (sampleTy_wf _) sampleTy_zeroLaw hv (by decide) (by decide)).2

/-- Paths of the sample that part ways: different fields; different elements of an array; different fields
of the same element. -/
theorem sample_apart : Apart (sampleTy refZero) "x:ref/st:rank".toList "x:name".toList ∧
    Apart (sampleTy refZero) "x:parts[2]/st:id".toList "x:parts[0]/st:id".toList ∧
    Apart (sampleTy refZero) "x:parts[2]/st:id".toList "x:parts[2]/st:rank".toList := by
  refine ⟨?_, ?_, ?_⟩
  · exact .field (i := 5) (j := 0) (idx := -1) (lang := []) (idx' := -1) (lang' := [])
      (fi := { name := "x:ref".toList }) (ft := .ptr (refTy refZero))
      (fj := { name := "x:name".toList, attr := true }) (gt := .str)
      ⟨by decide, by decide, ⟨"ref".toList, by decide, by decide⟩, rfl, rfl⟩
      ⟨by decide, by decide, ⟨"name".toList, by decide, by decide⟩, rfl, rfl⟩ (by decide) rfl
  · exact .index (i := 4) (idx := 2) (lang := []) (idx' := 0) (lang' := [])
      (fi := { name := "x:parts".toList }) (ft := .slice .ordered (refTy refZero))
      ⟨by decide, by decide, ⟨"parts".toList, by decide, by decide⟩, rfl, rfl⟩
      ⟨by decide, by decide, ⟨"parts".toList, by decide, by decide⟩, rfl, rfl⟩ rfl (by decide) (by decide)
  · refine .item (i := 4) (idx := 2) (lang := []) (idx' := 2) (lang' := [])
      (fi := { name := "x:parts".toList }) (ft := .slice .ordered (refTy refZero))
      ⟨by decide, by decide, ⟨"parts".toList, by decide, by decide⟩, rfl, rfl⟩
      ⟨by decide, by decide, ⟨"parts".toList, by decide, by decide⟩, rfl, rfl⟩ rfl rfl rfl (by decide) (by decide) ?_
    exact .field (i := 0) (j := 1) (idx := -1) (lang := []) (idx' := -1) (lang' := [])
      (fi := { name := "st:id".toList }) (ft := .str) (fj := { name := "st:rank".toList }) (gt := .int 64)
      ⟨by decide, by decide, ⟨"id".toList, by decide, by decide⟩, rfl, rfl⟩
      ⟨by decide, by decide, ⟨"rank".toList, by decide, by decide⟩, rfl, rfl⟩ (by decide) rfl

example (v : Val) (hv : HasTy (sampleTy refZero) v) (h : got refZero v "x:name" = .ok "me".toList) :
    got refZero (put refZero v "x:ref/st:rank" "3").1 "x:name" = .ok "me".toList :=
  model_frame sample_apart.1 (sampleTy_wf _) sampleTy_zeroLaw hv (by decide) (by decide) 0 h

/-- The language alternative of the sample. -/
example (v v' : Val) (hv : HasTy (sampleTy refZero) v)
    (h : put refZero v "x:title[de]" "Titel" (REPLACE ||| CREATE) = (v', .ok)) :
    got refZero v' "x:title[de]" = .ok "Titel".toList :=
  model_read_after_write_alt (.here) (i := 3) (idx := -1) (lang := "de".toList) (fi := { name := "x:title".toList })
    (fty := .alt) ⟨by decide, by decide, ⟨"title".toList, by decide, by decide⟩, rfl, rfl⟩ rfl rfl (sampleTy_wf _)
    sampleTy_zeroLaw hv (by decide) (by decide) (by decide) (by decide) h (by decide)

/-! ### Outside of the hypotheses -/

/-- The empty sample. -/
def sample0 (z : List Val → Bool) : Val := (sampleTy z).zero

/-- C32 fails for values that count as empty: writing `0` succeeds, but reading returns the empty string. -/
theorem zero_not_read_back : (put refZero (sample0 refZero) "x:count" "0").2 = .ok ∧
    got refZero (put refZero (sample0 refZero) "x:count" "0").1 "x:count" = .ok [] := ⟨rfl, rfl⟩

/-- C32 fails for strings with surrounding white space: they are trimmed. -/
theorem space_not_read_back : (put refZero (sample0 refZero) "x:name" " a ").2 = .ok ∧
    got refZero (put refZero (sample0 refZero) "x:name" " a ").1 "x:name" = .ok "a".toList := ⟨rfl, rfl⟩

/-- C32 fails for structs whose `IsZero` holds although a field is set: what was written is not read. -/
theorem iszero_or_not_read_back :
    (put refZeroOr (sample0 refZeroOr) "x:ref/st:rank" "7").2 = .ok ∧
    got refZeroOr (put refZeroOr (sample0 refZeroOr) "x:ref/st:rank" "7").1 "x:ref/st:rank" = .ok [] := ⟨rfl, rfl⟩

/-- C32 fails for arrays without index under the default flags: the write appends, the read returns the
first element. -/
theorem array_append_not_read_back :
    (put refZero (put refZero (sample0 refZero) "x:tags" "a").1 "x:tags" "b").2 = .ok ∧
    got refZero (put refZero (put refZero (sample0 refZero) "x:tags" "a").1 "x:tags" "b").1 "x:tags" =
      .ok "a".toList := ⟨rfl, rfl⟩

/-- C32 fails for language alternatives under the default flags: a second text of a language is added behind
the first, which is still the one that is read. -/
theorem alt_default_not_read_back :
    (put refZero (put refZero (sample0 refZero) "x:title[de]" "Alt").1 "x:title[de]" "Neu").2 = .ok ∧
    got refZero (put refZero (put refZero (sample0 refZero) "x:title[de]" "Alt").1 "x:title[de]" "Neu").1
      "x:title[de]" = .ok "Alt".toList := ⟨rfl, rfl⟩

/-- Path segments behind a simple value are ignored: the write to a path that does not exist changes the
value in front of it. -/
theorem extra_segments_ignored :
    got refZero (put refZero (put refZero (sample0 refZero) "x:name" "a").1 "x:name/y:other/z:more" "b").1 "x:name" =
      .ok "b".toList := rfl

/-- A failed write is not without effect: it leaves an allocated, empty struct behind. -/
theorem failed_write_allocates :
    put refZero (sample0 refZero) "x:ref/st:nothing" "b" =
      (.struct [.str [], .int 0, .slice [] [], .alt [], .slice [] [], .ptr (.struct [.str [], .int 0])], .notFound) :=
  rfl

/-- Numbers cannot be deleted: writing the empty string with the delete flag is an error. -/
theorem number_not_deletable :
    put refZero (put refZero (sample0 refZero) "x:count" "5").1 "x:count" "" DELETE =
      ((put refZero (sample0 refZero) "x:count" "5").1, .err) := rfl

end Xmp.Props
