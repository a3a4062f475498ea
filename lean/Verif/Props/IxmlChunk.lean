import Verif.Props.IxmlReread

/-!
# C77: iXML chunks as a whole
-/

namespace Xmp.Props

open Xmp Xmp.GoStr Xmp.Ixml Xmp.Codec

theorem ixmlTy_ok : tyOk ixmlTy = true := by decide +kernel

theorem ixmlTy_start : startOk ixmlTy = true := by decide +kernel

theorem localName_root : localName "BWFXML".toList = "BWFXML".toList := by decide +kernel

/-! ### The upgrade -/

theorem fitsAll_cons {all fs : List XField} {f : XField} {ts : List XTy} {t : XTy} {vs : List XVal} (h : FitsAll all (f :: fs) (t :: ts) vs) :
    ∃ v r, vs = v :: r ∧ FieldFits all f t v ∧ FitsAll all fs ts r := by
  cases vs with
  | nil => exact h.elim
  | cons v r => exact ⟨v, r, rfl, h.1, h.2⟩

theorem fitsAll_nil {all : List XField} {vs : List XVal} (h : FitsAll all [] [] vs) : vs = [] := by
  cases vs with
  | nil => rfl
  | cons v r => exact h.elim

theorem field_texts {all : List XField} {f : XField} {v : XVal} (ha : f.any = false) (h : FieldFits all f .texts v) :
    ∃ l, v = .texts l ∧ ∀ s ∈ l, ',' ∉ s := by
  rcases h with h | h | h
  · exact ⟨[], by rw [h.2.2, XTy.zero], by simp⟩
  · rw [ha] at h; cases h.1
  · cases v <;> first | exact ⟨_, rfl, h.2⟩ | exact h.elim

theorem field_bool {all : List XField} {f : XField} {v : XVal} (ha : f.any = false) (h : FieldFits all f .bool v) : ∃ b, v = .bool b := by
  rcases h with h | h | h
  · exact ⟨false, by rw [h.2.2, XTy.zero]⟩
  · rw [ha] at h; cases h.1
  · cases v <;> first | exact ⟨_, rfl⟩ | exact h.elim

theorem field_int {all : List XField} {f : XField} {b : Nat} {v : XVal} (ha : f.any = false) (h : FieldFits all f (.int b) v) :
    ∃ i, v = .int i ∧ -(2 ^ (b - 1) : Int) ≤ i ∧ i < (2 ^ (b - 1) : Int) := by
  rcases h with h | h | h
  · exact ⟨0, by rw [h.2.2, XTy.zero], range_zero b⟩
  · rw [ha] at h; cases h.1
  · cases v <;> first | exact ⟨_, rfl, h⟩ | exact h.elim

theorem field_items {all : List XField} {f : XField} {i c : Str} {t : XTy} {v : XVal} (ha : f.any = false)
    (h : FieldFits all f (.items i c t) v) : ∃ l, v = .items l ∧ ∀ x ∈ l, FitsXml t x := by
  rcases h with h | h | h
  · exact ⟨[], by rw [h.2.2, XTy.zero], by simp⟩
  · rw [ha] at h; cases h.1
  · cases v <;> first | exact ⟨_, rfl, h⟩ | exact h.elim

theorem field_ptr {all : List XField} {f : XField} {t : XTy} {v : XVal} (ha : f.any = false) (h : FieldFits all f (.ptr t) v) :
    v = .nil ∨ ∃ w, v = .ptr w ∧ FitsXml t w := by
  rcases h with h | h | h
  · exact Or.inl (by rw [h.2.2, XTy.zero])
  · rw [ha] at h; cases h.1
  · cases v <;> first | exact Or.inl rfl | exact Or.inr ⟨_, rfl, h⟩ | exact h.elim

theorem texts_field {all : List XField} {f : XField} {l : List Str} (ho : f.omitempty = true) (h : ∀ s ∈ l, ',' ∉ s) :
    FieldFits all f .texts (.texts l) := by
  by_cases hl : l = []
  · subst hl; exact Or.inl ⟨ho, rfl, by rw [XTy.zero]⟩
  · exact Or.inr (Or.inr ⟨hl, h⟩)

theorem user_shape {v : XVal} (h : FitsXml userTy v) : ∃ c r, v = .record (.str c :: r) ∧ ∀ c', FitsXml userTy (.record (.str c' :: r)) := by
  cases v with
  | record vs =>
    obtain ⟨v, r, rfl, h1, h2⟩ := fitsAll_cons h
    have : ∃ c, v = .str c := by
      rcases h1 with h | h | h
      · cases h.1
      · cases h.1
      · cases v <;> first | exact ⟨_, rfl⟩ | exact h.elim
    obtain ⟨c, rfl⟩ := this
    exact ⟨c, r, rfl, fun c' => ⟨Or.inr (Or.inr trivial), h2⟩⟩
  | _ => exact h.elim

/-- What the upgrade does to the comment. -/
def trimComment : XVal → XVal
  | .ptr (.record (.str c :: r)) => .ptr (.record (.str (trimSpace c) :: r))
  | u => u

/-- The take types after the upgrade. -/
def newTypes (tt : List Str) (ng fs wt : Bool) : List Str :=
  let tt := if ng then add tt "NO_GOOD".toList else tt
  let tt := if fs then add tt "FALSE_START".toList else tt
  if wt then add tt "WILD_TRACK".toList else tt

theorem upgradeFields_eq (ver proj scene tape take circ uid ub note speed hist fset tracks user loc ext : XVal) (tt : List Str) (ng fst wt : Bool) (pre : Int) (sp : List XVal) :
    upgradeFields [ver, proj, scene, tape, take, .texts tt, .bool ng, .bool fst, .bool wt, .int pre, circ, uid, ub, note, .items sp, speed, hist, fset, tracks, user, loc, ext] =
      [ver, proj, scene, tape, take, .texts (newTypes tt ng fst wt), .bool false, .bool false, .bool false, .int (if 0 < pre then 0 else pre), circ, uid, ub, note, .items (if 0 < pre then upgradePoints pre sp else sp), speed, hist, fset, tracks, trimComment user, loc, ext] := by
  have : upgradeFields [ver, proj, scene, tape, take, .texts tt, .bool ng, .bool fst, .bool wt, .int pre, circ, uid, ub, note, .items sp, speed, hist, fset, tracks, user, loc, ext] =
      [ver, proj, scene, tape, take, .texts (newTypes tt ng fst wt), .bool false, .bool false, .bool false, .int (if 0 < pre then 0 else pre), circ, uid, ub, note, .items (if 0 < pre then upgradePoints pre sp else sp), speed, hist, fset, tracks, (match user with | .ptr (.record (.str c :: r)) => XVal.ptr (.record (.str (trimSpace c) :: r)) | u => u), loc, ext] := rfl
  rw [this]
  congr 20

theorem add_no_comma {l : List Str} {t : Str} (h : ∀ s ∈ l, ',' ∉ s) (ht : ',' ∉ t) : ∀ s ∈ add l t, ',' ∉ s := by
  unfold add
  split
  · exact h
  · intro s hs
    rcases List.mem_append.1 hs with hs | hs
    · exact h s hs
    · rw [List.mem_singleton] at hs; subst hs; exact ht

theorem newTypes_no_comma {tt : List Str} (h : ∀ s ∈ tt, ',' ∉ s) (ng fs wt : Bool) : ∀ s ∈ newTypes tt ng fs wt, ',' ∉ s := by
  unfold newTypes
  have h1 : ∀ s ∈ (if ng then add tt "NO_GOOD".toList else tt), ',' ∉ s := by
    split
    · exact add_no_comma h (by decide)
    · exact h
  generalize (if ng then add tt "NO_GOOD".toList else tt) = t1 at h1
  have h2 : ∀ s ∈ (if fs then add t1 "FALSE_START".toList else t1), ',' ∉ s := by
    split
    · exact add_no_comma h1 (by decide)
    · exact h1
  simp only
  generalize (if fs then add t1 "FALSE_START".toList else t1) = t2 at h2
  split
  · exact add_no_comma h2 (by decide)
  · exact h2

theorem points_fit {pre : Int} (hp : -(2 ^ 63 : Int) ≤ pre ∧ pre < (2 ^ 63 : Int)) {l : List XVal} (h : ∀ x ∈ l, FitsXml syncPointTy x) :
    ∀ x ∈ upgradePoints pre l, FitsXml syncPointTy x := by
  unfold upgradePoints
  split
  · next i hi =>
    intro x hx
    rw [List.mem_iff_getElem?] at hx
    obtain ⟨j, hj⟩ := hx
    rw [List.getElem?_modify] at hj
    cases hl : l[j]? with
    | none => rw [hl] at hj; cases hj
    | some y =>
      rw [hl] at hj
      have hy := h y (List.mem_of_getElem? hl)
      simp only [Option.map_eq_map, Option.map_some, Option.some.injEq] at hj
      split at hj
      · subst hj
        split
        · next t f c w r =>
          rw [syncPointTy, FitsXml] at hy ⊢
          exact ⟨hy.1, hy.2.1, hy.2.2.1, Or.inr (Or.inr hp), hy.2.2.2.2⟩
        · exact hy
      · subst hj; exact hy
  · intro x hx
    rcases List.mem_append.1 hx with hx | hx
    · exact h x hx
    · rw [List.mem_singleton] at hx
      subst hx
      rw [syncPointTy, FitsXml]
      refine ⟨Or.inr (Or.inr trivial), Or.inr (Or.inr trivial), Or.inr (Or.inr trivial), Or.inr (Or.inr hp), Or.inr (Or.inr ?_),
        Or.inr (Or.inr ?_), trivial⟩
      · exact range_zero 64
      · exact range_zero 64

/-- The form of a chunk. -/
theorem chunk_shape {vs : List XVal} (h : FitsXml ixmlTy (.record vs)) :
    ∃ ver proj scene tape take circ uid ub note speed hist fset tracks user loc ext, ∃ (tt : List Str) (ng fst wt : Bool) (pre : Int) (sp : List XVal), vs = [ver, proj, scene, tape, take, .texts tt, .bool ng, .bool fst, .bool wt, .int pre, circ, uid, ub, note, .items sp, speed, hist, fset, tracks, user, loc, ext] ∧
      FitsXml ixmlTy (.record [ver, proj, scene, tape, take, .texts (newTypes tt ng fst wt), .bool false, .bool false, .bool false, .int (if 0 < pre then 0 else pre), circ, uid, ub, note, .items (if 0 < pre then upgradePoints pre sp else sp), speed, hist, fset, tracks, trimComment user, loc, ext]) ∧ (trimComment (trimComment user) = trimComment user) := by
  rw [ixmlTy, FitsXml] at h
  have hall := h
  obtain ⟨ver, r0, rfl, hver, h⟩ := fitsAll_cons h
  obtain ⟨proj, r1, rfl, hproj, h⟩ := fitsAll_cons h
  obtain ⟨scene, r2, rfl, hscene, h⟩ := fitsAll_cons h
  obtain ⟨tape, r3, rfl, htape, h⟩ := fitsAll_cons h
  obtain ⟨take, r4, rfl, htake, h⟩ := fitsAll_cons h
  obtain ⟨tt, r5, rfl, htt, h⟩ := fitsAll_cons h
  obtain ⟨ng, r6, rfl, hng, h⟩ := fitsAll_cons h
  obtain ⟨fst, r7, rfl, hfst, h⟩ := fitsAll_cons h
  obtain ⟨wt, r8, rfl, hwt, h⟩ := fitsAll_cons h
  obtain ⟨pre, r9, rfl, hpre, h⟩ := fitsAll_cons h
  obtain ⟨circ, r10, rfl, hcirc, h⟩ := fitsAll_cons h
  obtain ⟨uid, r11, rfl, huid, h⟩ := fitsAll_cons h
  obtain ⟨ub, r12, rfl, hub, h⟩ := fitsAll_cons h
  obtain ⟨note, r13, rfl, hnote, h⟩ := fitsAll_cons h
  obtain ⟨sp, r14, rfl, hsp, h⟩ := fitsAll_cons h
  obtain ⟨speed, r15, rfl, hspeed, h⟩ := fitsAll_cons h
  obtain ⟨hist, r16, rfl, hhist, h⟩ := fitsAll_cons h
  obtain ⟨fset, r17, rfl, hfset, h⟩ := fitsAll_cons h
  obtain ⟨tracks, r18, rfl, htracks, h⟩ := fitsAll_cons h
  obtain ⟨user, r19, rfl, huser, h⟩ := fitsAll_cons h
  obtain ⟨loc, r20, rfl, hloc, h⟩ := fitsAll_cons h
  obtain ⟨ext, r21, rfl, hext, h⟩ := fitsAll_cons h
  have := fitsAll_nil h
  subst this
  obtain ⟨tt, rfl, htt'⟩ := field_texts rfl htt
  obtain ⟨ng, rfl⟩ := field_bool rfl hng
  obtain ⟨fst, rfl⟩ := field_bool rfl hfst
  obtain ⟨wt, rfl⟩ := field_bool rfl hwt
  obtain ⟨pre, rfl, hpre'⟩ := field_int rfl hpre
  obtain ⟨sp, rfl, hsp'⟩ := field_items rfl hsp
  refine ⟨ver, proj, scene, tape, take, circ, uid, ub, note, speed, hist, fset, tracks, user, loc, ext, tt, ng, fst, wt, pre, sp, rfl, ?_, ?_⟩
  · rw [ixmlTy, FitsXml]
    refine ⟨hver, hproj, hscene, htape, htake, texts_field rfl (newTypes_no_comma htt' ng fst wt), Or.inr (Or.inr trivial),
      Or.inr (Or.inr trivial), Or.inr (Or.inr trivial), Or.inr (Or.inr ?_), hcirc, huid, hub, hnote, Or.inr (Or.inr ?_), hspeed, hhist,
      hfset, htracks, ?_, hloc, hext, trivial⟩
    · split
      · exact range_zero 64
      · exact hpre'
    · split
      · exact points_fit hpre' hsp'
      · exact hsp'
    · rcases field_ptr rfl huser with rfl | ⟨w, rfl, hw⟩
      · exact huser
      · obtain ⟨c, r, rfl, hc⟩ := user_shape hw
        exact Or.inr (Or.inr (hc (trimSpace c)))
  · rcases field_ptr rfl huser with rfl | ⟨w, rfl, hw⟩
    · rfl
    · obtain ⟨c, r, rfl, hc⟩ := user_shape hw
      simp only [trimComment, trimSpace_idem]

/-- The upgrade keeps what survives, and does nothing the second time. -/
theorem upgrade_fits {vs : List XVal} (h : FitsXml ixmlTy (.record vs)) :
    FitsXml ixmlTy (.record (upgradeFields vs)) ∧ upgradeFields (upgradeFields vs) = upgradeFields vs := by
  obtain ⟨ver, proj, scene, tape, take, circ, uid, ub, note, speed, hist, fset, tracks, user, loc, ext, tt, ng, fst, wt, pre, sp, rfl, h1, h2⟩ := chunk_shape h
  rw [upgradeFields_eq]
  refine ⟨h1, ?_⟩
  rw [upgradeFields_eq, h2]
  have : (if (0 : Int) < (if 0 < pre then 0 else pre) then (0 : Int) else if 0 < pre then 0 else pre) = if 0 < pre then 0 else pre := by
    split <;> omega
  rw [this]
  have h3 : ¬ (0 : Int) < (if 0 < pre then 0 else pre) := by split <;> omega
  rw [if_neg h3]
  rfl

/-! ### Chunks -/

/-- **C77.** Chunks survive as XML: a chunk is written as one element, and from this element the same chunk is read, after the
upgrade to the newest version.  All fields are covered: numbers, truth values, lists, rates, the lists of sync points and tracks,
user data, places and unknown elements. -/
theorem ixml_chunk_survives_partial (dec : Str → Option Rational) {vs : List XVal} (h : FitsXml ixmlTy (.record vs)) :
    ∃ c, printChunk vs = [.elem "BWFXML".toList [] c] ∧ parseChunk dec (.elem "BWFXML".toList [] c) = some (upgradeFields vs) := by
  obtain ⟨c, h1, h2⟩ := back_single (fits_back dec ixmlTy (.record vs) ixmlTy_ok h) rfl "BWFXML".toList
  refine ⟨c, h1, ?_⟩
  rw [parseChunk, if_pos localName_root, h2]

/-- **C77.** Whatever is read from a chunk without prefixes is kept: written and read again it is the same, in all fields, however
the chunk was laid out.  (`dec` reads rationals with a point; their parts are Go integers.) -/
theorem ixml_chunk_reread {dec : Str → Option Rational} (hdec : ∀ s r, dec s = some r → InI64 r.num ∧ InI64 r.den) {x : Xml}
    (hx : PlainXml x) {vs : List XVal} (h : parseChunk dec x = some vs) :
    ∃ y, printChunk vs = [y] ∧ parseChunk dec y = some vs := by
  cases x with
  | text s => cases h
  | other => cases h
  | elem n a c =>
    rw [parseChunk] at h
    split at h
    · split at h
      · next ws hw =>
        injection h with h
        have hf := unm_fits hdec ixmlTy n a c ixmlTy.zero (.record ws) ixmlTy_ok ixmlTy_start rfl hx.2.2.2
          (before_zero ixmlTy_start rfl) hw
        obtain ⟨h1, h2⟩ := upgrade_fits hf
        rw [h] at h1 h2
        obtain ⟨c', h3, h4⟩ := ixml_chunk_survives_partial dec h1
        exact ⟨_, h3, by rw [h4, h2]⟩
      · cases h
    · cases h

/-! ### Unknown elements -/

theorem exts_fold (dec : Str → Option Rational) : ∀ (l : List (Str × List (Str × Str) × List Xml)) (out : List Node),
    l.foldlM (fun w x => unm dec .exts x.1 x.2.1 x.2.2 w) (.exts out) =
      some (.exts (out ++ l.flatMap (fun x => Xml.read Xml.baseScope (.elem x.1 x.2.1 x.2.2))))
  | [], out => by simp
  | x :: l, out => by
    rw [List.foldlM_cons, unm]
    show List.foldlM _ _ _ = _
    rw [exts_fold dec l, List.flatMap_cons, List.append_assoc]

theorem upgrade_ext (vs : List XVal) : (upgradeFields vs)[21]? = vs[21]? := by
  unfold upgradeFields
  split <;> rfl

theorem unm_chunk_fields {dec : Str → Option Rational} {n : Str} {a : List (Str × Str)} {c : List Xml} {vs : List XVal}
    (h : unm dec ixmlTy n a c ixmlTy.zero = some (.record vs)) (i : Nat) (t : XTy) (ht : ixmlTys[i]? = some t) :
    (kidsFor ixmlFields i c).foldlM (fun w x => unm dec t x.1 x.2.1 x.2.2 w) t.zero = vs[i]? := by
  rw [ixmlTy, XTy.zero, unm_record] at h
  cases hf : c.foldlM (step dec ixmlFields ixmlTys) (XTy.zeros ixmlTys) with
  | none => rw [hf] at h; cases h
  | some ws =>
    rw [hf] at h
    have hc : ixmlFields.findIdx? (·.chardata) = none := by decide +kernel
    rw [hc] at h
    injection h with h
    injection h with h
    subst h
    have := ((fields_separate dec ixmlFields ixmlTys c _ ws (by rw [zeros_length]; rfl)).1 hf).2 i t.zero (by rw [xzeros_get, ht]; rfl)
    simp only [unmAt_get dec ixmlTys i t _ _ _ _ ht] at this
    exact this

/-- **C77.** No unknown element is lost: the children of a chunk whose name is none of the 21 known ones are kept as extensions,
all of them, in their order and with all they contain. -/
theorem ixml_unknown_kept {dec : Str → Option Rational} {n : Str} {a : List (Str × Str)} {c : List Xml} {vs : List XVal}
    (h : parseChunk dec (.elem n a c) = some vs) :
    vs[21]? = some (.exts ((kidsFor ixmlFields 21 c).flatMap (fun x => Xml.read Xml.baseScope (.elem x.1 x.2.1 x.2.2)))) := by
  rw [parseChunk] at h
  split at h
  · split at h
    · next ws hw =>
      injection h with h
      rw [← h, upgrade_ext, ← unm_chunk_fields hw 21 .exts rfl, XTy.zero, exts_fold, List.nil_append]
    · cases h
  · cases h

/-- Unknown elements are those with a name that is not known. -/
theorem ixml_unknown_iff (n : Str) : Ixml.findField ixmlFields n = some 21 ↔ ∀ f ∈ ixmlFields, f.any = false → f.name ≠ n := by
  have hc : ∀ f ∈ ixmlFields, f.chardata = false := by decide +kernel
  constructor
  · intro h
    rcases findField_cases h with ⟨f, hf, ha, _⟩ | ⟨_, h⟩
    · have : ixmlFields[21]? = some { name := [], any := true } := rfl
      rw [this] at hf
      injection hf with hf
      subst hf
      cases ha
    · exact fun f hf ha => h f hf ha (hc f hf)
  · intro h
    unfold Ixml.findField
    have : ixmlFields.findIdx? (fun f => !f.chardata && !f.any && decide (f.name = n)) = none := by
      rw [List.findIdx?_eq_none_iff]
      intro g hg
      have := h g hg
      cases h4 : g.any <;> simp_all
    rw [this]
    decide +kernel

/-- **C77.** A text that occurs in several elements of the same name is that of the last one. -/
theorem ixml_last_text {dec : Str → Option Rational} {n : Str} {a : List (Str × Str)} {c : List Xml} {vs : List XVal}
    (h : unm dec ixmlTy n a c ixmlTy.zero = some (.record vs)) {i : Nat} (hi : ixmlTys[i]? = some .str)
    {l : List (Str × List (Str × Str) × List Xml)} {m : Str} {b : List (Str × Str)} {k : List Xml}
    (hk : kidsFor ixmlFields i c = l ++ [(m, b, k)]) : vs[i]? = some (.str (charData k)) := by
  have := unm_chunk_fields h i .str hi
  rw [hk, foldlM_append] at this
  rw [← this]
  have hl : ∀ (l : List (Str × List (Str × Str) × List Xml)) (v : XVal),
      ∃ w, l.foldlM (fun w x => unm dec .str x.1 x.2.1 x.2.2 w) v = some w := by
    intro l
    induction l with
    | nil => exact fun v => ⟨v, rfl⟩
    | cons x l ih =>
      intro v
      rw [List.foldlM_cons, unm]
      exact ih _
  obtain ⟨w, hw⟩ := hl l XTy.str.zero
  rw [hw]
  show List.foldlM _ _ _ = _
  rw [List.foldlM_cons, unm]
  rfl

example : ∀ i, i < ixmlFields.length → kidsFor ixmlFields i [.elem "TAKE".toList [] [], .text " ".toList, .elem "NOTE".toList [] []] =
    kidsFor ixmlFields i [.elem "NOTE".toList [] [], .other, .elem "TAKE".toList [] []] := by
  intro i hi
  have h1 : Ixml.findField ixmlFields (localName "TAKE".toList) = some 4 := by decide +kernel
  have h2 : Ixml.findField ixmlFields (localName "NOTE".toList) = some 13 := by decide +kernel
  simp only [kidsFor, h1, h2]
  split <;> split <;> first | rfl | (simp_all; omega) | simp_all

example : ixmlTys[13]? = some .str ∧ kidsFor ixmlFields 13 [.elem "NOTE".toList [] [], .elem "NOTE".toList [] [.text "b".toList]] =
    [("NOTE".toList, [], [])] ++ [("NOTE".toList, [], [.text "b".toList])] := ⟨rfl, rfl⟩

/-! ### What refuses a chunk -/

/-- Whatever was there before, the element is an error. -/
def Refused (dec : Str → Option Rational) (t : XTy) (n : Str) (a : List (Str × Str)) (c : List Xml) : Prop := ∀ v, unm dec t n a c v = none

theorem refused_record {dec : Str → Option Rational} {fs : List XField} {ts : List XTy} {i : Nat} {t : XTy} {m : Str} {b : List (Str × Str)}
    {k : List Xml} (hf : Ixml.findField fs (localName m) = some i) (ht : ts[i]? = some t) (hr : Refused dec t m b k) (n : Str)
    (a : List (Str × Str)) (c d : List Xml) : Refused dec (.record fs ts) n a (c ++ .elem m b k :: d) := by
  intro v
  cases v with
  | record vs =>
    rw [unm_record]
    have : (c ++ .elem m b k :: d).foldlM (step dec fs ts) vs = none := by
      rw [foldlM_append]
      cases c.foldlM (step dec fs ts) vs with
      | none => rfl
      | some ws =>
        show List.foldlM _ _ _ = _
        rw [List.foldlM_cons]
        have : step dec fs ts ws (.elem m b k) = none := by
          unfold step
          simp only [hf]
          cases ws[i]? with
          | none => rfl
          | some w =>
            simp only
            rw [unmAt_get dec ts i t _ _ _ _ ht, hr w]
            rfl
        rw [this]
        rfl
    rw [this]
  | _ => rw [unm] <;> first | rfl | (intros; rename_i h; cases h)

theorem refused_ptr {dec : Str → Option Rational} {t : XTy} {n : Str} {a : List (Str × Str)} {c : List Xml} (h : Refused dec t n a c) :
    Refused dec (.ptr t) n a c := by
  intro v
  cases v <;> rw [unm] <;> first | (rw [h]; rfl) | (intros; rename_i h; cases h)

/-- **C77, finding.** One truth value in other words than `true` and `false` refuses the whole chunk, whatever else it contains: an
empty element, `1`, `yes`, or a value with a blank beside it. -/
theorem ixml_bool_refuses_chunk (dec : Str → Option Rational) (n : Str) (a : List (Str × Str)) (c d : List Xml) {m : Str} {b : List (Str × Str)}
    {k : List Xml} (hm : localName m ∈ ["NO_GOOD".toList, "FALSE_START".toList, "WILD_TRACK".toList, "CIRCLED".toList])
    (hk : Ixml.boolParse (charData k) = none) : parseChunk dec (.elem n a (c ++ .elem m b k :: d)) = none := by
  have hr : Refused dec .bool m b k := by intro v; rw [unm, hk]; rfl
  have key : ∀ i, Ixml.findField ixmlFields (localName m) = some i → ixmlTys[i]? = some .bool →
      parseChunk dec (.elem n a (c ++ .elem m b k :: d)) = none := by
    intro i h1 h2
    rw [parseChunk]
    split
    · rw [ixmlTy, refused_record h1 h2 hr n a c d]
    · rfl
  simp only [List.mem_cons, List.not_mem_nil, or_false] at hm
  rcases hm with hm | hm | hm | hm
  · exact key 6 (by rw [hm]; decide +kernel) rfl
  · exact key 7 (by rw [hm]; decide +kernel) rfl
  · exact key 8 (by rw [hm]; decide +kernel) rfl
  · exact key 10 (by rw [hm]; decide +kernel) rfl

example : Ixml.boolParse (charData []) = none ∧ Ixml.boolParse (charData [.text "TRUE ".toList]) = none := by decide

/-- **C77, finding.** A timecode flag other than `DF` and `NDF`, also an empty element, refuses the whole chunk. -/
theorem ixml_flag_refuses_chunk (dec : Str → Option Rational) (n : Str) (a : List (Str × Str)) (c d : List Xml) (b b' : List (Str × Str))
    (e f k : List Xml) (hk : charData k ≠ "DF".toList ∧ charData k ≠ "NDF".toList) :
    parseChunk dec (.elem n a (c ++ .elem "SPEED".toList b (e ++ .elem "TIMECODE_FLAG".toList b' k :: f) :: d)) = none := by
  have hr : Refused dec .flag "TIMECODE_FLAG".toList b' k := by
    intro v
    rw [unm]
    cases hp : flagParse (charData k) with
    | none => rfl
    | some g =>
      have := (ixml_flag_iff _ _).1 hp
      rcases this.2 with h | h
      · exact absurd h hk.1
      · exact absurd h hk.2
  have h1 : Refused dec (.ptr speedTy) "SPEED".toList b (e ++ .elem "TIMECODE_FLAG".toList b' k :: f) :=
    refused_ptr (refused_record (i := 4) (t := .flag) (by decide +kernel) rfl hr _ b e f)
  rw [parseChunk]
  split
  · rw [ixmlTy, refused_record (i := 15) (t := .ptr speedTy) (by decide +kernel) rfl h1 n a c d]
  · rfl

example : charData [] ≠ "DF".toList ∧ charData [] ≠ "NDF".toList := by decide

/-- **C77.** A chunk whose root has another name is refused. -/
theorem ixml_other_root (dec : Str → Option Rational) {n : Str} (h : localName n ≠ "BWFXML".toList) (a : List (Str × Str)) (c : List Xml) :
    parseChunk dec (.elem n a c) = none := by rw [parseChunk, if_neg h]

example : localName "bwfxml".toList ≠ "BWFXML".toList := by decide

/-! ### Other findings -/

/-- **C77, finding.** A chunk of an old version keeps the old version number although it is upgraded, so it is written as a chunk
of this version with the elements of the newest one. -/
theorem ixml_version_stays (vs : List XVal) : (upgradeFields vs)[0]? = vs[0]? := by
  unfold upgradeFields
  split <;> rfl

/-- **C77, finding.** The number of items beside the items is not looked at when a list is read. -/
theorem ixml_count_ignored (dec : Str → Option Rational) {item count : Str} (h : localName count ≠ item) (t : XTy) (n : Str)
    (a : List (Str × Str)) (b : List (Str × Str)) (k c d : List Xml) (l : List XVal) :
    unm dec (.items item count t) n a (c ++ .elem count b k :: d) (.items l) = unm dec (.items item count t) n a (c ++ d) (.items l) := by
  have : kidsNamed item (c ++ .elem count b k :: d) = kidsNamed item (c ++ d) := by
    induction c with
    | nil => rw [List.nil_append, List.nil_append, kidsNamed, if_neg h]
    | cons x c ih =>
      rw [List.cons_append, List.cons_append]
      cases x with
      | elem m b' k' => rw [kidsNamed, kidsNamed, ih]
      | text s => exact ih
      | other => exact ih
  rw [unm_items, unm_items, this]

/-- **C77, finding.** Rates that are not set are written as `0/0`, in spite of the option `omitempty`, which has no effect on
structs; an empty mix is written with every track. -/
theorem ixml_unset_rates_written :
    mar speedTy "SPEED".toList speedTy.zero = [.elem "SPEED".toList []
      [.elem "MASTER_SPEED".toList [] [.text "0/0".toList], .elem "CURRENT_SPEED".toList [] [.text "0/0".toList],
        .elem "TIMECODE_RATE".toList [] [.text "0/0".toList], .elem "FILE_SAMPLE_RATE".toList [] [.text "0/0".toList]]] ∧
    mar trackTy "TRACK".toList trackTy.zero = [.elem "TRACK".toList [] [.elem "DEFAULT_MIX".toList [] []]] := ⟨rfl, rfl⟩

/-! ### A chunk -/

/-- A chunk with most kinds of fields. -/
def sampleFields : List XVal :=
  [.str "1.3".toList, .str "Film".toList, .str "12A".toList, .str [], .int 3, .texts ["PICKUP".toList], .bool true, .bool false, .bool false,
    .int 48000, .bool true, .str [], .str [], .str "a < b".toList,
    .items [.record [.str "RELATIVE".toList, .str "SLATE_GENERIC".toList, .str [], .int 7, .int 0, .int 0]],
    .ptr (.record [.str [], .rat ⟨24000, 1001⟩, .rat ⟨0, 0⟩, .rat ⟨24, 1⟩, .flag "NDF".toList, .rat ⟨48000, 1⟩, .int 24, .int 0, .int 0, .int 1,
      .int 48000]),
    .nil, .nil,
    .items [.record [.int 1, .int 1, .str "Boom".toList, .str [], .record [.str "-3.5".toList, .str []]]],
    .nil, .nil, .exts [.mk ⟨[], "STEINBERG".toList⟩ [] "x".toList []]]

theorem sample_fits : FitsXml ixmlTy (.record sampleFields) := by
  rw [ixmlTy, FitsXml]
  unfold sampleFields
  refine ⟨Or.inr (Or.inr trivial), Or.inr (Or.inr trivial), Or.inr (Or.inr trivial), Or.inr (Or.inr trivial), Or.inr (Or.inr (by unfold FitsXml; decide)),
    Or.inr (Or.inr (by unfold FitsXml; decide)), Or.inr (Or.inr trivial), Or.inr (Or.inr trivial), Or.inr (Or.inr trivial),
    Or.inr (Or.inr (by unfold FitsXml; decide)), Or.inr (Or.inr trivial), Or.inr (Or.inr trivial), Or.inr (Or.inr trivial), Or.inr (Or.inr trivial),
    Or.inr (Or.inr ?_), Or.inr (Or.inr ?_), Or.inr (Or.inr trivial), Or.inr (Or.inr trivial), Or.inr (Or.inr ?_), Or.inr (Or.inr trivial),
    Or.inr (Or.inr trivial), Or.inr (Or.inl ⟨rfl, _, rfl, ?_⟩), trivial⟩
  · intro v hv
    rw [List.mem_singleton] at hv
    subst hv
    exact ⟨Or.inr (Or.inr trivial), Or.inr (Or.inr trivial), Or.inr (Or.inr trivial), Or.inr (Or.inr (by unfold FitsXml; decide)),
      Or.inr (Or.inr (by unfold FitsXml; decide)), Or.inr (Or.inr (by unfold FitsXml; decide)), trivial⟩
  · exact ⟨Or.inr (Or.inr trivial), Or.inr (Or.inr (by unfold FitsXml; decide)), Or.inr (Or.inr (by unfold FitsXml; decide)),
      Or.inr (Or.inr (by unfold FitsXml; decide)), Or.inr (Or.inr (by unfold FitsXml; decide)), Or.inr (Or.inr (by unfold FitsXml; decide)),
      Or.inr (Or.inr (by unfold FitsXml; decide)), Or.inr (Or.inr (by unfold FitsXml; decide)), Or.inr (Or.inr (by unfold FitsXml; decide)),
      Or.inr (Or.inr (by unfold FitsXml; decide)), Or.inr (Or.inr (by unfold FitsXml; decide)), trivial⟩
  · intro v hv
    rw [List.mem_singleton] at hv
    subst hv
    exact ⟨Or.inr (Or.inr (by unfold FitsXml; decide)), Or.inr (Or.inr (by unfold FitsXml; decide)), Or.inr (Or.inr trivial), Or.inr (Or.inr trivial),
      Or.inr (Or.inr ⟨Or.inr (Or.inr trivial), Or.inr (Or.inr trivial), trivial⟩), trivial⟩
  · intro e he
    rw [List.mem_singleton] at he
    subst he
    refine ⟨⟨rfl, by decide, by decide, by decide +kernel, by simp, trivial⟩, ?_⟩
    show ∀ g ∈ ixmlFields, g.any = false → g.chardata = false → g.name ≠ "STEINBERG".toList
    decide +kernel

example (dec : Str → Option Rational) : ∃ c, printChunk sampleFields = [.elem "BWFXML".toList [] c] ∧
    parseChunk dec (.elem "BWFXML".toList [] c) = some (upgradeFields sampleFields) := ixml_chunk_survives_partial dec sample_fits

/-- A chunk without prefixes that is read. -/
def sampleChunk : Xml := .elem "BWFXML".toList [] [.text " ".toList, .elem "TAKE".toList [] [.text "3".toList], .other,
  .elem "X".toList [("a".toList, "b".toList)] [.elem "Y".toList [] [.text "z".toList]], .elem "CIRCLED".toList [] [.text "true".toList]]

example : PlainXml sampleChunk ∧ (parseChunk (fun _ => none) sampleChunk).isSome = true := by
  refine ⟨?_, by decide +kernel⟩
  unfold sampleChunk
  refine ⟨by decide, by decide, by simp, trivial, ⟨by decide, by decide, by simp, trivial, trivial⟩, trivial,
    ⟨by decide, by decide, by decide, ⟨by decide, by decide, by simp, trivial, trivial⟩, trivial⟩, ⟨by decide, by decide, by simp, trivial, trivial⟩, trivial⟩

end Xmp.Props
