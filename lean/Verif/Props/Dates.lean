import Verif.Props.DateText

/-! C48: dates survive as text, and texts in the documented formats are read as the dates that they denote. -/

namespace Xmp.Props

open GoStr

/-! ### Reading texts of all layouts -/

/-- The fields that a text says, symbolically. -/
def expect (toks : List Tok) (k : Nat) (neg utc : Bool) : SF where
  year := if .year4 ∈ toks then .fld .year else if .year2 ∈ toks then .y2 else .cst 0
  month := some (if .month ∈ toks then .fld .month else .cst 1)
  day := some (if .day ∈ toks then .fld .day else .cst 1)
  hour := if .hour ∈ toks then .fld .hour else .cst 0
  min := if .min ∈ toks then .fld .min else .cst 0
  sec := if .sec ∈ toks then .fld .sec else .cst 0
  nsec :=
    if .frac0 (fracDigits toks) ∈ toks then .nano (fracDigits toks)
    else if .frac9 (fracDigits toks) ∈ toks then (if k = 0 then .cst 0 else .nano k)
    else .cst 0
  off := some (
    if .tzColon ∈ toks ∨ .tz ∈ toks then (if neg then .neg else .pos)
    else if .tzIso ∈ toks then (if utc then .zero else if neg then .neg else .pos)
    else .zero)

/-- The symbolic text of a layout. -/
def symText (toks : List Tok) (k : Nat) (neg utc : Bool) : List SC := toks.flatMap (symFmt k neg utc)

/-- The layouts as lists of elements. -/
def dateToks : List (List Tok) := dateFormats.map layoutToks

/-- `P` holds for all numbers of fraction digits and all signs that texts of a layout can have. -/
def forShapes (toks : List Tok) (P : Nat → Bool → Bool → Bool) : Bool :=
  okFrac toks && decide (fracDigits toks ≤ 9) && (List.range (fracDigits toks + 1)).all (fun k =>
    [(false, false), (true, false), (false, true)].all (fun x => P k x.1 x.2))

/-- A text is read as `r`. -/
def readsTo (y2 : Bool) (s : List SC) (r : Option SF) : Bool :=
  decide (s ≠ []) && illegalZero.all (clash s) && decide (symFirst y2 (symRepair s) dateToks = some r)

theorem fracDigits_mem {toks : List Tok} (h : fracDigits toks ≠ 0) :
    .frac0 (fracDigits toks) ∈ toks ∨ .frac9 (fracDigits toks) ∈ toks := by
  induction toks with
  | nil => exact absurd rfl h
  | cons x xs ih =>
    cases x with
    | frac0 n => exact Or.inl (List.mem_cons_self ..)
    | frac9 n => exact Or.inr (List.mem_cons_self ..)
    | _ =>
      rw [fracDigits] at h ⊢
      · exact (ih h).imp (List.mem_cons_of_mem _) (List.mem_cons_of_mem _)
      all_goals (intro _ he; cases he)

theorem expect_time {t : GoTime} (h : ValidDate t) {toks : List Tok} (hp : .year2 ∈ toks → PivotYear t) {k : Nat} (hk9 : k ≤ 9)
    (hk : t.nsec / 10 ^ (9 - k) * 10 ^ (9 - k) = t.nsec / 10 ^ (9 - fracDigits toks) * 10 ^ (9 - fracDigits toks)) :
    (expect toks k (decide (t.off < 0)) (decide (t.off = 0))).time (dateFields t) = seen toks t := by
  have hy := h.year
  have ho := h.off
  have hn := h.nsec
  unfold SF.time expect seen
  simp only [Option.map_some, Option.getD_some]
  congr 1
  · by_cases h4 : Tok.year4 ∈ toks
    · rw [if_pos h4, if_pos (Or.inl h4)]
      show ((t.year.toNat : Nat) : Int) = t.year
      omega
    · rw [if_neg h4]
      by_cases h2 : Tok.year2 ∈ toks
      · rw [if_pos h2, if_pos (Or.inr h2)]; exact y2_eval (hp h2)
      · rw [if_neg h2, if_neg (by simp [h4, h2])]; rfl
  · split <;> rfl
  · split <;> rfl
  · split <;> rfl
  · split <;> rfl
  · split <;> rfl
  · split
    · rfl
    · split
      · rw [← hk]
        split
        · rename_i h0
          subst h0
          show 0 = _
          omega
        · rfl
      · rename_i h0 h9
        have : fracDigits toks = 0 := by
          by_contra hc
          rcases fracDigits_mem hc with hm | hm
          · exact h0 hm
          · exact h9 hm
        rw [this]
        show 0 = _
        omega
  · have hpos : ¬ t.off < 0 → SOff.pos.eval (dateFields t) = t.off := by
      intro h1
      show (((t.off.natAbs / 60 / 60 : Nat) : Int) * 60 + ((t.off.natAbs / 60 % 60 : Nat) : Int)) * 60 = t.off
      omega
    have hneg : t.off < 0 → SOff.neg.eval (dateFields t) = t.off := by
      intro h1
      show -((((t.off.natAbs / 60 / 60 : Nat) : Int) * 60 + ((t.off.natAbs / 60 % 60 : Nat) : Int)) * 60) = t.off
      omega
    have hsgn : (if decide (t.off < 0) = true then SOff.neg else SOff.pos).eval (dateFields t) = t.off := by
      by_cases h1 : t.off < 0
      · rw [if_pos (by simpa using h1)]; exact hneg h1
      · rw [if_neg (by simpa using h1)]; exact hpos h1
    by_cases h1 : Tok.tzColon ∈ toks ∨ Tok.tz ∈ toks
    · rw [if_pos h1, hsgn, if_pos (by rcases h1 with h1 | h1 <;> simp [h1])]
    · rw [if_neg h1]
      by_cases h2 : Tok.tzIso ∈ toks
      · rw [if_pos h2, if_pos (c := _ ∨ _ ∨ _) (Or.inr (Or.inl h2))]
        by_cases h3 : t.off = 0
        · rw [if_pos (by simpa using h3), h3]; rfl
        · rw [if_neg (by simpa using h3), hsgn]
      · rw [if_neg h2, if_neg (by simp only [not_or] at h1 ⊢; exact ⟨h1.1, h2, h1.2⟩)]; rfl

theorem forShapes_sound {t : GoTime} (h : ValidDate t) {l : Str} {P : Nat → Bool → Bool → Bool}
    (hP : forShapes (layoutToks l) P = true) : ∃ k ≤ 9,
    t.nsec / 10 ^ (9 - k) * 10 ^ (9 - k) = t.nsec / 10 ^ (9 - fracDigits (layoutToks l)) * 10 ^ (9 - fracDigits (layoutToks l)) ∧
    t.format l = (symText (layoutToks l) k (decide (t.off < 0)) (decide (t.off = 0))).map (SC.conc (dateFields t)) ∧
    P k (decide (t.off < 0)) (decide (t.off = 0)) = true := by
  simp only [forShapes, Bool.and_eq_true, decide_eq_true_eq] at hP
  obtain ⟨⟨ho, h9⟩, hP⟩ := hP
  obtain ⟨k, hk, hf, hv⟩ := fmtFrac_trim (n := fracDigits (layoutToks l)) h9 h.nsec
  have hP := List.all_eq_true.1 hP k (List.mem_range.2 (by omega))
  have hm : (decide (t.off < 0), decide (t.off = 0)) ∈ [(false, false), (true, false), (false, true)] := by
    by_cases h1 : t.off < 0
    · have : ¬ t.off = 0 := by omega
      simp [h1, this]
    · by_cases h2 : t.off = 0 <;> simp [h1, h2]
  exact ⟨k, by omega, hv, format_sym h ho hf, List.all_eq_true.1 hP _ hm⟩

/-- What the symbolic run says is what happens. -/
theorem readsTo_sound {t : GoTime} (h : ValidDate t) {y2 : Bool} {s : List SC} {r : Option SF} (hr : readsTo y2 s r = true)
    (hp : y2 = true → PivotYear t) : parseDate (s.map (SC.conc (dateFields t))) = r.map (SF.time (dateFields t)) := by
  simp only [readsTo, Bool.and_eq_true, decide_eq_true_eq] at hr
  obtain ⟨⟨hne, hcl⟩, hr⟩ := hr
  have hz : s.map (SC.conc (dateFields t)) ∉ illegalZero := by
    intro hin
    exact clash_sound (dateFields_ok h) (List.all_eq_true.1 hcl _ hin) rfl
  rw [parseDate, if_pos (by rw [Ne, List.map_eq_nil_iff]; exact hne), repair_sound hz]
  exact first_sound h hp _ _ hr

/-- The layout that `repairTZ` breaks. -/
def brokenLayout : Str := "2006-01-02T15:04:05-0700".toList

/-- The layouts of dates in XMP, EXIF, OpenEXR, MXF, ARRI, ID3 and IPTC data. -/
def knownLayouts : List Str :=
  ["2006-01-02T15:04:05.999999999", "2006-01-02T15:04:05Z07:00", "2006-01-02T15:04-07:00", "2006-01-02", "2006-01-02 15:04:05",
   "2006-01-02T15:04:05.999999999Z07:00", "2006-01-02T15:04:05.999999999Z", "2006-01-02T15:04:05Z", "2006-01-02T15:04:05-0700",
   "2006:01:02 15:04:05.999", "2006/01/02T15:04:05-07:00", "06/01/02T15:04:05-07:00", "20060102T15h04m05-07:00",
   "20060102T15h04m05s-07:00", "2006-01-02T15:04:05", "2006-01-02T15:04Z", "2006-01-02T15:04", "2006-01-02 15:04", "2006:01:02",
   "2006-01", "2006", "15:04:05-07:00", "15:04:05", "150405-0700", "2006-01-02T00:00:00.000000000", "2006-01-00T00:00:00.000000000",
   "2006-00-00T00:00:00.000000000", "2006-01-02T00:00:00Z", "2006-01-00T00:00:00Z", "2006-00-00T00:00:00Z"].map String.toList

theorem layouts_read : ∀ l ∈ knownLayouts, l = brokenLayout ∨ forShapes (layoutToks l) (fun k n u =>
    readsTo (decide (.year2 ∈ layoutToks l)) (symText (layoutToks l) k n u) (some (expect (layoutToks l) k n u))) = true := by
  decide +kernel

/-- Texts of all layouts, but one, are read as what they say about the date. -/
theorem date_layout_read_partial {l : Str} (hl : l ∈ knownLayouts) (hb : l ≠ brokenLayout) {t : GoTime} (h : ValidDate t)
    (hp : .year2 ∈ layoutToks l → PivotYear t) : parseDate (t.format l) = some (seen (layoutToks l) t) := by
  obtain ⟨k, hk9, hk, hf, hr⟩ := forShapes_sound h ((layouts_read l hl).resolve_left hb)
  rw [hf, readsTo_sound h hr (fun hy => hp (of_decide_eq_true hy)), Option.map_some, expect_time h hp hk9 hk]

theorem broken_read : forShapes (layoutToks brokenLayout) (fun k n u =>
    readsTo false (symText (layoutToks brokenLayout) k n u) none) = true := by decide +kernel

/-- Texts of the remaining layout are never read: `repairTZ` puts a zero into the offset. -/
theorem date_layout_broken {t : GoTime} (h : ValidDate t) : brokenLayout ∈ knownLayouts ∧ parseDate (t.format brokenLayout) = none := by
  refine ⟨by decide +kernel, ?_⟩
  obtain ⟨k, _, _, hf, hr⟩ := forShapes_sound h broken_read
  rw [hf, readsTo_sound h hr (fun hy => by cases hy)]; rfl

/-! ### Parsed dates are dates -/

/-- Fields in range. -/
structure FieldsOk (f : Fields) : Prop where
  year : 0 ≤ f.year ∧ f.year ≤ 9999
  month : ∀ m, f.month = some m → 1 ≤ m ∧ m ≤ 12
  hour : f.hour < 24
  min : f.min < 60
  sec : f.sec < 60
  nsec : f.nsec < 10 ^ 9
  off : ∀ o, f.off = some o → o % 60 = 0 ∧ -90000 ≤ o ∧ o ≤ 90000

theorem digitVal_lt {c : Char} (h : isDigit c = true) : digitVal c < 10 := by
  simp only [isDigit, Bool.and_eq_true, decide_eq_true_eq] at h
  unfold digitVal
  omega

theorem numOf_lt {s : Str} (h : ∀ c ∈ s, isDigit c = true) : numOf s < 10 ^ s.length := by
  have key : ∀ (s : Str), (∀ c ∈ s, isDigit c = true) → numOf s.reverse < 10 ^ s.length := by
    intro s
    induction s with
    | nil => intro _; decide
    | cons c s ih =>
      intro h
      have h1 := ih (fun x hx => h x (List.mem_cons_of_mem _ hx))
      have h2 := digitVal_lt (h c (List.mem_cons_self ..))
      rw [List.reverse_cons, numOf_append, List.length_singleton, List.length_cons, Nat.pow_succ 10 s.length]
      have : numOf [c] = digitVal c := by simp [numOf]
      rw [this, Nat.pow_one]
      omega
  have := key s.reverse (fun c hc => h c (List.mem_reverse.1 hc))
  rwa [List.reverse_reverse, List.length_reverse] at this

theorem nanos_lt {s : Str} (h : ∀ c ∈ s, isDigit c = true) : nanos s < 10 ^ 9 := by
  unfold nanos
  have h1 := numOf_lt (s := s.take 9) (fun c hc => h c (List.mem_of_mem_take hc))
  have hl : (s.take 9).length ≤ 9 := by rw [List.length_take]; omega
  calc _ < 10 ^ (s.take 9).length * 10 ^ (9 - (s.take 9).length) :=
        Nat.mul_lt_mul_of_pos_right h1 (Nat.pow_pos (by decide))
    _ = 10 ^ 9 := by rw [← Nat.pow_add]; congr 1; omega

theorem readFrac_lt (s : Str) : (readFrac s).1 < 10 ^ 9 :=
  nanos_lt (fun c hc => List.all_eq_true.1 (List.all_takeWhile (l := s.drop 1)) c hc)

theorem readOff_ok {f : Fields} (h : FieldsOk f) {g a b c d : Char} {f' : Fields} (hr : readOff f g a b c d = some f') :
    FieldsOk f' := by
  unfold readOff at hr
  split at hr
  · split at hr
    · cases hr
    · rename_i hle
      split at hr
      · cases hr
        exact { h with off := by intro o ho; cases ho; omega }
      · split at hr
        · cases hr
          exact { h with off := by intro o ho; cases ho; omega }
        · cases hr
  · cases hr

theorem parseTok_ok {next : Option Tok} {f : Fields} {s : Str} {x : Tok} {f' : Fields} {s' : Str} (h : FieldsOk f)
    (hr : parseTok next f s x = some (f', s')) : FieldsOk f' := by
  cases x with
  | year2 =>
    simp only [parseTok] at hr
    split at hr
    · rename_i a b r
      split at hr
      · rename_i hd
        rw [Bool.and_eq_true] at hd
        have h1 := digitVal_lt hd.1
        have h2 := digitVal_lt hd.2
        cases hr
        exact { h with year := by dsimp only; split <;> omega }
      · split at hr
        · rename_i hd
          rw [Bool.and_eq_true] at hd
          have h2 := digitVal_lt hd.2
          cases hr
          exact { h with year := by dsimp only; split <;> omega }
        · cases hr
    · cases hr
  | year4 =>
    simp only [parseTok] at hr
    split at hr
    · rename_i a b c d r
      split at hr
      · rename_i hd
        simp only [Bool.and_eq_true] at hd
        have := numOf_lt (s := [a, b, c, d]) (by
          intro x hx
          simp only [List.mem_cons, List.not_mem_nil, or_false] at hx
          rcases hx with rfl | rfl | rfl | rfl
          · exact hd.1.1.1
          · exact hd.1.1.2
          · exact hd.1.2
          · exact hd.2)
        simp only [List.length_cons, List.length_nil] at this
        cases hr
        exact { h with year := by dsimp only; omega }
      · cases hr
    · cases hr
  | month =>
    simp only [parseTok] at hr
    split at hr
    · split at hr
      · rename_i hm
        cases hr
        exact { h with month := by intro m he; cases he; exact hm }
      · cases hr
    · cases hr
  | day =>
    simp only [parseTok, Option.map_eq_some_iff] at hr
    obtain ⟨y, _, hr⟩ := hr
    cases hr
    exact { h with }
  | hour =>
    simp only [parseTok] at hr
    split at hr
    · split at hr
      · rename_i hm
        cases hr
        exact { h with hour := hm }
      · cases hr
    · cases hr
  | min =>
    simp only [parseTok] at hr
    split at hr
    · split at hr
      · rename_i hm
        cases hr
        exact { h with min := hm }
      · cases hr
    · cases hr
  | sec =>
    simp only [parseTok] at hr
    split at hr
    · split at hr
      · rename_i r _ hm
        revert hr
        generalize (startsFrac r && !_ : Bool) = bb
        intro hr
        cases bb with
        | true => cases hr; exact { h with sec := hm, nsec := readFrac_lt _ }
        | false => cases hr; exact { h with sec := hm }
      · cases hr
    · cases hr
  | frac0 n =>
    simp only [parseTok] at hr
    split at hr
    · split at hr
      · rename_i hd
        simp only [Bool.and_eq_true] at hd
        cases hr
        exact { h with nsec := nanos_lt (fun c hc => List.all_eq_true.1 hd.2 c hc) }
      · cases hr
    · cases hr
  | frac9 n =>
    simp only [parseTok] at hr
    split at hr
    · cases hr; exact { h with nsec := readFrac_lt _ }
    · cases hr; exact h
  | tzColon =>
    simp only [parseTok] at hr
    split at hr
    · split at hr
      · simp only [Option.map_eq_some_iff] at hr
        obtain ⟨y, hy, hr⟩ := hr
        cases hr
        exact readOff_ok h hy
      · cases hr
    · cases hr
  | tzIso =>
    simp only [parseTok] at hr
    split at hr
    · cases hr
      exact { h with off := by intro o ho; cases ho; decide }
    · split at hr
      · simp only [Option.map_eq_some_iff] at hr
        obtain ⟨y, hy, hr⟩ := hr
        cases hr
        exact readOff_ok h hy
      · cases hr
    · cases hr
  | tz =>
    simp only [parseTok] at hr
    split at hr
    · simp only [Option.map_eq_some_iff] at hr
      obtain ⟨y, hy, hr⟩ := hr
      cases hr
      exact readOff_ok h hy
    · cases hr
  | lit c =>
    have : f' = f := by
      simp only [parseTok] at hr
      split at hr
      · split at hr
        · cases hr; rfl
        · split at hr
          · cases hr; rfl
          · cases hr
      · split at hr
        · cases hr
        · split at hr
          · cases hr; rfl
          · cases hr
    rw [this]; exact h

theorem parseToks_ok {ts : List Tok} {f : Fields} {s : Str} {f' : Fields} (h : FieldsOk f) (hr : parseToks ts f s = some f') :
    FieldsOk f' := by
  induction ts generalizing f s with
  | nil =>
    rw [parseToks] at hr
    split at hr
    · cases hr; exact h
    · cases hr
  | cons x xs ih =>
    rw [parseToks] at hr
    split at hr
    · rename_i hp
      exact ih (parseTok_ok h hp) hr
    · cases hr

theorem timeParse_ok {l v : Str} {t : GoTime} (h : timeParse l v = some t) (ho : t.off ≠ 90000 ∧ t.off ≠ -90000) : ValidDate t := by
  unfold timeParse at h
  obtain ⟨f, hf, h⟩ := Option.bind_eq_some_iff.1 h
  have hk := parseToks_ok (f := {}) ⟨by decide, (fun m h => by cases h), by decide, by decide, by decide, by decide,
    (fun o h => by cases h)⟩ hf
  unfold finish at h
  dsimp only at h
  split at h
  · cases h
  · rename_i hd
    cases h
    have hmon : 1 ≤ f.month.getD 1 ∧ f.month.getD 1 ≤ 12 := by
      cases hm : f.month with
      | none => simp
      | some m => simpa using hk.month m hm
    refine ⟨hk.year, hmon, by dsimp only; rw [← daysIn_calendar hmon]; omega, hk.hour, hk.min, hk.sec, hk.nsec, ?_⟩
    · dsimp only at ho ⊢
      cases hm : f.off with
      | none => simp
      | some o =>
        have := hk.off o hm
        rw [hm] at ho
        simp only [Option.getD_some] at ho ⊢
        omega

theorem firstParse_some {v : Str} {ls : List Str} {t : GoTime} (h : firstParse v ls = some t) : ∃ l ∈ ls, timeParse l v = some t := by
  induction ls with
  | nil => cases h
  | cons l ls ih =>
    rw [firstParse] at h
    split at h
    · rename_i hp
      cases h
      exact ⟨l, List.mem_cons_self .., hp⟩
    · obtain ⟨l', hl, h⟩ := ih h
      exact ⟨l', List.mem_cons_of_mem _ hl, h⟩

/-- Every date that is read is a date of the calendar (offsets of exactly 25 hours, written `+24:60`, aside). -/
theorem date_read_valid {v : Str} {t : GoTime} (h : parseDate v = some t) (ho : t.off ≠ 90000 ∧ t.off ≠ -90000) : ValidDate t := by
  unfold parseDate at h
  split at h
  · obtain ⟨l, _, h⟩ := firstParse_some h
    exact timeParse_ok h ho
  · cases h

/-! ### Round trip -/

theorem rfc_known : rfc3339 ∈ knownLayouts ∧ rfc3339 ≠ brokenLayout ∧ .year2 ∉ layoutToks rfc3339 ∧
    layoutToks rfc3339 = [.year4, .lit '-', .month, .lit '-', .day, .lit 'T', .hour, .lit ':', .min, .lit ':', .sec, .tzIso] := by
  refine ⟨?_, ?_, ?_, ?_⟩ <;> decide +kernel

theorem dateString_read {t : GoTime} (h : ValidDate t) : parseDate (dateString t) = some { t with nsec := 0 } := by
  obtain ⟨h1, h2, h3, h4⟩ := rfc_known
  rw [dateString, date_layout_read_partial h1 h2 h (fun hy => absurd hy h3)]
  have hn := h.nsec
  have h0 : fracDigits (layoutToks rfc3339) = 0 := by rw [h4]; rfl
  unfold seen
  rw [h0]
  have hz : t.nsec / 10 ^ (9 - 0) * 10 ^ (9 - 0) = 0 := by omega
  rw [hz]
  simp [h4]

/-- Dates that are not zero survive as text, up to fractions of seconds. -/
theorem date_round_trip {t : GoTime} (h : ValidDate t) (hz : t.isZero = false) :
    ∃ s, dateMarshal t = some s ∧ dateUnmarshal s = some { t with nsec := 0 } := by
  refine ⟨dateString t, by rw [dateMarshal, hz]; rfl, ?_⟩
  have hr := dateString_read h
  rw [dateUnmarshal, if_neg, hr]
  intro he
  rw [he] at hr
  cases hr

/-- The zero date has no text, and no text is read as the zero date. -/
theorem date_zero_round_trip {t : GoTime} (hz : t.isZero = true) :
    dateMarshal t = none ∧ dateUnmarshal [] = some zeroDate ∧ zeroDate.seconds = t.seconds := by
  refine ⟨by rw [dateMarshal, hz]; rfl, rfl, ?_⟩
  simp only [GoTime.isZero, decide_eq_true_eq] at hz
  rw [hz.1]; rfl

/-- Fractions of a second are lost. -/
theorem date_fraction_lost {t : GoTime} (h : ValidDate t) (hn : t.nsec ≠ 0) :
    ∃ s, dateMarshal t = some s ∧ dateUnmarshal s ≠ some t := by
  have hz : t.isZero = false := by simp [GoTime.isZero, hn]
  obtain ⟨s, h1, h2⟩ := date_round_trip h hz
  refine ⟨s, h1, ?_⟩
  rw [h2]
  intro he
  injection he with he
  have := congrArg GoTime.nsec he
  exact hn this.symm

/-- Reading, writing and reading again: the second reading gives what the first one gave, up to fractions of seconds. -/
theorem date_read_stable {v : Str} {t : GoTime} (h : dateUnmarshal v = some t) (ho : t.off ≠ 90000 ∧ t.off ≠ -90000) :
    dateUnmarshal ((dateMarshal t).getD []) = some (if t.isZero then zeroDate else { t with nsec := 0 }) := by
  cases hz : t.isZero with
  | true => rw [(date_zero_round_trip hz).1]; rfl
  | false =>
    have hv : ValidDate t := by
      unfold dateUnmarshal at h
      split at h
      · cases h; cases hz
      · exact date_read_valid h ho
    obtain ⟨s, h1, h2⟩ := date_round_trip hv hz
    rw [h1]; exact h2

/-! ### Repaired offsets -/

theorem getElem?_suffix {p q : Str} {k : Nat} (hk : k ≤ q.length) : (p ++ q)[(p ++ q).length - k]? = q[q.length - k]? := by
  rw [List.length_append, List.getElem?_append_right (by omega)]
  congr 1
  omega

theorem take_suffix {p q : Str} {k : Nat} (hk : k ≤ q.length) : (p ++ q).take ((p ++ q).length - k) = p ++ q.take (q.length - k) := by
  rw [List.length_append, List.take_append, List.take_of_length_le (by omega)]
  congr 2
  omega

theorem drop_suffix {p q : Str} {k : Nat} (hk : k ≤ q.length) : (p ++ q).drop ((p ++ q).length - k) = q.drop (q.length - k) := by
  rw [List.length_append, List.drop_append, List.drop_of_length_le (by omega), List.nil_append]
  congr 1
  omega

/-- An illegal zero date ends in `+00:00` if it has twenty characters or more. -/
theorem illegalZero_long {v : Str} (h : v ∈ illegalZero) (hl : 20 ≤ v.length) : v = "00/00/00T00:00:00".toList ++ "+00:00".toList := by
  simp only [illegalZero, List.mem_cons, List.not_mem_nil, or_false] at h
  rcases h with rfl | rfl
  · exact absurd hl (by decide)
  · rfl

/-- Offsets whose hours have one digit are read like those with a leading zero. -/
theorem date_short_hour {p : Str} (hp : 15 ≤ p.length) {g h m n : Char} (hg : isSign g = true) (hm : isSign m = false)
    (hz : p ≠ "00/00/00T00:00:00".toList) :
    parseDate (p ++ [g, h, ':', m, n]) = parseDate (p ++ [g, '0', h, ':', m, n]) := by
  have hA : p ++ [g, h, ':', m, n] ∉ illegalZero := by
    intro hin
    have he := illegalZero_long hin (by simp; omega)
    have := congrArg (fun v : Str => v[v.length - 5]?) he
    rw [getElem?_suffix (by simp)] at this
    have h0 : ("00/00/00T00:00:00".toList ++ "+00:00".toList)[("00/00/00T00:00:00".toList ++ "+00:00".toList).length - 5]? = some '0' := by
      decide
    rw [h0] at this
    simp only [List.length_cons, List.length_nil, Nat.reduceAdd, Nat.sub_self, List.getElem?_cons_zero, Option.some.injEq] at this
    rw [this] at hg
    cases hg
  have hB : p ++ [g, '0', h, ':', m, n] ∉ illegalZero := by
    intro hin
    have he := illegalZero_long hin (by simp; omega)
    exact hz (List.append_inj_left' he rfl)
  have rA : repairTZ (p ++ [g, h, ':', m, n]) = p ++ [g, '0', h, ':', m, n] := by
    unfold repairTZ
    rw [if_neg hA, if_neg (by simp; omega)]
    simp only []
    rw [getElem?_suffix (by simp), take_suffix (by simp), drop_suffix (by simp)]
    simp [hg]
  have rB : repairTZ (p ++ [g, '0', h, ':', m, n]) = p ++ [g, '0', h, ':', m, n] := by
    unfold repairTZ
    rw [if_neg hB, if_neg (by simp; omega)]
    simp only []
    rw [getElem?_suffix (by simp), getElem?_suffix (by simp), drop_suffix (by simp)]
    have : isSign '0' = false := by decide
    simp [hm, this]
  unfold parseDate
  rw [if_pos (by simp), if_pos (by simp), rA, rB]

/-- Offsets of one digit are read as hours. -/
theorem date_hour_only {p : Str} (hp : 15 ≤ p.length) {x y z g h : Char} (hx : isSign x = false) (hg : isSign g = true) :
    parseDate (p ++ [x, y, z, g, h]) = parseDate (p ++ [x, y, z, g, '0', h, ':', '0', '0']) := by
  have h0 : isSign '0' = false := by decide
  have hA : p ++ [x, y, z, g, h] ∉ illegalZero := by
    intro hin
    have he := illegalZero_long hin (by simp; omega)
    have := congrArg (fun v : Str => v[v.length - 2]?) he
    rw [getElem?_suffix (by simp)] at this
    have h0 : ("00/00/00T00:00:00".toList ++ "+00:00".toList)[("00/00/00T00:00:00".toList ++ "+00:00".toList).length - 2]? = some '0' := by
      decide
    rw [h0] at this
    simp at this
    rw [this] at hg
    cases hg
  have rA : repairTZ (p ++ [x, y, z, g, h]) = p ++ [x, y, z, g, '0', h, ':', '0', '0'] := by
    unfold repairTZ
    rw [if_neg hA, if_neg (by simp; omega)]
    simp only []
    rw [getElem?_suffix (by simp), getElem?_suffix (by simp), take_suffix (by simp), take_suffix (by simp),
      drop_suffix (by simp), drop_suffix (by simp)]
    simp [hg, hx]
  by_cases hB : p ++ [x, y, z, g, '0', h, ':', '0', '0'] ∈ illegalZero
  · have he := congrArg List.length (illegalZero_long hB (by simp; omega))
    have h23 : ("00/00/00T00:00:00".toList ++ "+00:00".toList).length = 23 := by decide
    rw [h23] at he
    simp at he
    omega
  have rB : repairTZ (p ++ [x, y, z, g, '0', h, ':', '0', '0']) = p ++ [x, y, z, g, '0', h, ':', '0', '0'] := by
    unfold repairTZ
    rw [if_neg hB, if_neg (by simp; omega)]
    simp only []
    rw [getElem?_suffix (by simp), getElem?_suffix (by simp), drop_suffix (by simp)]
    simp [h0]
  unfold parseDate
  rw [if_pos (by simp), if_pos (by simp), rA, rB]

/-- Put a character into a text. -/
def insertAt {α : Type} (n : Nat) (c : α) (s : List α) : List α := s.take n ++ c :: s.drop n

theorem iphone_read : forShapes (layoutToks brokenLayout) (fun k n u =>
    readsTo false (insertAt 20 (.ch '0') (symText (layoutToks brokenLayout) k n u)) (some (expect (layoutToks brokenLayout) k n u))) = true := by
  decide +kernel

/-- Offsets like `+00200` with a spare zero are read as `+02:00`. -/
theorem date_spare_zero {t : GoTime} (h : ValidDate t) :
    parseDate (insertAt 20 '0' (t.format brokenLayout)) = some { t with nsec := 0 } := by
  obtain ⟨k, hk9, hk, hf, hr⟩ := forShapes_sound h iphone_read
  have h4 : layoutToks brokenLayout =
      [.year4, .lit '-', .month, .lit '-', .day, .lit 'T', .hour, .lit ':', .min, .lit ':', .sec, .tz] := by decide +kernel
  have hn := h.nsec
  have hz : t.nsec / 10 ^ (9 - 0) * 10 ^ (9 - 0) = 0 := by omega
  have hmap : insertAt 20 '0' (t.format brokenLayout) = (insertAt 20 (.ch '0') (symText (layoutToks brokenLayout) k
      (decide (t.off < 0)) (decide (t.off = 0)))).map (SC.conc (dateFields t)) := by
    rw [hf]
    simp [insertAt, SC.conc]
  rw [hmap, readsTo_sound h hr (fun hy => by cases hy), Option.map_some, expect_time h (fun hy => absurd hy (by rw [h4]; decide)) hk9 hk]
  have h0 : fracDigits (layoutToks brokenLayout) = 0 := by rw [h4]; rfl
  unfold seen
  rw [h0, hz]
  simp [h4]

/-- The texts that cameras write for undefined dates are read as the zero date. -/
theorem date_illegal_zero {v : Str} (h : v ∈ illegalZero) : parseDate v = some zeroDate := by
  have : ∀ v ∈ illegalZero, parseDate v = some zeroDate := by decide +kernel
  exact this v h

/-! ### Times of day -/

/-- A text is read as a time of day. -/
def readsTimeTo (s : List SC) (r : SF) : Bool :=
  decide (s ≠ []) && decide (symFirst false s (timeFormats.map layoutToks) = some (some r))

/-- The layouts of times of day in IPTC and Getty data. -/
def knownTimes : List Str := ["15:04:05-07:00", "15:04:05", "150405-0700"].map String.toList

theorem time_layouts_read : ∀ l ∈ knownTimes, .year2 ∉ layoutToks l ∧ forShapes (layoutToks l) (fun k n u =>
    readsTimeTo (symText (layoutToks l) k n u) (expect (layoutToks l) k n u)) = true := by
  decide +kernel

/-- Texts of all layouts of times are read as what they say. -/
theorem time_layout_read {l : Str} (hl : l ∈ knownTimes) {t : GoTime} (h : ValidDate t) :
    parseTime (t.format l) = some (seen (layoutToks l) t) := by
  obtain ⟨hy, hs⟩ := time_layouts_read l hl
  obtain ⟨k, hk9, hk, hf, hr⟩ := forShapes_sound h hs
  simp only [readsTimeTo, Bool.and_eq_true, decide_eq_true_eq] at hr
  rw [parseTime, hf, if_pos (by rw [Ne, List.map_eq_nil_iff]; exact hr.1),
    first_sound h (fun hy => by cases hy) _ _ hr.2, Option.map_some, expect_time h (fun h => absurd h hy) hk9 hk]

/-- Times of day survive as text: hours, minutes, seconds and the zone; the day is lost. -/
theorem time_round_trip {t : GoTime} (h : ValidDate t) (hz : t.isZero = false) (old : GoTime) :
    ∃ s, timeMarshal t = some s ∧
      timeUnmarshal old s = some { year := 0, month := 1, day := 1, hour := t.hour, min := t.min, sec := t.sec, nsec := 0, off := t.off } := by
  have h4 : layoutToks timeLayout = [.hour, .lit ':', .min, .lit ':', .sec, .tzColon] := by decide +kernel
  have hr := time_layout_read (l := timeLayout) (by decide +kernel) h
  have hn := h.nsec
  have hz' : t.nsec / 10 ^ (9 - 0) * 10 ^ (9 - 0) = 0 := by omega
  refine ⟨timeString t, by rw [timeMarshal, hz]; rfl, ?_⟩
  have hne : timeString t ≠ [] := by
    intro he
    rw [show t.format timeLayout = [] from he] at hr
    cases hr
  rw [timeUnmarshal, if_neg hne]
  unfold timeString
  rw [hr]
  have h0 : fracDigits (layoutToks timeLayout) = 0 := by rw [h4]; rfl
  unfold seen
  rw [h0, hz', h4]
  simp

/-- The zero time has no text; reading no text leaves a time as it was (a date becomes zero). -/
theorem time_zero {t : GoTime} (hz : t.isZero = true) (old : GoTime) : timeMarshal t = none ∧ timeUnmarshal old [] = some old := by
  exact ⟨by rw [timeMarshal, hz]; rfl, rfl⟩

/-! ### Limits -/

/-- Offsets with seconds (local mean times of the tz database) lose them, and the text is another instant. -/
theorem date_offset_seconds_lost : ∃ t : GoTime, t.off = 1172 ∧ ∃ t', dateUnmarshal (dateString t) = some t' ∧ t'.seconds ≠ t.seconds :=
  ⟨{ year := 1930, month := 6, day := 15, hour := 12, off := 1172 }, rfl,
   { year := 1930, month := 6, day := 15, hour := 12, off := 1140 }, by decide +kernel⟩

/-- Years of five digits are written but not read. -/
theorem date_year_unread : ∃ t : GoTime, t.year = 10000 ∧ t.isZero = false ∧ dateUnmarshal (dateString t) = none :=
  ⟨{ year := 10000 }, rfl, by decide +kernel, by decide +kernel⟩

/-- The offset `+24:60` is read, but what is written for it is not. -/
theorem date_offset_unread : ∃ v t, parseDate v = some t ∧ parseDate (dateString t) = none :=
  ⟨"2011-02-15T10:15:14+24:60".toList, { year := 2011, month := 2, day := 15, hour := 10, min := 15, sec := 14, off := 90000 },
   by decide +kernel, by decide +kernel⟩

/-! ### Cases -/

def someDate : GoTime := { year := 2017, month := 9, day := 15, hour := 20, min := 17, sec := 41, nsec := 120000000, off := -12600 }

example : ValidDate someDate := by constructor <;> decide
example : someDate.isZero = false := by decide +kernel
example : PivotYear someDate := by unfold PivotYear; decide
example : dateMarshal someDate = some "2017-09-15T20:17:41-03:30".toList := by decide +kernel
example : someDate.format "2006-01-02T15:04:05.999999999".toList = "2017-09-15T20:17:41.12".toList := by decide +kernel
example : seen (layoutToks "2006-01".toList) someDate = { year := 2017, month := 9 } := by decide +kernel
example : seen (layoutToks "15:04:05".toList) someDate = { year := 0, hour := 20, min := 17, sec := 41 } := by decide +kernel
example : parseDate "2011-02-15T10:15:14+0100".toList = none := by decide +kernel
example : parseDate "2011-02-15T10:15:14+1:00".toList = parseDate "2011-02-15T10:15:14+01:00".toList :=
  date_short_hour (p := "2011-02-15T10:15:14".toList) (by decide) (by decide) (by decide) (by decide)
example : parseDate "2011-02-15T10:15:14+1".toList = parseDate "2011-02-15T10:15:14+01:00".toList :=
  date_hour_only (p := "2011-02-15T10:15".toList) (by decide) (by decide) (by decide)
example : parseDate "2011-02-15T10:15:14+01:00".toList =
    some { year := 2011, month := 2, day := 15, hour := 10, min := 15, sec := 14, off := 3600 } := by decide +kernel
example : insertAt 20 '0' (({ someDate with off := 7200 }).format brokenLayout) = "2017-09-15T20:17:41+00200".toList := by decide +kernel

end Xmp.Props
