import Verif.Props.DateSym
import Mathlib.Tactic.IntervalCases

/-! Helper for C48: the texts that `Format` gives, as symbolic texts, and `ParseDate` on symbolic texts. -/

namespace Xmp.Props

open GoStr

/-! ### Specification -/

/-- Days of a month in the Gregorian calendar. -/
def monthLength (y : Int) (m : Nat) : Nat :=
  if m = 2 ∧ ((4 ∣ y ∧ ¬ 100 ∣ y) ∨ 400 ∣ y) then 29
  else [31, 28, 31, 30, 31, 30, 31, 31, 30, 31, 30, 31].getD (m - 1) 0

theorem daysIn_calendar {m : Nat} (h : 1 ≤ m ∧ m ≤ 12) (y : Int) : GoTime.daysIn m y = monthLength y m := by
  obtain ⟨h1, h2⟩ := h
  unfold GoTime.daysIn monthLength GoTime.isLeap
  by_cases hm : m = 2
  · subst hm
    simp only [if_true, true_and, decide_eq_true_eq]
    by_cases hy : (4 ∣ y ∧ ¬ 100 ∣ y) ∨ 400 ∣ y
    · rw [if_pos hy, if_pos (by omega)]
    · rw [if_neg hy, if_neg (by omega)]; rfl
  · rw [if_neg hm]
    rw [if_neg (c := m = 2 ∧ _) (fun h => hm h.1)]
    interval_cases m <;> first | exact absurd rfl hm | rfl

/-- A date that can be written with four-digit years and zones of whole minutes (less than 25 hours). -/
structure ValidDate (t : GoTime) : Prop where
  year : 0 ≤ t.year ∧ t.year ≤ 9999
  month : 1 ≤ t.month ∧ t.month ≤ 12
  day : 1 ≤ t.day ∧ t.day ≤ monthLength t.year t.month
  hour : t.hour < 24
  min : t.min < 60
  sec : t.sec < 60
  nsec : t.nsec < 10 ^ 9
  off : t.off % 60 = 0 ∧ -90000 < t.off ∧ t.off < 90000

/-- Fraction digits of a layout. -/
def fracDigits : List Tok → Nat
  | .frac0 n :: _ => n
  | .frac9 n :: _ => n
  | _ :: ts => fracDigits ts
  | [] => 0

/-- What a text in a layout says about a date: the fields that are in the layout; the others have the smallest value
(year 0, month and day 1, the rest 0). -/
def seen (toks : List Tok) (t : GoTime) : GoTime where
  year := if .year4 ∈ toks ∨ .year2 ∈ toks then t.year else 0
  month := if .month ∈ toks then t.month else 1
  day := if .day ∈ toks then t.day else 1
  hour := if .hour ∈ toks then t.hour else 0
  min := if .min ∈ toks then t.min else 0
  sec := if .sec ∈ toks then t.sec else 0
  nsec := t.nsec / 10 ^ (9 - fracDigits toks) * 10 ^ (9 - fracDigits toks)
  off := if .tzColon ∈ toks ∨ .tzIso ∈ toks ∨ .tz ∈ toks then t.off else 0

/-! ### Symbolic texts of dates -/

/-- The fields of a date. -/
def dateFields (t : GoTime) : FEnv
  | .year => t.year.toNat
  | .month => t.month
  | .day => t.day
  | .hour => t.hour
  | .min => t.min
  | .sec => t.sec
  | .oh => t.off.natAbs / 60 / 60
  | .om => t.off.natAbs / 60 % 60
  | .frac k => t.nsec / 10 ^ (9 - k)

theorem daysIn_le (m : Nat) (y : Int) : 28 ≤ GoTime.daysIn m y ∧ GoTime.daysIn m y ≤ 31 := by
  unfold GoTime.daysIn
  split
  · split <;> omega
  · split <;> omega

theorem dateFields_ok {t : GoTime} (h : ValidDate t) : (dateFields t).Ok where
  year := by have := h.year; simp only [dateFields]; omega
  month := h.month
  day := by have := h.day; have := daysIn_calendar h.month t.year; have := daysIn_le t.month t.year; simp only [dateFields]; omega
  hour := h.hour
  min := h.min
  sec := h.sec
  oh := by have := h.off; simp only [dateFields]; omega
  om := by simp only [dateFields]; omega
  frac := by
    intro k
    have h1 := h.nsec
    simp only [dateFields]
    by_cases hk : k ≤ 9
    · rw [Nat.div_lt_iff_lt_mul (Nat.pow_pos (by decide)), ← Nat.pow_add]
      have : k + (9 - k) = 9 := by omega
      rw [this]; exact h1
    · have : 9 - k = 0 := by omega
      rw [this, Nat.pow_zero, Nat.div_one]
      exact Nat.lt_of_lt_of_le h1 (Nat.pow_le_pow_right (by decide) (by omega))

/-- The digits of a field. -/
def dgs (f : Fld) : List SC := (List.range f.width).map (.dg f)

/-- A zone offset. -/
def symOff (neg : Bool) (sep : List SC) : List SC := .ch (if neg then '-' else '+') :: (dgs .oh ++ sep ++ dgs .om)

/-- `fmtTok`, symbolically: `k` is the number of fraction digits that are not dropped. -/
def symFmt (k : Nat) (neg utc : Bool) : Tok → List SC
  | .year4 => dgs .year
  | .year2 => [.dg .year 2, .dg .year 3]
  | .month => dgs .month
  | .day => dgs .day
  | .hour => dgs .hour
  | .min => dgs .min
  | .sec => dgs .sec
  | .frac0 n => .ch '.' :: fracRun n
  | .frac9 _ => if k = 0 then [] else .ch '.' :: fracRun k
  | .tzColon => symOff neg [.ch ':']
  | .tzIso => if utc then [.ch 'Z'] else symOff neg [.ch ':']
  | .tz => symOff neg []
  | .lit c => [.ch c]

theorem dgs_conc (e : FEnv) (f : Fld) : (dgs f).map (SC.conc e) = digitsW f.width (e f) := by
  rw [digitsW_map, dgs, List.map_map]; rfl

theorem digitsW_take (a b m : Nat) : (digitsW (a + b) m).take a = digitsW a (m / 10 ^ b) := by
  induction b generalizing m with
  | zero => simp [List.take_of_length_le, digitsW_length]
  | succ b ih =>
    rw [← Nat.add_assoc, digitsW, List.take_append_of_le_length (by rw [digitsW_length]; omega), ih,
      Nat.div_div_eq_div_mul, Nat.pow_succ, Nat.mul_comm]

theorem trim_digits (n m : Nat) : ∃ k ≤ n, ((digitsW n m).reverse.dropWhile (· = '0')).reverse = digitsW k (m / 10 ^ (n - k)) ∧
    (m < 10 ^ n → m / 10 ^ (n - k) * 10 ^ (n - k) = m) := by
  induction n generalizing m with
  | zero => exact ⟨0, Nat.le_refl _, rfl, fun h => by simp⟩
  | succ n ih =>
    rw [digitsW, List.reverse_append, List.reverse_singleton, List.singleton_append, List.dropWhile_cons]
    have hz : ∀ d < 10, (digitChar d = '0') ↔ (d = 0) := by decide
    have hz := hz _ (Nat.mod_lt m (y := 10) (by decide))
    by_cases h0 : m % 10 = 0
    · rw [if_pos (decide_eq_true (hz.2 h0))]
      obtain ⟨k, hk, h1, h2⟩ := ih (m / 10)
      have he : n + 1 - k = (n - k) + 1 := by omega
      refine ⟨k, by omega, ?_, ?_⟩
      · rw [h1, he, Nat.div_div_eq_div_mul, Nat.pow_succ']
      · intro hm
        rw [he, Nat.pow_succ', ← Nat.div_div_eq_div_mul]
        have := h2 (by rw [Nat.pow_succ] at hm; omega)
        rw [Nat.mul_comm 10, ← Nat.mul_assoc, this]
        omega
    · rw [if_neg (by rw [decide_eq_true_eq, hz]; exact h0)]
      refine ⟨n + 1, Nat.le_refl _, ?_, ?_⟩
      · simp [digitsW]
      · intro _; simp

/-- The digits of a fraction that are printed. -/
theorem fmtFrac_trim {n ns : Nat} (hn : n ≤ 9) (hs : ns < 10 ^ 9) : ∃ k ≤ n,
    fmtFrac true n ns = (if k = 0 then [] else '.' :: digitsW k (ns / 10 ^ (9 - k))) ∧
    ns / 10 ^ (9 - k) * 10 ^ (9 - k) = ns / 10 ^ (9 - n) * 10 ^ (9 - n) := by
  have h9 : n + (9 - n) = 9 := by omega
  have htake : (digitsW 9 ns).take n = digitsW n (ns / 10 ^ (9 - n)) := by
    conv => lhs; rw [← h9]
    exact digitsW_take _ _ _
  obtain ⟨k, hk, h1, h2⟩ := trim_digits n (ns / 10 ^ (9 - n))
  have hlt : ns / 10 ^ (9 - n) < 10 ^ n := by
    rw [Nat.div_lt_iff_lt_mul (Nat.pow_pos (by decide)), ← Nat.pow_add, h9]; exact hs
  have h2 := h2 hlt
  have hkn : 9 - k = (9 - n) + (n - k) := by omega
  have hdiv : ns / 10 ^ (9 - n) / 10 ^ (n - k) = ns / 10 ^ (9 - k) := by
    rw [Nat.div_div_eq_div_mul, ← Nat.pow_add, ← hkn]
  rw [hdiv] at h1 h2
  refine ⟨k, hk, ?_, ?_⟩
  · unfold fmtFrac
    rw [htake]
    simp only [if_true, h1]
    by_cases hz : n = 0 ∨ ns = 0
    · rw [if_pos (by rcases hz with hz | hz <;> simp [hz])]
      rcases hz with hz | hz
      · rw [if_pos (by omega)]
      · subst hz
        have : k = 0 := by
          by_contra hk0
          have hlen := congrArg List.length h1
          have hall : ∀ (n : Nat), (digitsW n 0).reverse.dropWhile (· = '0') = [] := by
            intro n
            induction n with
            | zero => rfl
            | succ n ih =>
              have : digitChar 0 = '0' := rfl
              rw [digitsW, List.reverse_append]; simpa [this] using ih
          rw [Nat.zero_div, Nat.zero_div, hall, digitsW_length] at hlen
          exact hk0 hlen.symm
        rw [if_pos this]
    · rw [if_neg (by simp only [Bool.true_and, Bool.or_eq_true, decide_eq_true_eq]; exact hz)]
      by_cases hk0 : k = 0
      · subst hk0; rfl
      · rw [if_neg hk0, if_neg]
        intro he
        have := congrArg List.length he
        rw [digitsW_length] at this
        exact hk0 this
  · rw [← h2, Nat.mul_assoc, ← Nat.pow_add, Nat.add_comm (n - k), ← hkn]

/-- All fractions of a layout have the same number of digits, at most nine. -/
def okFrac (toks : List Tok) : Bool :=
  toks.all (fun x => match x with
    | .frac0 n => decide (n = fracDigits toks ∧ n ≤ 9)
    | .frac9 n => decide (n = fracDigits toks ∧ n ≤ 9)
    | _ => true)

theorem fmtOff_sym {t : GoTime} (h : ValidDate t) (sep : List SC) :
    fmtOff (sep.map (SC.conc (dateFields t))) t.off = (symOff (decide (t.off < 0)) sep).map (SC.conc (dateFields t)) := by
  have h1 := h.off
  obtain ⟨q, hq⟩ : ∃ q, t.off = 60 * q := ⟨t.off / 60, by omega⟩
  have htd : Int.tdiv t.off 60 = q := by rw [hq]; exact Int.mul_tdiv_cancel_left _ (by decide)
  have hz : Int.tdiv t.off 60 < 0 ↔ t.off < 0 := by rw [htd]; omega
  have ha : (Int.tdiv t.off 60).natAbs = t.off.natAbs / 60 := by rw [htd]; omega
  unfold fmtOff symOff
  simp only [hz, ha, List.map_cons, List.map_append, dgs_conc, SC.conc, decide_eq_true_eq]
  rfl

theorem fmtTok_sym {t : GoTime} (h : ValidDate t) {toks : List Tok} (ho : okFrac toks = true) {k : Nat}
    (hk : fmtFrac true (fracDigits toks) t.nsec = if k = 0 then [] else '.' :: digitsW k (t.nsec / 10 ^ (9 - k)))
    {x : Tok} (hx : x ∈ toks) :
    fmtTok t x = (symFmt k (decide (t.off < 0)) (decide (t.off = 0)) x).map (SC.conc (dateFields t)) := by
  have hxo := List.all_eq_true.1 ho x hx
  have hy := h.year
  cases x with
  | year4 =>
    rw [symFmt, dgs_conc]
    simp only [fmtTok, fmtYear, dateFields, Fld.width]
    rw [if_neg (by omega), if_pos (by omega), List.nil_append]
    congr 1
    omega
  | year2 =>
    have : t.year.natAbs = t.year.toNat := by omega
    simp only [fmtTok, symFmt, List.map_cons, List.map_nil, SC.conc, Fld.width, dateFields, digitsW, List.nil_append,
      List.singleton_append, this]
    have a1 : t.year.toNat % 100 / 10 % 10 = t.year.toNat / 10 ^ (4 - 1 - 2) % 10 := by simp; omega
    have a2 : t.year.toNat % 100 % 10 = t.year.toNat / 10 ^ (4 - 1 - 3) % 10 := by simp
    rw [a1, a2]
  | month => rw [symFmt, dgs_conc]; rfl
  | day => rw [symFmt, dgs_conc]; rfl
  | hour => rw [symFmt, dgs_conc]; rfl
  | min => rw [symFmt, dgs_conc]; rfl
  | sec => rw [symFmt, dgs_conc]; rfl
  | frac0 n =>
    simp only [decide_eq_true_eq] at hxo
    rw [symFmt, List.map_cons, fracRun_conc]
    simp only [fmtTok, fmtFrac, Bool.false_and, Bool.false_eq_true, if_false, SC.conc, dateFields]
    congr 1
    have h9 : n + (9 - n) = 9 := by omega
    conv => lhs; rw [← h9]
    exact digitsW_take _ _ _
  | frac9 n =>
    simp only [decide_eq_true_eq] at hxo
    rw [symFmt, fmtTok, hxo.1, hk]
    by_cases hk0 : k = 0
    · rw [if_pos hk0, if_pos hk0]; rfl
    · rw [if_neg hk0, if_neg hk0, List.map_cons, fracRun_conc]; rfl
  | tzColon => exact fmtOff_sym h [.ch ':']
  | tzIso =>
    rw [symFmt, fmtTok]
    by_cases h0 : t.off = 0
    · rw [if_pos h0, if_pos (by simpa using h0)]; rfl
    · rw [if_neg h0, if_neg (by simpa using h0)]; exact fmtOff_sym h [.ch ':']
  | tz => exact fmtOff_sym h []
  | lit c => rfl

/-- The text of a date in a layout. -/
theorem format_sym {t : GoTime} (h : ValidDate t) {l : Str} (ho : okFrac (layoutToks l) = true) {k : Nat}
    (hk : fmtFrac true (fracDigits (layoutToks l)) t.nsec = if k = 0 then [] else '.' :: digitsW k (t.nsec / 10 ^ (9 - k))) :
    t.format l = ((layoutToks l).flatMap (symFmt k (decide (t.off < 0)) (decide (t.off = 0)))).map (SC.conc (dateFields t)) := by
  rw [GoTime.format, List.map_flatMap]
  simp only [List.flatMap_def]
  congr 1
  exact List.map_congr_left (fun x hx => fmtTok_sym h ho hk hx)

/-! ### Repair and reading, symbolically -/

def symSign (x : SC) : Bool := x = .ch '+' || x = .ch '-' || x = .ch 'Z'

theorem isSign_conc (e : FEnv) (x : SC) : isSign (x.conc e) = symSign x := by
  unfold isSign symSign
  rw [decide_conc e x (by decide), decide_conc e x (by decide), decide_conc e x (by decide)]

/-- A character that can not be `d`. -/
def clashC (x : SC) (d : Char) : Bool :=
  match x with
  | .ch c => decide (c ≠ d)
  | .dg _ _ => !isDigit d

/-- A text that is not `l`. -/
def clash (s : List SC) (l : Str) : Bool :=
  decide (s.length ≠ l.length) || (s.zip l).any (fun p => clashC p.1 p.2) ||
    (decide ((SC.dg .month 0, '0') ∈ s.zip l) && decide ((SC.dg .month 1, '0') ∈ s.zip l))

theorem zip_map_mem {e : FEnv} {s : List SC} {l : Str} (h : s.map (SC.conc e) = l) {x : SC} {c : Char} (hx : (x, c) ∈ s.zip l) :
    x.conc e = c := by
  subst h
  induction s with
  | nil => cases hx
  | cons y ys ih =>
    rw [List.map_cons, List.zip_cons_cons, List.mem_cons] at hx
    rcases hx with hx | hx
    · injection hx with h1 h2; rw [h1, h2]
    · exact ih hx

theorem clash_sound {e : FEnv} (h : e.Ok) {s : List SC} {l : Str} (hc : clash s l = true) : s.map (SC.conc e) ≠ l := by
  intro he
  simp only [clash, Bool.or_eq_true, Bool.and_eq_true, decide_eq_true_eq, List.any_eq_true] at hc
  rcases hc with (hc | ⟨⟨x, c⟩, hp, hc⟩) | ⟨h0, h1⟩
  · exact hc (by rw [← he, List.length_map])
  · have := zip_map_mem he hp
    cases x with
    | ch d => simp only [clashC, decide_eq_true_eq] at hc; exact hc this
    | dg f i =>
      simp only [clashC] at hc
      rw [← this, isDig_conc] at hc
      cases hc
  · have h0 := zip_map_mem he h0
    have h1 := zip_map_mem he h1
    have hm := h.month
    have hz : ∀ d < 10, digitChar d = '0' → d = 0 := by decide
    have a0 := hz _ (Nat.mod_lt _ (by decide)) h0
    have a1 := hz _ (Nat.mod_lt _ (by decide)) h1
    simp only [Fld.width] at a0 a1
    omega

/-- `repairTZ` on texts that are not in the list of illegal zero dates. -/
def symRepair (s : List SC) : List SC :=
  if s.length < 20 then s
  else
    let l := s.length
    let sign (k : Nat) : Bool := (s[l - k]?.map symSign).getD false
    if sign 5 then s.take (l - 4) ++ .ch '0' :: s.drop (l - 4)
    else if sign 2 then s.take (l - 1) ++ .ch '0' :: s.drop (l - 1) ++ [.ch ':', .ch '0', .ch '0']
    else if sign 6 ∧ .ch ':' ∉ s.drop (l - 6) then s.take (l - 5) ++ s.drop (l - 4)
    else s

theorem colon_conc (e : FEnv) (s : List SC) : ':' ∈ s.map (SC.conc e) ↔ SC.ch ':' ∈ s := by
  rw [List.mem_map]
  constructor
  · rintro ⟨x, hx, he⟩
    rw [(conc_eq e x (by decide)).1 he] at hx
    exact hx
  · exact fun h => ⟨_, h, rfl⟩

theorem repair_sound {e : FEnv} {s : List SC} (hz : s.map (SC.conc e) ∉ illegalZero) :
    repairTZ (s.map (SC.conc e)) = (symRepair s).map (SC.conc e) := by
  have hs : ∀ k : Nat, ((s.map (SC.conc e))[s.length - k]?.map isSign).getD false = (s[s.length - k]?.map symSign).getD false := by
    intro k
    rw [List.getElem?_map, Option.map_map]
    congr 2
    funext x
    exact isSign_conc e x
  unfold repairTZ symRepair
  rw [if_neg hz]
  simp only [List.length_map, hs]
  split
  · rfl
  · split
    · simp [SC.conc]
    · split
      · simp [SC.conc]
      · simp only [← List.map_drop, colon_conc]
        split
        · simp
        · rfl

/-- The end of `parse`: `some true` is success, `some false` failure. -/
def symFinish (y2 : Bool) (st : SF) : Option Bool :=
  match st.day with
  | none => some true
  | some (.cst 0) => some false
  | some (.fld .day) =>
    if st.month = some (.fld .month) ∧ (st.year = .fld .year ∨ (y2 = true ∧ st.year = .y2)) then some true else none
  | _ => none

/-- The result of `finish`. -/
def SF.time (e : FEnv) (st : SF) : GoTime where
  year := st.year.eval e
  month := (st.month.map (·.eval e)).getD 1
  day := (st.day.map (·.eval e)).getD 1
  hour := st.hour.eval e
  min := st.min.eval e
  sec := st.sec.eval e
  nsec := st.nsec.eval e
  off := (st.off.map (·.eval e)).getD 0

/-- Missing fields filled in. -/
def SF.norm (st : SF) : SF :=
  { st with month := some (st.month.getD (.cst 1)), day := some (st.day.getD (.cst 1)), off := some (st.off.getD .zero) }

theorem norm_time (e : FEnv) (st : SF) : st.norm.time e = st.time e := by
  obtain ⟨_, _, m, d, _, _, _, _, o⟩ := st
  cases m <;> cases d <;> cases o <;> rfl

/-- The hundred years that two-digit years stand for. -/
def PivotYear (t : GoTime) : Prop := 1969 ≤ t.year ∧ t.year ≤ 2068

theorem y2_eval {t : GoTime} (h : PivotYear t) : ((SV.y2.eval (dateFields t) : Nat) : Int) = t.year := by
  obtain ⟨h1, h2⟩ := h
  have he : dateFields t .year = t.year.toNat := rfl
  rw [SV.eval, he]
  by_cases hc : t.year.toNat % 100 ≥ 69
  · rw [if_pos hc]; omega
  · rw [if_neg hc]; omega

theorem finish_sound {t : GoTime} (h : ValidDate t) {y2 : Bool} (hy : y2 = true → PivotYear t) {st : SF} {b : Bool}
    (hf : symFinish y2 st = some b) :
    finish (st.eval (dateFields t)) = if b then some (st.time (dateFields t)) else none := by
  have hyr := h.year
  have hd := h.day
  rw [← daysIn_calendar h.month] at hd
  unfold symFinish at hf
  split at hf
  · rename_i hday
    cases hf
    unfold finish SF.eval
    simp only [hday, Option.map_none, Option.getD_none]
    have := daysIn_le ((st.month.map (·.eval (dateFields t))).getD 1) (st.year.eval (dateFields t))
    rw [if_neg (by omega)]
    simp [SF.time, hday]
  · rename_i hday
    cases hf
    unfold finish SF.eval
    simp [hday, SV.eval]
  · rename_i hday
    split at hf
    · rename_i hmy
      cases hf
      have hyear : ((st.year.eval (dateFields t) : Nat) : Int) = t.year := by
        rcases hmy.2 with h2 | ⟨h2, h3⟩
        · rw [h2]; simp only [SV.eval, dateFields]; omega
        · rw [h3]; exact y2_eval (hy h2)
      unfold finish SF.eval SF.time
      simp only [hday, hmy.1, Option.map_some, Option.getD_some, hyear, if_true]
      have e1 : (SV.fld .day).eval (dateFields t) = t.day := rfl
      have e2 : (SV.fld .month).eval (dateFields t) = t.month := rfl
      rw [e1, e2, if_neg (by omega)]
    · cases hf
  · cases hf

/-- The loop over layouts: `none` if the outcome is not known. -/
def symFirst (y2 : Bool) (s : List SC) : List (List Tok) → Option (Option SF)
  | [] => some none
  | l :: ls =>
    match symToks l {} s with
    | none => symFirst y2 s ls
    | some st =>
      if st.sure then
        match symFinish y2 st with
        | some true => some (some st.norm)
        | some false => symFirst y2 s ls
        | none => none
      else none

theorem first_sound {t : GoTime} (h : ValidDate t) {y2 : Bool} (hy : y2 = true → PivotYear t) (s : List SC) (ls : List Str)
    {r : Option SF} (hr : symFirst y2 s (ls.map layoutToks) = some r) :
    firstParse (s.map (SC.conc (dateFields t))) ls = r.map (SF.time (dateFields t)) := by
  induction ls with
  | nil => cases hr; rfl
  | cons l ls ih =>
    rw [List.map_cons, symFirst] at hr
    rw [firstParse, timeParse]
    have hsnd := symToks_sound (dateFields_ok h) (layoutToks l) (st := {}) (f := {}) (fun _ => rfl) s
    cases hst : symToks (layoutToks l) {} s with
    | none =>
      rw [hst] at hr hsnd
      simp only at hr hsnd
      rw [hsnd]
      exact ih hr
    | some st =>
      rw [hst] at hr hsnd
      simp only at hr hsnd
      split at hr
      · rename_i hsure
        rw [hsnd hsure, Option.bind_some]
        split at hr
        · rename_i hf
          cases hr
          rw [finish_sound h hy hf]
          simp [norm_time]
        · rename_i hf
          rw [finish_sound h hy hf]
          exact ih hr
        · cases hr
      · cases hr

end Xmp.Props
