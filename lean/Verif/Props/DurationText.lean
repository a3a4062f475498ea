import Verif.Props.Duration
import Verif.Props.Exif

/-! C60: texts of durations and rounding. -/

namespace Xmp.Props

open Xmp Xmp.GoStr

/-! ### Writing -/

theorem natToStr_digits (n : Nat) : ∃ ds : List Nat, ds ≠ [] ∧ (∀ d ∈ ds, d < 10) ∧ natToStr n = digitText ds ∧ n = decVal ds := by
  obtain ⟨ds, h1, h2, h3, h4⟩ := (parseNat_iff (natToStr n) n).mp (parseNat_natToStr n)
  exact ⟨ds, h1, h2, h3, h4⟩

theorem fracLoop_started : ∀ (p v : Nat) (out : Str), ∃ ds : List Nat, ds.length = p ∧ (∀ d ∈ ds, d < 10) ∧ decVal ds = v % 10 ^ p ∧
    Duration.fracLoop p v true out = (digitText ds ++ out, v / 10 ^ p, true) := by
  intro p
  induction p with
  | zero => intro v out; exact ⟨[], rfl, by simp, by simp [decVal, Nat.mod_one], by simp [Duration.fracLoop, digitText]⟩
  | succ p ih =>
    intro v out
    obtain ⟨ds, h1, h2, h3, h4⟩ := ih (v / 10) (digitChar (v % 10) :: out)
    refine ⟨ds ++ [v % 10], by simp [h1], ?_, ?_, ?_⟩
    · intro d hd
      rcases List.mem_append.mp hd with hd | hd
      · exact h2 d hd
      · rw [List.mem_singleton.mp hd]; omega
    · rw [decVal_snoc, h3, Nat.pow_succ, Nat.mul_comm (10 ^ p), Nat.mod_mul]
      omega
    · rw [Duration.fracLoop]
      simp only [Bool.true_or, if_true]
      rw [h4, Nat.div_div_eq_div_mul, Nat.pow_succ, Nat.mul_comm 10]
      simp [digitText]

theorem fracLoop_spec : ∀ (p v : Nat), ∃ fr : Option (List Nat),
    Duration.fracLoop p v false [] = (digitText (fr.getD []), v / 10 ^ p, fr.isSome) ∧
    (∀ f, fr = some f → f ≠ [] ∧ f.length ≤ p ∧ (∀ d ∈ f, d < 10) ∧ decVal f * 10 ^ (p - f.length) = v % 10 ^ p) ∧
    (fr = none → v % 10 ^ p = 0) := by
  intro p
  induction p with
  | zero => intro v; exact ⟨none, by simp [Duration.fracLoop, digitText], by simp, by simp [Nat.mod_one]⟩
  | succ p ih =>
    intro v
    by_cases h : v % 10 = 0
    · obtain ⟨fr, h1, h2, h3⟩ := ih (v / 10)
      have hm : v % 10 ^ (p + 1) = 10 * (v / 10 % 10 ^ p) := by
        rw [Nat.pow_succ, Nat.mul_comm (10 ^ p), Nat.mod_mul]; omega
      refine ⟨fr, ?_, ?_, ?_⟩
      · rw [Duration.fracLoop]
        simp only [h, ne_eq, not_true_eq_false, decide_false, Bool.or_false, Bool.false_eq_true, if_false]
        rw [h1, Nat.div_div_eq_div_mul, Nat.pow_succ, Nat.mul_comm 10]
      · intro f hf
        obtain ⟨a, b, c, d⟩ := h2 f hf
        refine ⟨a, by omega, c, ?_⟩
        rw [hm, ← d, show p + 1 - f.length = (p - f.length) + 1 by omega, Nat.pow_succ]
        rw [← Nat.mul_assoc, Nat.mul_comm]
      · intro hf
        rw [hm, h3 hf]
    · obtain ⟨ds, h1, h2, h3, h4⟩ := fracLoop_started p (v / 10) [digitChar (v % 10)]
      refine ⟨some (ds ++ [v % 10]), ?_, ?_, by simp⟩
      · rw [Duration.fracLoop]
        simp only [h, ne_eq, not_false_eq_true, decide_true, Bool.or_true, if_true]
        rw [h4, Nat.div_div_eq_div_mul, Nat.pow_succ, Nat.mul_comm 10]
        simp [digitText]
      · intro f hf
        cases hf
        refine ⟨by simp, by simp [h1], ?_, ?_⟩
        · intro d hd
          rcases List.mem_append.mp hd with hd | hd
          · exact h2 d hd
          · rw [List.mem_singleton.mp hd]; omega
        · rw [decVal_snoc, h3, Nat.pow_succ, Nat.mul_comm (10 ^ p), Nat.mod_mul]
          simp only [List.length_append, h1, List.length_singleton, Nat.sub_self, Nat.pow_zero]
          omega

/-- A number with a fraction is a part. -/
theorem frac_part {u : Str} {prec : Nat} (hu : u ∈ durUnits.map Prod.fst) (hk : unitValue u = 10 ^ prec) (hp : prec ≤ 18) (n v : Nat) :
    ∃ p : DurPart, p.Ok ∧ p.Short ∧ p.text = Duration.fmtInt n ++ (Duration.fmtFrac v prec).1 ++ u ∧ p.ns = n * 10 ^ prec + v % 10 ^ prec := by
  obtain ⟨ds, d1, d2, d3, d4⟩ := natToStr_digits n
  obtain ⟨fr, f1, f2, f3⟩ := fracLoop_spec prec v
  refine ⟨⟨ds, fr, u⟩, ⟨d2, ?_, Or.inl d1, hu⟩, ?_, ?_, ?_⟩
  · intro f hf; exact (f2 f hf).2.2.1
  · intro f hf; exact Nat.le_trans (f2 f hf).2.1 hp
  · unfold DurPart.text Duration.fmtFrac Duration.fmtInt
    rw [f1, d3]
    cases fr with
    | none => simp [digitText]
    | some f => simp
  · unfold DurPart.ns
    simp only
    rw [← d4, hk]
    cases hf : fr with
    | none => simp only [f3 hf]
    | some f =>
      obtain ⟨-, b, -, d⟩ := f2 f hf
      simp only
      rw [← d]
      congr 1
      have : 10 ^ prec = 10 ^ (prec - f.length) * 10 ^ f.length := by rw [← Nat.pow_add]; congr 1; omega
      rw [this, ← Nat.mul_assoc]
      exact Nat.mul_div_cancel _ (Nat.pow_pos (by omega))

theorem fmtFrac_rest (v prec : Nat) : (Duration.fmtFrac v prec).2 = v / 10 ^ prec := by
  obtain ⟨fr, f1, -⟩ := fracLoop_spec prec v
  unfold Duration.fmtFrac
  rw [f1]

/-- A whole number with a unit is a part. -/
theorem whole_part {u : Str} (hu : u ∈ durUnits.map Prod.fst) (n : Nat) :
    ∃ p : DurPart, p.Ok ∧ p.Short ∧ p.text = Duration.fmtInt n ++ u ∧ p.ns = n * unitValue u := by
  obtain ⟨ds, d1, d2, d3, d4⟩ := natToStr_digits n
  refine ⟨⟨ds, none, u⟩, ⟨d2, by simp, Or.inl d1, hu⟩, by simp [DurPart.Short], ?_, ?_⟩
  · simp [DurPart.text, Duration.fmtInt, d3]
  · simp [DurPart.ns, ← d4]

theorem unit_values : unitValue "s".toList = 10 ^ 9 ∧ unitValue "m".toList = 60 * 10 ^ 9 ∧ unitValue "h".toList = 3600 * 10 ^ 9 ∧
    unitValue "ns".toList = 10 ^ 0 ∧ unitValue ['Â', 'µ', 's'] = 10 ^ 3 ∧ unitValue "ms".toList = 10 ^ 6 := by decide +kernel

theorem fmtUnit_part {u : Str} {prec : Nat} (hu : u ∈ durUnits.map Prod.fst) (hk : unitValue u = 10 ^ prec) (hp : prec ≤ 18) (v : Nat) :
    ∃ ps : List DurPart, ps ≠ [] ∧ (∀ p ∈ ps, p.Ok ∧ p.Short) ∧ Duration.fmtUnit v prec u = partsText ps ∧ partsNs ps = v := by
  obtain ⟨p, a, b, c, d⟩ := frac_part hu hk hp (v / 10 ^ prec) v
  refine ⟨[p], by simp, by simp [a, b], ?_, ?_⟩
  · simp only [partsText, List.map_cons, List.map_nil, List.flatten_cons, List.flatten_nil, List.append_nil, c]
    unfold Duration.fmtUnit
    rw [fmtFrac_rest]
  · simp only [partsNs, List.map_cons, List.map_nil, List.sum_cons, List.sum_nil, d, Nat.add_zero]
    rw [Nat.mul_comm]
    exact Nat.div_add_mod v (10 ^ prec)

theorem clock_sum (u K : Nat) : u / K / 60 / 60 * (3600 * K) + (u / K / 60 % 60 * (60 * K) + (u / K % 60 * K + u % K)) = u := by
  have h1 : u / K / 60 / 60 * 3600 + (u / K / 60 % 60 * 60 + u / K % 60) = u / K := by omega
  have h2 : (u / K / 60 / 60 * 3600 + (u / K / 60 % 60 * 60 + u / K % 60)) * K + u % K = u := by
    rw [h1, Nat.mul_comm]; exact Nat.div_add_mod u K
  rw [Nat.add_mul, Nat.add_mul, Nat.mul_assoc, Nat.mul_assoc] at h2
  rw [← Nat.add_assoc, ← Nat.add_assoc]
  rw [← Nat.add_assoc] at h2
  exact h2

theorem fmtClock_parts_aux (u K : Nat) (hK : K = 10 ^ 9) (us : unitValue "s".toList = K) (um : unitValue "m".toList = 60 * K)
    (uh : unitValue "h".toList = 3600 * K) :
    ∃ ps : List DurPart, ps ≠ [] ∧ (∀ p ∈ ps, p.Ok ∧ p.Short) ∧ Duration.fmtClock u = partsText ps ∧ partsNs ps = u := by
  obtain ⟨p, p1, p2, p3, p4⟩ := frac_part (u := "s".toList) (prec := 9) (by decide) (us.trans hK) (by omega) (u / K % 60) u
  rw [← hK] at p4
  obtain ⟨q, q1, q2, q3, q4⟩ := whole_part (u := "m".toList) (by decide) (u / K / 60 % 60)
  obtain ⟨r, r1, r2, r3, r4⟩ := whole_part (u := "h".toList) (by decide) (u / K / 60 / 60)
  rw [um] at q4
  rw [uh] at r4
  have hsum := clock_sum u K
  have hrest : (Duration.fmtFrac u 9).2 = u / K := by rw [fmtFrac_rest, hK]
  unfold Duration.fmtClock
  simp only [hrest]
  clear us um uh hrest hK
  split
  · split
    · refine ⟨[r, q, p], by simp, by simp [p1, p2, q1, q2, r1, r2], ?_, ?_⟩
      · simp [partsText, p3, q3, r3]
      · simp only [partsNs, List.map_cons, List.map_nil, List.sum_cons, List.sum_nil, p4, q4, r4, Nat.add_zero]
        exact hsum
    · next h0 =>
      refine ⟨[q, p], by simp, by simp [p1, p2, q1, q2], ?_, ?_⟩
      · simp [partsText, p3, q3]
      · simp only [partsNs, List.map_cons, List.map_nil, List.sum_cons, List.sum_nil, p4, q4, Nat.add_zero]
        have : u / K / 60 / 60 = 0 := by omega
        rw [this, Nat.zero_mul, Nat.zero_add] at hsum
        exact hsum
  · next h0 =>
    refine ⟨[p], by simp, by simp [p1, p2], ?_, ?_⟩
    · simp [partsText, p3]
    · simp only [partsNs, List.map_cons, List.map_nil, List.sum_cons, List.sum_nil, p4, Nat.add_zero]
      have e : u / K / 60 = 0 := Nat.eq_zero_of_not_pos h0
      rw [e, Nat.zero_div, Nat.zero_mod, Nat.zero_mul, Nat.zero_mul, Nat.zero_add, Nat.zero_add] at hsum
      exact hsum

theorem fmtClock_parts (u : Nat) : ∃ ps : List DurPart, ps ≠ [] ∧ (∀ p ∈ ps, p.Ok ∧ p.Short) ∧ Duration.fmtClock u = partsText ps ∧ partsNs ps = u := by
  obtain ⟨us, um, uh, -⟩ := unit_values
  exact fmtClock_parts_aux u _ rfl us um uh

theorem zero_parts : ∃ ps : List DurPart, ps ≠ [] ∧ (∀ p ∈ ps, p.Ok ∧ p.Short) ∧ "0s".toList = partsText ps ∧ partsNs ps = 0 :=
  ⟨[⟨[0], none, "s".toList⟩], by simp, by simp [DurPart.Ok, DurPart.Short, durUnits], by decide, by simp [partsNs, DurPart.ns, decVal]⟩

/-- The text without sign is a list of parts. -/
theorem fmtAbs_parts (u : Nat) : ∃ ps : List DurPart, ps ≠ [] ∧ (∀ p ∈ ps, p.Ok ∧ p.Short) ∧ Duration.fmtAbs u = partsText ps ∧ partsNs ps = u := by
  obtain ⟨-, -, -, un, uu, ul⟩ := unit_values
  unfold Duration.fmtAbs
  split
  · split
    · next h => rw [h]; exact zero_parts
    · split
      · exact fmtUnit_part (by decide) un (by omega) u
      · split
        · exact fmtUnit_part (by decide) uu (by omega) u
        · exact fmtUnit_part (by decide) ul (by omega) u
  · exact fmtClock_parts u

/-- The text of a duration is a sign and a list of parts. -/
theorem text_parts {d : Int} (h : InI64 d) : ∃ (neg : Bool) (sgn : Str) (ps : List DurPart), SignText neg sgn ∧ ps ≠ [] ∧
    (∀ p ∈ ps, p.Ok ∧ p.Short) ∧ FitsSign neg (partsNs ps) ∧ Duration.text d = sgn ++ partsText ps ∧ signed neg (partsNs ps) = d := by
  obtain ⟨ps, h1, h2, h3, h4⟩ := fmtAbs_parts d.natAbs
  unfold InI64 at h
  unfold Duration.text
  by_cases hd : d < 0
  · refine ⟨true, ['-'], ps, rfl, h1, h2, ?_, ?_, ?_⟩
    · simp only [FitsSign, if_true, h4]; omega
    · rw [if_pos hd, h3]; rfl
    · simp only [signed, if_true, h4]; omega
  · refine ⟨false, [], ps, Or.inl rfl, h1, h2, ?_, ?_, ?_⟩
    · simp only [FitsSign, Bool.false_eq_true, if_false, h4]; omega
    · rw [if_neg hd, h3]; rfl
    · simp only [signed, Bool.false_eq_true, if_false, h4]; omega

/-- **C60.** Every duration reads back from its text. -/
theorem duration_text_roundtrip {d : Int} (h : InI64 d) : Duration.unmarshalText (Duration.text d) = some d := by
  obtain ⟨neg, sgn, ps, h1, h2, h3, h4, h5, h6⟩ := text_parts h
  rw [h5, duration_parts h1 h2 h3 h4, h6]

/-! ### Characters -/

/-- The bytes of durations. -/
def durChar (c : Char) : Bool := Duration.numChar c || ['n', 's', 'u', 'Â', 'µ', 'Î', '¼', 'm', 'h', '-', '+'].contains c

theorem unit_chars : ∀ u ∈ durUnits.map Prod.fst, ∀ c ∈ u, durChar c = true := by decide +kernel

theorem durChar_digit {c : Char} (h : isDigit c = true) : durChar c = true := by unfold durChar Duration.numChar; rw [h]; simp

theorem parts_chars {ps : List DurPart} (hp : ∀ p ∈ ps, p.Ok) : ∀ c ∈ partsText ps, durChar c = true := by
  intro c hc
  obtain ⟨t, ht, hc⟩ := List.mem_flatten.mp hc
  obtain ⟨p, hpm, rfl⟩ := List.mem_map.mp ht
  obtain ⟨h1, h2, -, h4⟩ := hp p hpm
  unfold DurPart.text at hc
  rcases List.mem_append.mp hc with hc | hc
  · rcases List.mem_append.mp hc with hc | hc
    · exact durChar_digit (digitText_digits h1 c hc)
    · cases hf : p.frac with
      | none => rw [hf] at hc; simp at hc
      | some f =>
        rw [hf] at hc
        rcases List.mem_cons.mp hc with rfl | hc
        · decide
        · exact durChar_digit (digitText_digits (h2 f hf) c hc)
  · exact unit_chars _ h4 c hc

theorem sign_chars {neg : Bool} {s : Str} (h : SignText neg s) : ∀ c ∈ s, durChar c = true := by
  unfold SignText at h
  split at h
  · subst h; decide
  · rcases h with rfl | rfl <;> decide

theorem dur_not_blank : ∀ c ∈ '"' :: blanks, durChar c = false := by decide

theorem trimQuotes_quoted {s : Str} (h : '"' ∉ s) : Codec.trimQuotes ('"' :: s ++ ['"']) = s := by
  have hd : ∀ t : Str, '"' ∉ t → t.dropWhile (· = '"') = t := by
    intro t ht
    cases t with
    | nil => rfl
    | cons c t =>
      rw [List.dropWhile_cons_of_neg]
      simp only [decide_eq_true_eq]
      rintro rfl
      exact ht (by simp)
  unfold Codec.trimQuotes
  rw [List.cons_append, List.dropWhile_cons_of_pos (by simp)]
  cases hs : s with
  | nil => rfl
  | cons c r =>
    rw [hs] at h
    have hc : c ≠ '"' := fun e => h (by simp [e])
    rw [List.cons_append, List.dropWhile_cons_of_neg (by simp [hc]), ← List.cons_append, List.reverse_append,
      List.reverse_singleton, List.singleton_append, List.dropWhile_cons_of_pos (by simp), hd _ (by simpa [and_comm] using h), List.reverse_reverse]

/-- **C60.** Every duration reads back from its JSON form; an empty form keeps the old one. -/
theorem duration_json_roundtrip (old : Int) {d : Int} (h : InI64 d) :
    Duration.unmarshalJSON old (Duration.json d) = some d ∧ Duration.unmarshalJSON old [] = some old := by
  refine ⟨?_, rfl⟩
  obtain ⟨neg, sgn, ps, h1, h2, h3, h4, h5, h6⟩ := text_parts h
  have hq : '"' ∉ Duration.text d := by
    rw [h5]
    intro hm
    have : durChar '"' = true := by
      rcases List.mem_append.mp hm with hm | hm
      · exact sign_chars h1 _ hm
      · exact parts_chars (fun p hp => (h3 p hp).1) _ hm
    revert this; decide
  have e : Duration.unmarshalJSON old (Duration.json d) = Duration.parse (Codec.trimQuotes ('"' :: Duration.text d ++ ['"'])) := rfl
  rw [e, trimQuotes_quoted hq]
  exact duration_text_roundtrip h

/-! ### What is read -/

theorem digits_of {s : Str} (h : ∀ c ∈ s, isDigit c = true) : ∃ ds : List Nat, (∀ d ∈ ds, d < 10) ∧ s = digitText ds := by
  induction s with
  | nil => exact ⟨[], by simp, rfl⟩
  | cons c s ih =>
    obtain ⟨ds, h1, h2⟩ := ih (fun x hx => h x (List.mem_cons_of_mem _ hx))
    obtain ⟨d, hd, rfl⟩ := isDigit_iff.mp (h c (by simp))
    refine ⟨d :: ds, ?_, by rw [h2]; rfl⟩
    intro x hx
    rcases List.mem_cons.mp hx with rfl | hx
    · exact hd
    · exact h1 x hx

theorem takeWhile_digits (s : Str) : ∃ ds : List Nat, (∀ d ∈ ds, d < 10) ∧ s.takeWhile isDigit = digitText ds :=
  digits_of (fun _ hc => (List.all_eq_true.mp (List.all_takeWhile (p := isDigit) (l := s))) _ hc)

theorem head_dropWhile (p : Char → Bool) (s : Str) : ∀ c, (s.dropWhile p).head? = some c → p c = false := by
  intro c hc
  induction s with
  | nil => simp at hc
  | cons b s ih =>
    by_cases hb : p b = true
    · rw [List.dropWhile_cons_of_pos hb] at hc; exact ih hc
    · rw [List.dropWhile_cons_of_neg hb] at hc
      simp at hc
      rw [← hc]; simpa using hb

theorem leadingFraction_rest {rest : Str} (hr : ∀ c, rest.head? = some c → isDigit c = false) :
    ∀ (t : Str), (∀ c ∈ t, isDigit c = true) → ∀ x scale over, (Duration.leadingFraction x scale over (t ++ rest)).2.2 = rest := by
  intro t
  induction t with
  | nil =>
    intro _ x scale over
    cases rest with
    | nil => simp [Duration.leadingFraction]
    | cons c r => simp [Duration.leadingFraction, hr c rfl]
  | cons c t ih =>
    intro h x scale over
    have ih := ih (fun y hy => h y (List.mem_cons_of_mem _ hy))
    rw [List.cons_append, Duration.leadingFraction, if_pos (h c (by simp))]
    split
    · exact ih _ _ _
    split
    · exact ih _ _ _
    split
    · exact ih _ _ _
    · exact ih _ _ _

theorem component_inv {s r : Str} {v : Nat} (h : Duration.component s = some (v, r)) : ∃ p : DurPart, p.Ok ∧ s = p.text ++ r ∧
    (p.Short → v = p.ns) := by
  unfold Duration.component at h
  cases hl : Duration.leadingInt s with
  | none => rw [hl] at h; cases h
  | some w =>
    obtain ⟨n, s1⟩ := w
    rw [hl] at h
    simp only at h
    unfold Duration.leadingInt at hl
    obtain ⟨ds, hd, he⟩ := takeWhile_digits s
    rw [he, digitsVal_text hd] at hl
    simp only at hl
    split at hl
    · simp only [Option.some.injEq, Prod.mk.injEq] at hl
      obtain ⟨rfl, rfl⟩ := hl
      have hs : s = digitText ds ++ s.dropWhile isDigit := by rw [← he, List.takeWhile_append_dropWhile]
      generalize hs1 : s.dropWhile isDigit = s1 at *
      -- the fraction
      have hfrac : ∃ (fr : Option (List Nat)) (s2 : Str) (f scale : Nat), Duration.fraction s1 = (f, scale, decide (fr.getD [] ≠ []), s2) ∧
          s1 = (match fr with | none => [] | some g => '.' :: digitText g) ++ s2 ∧ (∀ g, fr = some g → ∀ d ∈ g, d < 10) ∧
          (fr = none → f = 0 ∧ scale = 1) ∧ (∀ g, fr = some g → g.length ≤ 18 → f = decVal g ∧ scale = 10 ^ g.length) := by
        unfold Duration.fraction
        split
        · next r1 =>
          obtain ⟨g, hg, hge⟩ := takeWhile_digits r1
          have hr1 : r1 = digitText g ++ r1.dropWhile isDigit := by rw [← hge, List.takeWhile_append_dropWhile]
          have hh := head_dropWhile isDigit r1
          generalize r1.dropWhile isDigit = r2 at *
          refine ⟨some g, r2, (Duration.leadingFraction 0 1 false r1).1, (Duration.leadingFraction 0 1 false r1).2.1, ?_, ?_, ?_, by simp, ?_⟩
          · have h3 := leadingFraction_rest hh (digitText g) (digitText_digits hg) 0 1 false
            rw [← hr1] at h3
            simp only [h3, Option.getD_some, Prod.mk.injEq, true_and, and_true]
            congr 1
            apply propext
            rw [hr1, List.length_append]
            simp only [digitText, List.length_map, ne_eq, ← List.length_eq_zero_iff]
            omega
          · simp [hr1]
          · intro g' h'; cases h'; exact hg
          · intro g' h' hlen; cases h'
            rw [hr1, leadingFraction_text hg hh 0 1 0 (by simp) (by omega)]
            simp
        · exact ⟨none, s1, 0, 1, by simp, by simp, by simp, by simp, by simp⟩
      obtain ⟨fr, s2, f, scale, g1, g2, g3, g4, g5⟩ := hfrac
      rw [g1] at h
      simp only at h
      split at h
      · cases h
      next hne =>
        cases hu : Duration.unitNs (s2.takeWhile (fun c => !Duration.numChar c)) with
        | none => rw [hu] at h; cases h
        | some k =>
          rw [hu] at h
          simp only at h
          have hmem := units_only hu
          have hk : k = unitValue (s2.takeWhile (fun c => !Duration.numChar c)) := by
            have := (units_table _ hmem).1
            rw [hu] at this
            exact Option.some.inj this
          split at h
          · cases h
          split at h
          · cases h
          · simp only [Option.some.injEq, Prod.mk.injEq] at h
            obtain ⟨hv, hr⟩ := h
            refine ⟨⟨ds, fr, s2.takeWhile (fun c => !Duration.numChar c)⟩, ⟨hd, g3, ?_, hmem⟩, ?_, ?_⟩
            · by_contra hcon
              apply hne
              rw [not_or] at hcon
              obtain ⟨c1, c2⟩ := hcon
              have hds : ds = [] := by simpa using c1
              refine ⟨?_, ?_⟩
              · conv_lhs => rw [hs, hds]
                simp [digitText]
              · rw [decide_eq_false_iff_not, not_not]
                cases fr with
                | none => rfl
                | some g =>
                  by_contra hg
                  exact c2 ⟨g, rfl, hg⟩
            · unfold DurPart.text
              simp only
              rw [List.append_assoc, List.append_assoc, ← hr, List.takeWhile_append_dropWhile]
              exact hs.trans (congrArg (digitText ds ++ ·) g2)
            · intro hshort
              unfold DurPart.ns
              simp only
              rw [← hv, ← hk]
              cases hfr : fr with
              | none =>
                obtain ⟨rfl, rfl⟩ := g4 hfr
                simp
              | some g =>
                obtain ⟨rfl, rfl⟩ := g5 g hfr (hshort g hfr)
                rfl
    · cases hl

theorem components_inv : ∀ (n d : Nat) (s : Str) (e : Nat), d ≤ 2 ^ 63 → Duration.components n d s = some e → ∃ ps : List DurPart, (∀ p ∈ ps, p.Ok) ∧
    s = partsText ps ∧ e ≤ 2 ^ 63 ∧ ((∀ p ∈ ps, p.Short) → e = d + partsNs ps) := by
  intro n
  induction n with
  | zero =>
    intro d s e hd h
    cases s with
    | nil => simp only [Duration.components, Option.some.injEq] at h; subst h; exact ⟨[], by simp, rfl, hd, fun _ => by simp [partsNs]⟩
    | cons c s => simp [Duration.components] at h
  | succ n ih =>
    intro d s e hd h
    cases s with
    | nil => simp only [Duration.components, Option.some.injEq] at h; subst h; exact ⟨[], by simp, rfl, hd, fun _ => by simp [partsNs]⟩
    | cons c s =>
      rw [Duration.components] at h
      split at h
      · cases hc : Duration.component (c :: s) with
        | none => rw [hc] at h; cases h
        | some w =>
          obtain ⟨v, r⟩ := w
          rw [hc] at h
          simp only at h
          split at h
          · cases h
          · obtain ⟨p, p1, p2, p3⟩ := component_inv hc
            obtain ⟨ps, q1, q2, q3, q4⟩ := ih _ _ _ (by omega) h
            refine ⟨p :: ps, ?_, ?_, q3, ?_⟩
            · intro x hx
              rcases List.mem_cons.mp hx with rfl | hx
              · exact p1
              · exact q1 x hx
            · rw [p2, q2]; simp [partsText]
            · intro hs
              rw [q4 (fun x hx => hs x (List.mem_cons_of_mem _ hx)), p3 (hs p (by simp))]
              simp [partsNs, Nat.add_assoc]
      · cases h

/-- The texts that the standard library reads. -/
def TimeText (s : Str) (d : Int) : Prop :=
  ∃ (neg : Bool) (sgn : Str), SignText neg sgn ∧
    ((s = sgn ++ ['0'] ∧ d = 0) ∨
      ∃ ps : List DurPart, ps ≠ [] ∧ (∀ p ∈ ps, p.Ok) ∧ s = sgn ++ partsText ps ∧ InI64 d ∧ ((∀ p ∈ ps, p.Short) → d = signed neg (partsNs ps)))

theorem timeParseAbs_inv {neg : Bool} {sgn s : Str} {d : Int} (hs : SignText neg sgn) (h : Duration.timeParseAbs neg s = some d) :
    TimeText (sgn ++ s) d := by
  refine ⟨neg, sgn, hs, ?_⟩
  unfold Duration.timeParseAbs at h
  split at h
  · next e => left; rw [e]; exact ⟨rfl, (Option.some.inj h).symm⟩
  split at h
  · cases h
  next hne =>
    cases hc : Duration.components s.length 0 s with
    | none => rw [hc] at h; cases h
    | some e =>
      rw [hc] at h
      simp only at h
      obtain ⟨ps, h1, h2, h3, h4⟩ := components_inv _ _ _ _ (by omega) hc
      right
      refine ⟨ps, ?_, h1, by rw [h2], ?_, ?_⟩
      · rintro rfl; exact hne h2
      · unfold InI64
        cases neg with
        | true => simp only [if_true, Option.some.injEq] at h; omega
        | false =>
          simp only [Bool.false_eq_true, if_false] at h
          split at h
          · cases h
          · simp only [Option.some.injEq] at h; omega
      · intro hsh
        have h4 := h4 hsh
        cases neg with
        | true => simp only [if_true, Option.some.injEq] at h; simp only [signed, if_true]; omega
        | false =>
          simp only [Bool.false_eq_true, if_false] at h
          split at h
          · cases h
          · simp only [Option.some.injEq] at h; simp only [signed, Bool.false_eq_true, if_false]; omega

theorem timeParse_inv {s : Str} {d : Int} (h : Duration.timeParse s = some d) : TimeText s d := by
  unfold Duration.timeParse at h
  split at h
  · exact timeParseAbs_inv (sgn := ['-']) (neg := true) rfl h
  · exact timeParseAbs_inv (sgn := ['+']) (neg := false) (Or.inr rfl) h
  · exact timeParseAbs_inv (sgn := []) (neg := false) (Or.inl rfl) h

theorem timeText_chars {s : Str} {d : Int} (h : TimeText s d) : ∀ c ∈ s, durChar c = true := by
  obtain ⟨neg, sgn, h1, h2⟩ := h
  intro c hc
  rcases h2 with ⟨rfl, -⟩ | ⟨ps, -, h3, rfl, -⟩
  · rcases List.mem_append.mp hc with hc | hc
    · exact sign_chars h1 c hc
    · rw [List.mem_singleton.mp hc]; decide
  · rcases List.mem_append.mp hc with hc | hc
    · exact sign_chars h1 c hc
    · exact parts_chars h3 c hc

/-- The second text is the first with some white space removed. -/
inductive Removed : Str → Str → Prop
  | nil : Removed [] []
  | keep (c : Char) {s t : Str} : Removed s t → Removed (c :: s) (c :: t)
  | skip {w s t : Str} : w ∈ spaces → Removed s t → Removed (w ++ s) t

theorem removed_self : ∀ s : Str, Removed s s
  | [] => .nil
  | c :: s => .keep c (removed_self s)

theorem noSpace_removed : ∀ (n : Nat) (s : Str), Removed s (Duration.noSpace n s) := by
  intro n
  induction n with
  | zero => intro s; cases s <;> exact removed_self _
  | succ n ih =>
    intro s
    cases s with
    | nil => exact .nil
    | cons c s =>
      rw [Duration.noSpace]
      cases hf : spaces.find? (fun w => hasPrefix (c :: s) w) with
      | none => exact .keep c (ih s)
      | some w =>
        simp only
        have hw := List.mem_of_find?_eq_some hf
        have hp := List.find?_some hf
        obtain ⟨t, ht⟩ := hasPrefix_iff.mp hp
        rw [ht, List.drop_left]
        exact .skip hw (ih t)

/-- **C60.** Nothing else is read: whatever is read is a whole number of seconds, or consists of numbers with units after white space is
removed, and then it means their sum. -/
theorem duration_reads_only {s : Str} {d : Int} (h : Duration.unmarshalText s = some d) :
    (∃ i, IntText s i ∧ InI64 i ∧ d = wrap64 (i * 10 ^ 9)) ∨ (∃ t, Removed s t ∧ TimeText t d) := by
  unfold Duration.unmarshalText Duration.parse at h
  cases hi : parseInt 64 s with
  | some i =>
    rw [hi] at h
    left
    obtain ⟨h1, h2⟩ := (parseInt_iff 64 s i).mp hi
    exact ⟨i, h1, h2, (Option.some.inj h).symm⟩
  | none =>
    rw [hi] at h
    simp only at h
    right
    cases ht : Duration.timeParse s with
    | some e =>
      rw [ht] at h
      cases h
      exact ⟨s, removed_self s, timeParse_inv ht⟩
    | none =>
      rw [ht] at h
      exact ⟨_, noSpace_removed _ _, timeParse_inv h⟩

/-! ### White space -/

theorem spaces_cases : ∀ w ∈ spaces, (∃ b ∈ blanks, w = [b]) ∨ ∃ c ∈ w, durChar c = false ∧ c ∉ blanks := by decide +kernel

theorem blanks_spaces : ∀ b ∈ blanks, [b] ∈ spaces ∧ ∀ w ∈ spaces, w.head? = some b → w = [b] := by decide +kernel

theorem noSpace_filter : ∀ (s : Str) (n : Nat), s.length ≤ n → (∀ c ∈ s, c ∈ blanks ∨ durChar c = true) →
    Duration.noSpace n s = s.filter (fun c => decide (c ∉ blanks)) := by
  intro s
  induction s with
  | nil => intro n _ _; cases n <;> rfl
  | cons c s ih =>
    intro n hn h
    cases n with
    | zero => simp at hn
    | succ n =>
      have ih := ih n (by simpa using hn) (fun x hx => h x (List.mem_cons_of_mem _ hx))
      rw [Duration.noSpace]
      by_cases hc : c ∈ blanks
      · obtain ⟨b1, b2⟩ := blanks_spaces c hc
        cases hf : spaces.find? (fun w => hasPrefix (c :: s) w) with
        | none =>
          have := List.find?_eq_none.mp hf _ b1
          exact absurd (hasPrefix_iff.mpr ⟨s, rfl⟩ : hasPrefix (c :: s) [c] = true) this
        | some w =>
          have hw := List.mem_of_find?_eq_some hf
          obtain ⟨t, ht⟩ := hasPrefix_iff.mp (List.find?_some hf)
          have hhead : w.head? = some c := by
            cases w with
            | nil => exact absurd rfl (spaces_ne_nil _ hw)
            | cons b w => simp only [List.cons_append, List.cons.injEq] at ht; simp [ht.1]
          rw [b2 w hw hhead]
          simp only [List.length_singleton, List.drop_succ_cons, List.drop_zero]
          rw [ih, List.filter_cons_of_neg (by simpa using hc)]
      · cases hf : spaces.find? (fun w => hasPrefix (c :: s) w) with
        | none =>
          simp only
          rw [ih, List.filter_cons_of_pos (by simpa using hc)]
        | some w =>
          exfalso
          have hw := List.mem_of_find?_eq_some hf
          obtain ⟨t, ht⟩ := hasPrefix_iff.mp (List.find?_some hf)
          rcases spaces_cases w hw with ⟨b, hb, rfl⟩ | ⟨b, hb, h1, h2⟩
          · simp only [List.cons_append, List.cons.injEq] at ht
            exact hc (by rw [ht.1]; exact hb)
          · have : b ∈ c :: s := by rw [ht]; exact List.mem_append_left _ hb
            rcases h b this with h | h
            · exact h2 h
            · rw [h1] at h; cases h

/-- **C60.** White space anywhere in a duration with units does not matter. -/
theorem duration_spaces {neg : Bool} {sgn t : Str} {ps : List DurPart} (hs : SignText neg sgn) (hne : ps ≠ []) (hp : ∀ p ∈ ps, p.Ok ∧ p.Short)
    (hf : FitsSign neg (partsNs ps)) (ht : t.filter (fun c => decide (c ∉ blanks)) = sgn ++ partsText ps) :
    Duration.unmarshalText t = some (signed neg (partsNs ps)) := by
  by_cases hb : ∃ c ∈ t, c ∈ blanks
  · obtain ⟨b, hbt, hb⟩ := hb
    have hch : ∀ c ∈ t, c ∈ blanks ∨ durChar c = true := by
      intro c hc
      by_cases h : c ∈ blanks
      · exact Or.inl h
      · right
        have : c ∈ sgn ++ partsText ps := by rw [← ht]; exact List.mem_filter.mpr ⟨hc, by simpa using h⟩
        rcases List.mem_append.mp this with h | h
        · exact sign_chars hs c h
        · exact parts_chars (fun p hp' => (hp p hp').1) c h
    have hbad : durChar b = false := dur_not_blank b (List.mem_cons_of_mem _ hb)
    unfold Duration.unmarshalText Duration.parse
    cases hi : parseInt 64 t with
    | some i =>
      exfalso
      rcases parseInt_chars hi b hbt with h | h | h
      · rw [durChar_digit h] at hbad; cases hbad
      · rw [h] at hbad; exact absurd hbad (by decide)
      · rw [h] at hbad; exact absurd hbad (by decide)
    | none =>
      simp only
      cases htp : Duration.timeParse t with
      | some e =>
        exfalso
        have := timeText_chars (timeParse_inv htp) b hbt
        rw [hbad] at this; cases this
      | none =>
        simp only
        rw [noSpace_filter t _ (Nat.le_refl _) hch, ht, timeParse_parts hs hne hp hf]
  · have : t.filter (fun c => decide (c ∉ blanks)) = t := by
      rw [List.filter_eq_self]
      intro c hc
      simp only [decide_eq_true_eq]
      exact fun h => hb ⟨c, hc, h⟩
    rw [this] at ht
    rw [ht]
    exact duration_parts hs hne hp hf

/-! ### Seconds -/

/-- **C60.** A whole number is read as seconds, if that many nanoseconds fit in 64 bits. -/
theorem duration_seconds_partial (old : Int) {i : Int} (hi : InI64 (i * 10 ^ 9)) :
    Duration.unmarshalText (itoa i) = some (i * 10 ^ 9) ∧ Duration.unmarshalJSON old (itoa i) = some (i * 10 ^ 9) := by
  have h64 : InI64 i := by unfold InI64 at *; omega
  have hp : parseInt 64 (itoa i) = some i := atoi_itoa h64
  have hw : Duration.ofSeconds i = i * 10 ^ 9 := wrap64_id hi
  constructor
  · unfold Duration.unmarshalText Duration.parse
    rw [hp]; simp only [hw]
  · unfold Duration.unmarshalJSON
    cases hc : itoa i with
    | nil => exact absurd hc (itoa_ne_nil i)
    | cons c cs =>
      simp only
      have : c ≠ '"' := by
        rintro rfl
        exact itoa_not_mem (c := '"') (by decide) (by decide) i (by rw [hc]; simp)
      rw [if_neg this, ← hc, hp, Option.map_some, hw]

/-- **C60**, finding: a number of seconds that does not fit gives a wrong duration and no error. -/
theorem duration_seconds_wrong {i : Int} (h64 : InI64 i) (hi : ¬ InI64 (i * 10 ^ 9)) :
    ∃ d, Duration.unmarshalText (itoa i) = some d ∧ d ≠ i * 10 ^ 9 ∧ InI64 d := by
  have hp : parseInt 64 (itoa i) = some i := atoi_itoa h64
  have hin : InI64 (Duration.ofSeconds i) := by
    unfold Duration.ofSeconds wrap64 InI64
    have h1 := Int.bmod_lt (x := i * 1000000000) (m := 2 ^ 64) (by omega)
    have h2 := Int.le_bmod (x := i * 1000000000) (m := 2 ^ 64) (by omega)
    omega
  refine ⟨Duration.ofSeconds i, ?_, ?_, hin⟩
  · unfold Duration.unmarshalText Duration.parse
    rw [hp]
  · intro e; rw [e] at hin; exact hi hin

/-- **C60**, finding: white space around a whole number makes it unreadable, although it does not matter elsewhere. -/
theorem duration_seconds_spaces {a b : Str} {i : Int} (ha : ∀ c ∈ a, c ∈ blanks) (hb : ∀ c ∈ b, c ∈ blanks) (hab : a ++ b ≠ []) (hi : i ≠ 0) :
    Duration.unmarshalText (a ++ itoa i ++ b) = none := by
  have hbl : ∃ c ∈ a ++ itoa i ++ b, c ∈ blanks := by
    cases a with
    | cons c a => exact ⟨c, by simp, ha c (by simp)⟩
    | nil =>
      cases b with
      | nil => exact absurd rfl hab
      | cons c b => exact ⟨c, by simp, hb c (by simp)⟩
  obtain ⟨c, hc, hcb⟩ := hbl
  have hbad : durChar c = false := dur_not_blank c (List.mem_cons_of_mem _ hcb)
  have hit : ∀ c ∈ itoa i, durChar c = true ∧ c ∉ blanks := by
    intro c hc
    have h1 : isDigit c = true ∨ c = '-' := by
      by_contra h
      rw [not_or] at h
      exact itoa_not_mem (by simpa using h.1) h.2 i hc
    have h2 : durChar c = true := by
      rcases h1 with h | rfl
      · exact durChar_digit h
      · decide
    refine ⟨h2, fun h => ?_⟩
    have := dur_not_blank c (List.mem_cons_of_mem _ h)
    rw [h2] at this; cases this
  have hno : Duration.timeParse (itoa i) = none := by
    cases ht : Duration.timeParse (itoa i) with
    | none => rfl
    | some e =>
      exfalso
      obtain ⟨neg, sgn, h1, h2⟩ := timeParse_inv ht
      rcases h2 with ⟨h2, -⟩ | ⟨ps, h3, h4, h5, -⟩
      · have h0 : IntText (itoa i) 0 := by
          refine ⟨[0], by simp, by simp, ?_⟩
          unfold SignText at h1
          split at h1
          · subst h1; right; right; exact ⟨h2, rfl⟩
          · rcases h1 with rfl | rfl
            · left; exact ⟨h2, rfl⟩
            · right; left; exact ⟨h2, rfl⟩
        have h5 := (parseIntRaw_iff _ _).mpr h0
        rw [parseIntRaw_itoa] at h5
        exact hi (Option.some.inj h5)
      · obtain ⟨c, hc, c1, -, c3, -⟩ := parts_unit h3 h4
        have : c ∈ itoa i := by rw [h5]; exact List.mem_append_right _ hc
        exact itoa_not_mem c1 c3 i this
  have f1 : a.filter (fun c => decide (c ∉ blanks)) = [] := List.filter_eq_nil_iff.mpr (by simpa using ha)
  have f2 : (itoa i).filter (fun c => decide (c ∉ blanks)) = itoa i := List.filter_eq_self.mpr (by simpa using fun c hc => (hit c hc).2)
  have f3 : b.filter (fun c => decide (c ∉ blanks)) = [] := List.filter_eq_nil_iff.mpr (by simpa using hb)
  have hfil : (a ++ itoa i ++ b).filter (fun c => decide (c ∉ blanks)) = itoa i := by
    rw [List.filter_append, List.filter_append, f1, f2, f3]
    simp
  unfold Duration.unmarshalText Duration.parse
  cases hp : parseInt 64 (a ++ itoa i ++ b) with
  | some j =>
    exfalso
    rcases parseInt_chars hp c hc with h | h | h
    · rw [durChar_digit h] at hbad; cases hbad
    · rw [h] at hbad; exact absurd hbad (by decide)
    · rw [h] at hbad; exact absurd hbad (by decide)
  | none =>
    simp only
    cases htp : Duration.timeParse (a ++ itoa i ++ b) with
    | some e =>
      exfalso
      have := timeText_chars (timeParse_inv htp) c hc
      rw [hbad] at this; cases this
    | none =>
      simp only
      rw [noSpace_filter _ _ (Nat.le_refl _) ?_, hfil, hno]
      intro x hx
      rcases List.mem_append.mp hx with hx | hx
      · rcases List.mem_append.mp hx with hx | hx
        · exact Or.inl (ha x hx)
        · exact Or.inr (hit x hx).1
      · exact Or.inl (hb x hx)

/-! ### Rounding -/

/-- **C60**, finding: `Truncate` does not truncate but rounds away from zero, to the next multiple, as do the functions named after
units; exact multiples stay. -/
theorem duration_round_partial {d r : Int} (hr : 0 < r) (hd : InI64 d) (hlo : -(2 ^ 63) + r ≤ d) (hhi : d ≤ 2 ^ 63 - r) :
    r ∣ Duration.truncate d r ∧ (0 < d → d ≤ Duration.truncate d r ∧ Duration.truncate d r < d + r) ∧
    (d ≤ 0 → Duration.truncate d r ≤ d ∧ d - r < Duration.truncate d r) ∧ Duration.truncate d r = Duration.roundTo d r * r := by
  have hdiv : ∀ x : Int, x / r * r ≤ x ∧ x < x / r * r + r := by
    intro x
    have h1 := Int.emod_nonneg x (Int.ne_of_gt hr)
    have h2 := Int.emod_lt_of_pos x hr
    have h3 := Int.emod_add_mul_ediv x r
    rw [Int.mul_comm] at h3
    omega
  unfold InI64 at hd
  have key : ∃ q, Duration.truncate d r = q * r ∧ (0 < d → d ≤ q * r ∧ q * r < d + r) ∧ (d ≤ 0 → q * r ≤ d ∧ d - r < q * r) := by
    by_cases hpos : 0 < d
    · obtain ⟨h1, h2⟩ := hdiv (-d)
      have e : -((-d) / r) * r = -((-d) / r * r) := by rw [Int.neg_mul]
      refine ⟨-((-d) / r), ?_, fun _ => by rw [e]; omega, fun h => by omega⟩
      unfold Duration.truncate Duration.ceilDiv
      rw [if_pos hpos, wrap64_id]
      rw [e]
      -- the multiple fits
      have hmul : -((-d) / r * r) < 2 ^ 63 := by
        by_cases hm : -((-d) / r * r) = d + r - 1 + 1
        · omega
        · omega
      omega
    · obtain ⟨h1, h2⟩ := hdiv d
      refine ⟨d / r, ?_, fun h => by omega, fun _ => by omega⟩
      unfold Duration.truncate
      rw [if_neg hpos, wrap64_id (by omega)]
  obtain ⟨q, e, h1, h2⟩ := key
  refine ⟨⟨q, by rw [e, Int.mul_comm]⟩, ?_, ?_, ?_⟩
  · rw [e]; exact h1
  · rw [e]; exact h2
  · unfold Duration.roundTo
    rw [e, Int.mul_tdiv_cancel _ (Int.ne_of_gt hr)]

/-- **C60**, finding: the longest duration, almost 292 years, is rounded to a negative number of days. -/
theorem duration_round_wraps : InI64 (2 ^ 63 - 1) ∧ Duration.roundTo (2 ^ 63 - 1) (86400 * 10 ^ 9) = -106751 := by decide +kernel

/-! ### Examples -/

example : Duration.text 5445012345678 = "1h30m45.012345678s".toList := by decide +kernel
example : Duration.text (-1500000) = "-1.5ms".toList ∧ Duration.text 2000 = ['2', 'Â', 'µ', 's'] := by decide +kernel
example : Duration.unmarshalText " 1h 30 m".toList = some 5400000000000 := by decide +kernel
example : Duration.unmarshalText "1.5h.5s".toList = some 5400500000000 := by decide +kernel
example : Duration.unmarshalText "90".toList = some 90000000000 ∧ Duration.unmarshalText " 90".toList = none := by decide +kernel
example : InI64 9223372037 ∧ ¬ InI64 (9223372037 * 10 ^ 9) := by decide
example : Duration.unmarshalText "9223372037".toList = some (-9223372036709551616) := by decide +kernel
example : Duration.roundTo 1 (86400 * 10 ^ 9) = 1 := by decide +kernel
example : DurPart.Ok ⟨[1], some [5], "h".toList⟩ ∧ DurPart.Short ⟨[1], some [5], "h".toList⟩ ∧
    DurPart.ns ⟨[1], some [5], "h".toList⟩ = 5400 * 10 ^ 9 := by
  refine ⟨⟨by simp, by simp, by simp, by decide⟩, by simp [DurPart.Short], by decide +kernel⟩

end Xmp.Props
