import Mathlib.Tactic.Common
import Verif.Model.Codec
import Verif.Lemmas.GoStr

/-! Properties of the text forms of simple values (C29) and of rational numbers (C30). -/

namespace Xmp.Props

open GoStr Codec

/-! ### Specification -/

/-- The number with the given decimal digits. -/
def decVal (ds : List Nat) : Nat := ds.foldl (fun a d => 10 * a + d) 0

/-- `s` is a decimal notation of the integer `i`: digits, at least one, after an optional sign. -/
def IntText (s : Str) (i : Int) : Prop :=
  ∃ ds : List Nat, ds ≠ [] ∧ (∀ d ∈ ds, d < 10) ∧
    ((s = ds.map digitChar ∧ i = decVal ds) ∨ (s = '+' :: ds.map digitChar ∧ i = decVal ds) ∨
      (s = '-' :: ds.map digitChar ∧ i = -(decVal ds : Int)))

/-! ### Helper lemmas -/

theorem isDigit_iff {c : Char} : isDigit c = true ↔ ∃ d, d < 10 ∧ c = digitChar d := by
  constructor
  · intro h
    unfold isDigit at h
    simp only [Bool.and_eq_true, decide_eq_true_eq] at h
    refine ⟨c.toNat - 48, by omega, ?_⟩
    unfold digitChar
    rw [show 48 + (c.toNat - 48) = c.toNat by omega, Char.ofNat_toNat]
  · rintro ⟨d, hd, rfl⟩
    exact isDigit_digitChar hd

theorem digitsVal_iff (s : Str) : ∀ acc n, digitsVal acc s = some n ↔
    ∃ ds : List Nat, (∀ d ∈ ds, d < 10) ∧ s = ds.map digitChar ∧ n = ds.foldl (fun a d => 10 * a + d) acc := by
  induction s with
  | nil =>
    intro acc n
    rw [digitsVal]
    constructor
    · intro h; cases h; exact ⟨[], by simp, rfl, rfl⟩
    · rintro ⟨ds, _, h, h2⟩
      cases ds with
      | nil => rw [h2]; rfl
      | cons d ds => simp at h
  | cons c cs ih =>
    intro acc n
    rw [digitsVal]
    by_cases hc : isDigit c = true
    · rw [if_pos hc, ih]
      obtain ⟨d, hd, rfl⟩ := isDigit_iff.mp hc
      have e : acc * 10 + ((digitChar d).toNat - 48) = 10 * acc + d := by rw [digitChar_toNat hd]; omega
      rw [e]
      constructor
      · rintro ⟨ds, h1, h2, h3⟩
        exact ⟨d :: ds, by intro x hx; rcases List.mem_cons.mp hx with rfl | hx; exacts [hd, h1 x hx], by rw [h2]; rfl, h3⟩
      · rintro ⟨ds, h1, h2, h3⟩
        cases ds with
        | nil => simp at h2
        | cons x xs =>
          simp only [List.map_cons, List.cons.injEq] at h2
          have hx : x = d := by
            have h4 := congrArg Char.toNat h2.1
            rw [digitChar_toNat hd, digitChar_toNat (h1 x (by simp))] at h4
            omega
          subst hx
          exact ⟨xs, fun y hy => h1 y (by simp [hy]), h2.2, h3⟩
    · rw [if_neg hc]
      constructor
      · intro h; cases h
      · rintro ⟨ds, h1, h2, h3⟩
        cases ds with
        | nil => simp at h2
        | cons x xs =>
          simp only [List.map_cons, List.cons.injEq] at h2
          exact absurd (isDigit_iff.mpr ⟨x, h1 x (by simp), h2.1⟩) hc

theorem parseNat_iff (s : Str) (n : Nat) : parseNat s = some n ↔
    ∃ ds : List Nat, ds ≠ [] ∧ (∀ d ∈ ds, d < 10) ∧ s = ds.map digitChar ∧ n = decVal ds := by
  cases s with
  | nil =>
    constructor
    · intro h; cases h
    · rintro ⟨ds, h1, _, h2, _⟩
      cases ds with
      | nil => exact absurd rfl h1
      | cons d ds => simp at h2
  | cons c cs =>
    rw [parseNat, digitsVal_iff]
    constructor
    · rintro ⟨ds, h1, h2, h3⟩
      refine ⟨ds, ?_, h1, h2, h3⟩
      rintro rfl
      simp at h2
    · rintro ⟨ds, _, h1, h2, h3⟩
      exact ⟨ds, h1, h2, h3⟩

theorem parseIntRaw_iff (s : Str) (i : Int) : parseIntRaw s = some i ↔ IntText s i := by
  have hm : ∀ (t : Str) (g : Nat → Int), (parseNat t).map g = some i ↔
      ∃ ds : List Nat, ds ≠ [] ∧ (∀ d ∈ ds, d < 10) ∧ t = ds.map digitChar ∧ i = g (decVal ds) := by
    intro t g
    rw [Option.map_eq_some_iff]
    constructor
    · rintro ⟨n, h1, h2⟩
      obtain ⟨ds, h3, h4, h5, h6⟩ := (parseNat_iff t n).mp h1
      exact ⟨ds, h3, h4, h5, by rw [← h2, h6]⟩
    · rintro ⟨ds, h3, h4, h5, h6⟩
      exact ⟨decVal ds, (parseNat_iff t _).mpr ⟨ds, h3, h4, h5, rfl⟩, h6.symm⟩
  have hsign : ∀ {ds : List Nat} {c : Char} {cs : Str}, (∀ d ∈ ds, d < 10) → ds ≠ [] → c :: cs = ds.map digitChar →
      isDigit c = true := by
    intro ds c cs h1 h2 h3
    cases ds with
    | nil => exact absurd rfl h2
    | cons d ds =>
      simp only [List.map_cons, List.cons.injEq] at h3
      exact isDigit_iff.mpr ⟨d, h1 d (by simp), h3.1⟩
  cases s with
  | nil =>
    constructor
    · intro h; cases h
    · rintro ⟨ds, h1, h2, h | h | h⟩
      · cases ds with
        | nil => exact absurd rfl h1
        | cons d ds => simp at h
      · simp at h
      · simp at h
  | cons c cs =>
    rw [parseIntRaw]
    unfold IntText
    by_cases hminus : c = '-'
    · subst hminus
      rw [if_pos rfl, hm]
      constructor
      · rintro ⟨ds, h1, h2, h3, h4⟩
        exact ⟨ds, h1, h2, Or.inr (Or.inr ⟨by rw [h3], h4⟩)⟩
      · rintro ⟨ds, h1, h2, h | h | h⟩
        · exact absurd (hsign h2 h1 h.1) (by decide)
        · simp at h
        · simp only [List.cons.injEq, true_and] at h
          exact ⟨ds, h1, h2, h.1, h.2⟩
    · rw [if_neg hminus]
      by_cases hplus : c = '+'
      · subst hplus
        rw [if_pos rfl, hm]
        constructor
        · rintro ⟨ds, h1, h2, h3, h4⟩
          exact ⟨ds, h1, h2, Or.inr (Or.inl ⟨by rw [h3], h4⟩)⟩
        · rintro ⟨ds, h1, h2, h | h | h⟩
          · exact absurd (hsign h2 h1 h.1) (by decide)
          · simp only [List.cons.injEq, true_and] at h
            exact ⟨ds, h1, h2, h.1, h.2⟩
          · simp at h
      · rw [if_neg hplus, hm]
        constructor
        · rintro ⟨ds, h1, h2, h3, h4⟩
          exact ⟨ds, h1, h2, Or.inl ⟨h3, h4⟩⟩
        · rintro ⟨ds, h1, h2, h | h | h⟩
          · exact ⟨ds, h1, h2, h.1, h.2⟩
          · simp only [List.cons.injEq] at h; exact absurd h.1.1 hplus
          · simp only [List.cons.injEq] at h; exact absurd h.1.1 hminus

/-- What `strconv.ParseInt` accepts. -/
theorem parseInt_iff (bits : Nat) (s : Str) (i : Int) : parseInt bits s = some i ↔
    IntText s i ∧ -(2 ^ (bits - 1) : Int) ≤ i ∧ i < (2 ^ (bits - 1) : Int) := by
  unfold parseInt
  cases h : parseIntRaw s with
  | none =>
    constructor
    · intro h'; cases h'
    · rintro ⟨h1, _⟩
      rw [(parseIntRaw_iff s i).mpr h1] at h; cases h
  | some j =>
    simp only
    by_cases hr : -(2 ^ (bits - 1) : Int) ≤ j ∧ j < (2 ^ (bits - 1) : Int)
    · rw [if_pos hr]
      constructor
      · intro h'; cases h'; exact ⟨(parseIntRaw_iff s i).mp h, hr⟩
      · rintro ⟨h1, _⟩
        rw [(parseIntRaw_iff s i).mpr h1] at h; cases h; rfl
    · rw [if_neg hr]
      constructor
      · intro h'; cases h'
      · rintro ⟨h1, h2⟩
        rw [(parseIntRaw_iff s i).mpr h1] at h; cases h; exact absurd h2 hr

theorem nullNumber_false_of_parse {s : Str} {i : Int} (h : parseIntRaw s = some i) : nullNumber s = false := by
  unfold nullNumber
  simp only [Bool.or_eq_false_iff, decide_eq_false_iff_not]
  refine ⟨⟨⟨⟨⟨?_, ?_⟩, ?_⟩, ?_⟩, ?_⟩, ?_⟩ <;> rintro rfl <;> cases h

/-! ### Booleans -/

/-- C29: booleans are read back, and exactly the six documented texts are accepted. -/
theorem bool_roundtrip (b : Bool) : boolParse (boolText b) = some b := by cases b <;> rfl

/-- C29: exactly the six documented texts are accepted. -/
theorem bool_accepts (s : Str) (b : Bool) : boolParse s = some b ↔
    (b = true ∧ s ∈ ["True".toList, "true".toList, "TRUE".toList]) ∨
    (b = false ∧ s ∈ ["False".toList, "false".toList, "FALSE".toList]) := by
  unfold boolParse
  by_cases h1 : s = "True".toList ∨ s = "true".toList ∨ s = "TRUE".toList
  · rw [if_pos h1]
    rcases h1 with rfl | rfl | rfl <;> cases b <;> decide
  · rw [if_neg h1]
    by_cases h2 : s = "False".toList ∨ s = "false".toList ∨ s = "FALSE".toList
    · rw [if_pos h2]
      rcases h2 with rfl | rfl | rfl <;> cases b <;> decide
    · rw [if_neg h2]
      simp only [List.mem_cons, List.not_mem_nil, or_false]
      constructor
      · intro h; cases h
      · rintro (⟨_, h⟩ | ⟨_, h⟩)
        · exact absurd h h1
        · exact absurd h h2

example : boolParse "TRUE".toList = some true ∧ boolParse "yes".toList = none := ⟨rfl, rfl⟩

/-! ### Optional integers -/

/-- C29: optional integers are read back whatever the old value, from text and from JSON, bare or in
quotes. -/
theorem nullInt_roundtrip (old : Int) {i : Int} (h : InI64 i) :
    nullIntParse old (nullIntText i) = some i ∧ nullIntParseJSON old (nullIntText i) = some i ∧
    nullIntParseJSON old ('"' :: nullIntText i ++ ['"']) = some i := by
  have h1 : nullIntParse old (nullIntText i) = some i := by
    unfold nullIntParse nullIntText
    rw [nullNumber_false_of_parse (parseIntRaw_itoa i)]
    exact atoi_itoa h
  have hq : '"' ∉ itoa i := itoa_not_mem (by decide) (by decide) i
  have hd : ∀ s : Str, '"' ∉ s → s.dropWhile (· = '"') = s := by
    intro s hs
    cases s with
    | nil => rfl
    | cons c cs =>
      have : c ≠ '"' := by rintro rfl; simp at hs
      simp [List.dropWhile, this]
  have hne := itoa_ne_nil i
  refine ⟨h1, ?_, ?_⟩
  · unfold nullIntText at h1 ⊢
    cases hi : itoa i with
    | nil => exact absurd hi hne
    | cons c cs =>
      rw [hi] at h1 hq
      have : c ≠ '"' := by rintro rfl; simp at hq
      simp only [nullIntParseJSON, if_neg this]
      exact h1
  · have ht : trimQuotes ('"' :: nullIntText i ++ ['"']) = nullIntText i := by
      unfold trimQuotes nullIntText
      rw [List.cons_append, List.dropWhile_cons_of_pos (by simp)]
      cases hi : itoa i with
      | nil => exact absurd hi hne
      | cons c cs =>
        rw [hi] at hq
        have hc : c ≠ '"' := by rintro rfl; simp at hq
        rw [List.cons_append, List.dropWhile_cons_of_neg (by simp [hc]), ← List.cons_append, List.reverse_append,
          List.reverse_singleton, List.singleton_append, List.dropWhile_cons_of_pos (by simp), hd, List.reverse_reverse]
        simpa [and_comm] using hq
    show nullIntParse old (trimQuotes ('"' :: nullIntText i ++ ['"'])) = some i
    rw [ht]; exact h1

/-- C29: what an optional integer accepts: the texts for a missing number keep the old value, a decimal
integer of 64 bits is taken, everything else is rejected. -/
theorem nullInt_accepts (old : Int) (s : Str) (i : Int) : nullIntParse old s = some i ↔
    (s ∈ ["".toList, "-".toList, "--".toList, "---".toList, "NaN".toList, "unknown".toList] ∧ i = old) ∨
    (IntText s i ∧ InI64 i) := by
  unfold nullIntParse
  by_cases h : nullNumber s = true
  · rw [if_pos h]
    have hs := h
    unfold nullNumber at hs
    simp only [Bool.or_eq_true, decide_eq_true_eq] at hs
    constructor
    · intro h'
      cases h'
      left
      refine ⟨?_, rfl⟩
      rcases hs with ((((h | h) | h) | h) | h) | h <;> subst h <;> decide
    · rintro (⟨_, rfl⟩ | ⟨h1, _⟩)
      · rfl
      · rw [nullNumber_false_of_parse ((parseIntRaw_iff s i).mpr h1)] at h; cases h
  · rw [if_neg h, parseInt_iff]
    constructor
    · intro h'; exact Or.inr h'
    · rintro (⟨h1, _⟩ | h1)
      · exfalso; apply h
        simp only [List.mem_cons, List.not_mem_nil, or_false] at h1
        rcases h1 with h | h | h | h | h | h <;> subst h <;> decide
      · exact h1

example : nullIntParse 7 "--".toList = some 7 ∧ nullIntParse 7 "+12".toList = some 12 ∧
    nullIntParse 7 "1 ".toList = none ∧ nullIntParse 7 "9223372036854775808".toList = none := by decide +kernel

/-! ### Split integers -/

theorem toU32_nat {n : Nat} (h : n < 2 ^ 32) : toU32 (n : Int) = n := by
  unfold toU32
  have : ((n : Int) % (2 ^ 32 : Int)).toNat = n % 2 ^ 32 := by omega
  rw [this, Nat.mod_eq_of_lt h]

theorem itoa_natCast (n : Nat) : itoa (n : Int) = natToStr n := by
  unfold itoa
  rw [if_neg (by omega)]
  rfl

theorem parseInt_natToStr {bits n : Nat} (h : (n : Int) < 2 ^ (bits - 1)) : parseInt bits (natToStr n) = some (n : Int) := by
  rw [← itoa_natCast]
  exact parseInt_itoa (by
    have : (0 : Int) < 2 ^ (bits - 1) := Int.pow_pos (by decide)
    omega) h

/-- C29: a 32 bit integer written as four numbers below 128 is read. -/
theorem splitInt_parts_partial (old : Nat) {a b c d : Nat} (ha : a < 128) (hb : b < 128) (hc : c < 128) (hd : d < 128) :
    splitIntParse old (join [':'] [natToStr a, natToStr b, natToStr c, natToStr d]) =
      some (a * 2 ^ 24 + b * 2 ^ 16 + c * 2 ^ 8 + d) := by
  have hcol : ∀ n, ':' ∉ natToStr n := fun n => not_isDigit_of (by decide)
  have hmem : ':' ∈ join [':'] [natToStr a, natToStr b, natToStr c, natToStr d] := by simp [join]
  have hsplit : split ':' (join [':'] [natToStr a, natToStr b, natToStr c, natToStr d]) =
      [natToStr a, natToStr b, natToStr c, natToStr d] :=
    split_join (by simp) (by intro s hs; simp at hs; rcases hs with h | h | h | h <;> subst h <;> exact hcol _)
  unfold splitIntParse
  have hnull : nullNumber (join [':'] [natToStr a, natToStr b, natToStr c, natToStr d]) = false := by
    unfold nullNumber
    simp only [Bool.or_eq_false_iff, decide_eq_false_iff_not]
    refine ⟨⟨⟨⟨⟨?_, ?_⟩, ?_⟩, ?_⟩, ?_⟩, ?_⟩ <;> intro h <;> rw [h] at hmem <;> revert hmem <;> decide
  have hparse : parseInt 32 (join [':'] [natToStr a, natToStr b, natToStr c, natToStr d]) = none := by
    cases hp : parseInt 32 (join [':'] [natToStr a, natToStr b, natToStr c, natToStr d]) with
    | none => rfl
    | some i =>
      obtain ⟨⟨ds, _, h2, h3⟩, _⟩ := (parseInt_iff _ _ _).mp hp
      have hno : ':' ∉ ds.map digitChar := by
        intro hm
        obtain ⟨x, hx, he⟩ := List.mem_map.mp hm
        have := isDigit_digitChar (h2 x hx)
        rw [he] at this; revert this; decide
      rcases h3 with h | h | h <;> rw [h.1] at hmem
      · exact absurd hmem hno
      · simp only [List.mem_cons] at hmem
        rcases hmem with h' | h'
        · exact absurd h' (by decide)
        · exact absurd h' hno
      · simp only [List.mem_cons] at hmem
        rcases hmem with h' | h'
        · exact absurd h' (by decide)
        · exact absurd h' hno
  rw [hnull, hparse, hsplit]
  have h8 : ∀ n, n < 128 → parseInt 8 (natToStr n) = some (n : Int) := fun n hn => parseInt_natToStr (show (n : Int) < 2 ^ 7 by omega)
  simp only [Bool.false_eq_true, if_false, List.length_cons, List.length_nil, if_true, splitSum, h8 a ha, h8 b hb, h8 c hc,
    h8 d hd, toU32_nat (show a < 2 ^ 32 by omega), toU32_nat (show b < 2 ^ 32 by omega),
    toU32_nat (show c < 2 ^ 32 by omega), toU32_nat (show d < 2 ^ 32 by omega)]
  congr 1
  omega

/-- C29: a split integer below 2^31 is read back from its text. -/
theorem splitInt_roundtrip_partial (old : Nat) {n : Nat} (h : n < 2 ^ 31) : splitIntParse old (splitIntText n) = some n := by
  unfold splitIntParse splitIntText
  have : parseIntRaw (natToStr n) = some (n : Int) := by rw [← itoa_natCast]; exact parseIntRaw_itoa _
  rw [nullNumber_false_of_parse this, parseInt_natToStr (bits := 32) (by show (n : Int) < 2 ^ 31; omega)]
  simp only [Bool.false_eq_true, if_false]
  rw [toU32_nat (by omega)]

/-- C29 fails for the upper half of the 32 bit integers: none of them is read back from its text. -/
theorem splitInt_upper_half (old : Nat) {n : Nat} (h : 2 ^ 31 ≤ n) : splitIntParse old (splitIntText n) = none := by
  unfold splitIntParse splitIntText
  have h0 : parseIntRaw (natToStr n) = some (n : Int) := by rw [← itoa_natCast]; exact parseIntRaw_itoa _
  rw [nullNumber_false_of_parse h0]
  have h1 : parseInt 32 (natToStr n) = none := by
    unfold parseInt
    rw [h0]
    simp only
    rw [if_neg (by show ¬ (-(2 ^ 31 : Int) ≤ _ ∧ (n : Int) < 2 ^ 31); omega)]
  rw [h1]
  simp only [Bool.false_eq_true, if_false]
  rw [split_no_sep (not_isDigit_of (by decide))]
  rfl

/-- C29 fails for parts of 128 and more, which are rejected, and for negative parts, which are accepted. -/
theorem splitInt_bad_parts : splitIntParse 0 "06:13:14:200".toList = none ∧
    splitIntParse 0 "0:0:0:-1".toList = some (2 ^ 32 - 1) := by decide +kernel

example : splitIntParse 0 "06:13:14:61".toList = some 101518909 := by decide +kernel

/-! ### Optional strings -/

/-- C29: a string without surrounding space that is none of the texts for a missing string is read back into
an unset variable. -/
theorem nullString_roundtrip {s : Str} (ht : Trimmed s)
    (hn : s ∉ ["-".toList, "--".toList, "unknown".toList]) : nullStringParse [] s = s := by
  unfold nullStringParse
  simp only [ne_eq, not_true_eq_false, if_false, trimSpace_of_trimmed ht]
  by_cases h : nullText s = true
  · rw [if_pos h]
    unfold nullText at h
    simp only [Bool.or_eq_true, decide_eq_true_eq] at h
    simp only [List.mem_cons, List.not_mem_nil, or_false, not_or] at hn
    rcases h with ((h | h) | h) | h
    · exact h.symm
    · exact absurd h hn.1
    · exact absurd h hn.2.1
    · exact absurd h hn.2.2
  · rw [if_neg h]

/-- C29: spaces around the text are not part of the value. -/
theorem nullString_trims {a s b : Str} (ha : ∀ c ∈ a, c ∈ blanks) (hb : ∀ c ∈ b, c ∈ blanks) (ht : Trimmed s)
    (hs : s ≠ []) (hn : s ∉ ["-".toList, "--".toList, "unknown".toList]) :
    nullStringParse [] (a ++ s ++ b) = s := by
  have h1 := nullString_roundtrip ht hn
  unfold nullStringParse at h1 ⊢
  rw [trimSpace_blanks ha hb ht hs]
  rw [trimSpace_of_trimmed ht] at h1
  exact h1

example : nullStringParse [] "  a b \t".toList = "a b".toList := by decide +kernel

/-- C29: a variable that is set keeps its value, whatever is read. -/
theorem nullString_keeps {old : Str} (h : old ≠ []) (s : Str) : nullStringParse old s = old := by
  unfold nullStringParse; rw [if_pos h]

/-- C29 fails for the strings that are taken for missing. -/
theorem nullString_lost : nullStringParse [] "unknown".toList = [] ∧ nullStringParse [] "-".toList = [] := by decide +kernel

example : nullStringParse [] "abc".toList = "abc".toList ∧ nullStringParse "x".toList "abc".toList = "x".toList := by
  decide +kernel

/-! ### Optional truth values -/

/-- C29: optional truth values are read back. -/
theorem nullBool_roundtrip (old b : Bool) : nullBoolParse old (nullBoolText b) = b := by
  cases b <;> cases old <;> decide

/-- C29: a text in lower case is read as true iff it is one of the five listed, or a missing value keeps the
old one. -/
theorem nullBool_true (old : Bool) (s : Str) : nullBoolParse old s = true ↔
    (toLower s ∈ ["".toList, "-".toList, "--".toList, "---".toList] ∧ old = true) ∨
    toLower s ∈ ["true".toList, "on".toList, "yes".toList, "1".toList, "enabled".toList] := by
  unfold nullBoolParse
  by_cases h : nullTruth (toLower s) = true
  · rw [if_pos h]
    unfold nullTruth at h
    simp only [Bool.or_eq_true, decide_eq_true_eq] at h
    rcases h with ((h | h) | h) | h <;> rw [h] <;> cases old <;> decide
  · rw [if_neg h]
    simp only [truths, List.contains_iff_mem]
    constructor
    · intro h'; exact Or.inr h'
    · rintro (⟨h', _⟩ | h')
      · exfalso; apply h
        simp only [List.mem_cons, List.not_mem_nil, or_false] at h'
        rcases h' with h | h | h | h <;> rw [h] <;> decide
      · exact h'

/-- C29 fails: texts that are no truth values are not rejected, they are read as false. -/
theorem nullBool_accepts_anything : nullBoolParse true "maybe".toList = false := by decide

/-! ### GUID -/

/-- C29: a GUID is read back. -/
theorem guid_roundtrip (s : Str) : guidParse (guidText s) = s := rfl

/-- C29: the issuer is what precedes the last colon. -/
theorem guid_issuer {a b : Str} (h : ':' ∉ b) : guidIssuer (a ++ ':' :: b) = a := by
  unfold guidIssuer
  rw [lastIndexChar_append h]
  simp

example : guidIssuer "urn:uuid:12".toList = "urn:uuid".toList := by decide

/-! ### Floating point numbers -/

/-- Texts of numbers as the library writes them: made of digits, `e`, point and signs, starting with a digit or
a minus sign and a digit, and read back. -/
structure FloatLaw {F : Type} (lib : FloatLib F) : Prop where
  chars : ∀ x, cleanFloat (lib.text x) = lib.text x ∧ cleanFloat (lib.json x) = lib.json x
  digit : ∀ x, (∃ c ∈ lib.text x, isDigit c = true) ∧ (∃ c ∈ lib.json x, isDigit c = true)
  parse : ∀ x, lib.parse (lib.text x) = some (.fin x) ∧ lib.parse (lib.json x) = some (.fin x)

theorem digit_mem_toLower {c : Char} (h : isDigit c = true) : ∀ s : Str, c ∈ s → c ∈ toLower s := by
  intro s
  induction s using toLower.induct with
  | case1 => intro h'; exact h'
  | case2 cs ih =>
    intro h'
    rw [toLower]
    simp only [List.mem_cons] at h'
    rcases h' with rfl | rfl | h'
    · exact absurd h (by decide)
    · exact absurd h (by decide)
    · exact List.mem_cons_of_mem _ (ih h')
  | case3 cs ih =>
    intro h'
    rw [toLower]
    simp only [List.mem_cons] at h'
    rcases h' with rfl | rfl | rfl | h'
    · exact absurd h (by decide)
    · exact absurd h (by decide)
    · exact absurd h (by decide)
    · exact List.mem_cons_of_mem _ (ih h')
  | case4 c' cs h1 h2 ih =>
    intro h'
    rw [toLower]
    · rcases List.mem_cons.mp h' with rfl | h'
      · have : lowerChar c = c := by
          unfold lowerChar
          unfold isDigit at h
          simp only [Bool.and_eq_true, decide_eq_true_eq] at h
          rw [if_neg (by omega)]
        rw [this]; exact List.mem_cons_self
      · exact List.mem_cons_of_mem _ (ih h')
    · exact h1
    · exact h2

theorem floatParse_number {F : Type} (lib : FloatLib F) (old : Fl F) {s : Str} (h : ∃ c ∈ s, isDigit c = true) :
    floatParse lib old s = lib.parse (cleanFloat s) := by
  obtain ⟨c, hc, hd⟩ := h
  have hm := digit_mem_toLower hd s hc
  have hno : ∀ t : Str, (∀ x ∈ t, isDigit x = false) → toLower s ≠ t := by
    intro t ht he
    rw [he] at hm
    rw [ht c hm] at hd; cases hd
  unfold floatParse
  simp only
  rw [if_neg, if_neg (hno _ (by decide)), if_neg (hno _ (by decide)), if_neg]
  · rintro (h | h)
    · exact hno _ (by decide) h
    · exact hno _ (by decide) h
  · rintro (h | h | h | h | h)
    · exact hno _ (by decide) h
    · exact hno _ (by decide) h
    · exact hno _ (by decide) h
    · exact hno _ (by decide) h
    · exact hno _ (by decide) h

/-- C29: floating point numbers are read back from text, and the finite ones from JSON. -/
theorem float_roundtrip {F : Type} {lib : FloatLib F} (h : FloatLaw lib) (old x : Fl F) :
    floatParse lib old (floatText lib x) = some x ∧
    (x = .nan ∨ (∃ f, x = .fin f) → floatParseJSON lib old (floatJSON lib x) = some x) := by
  have hjson : ∀ f, floatParseJSON lib old (lib.json f) = some (.fin f) := by
    intro f
    have h1 := floatParse_number lib old (h.digit f).2
    have h2 := (h.chars f).2
    have h3 := (h.parse f).2
    obtain ⟨c0, hc0, hd0⟩ := (h.digit f).2
    cases hs : lib.json f with
    | nil => rw [hs] at hc0; cases hc0
    | cons c cs =>
      have hne : c ≠ '"' := by
        rintro rfl
        rw [hs] at h2
        have hmem : '"' ∈ cleanFloat ('"' :: cs) := by rw [h2]; exact List.mem_cons_self
        unfold cleanFloat at hmem
        rw [List.mem_filter] at hmem
        exact absurd hmem.2 (by decide)
      rw [floatParseJSON, if_neg hne, ← hs, h1, h2, h3]
  refine ⟨?_, ?_⟩
  · cases x with
    | nan => rfl
    | pinf => rfl
    | ninf => rfl
    | fin f =>
      show floatParse lib old (lib.text f) = _
      rw [floatParse_number lib old (h.digit f).1, (h.chars f).1, (h.parse f).1]
  · rintro (rfl | ⟨f, rfl⟩)
    · rfl
    · exact hjson f

/-- C29 fails for the infinities in JSON: they are swapped. -/
theorem float_json_swaps_inf {F : Type} (lib : FloatLib F) (old : Fl F) :
    floatParseJSON lib old (floatJSON lib .pinf) = some .ninf ∧
    floatParseJSON lib old (floatJSON lib .ninf) = some .pinf := ⟨rfl, rfl⟩

/-- C29 fails for exponents with a capital letter: the letter is dropped, `1E5` is read as 15. -/
theorem float_drops_capital_exponent {F : Type} (lib : FloatLib F) (old : Fl F) :
    floatParse lib old "1E5".toList = lib.parse "15".toList := rfl

/-- Hypotheses of `float_roundtrip`: whole numbers in decimal notation. -/
example : FloatLaw (F := Int) ⟨fun s => (parseIntRaw s).map .fin, itoa, itoa⟩ := by
  have hchars : ∀ i : Int, cleanFloat (itoa i) = itoa i := by
    intro i
    unfold cleanFloat
    rw [List.filter_eq_self]
    intro c hc
    unfold itoa at hc
    split at hc
    · rcases List.mem_cons.mp hc with rfl | hc
      · decide
      · simp [natToStr_all _ c hc]
    · simp [natToStr_all _ c hc]
  have hdig : ∀ i : Int, ∃ c ∈ itoa i, isDigit c = true := by
    intro i
    obtain ⟨c, cs, h1, h2⟩ := natToStr_head i.natAbs
    refine ⟨c, ?_, h2⟩
    unfold itoa
    split <;> rw [h1] <;> simp
  exact ⟨fun i => ⟨hchars i, hchars i⟩, fun i => ⟨hdig i, hdig i⟩,
    fun i => by simp [parseIntRaw_itoa]⟩

end Xmp.Props
