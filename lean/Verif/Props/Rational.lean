import Verif.Props.Codec

/-! Properties of rational numbers (C30). -/

namespace Xmp.Props

open GoStr Codec

/-! ### Specification -/

/-- `g` is a greatest common divisor of `x` and `y`. -/
def IsGcd (g x y : Int) : Prop := g ∣ x ∧ g ∣ y ∧ ∀ d, d ∣ x → d ∣ y → d ∣ g

/-- The fraction can not be reduced. -/
def Lowest (r : Rational) : Prop := ∀ d, d ∣ r.num → d ∣ r.den → d = 1 ∨ d = -1

/-! ### The greatest common divisor -/

/-- C30: the function computes a greatest common divisor. -/
theorem gcd_isGcd (x y : Int) : IsGcd (gcd x y) x y := by
  induction x, y using gcd.induct with
  | case1 x => rw [gcd]; simp [IsGcd]
  | case2 x y h ih =>
    rw [gcd, dif_neg h]
    obtain ⟨h1, h2, h3⟩ := ih
    have e := Int.tmod_add_mul_tdiv x y
    refine ⟨?_, h1, ?_⟩
    · have h4 : gcd y (x.tmod y) ∣ x.tmod y + y * x.tdiv y := Int.dvd_add h2 (Int.dvd_mul_of_dvd_left h1)
      rwa [e] at h4
    · intro d hx hy
      apply h3 d hy
      have h4 : x.tmod y = x - y * x.tdiv y := by omega
      rw [h4]
      exact Int.dvd_sub hx (Int.dvd_mul_of_dvd_left hy)

/-- C30: it is not zero unless both numbers are, so that the division by it is defined. -/
theorem gcd_ne_zero {x y : Int} (h : x ≠ 0 ∨ y ≠ 0) : gcd x y ≠ 0 := by
  intro h0
  obtain ⟨h1, h2, _⟩ := gcd_isGcd x y
  rw [h0] at h1 h2
  have := Int.zero_dvd.mp h1
  have := Int.zero_dvd.mp h2
  tauto

/-- C30: a reduced fraction has the same value and is in lowest terms. -/
theorem reduce_lowest {nom den : Int} (h : den ≠ 0) :
    (reduce nom den).num * den = nom * (reduce nom den).den ∧ (reduce nom den).den ≠ 0 ∧ Lowest (reduce nom den) := by
  obtain ⟨h1, h2, h3⟩ := gcd_isGcd nom den
  have h0 : gcd nom den ≠ 0 := gcd_ne_zero (Or.inr h)
  obtain ⟨a, ha⟩ := h1
  obtain ⟨b, hb⟩ := h2
  have hn : (reduce nom den).num = a := by
    show nom.tdiv (gcd nom den) = a
    generalize gcd nom den = g at ha h0 ⊢
    rw [ha]
    exact Int.mul_tdiv_cancel_left a h0
  have hd : (reduce nom den).den = b := by
    show den.tdiv (gcd nom den) = b
    generalize gcd nom den = g at hb h0 ⊢
    rw [hb]
    exact Int.mul_tdiv_cancel_left b h0
  refine ⟨?_, ?_, ?_⟩
  · rw [hn, hd]
    generalize gcd nom den = g at *
    rw [ha, hb]
    rw [Int.mul_left_comm, ← Int.mul_assoc]
  · rw [hd]
    rintro rfl
    rw [Int.mul_zero] at hb
    exact h hb
  · intro d
    rw [hn, hd]
    intro hda hdb
    have h4 : gcd nom den * d ∣ gcd nom den := by
      apply h3
      · conv_rhs => rw [ha]
        exact Int.mul_dvd_mul_left _ hda
      · conv_rhs => rw [hb]
        exact Int.mul_dvd_mul_left _ hdb
    obtain ⟨c, hc⟩ := h4
    have h5 : gcd nom den * (d * c) = gcd nom den * 1 := by rw [Int.mul_one, ← Int.mul_assoc]; exact hc.symm
    have h6 := Int.eq_of_mul_eq_mul_left h0 h5
    have h7 : d.natAbs * c.natAbs = 1 := by rw [← Int.natAbs_mul, h6]; rfl
    have h8 : d.natAbs = 1 := Nat.eq_one_of_mul_eq_one_right h7
    omega

example : gcd 12 18 = 6 ∧ reduce 1500000 1000000 = ⟨3, 2⟩ := by decide +kernel

/-- The sign of a negative number can end up in the denominator. -/
theorem reduce_moves_sign : reduce (-4) 1000000 = ⟨1, -250000⟩ := by decide +kernel

/-! ### Text -/

theorem scanSpaces_head : ∀ w ∈ scanSpaces, ∃ c cs, w = c :: cs ∧ ¬ Visible c := by
  intro w hw
  have hw' := (List.mem_filter.mp hw).1
  have h : ∀ w ∈ spaces, (w.headD 'x').toNat < 33 ∨ 126 < (w.headD 'x').toNat := by decide
  have hne := spaces_ne_nil w hw'
  cases w with
  | nil => exact absurd rfl hne
  | cons c cs =>
    have := h _ hw'
    exact ⟨c, cs, rfl, by simp only [List.headD_cons] at this; unfold Visible; omega⟩

theorem dropRun_visible {c : Char} {cs : Str} (h : Visible c) (f : Nat) : dropRun scanSpaces f (c :: cs) = c :: cs := by
  apply dropRun_fix
  intro w hw
  obtain ⟨d, ds, rfl, hd⟩ := scanSpaces_head w hw
  cases hp : hasPrefix (c :: cs) (d :: ds) with
  | false => rfl
  | true =>
    obtain ⟨t, ht⟩ := hasPrefix_iff.mp hp
    simp only [List.cons_append, List.cons.injEq] at ht
    rw [← ht.1] at hd
    exact absurd h hd

theorem takeDigits_append {ds rest : Str} (h : ∀ c ∈ ds, isDigit c = true) (hr : ∀ c, rest.head? = some c → isDigit c = false) :
    takeDigits (ds ++ rest) = ds := by
  unfold takeDigits
  rw [List.takeWhile_append_of_pos h]
  cases rest with
  | nil => simp
  | cons c cs => rw [List.takeWhile_cons_of_neg (by simp [hr c rfl])]; simp

/-- Scanning a number. -/
theorem scanInt_itoa {i : Int} (hi : InI64 i) {rest : Str} (hr : ∀ c, rest.head? = some c → isDigit c = false) :
    scanInt (itoa i ++ rest) = some (i, rest) := by
  have hp : parseInt 64 (itoa i) = some i := atoi_itoa hi
  obtain ⟨c, cs, hc, hd⟩ := natToStr_head i.natAbs
  have hall := natToStr_all i.natAbs
  unfold scanInt
  by_cases hneg : i < 0
  · have e : itoa i = '-' :: natToStr i.natAbs := by unfold itoa; rw [if_pos hneg]
    rw [e] at hp ⊢
    have e2 : ∀ f, dropRun scanSpaces f ('-' :: natToStr i.natAbs ++ rest) = '-' :: (natToStr i.natAbs ++ rest) :=
      fun f => dropRun_visible (by unfold Visible; decide) f
    simp only [e2, scanSign, List.length_cons, List.length_nil, List.drop_succ_cons, List.drop_zero, takeDigits_append hall hr]
    rw [if_neg (natToStr_ne_nil _)]
    simp only [List.cons_append, List.nil_append, hp, Option.map_some, List.drop_left]
  · have e : itoa i = natToStr i.natAbs := by unfold itoa; rw [if_neg hneg]
    rw [e] at hp ⊢
    have hv : Visible c := visible_of_isDigit hd
    have e2 : ∀ f, dropRun scanSpaces f (natToStr i.natAbs ++ rest) = natToStr i.natAbs ++ rest := by
      intro f
      rw [hc, List.cons_append]
      exact dropRun_visible hv f
    have hplus : c ≠ '+' := by rintro rfl; revert hd; decide
    have hminus : c ≠ '-' := by rintro rfl; revert hd; decide
    have hsign : scanSign (natToStr i.natAbs ++ rest) = [] := by
      rw [hc, List.cons_append]
      unfold scanSign
      split
      · rename_i heq; simp only [List.cons.injEq] at heq; exact absurd heq.1 hplus
      · rename_i heq; simp only [List.cons.injEq] at heq; exact absurd heq.1 hminus
      · rfl
    simp only [e2, hsign, List.length_nil, List.drop_zero, takeDigits_append hall hr]
    rw [if_neg (natToStr_ne_nil _)]
    simp only [List.nil_append, hp, Option.map_some, List.drop_left]

theorem containsChar_eq (s : Str) (c : Char) : containsChar s c = true ↔ c ∈ s := by
  unfold containsChar; exact List.contains_iff_mem

/-- C30, also with a rest that is not looked at: after the second number, anything that contains no point and
does not start with a digit is accepted. -/
theorem rational_parse_rest (dec : Str → Option Rational) (old : Rational) {r : Rational} (hn : InI64 r.num)
    (hd : InI64 r.den) {junk : Str} (h1 : '.' ∉ junk) (h2 : ∀ c, junk.head? = some c → isDigit c = false) :
    ratParse dec old (r.text ++ junk) = some r := by
  unfold ratParse
  have hne : r.text ++ junk ≠ [] := by unfold Rational.text; simp
  have hdot : containsChar (r.text ++ junk) '.' = false := by
    cases h : containsChar (r.text ++ junk) '.' with
    | false => rfl
    | true =>
      have := (containsChar_eq _ _).mp h
      unfold Rational.text at this
      simp only [List.append_assoc, List.cons_append, List.mem_append, List.mem_cons] at this
      rcases this with h | h | h | h
      · exact absurd h (itoa_not_mem (by decide) (by decide) _)
      · exact absurd h (by decide)
      · exact absurd h (itoa_not_mem (by decide) (by decide) _)
      · exact absurd h h1
  have hslash : containsChar (r.text ++ junk) '/' = true := by
    rw [containsChar_eq]; unfold Rational.text; simp
  rw [if_neg hne, hdot, hslash]
  simp only [Bool.false_eq_true, if_false, if_true]
  unfold scanSlash Rational.text
  rw [List.append_assoc, List.cons_append,
    scanInt_itoa hn (by intro c hc; simp only [List.head?_cons, Option.some.injEq] at hc; subst hc; decide)]
  simp only [scanInt_itoa hd h2]

/-- C30: a rational number is read back from its text, whatever the old value. -/
theorem rational_roundtrip (dec : Str → Option Rational) (old : Rational) {r : Rational} (hn : InI64 r.num)
    (hd : InI64 r.den) : ratParse dec old r.text = some r := by
  have := rational_parse_rest dec old hn hd (junk := []) (by simp) (by simp)
  rwa [List.append_nil] at this

/-- C30: a whole number is read with the denominator 1. -/
theorem rational_whole (dec : Str → Option Rational) (old : Rational) {n : Int} (hn : InI64 n) :
    ratParse dec old (itoa n) = some ⟨n, 1⟩ := by
  unfold ratParse
  have hno : ∀ c, isDigit c = false → c ≠ '-' → containsChar (itoa n) c = false := by
    intro c h1 h2
    cases h : containsChar (itoa n) c with
    | false => rfl
    | true => exact absurd ((containsChar_eq _ _).mp h) (itoa_not_mem h1 h2 n)
  rw [if_neg (itoa_ne_nil n), hno '.' (by decide) (by decide), hno '/' (by decide) (by decide),
    hno ' ' (by decide) (by decide)]
  simp only [Bool.false_eq_true, if_false]
  have hp : parseInt 64 (itoa n) = some n := atoi_itoa hn
  rw [hp]
  rfl

/-- C30: two numbers with a space between are read as numerator and denominator. -/
theorem rational_space (dec : Str → Option Rational) (old : Rational) {r : Rational} (hn : InI64 r.num)
    (hd : InI64 r.den) : ratParse dec old (itoa r.num ++ ' ' :: itoa r.den) = some r := by
  have hno : ∀ c, isDigit c = false → c ≠ '-' → c ≠ ' ' → containsChar (itoa r.num ++ ' ' :: itoa r.den) c = false := by
    intro c h1 h2 h3
    cases h : containsChar (itoa r.num ++ ' ' :: itoa r.den) c with
    | false => rfl
    | true =>
      have := (containsChar_eq _ _).mp h
      simp only [List.mem_append, List.mem_cons] at this
      rcases this with h | h | h
      · exact absurd h (itoa_not_mem h1 h2 _)
      · exact absurd h h3
      · exact absurd h (itoa_not_mem h1 h2 _)
  unfold ratParse
  have hsp : containsChar (itoa r.num ++ ' ' :: itoa r.den) ' ' = true := by rw [containsChar_eq]; simp
  rw [if_neg (by simp), hno '.' (by decide) (by decide) (by decide), hno '/' (by decide) (by decide) (by decide), hsp]
  simp only [Bool.false_eq_true, if_false, if_true]
  unfold scanSpace
  rw [scanInt_itoa hn (by intro c hc; simp only [List.head?_cons, Option.some.injEq] at hc; subst hc; decide)]
  simp only [true_or, if_true]
  have := scanInt_itoa hd (rest := []) (by simp)
  rw [List.append_nil] at this
  rw [this]

example : ratParse (fun _ => none) ⟨0, 0⟩ "-3/4".toList = some ⟨-3, 4⟩ ∧ ratParse (fun _ => none) ⟨0, 0⟩ "3/".toList = none ∧
    ratParse (fun _ => none) ⟨5, 6⟩ [] = some ⟨5, 6⟩ := by decide +kernel

/-- Texts that are no rational numbers are accepted. -/
theorem rational_accepts_junk : ratParse (fun _ => none) ⟨0, 0⟩ "1/2 or so".toList = some ⟨1, 2⟩ := by decide +kernel

/-- C30 fails for decimal fractions below 1: every one of them becomes a fraction with numerator 1. -/
theorem decimal_unit_fraction {large : Str → Option Rational} {v : Str} {n : Int} {k : Nat} {r : Rational}
    (hv : parseDecimal v = some (n, k)) (hlt : n < 10 ^ k) (h : fromDecimal large v = some r) : r.num = 1 := by
  unfold fromDecimal at h
  rw [hv] at h
  simp only [if_pos hlt] at h
  split at h
  · cases h
  · cases h; rfl

/-- Three quarters are read as one, and minus one half as minus one. -/
theorem decimal_misread : fromDecimal (fun _ => none) "0.75".toList = some ⟨1, 1⟩ ∧
    fromDecimal (fun _ => none) "-0.5".toList = some ⟨1, -1⟩ := by decide +kernel

end Xmp.Props
