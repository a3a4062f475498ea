import Verif.Model.Gps
import Verif.Lemmas.GoStr
import Verif.Props.Rational
import Verif.Props.ExifDates
import Mathlib.Tactic.Linarith
import Mathlib.Tactic.FieldSimp
import Mathlib.Tactic.Ring
import Mathlib.Tactic.NormNum

/-! C66: coordinates, time stamps and decimal fractions keep their values. -/

namespace Xmp.Props

open GoStr Codec Gps

/-! ### Specification -/

/-- A coordinate as the number of minutes that it stands for. -/
def minutes (r : Coord) : ℚ :=
  60 * (r.deg.num / r.deg.den) + r.min.num / r.min.den + (r.sec.num / r.sec.den) / 60

/-- All three parts are numbers and not negative. -/
def CoordOK (r : Coord) : Prop :=
  (0 ≤ r.deg.num ∧ 0 < r.deg.den) ∧ (0 ≤ r.min.num ∧ 0 < r.min.den) ∧ 0 ≤ r.sec.num ∧ 0 < r.sec.den

/-- The text for `d` degrees and `m` + `f`/10^7 minutes. -/
def CoordForm (t : Str) (d m f : Nat) (ref : Str) : Prop :=
  ∃ ds, t = natToStr d ++ ',' :: (natToStr m ++ '.' :: (ds ++ ref)) ∧ ds.length = 7 ∧ (∀ c ∈ ds, isDigit c = true) ∧
    parseNat ds = some f

/-! ### Rounding -/

theorem trunc_nonneg {q : ℚ} (h : 0 ≤ q) : trunc q = ⌊q⌋ := by
  unfold trunc
  rw [if_neg (not_lt.2 h)]

theorem trunc_neg (q : ℚ) : trunc (-q) = -trunc q := by
  unfold trunc
  rcases lt_trichotomy q 0 with h | h | h
  · rw [if_neg (by linarith), if_pos h]; simp
  · subst h; simp
  · rw [if_pos (by linarith), if_neg (by linarith)]; simp

theorem roundEven_cases (q : ℚ) : (roundEven q = ⌊q⌋ ∧ q - ⌊q⌋ ≤ 1 / 2) ∨ (roundEven q = ⌊q⌋ + 1 ∧ 1 / 2 ≤ q - ⌊q⌋) := by
  unfold roundEven
  simp only
  split
  · rename_i h; exact Or.inl ⟨rfl, le_of_lt h⟩
  · rename_i h
    split
    · rename_i h2; exact Or.inr ⟨rfl, le_of_lt h2⟩
    · rename_i h2
      have he : q - ⌊q⌋ = 1 / 2 := le_antisymm (not_lt.1 h2) (not_lt.1 h)
      split
      · exact Or.inl ⟨rfl, he.le⟩
      · exact Or.inr ⟨rfl, he.ge⟩

theorem roundEven_near (q : ℚ) : |(roundEven q : ℚ) - q| ≤ 1 / 2 := by
  have h1 := Int.floor_le q
  have h2 := Int.lt_floor_add_one q
  rcases roundEven_cases q with ⟨h, h3⟩ | ⟨h, h3⟩
  · rw [h, abs_le]; constructor <;> linarith
  · rw [h, abs_le]; push_cast; constructor <;> linarith

theorem roundEven_tie {q : ℚ} (h : |(roundEven q : ℚ) - q| = 1 / 2) : roundEven q % 2 = 0 := by
  have h1 := Int.floor_le q
  have h2 := Int.lt_floor_add_one q
  have he : q - ⌊q⌋ = 1 / 2 := by
    rcases roundEven_cases q with ⟨h', h3⟩ | ⟨h', h3⟩
    · rw [h'] at h
      rw [abs_sub_comm, abs_of_nonneg (by linarith)] at h
      exact h
    · rw [h'] at h
      push_cast at h
      rw [abs_of_nonneg (by linarith)] at h
      linarith
  unfold roundEven
  simp only
  rw [if_neg (by rw [he]; exact lt_irrefl _), if_neg (by rw [he]; exact lt_irrefl _)]
  split
  · assumption
  · omega

theorem roundEven_nonneg {q : ℚ} (h : 0 ≤ q) : 0 ≤ roundEven q := by
  have := Int.floor_nonneg.2 h
  rcases roundEven_cases q with ⟨h', -⟩ | ⟨h', -⟩ <;> omega

theorem roundEven_le {q : ℚ} {n : Int} (h : q ≤ n) : roundEven q ≤ n := by
  have h1 := Int.floor_le q
  rcases roundEven_cases q with ⟨h', h3⟩ | ⟨h', h3⟩
  · rw [h']; exact_mod_cast h1.trans h
  · rw [h']
    have : (⌊q⌋ : ℚ) < n := by linarith
    have : ⌊q⌋ < n := by exact_mod_cast this
    omega

/-! ### Digits -/

theorem natToStr_length_le {n w : Nat} (hw : 0 < w) (h : n < 10 ^ w) : (natToStr n).length ≤ w := by
  obtain ⟨-, h2⟩ := natDigits_length (n + 1) n (by omega)
  change n ≠ 0 → 10 ^ ((natToStr n).length - 1) ≤ n at h2
  by_cases h0 : n = 0
  · subst h0
    have : (natToStr 0).length = 1 := by decide
    omega
  · have := Nat.lt_of_le_of_lt (h2 h0) h
    have := (Nat.pow_lt_pow_iff_right (by decide : 1 < 10)).1 this
    omega

theorem digitsVal_zeros (m : Nat) (s : Str) : digitsVal 0 (List.replicate m '0' ++ s) = digitsVal 0 s := by
  induction m with
  | zero => rfl
  | succ m ih =>
    rw [List.replicate_succ, List.cons_append, digitsVal]
    simpa [isDigit] using ih

theorem padTo_spec {n w : Nat} (hw : 0 < w) (h : n < 10 ^ w) :
    (padTo w n).length = w ∧ (∀ c ∈ padTo w n, isDigit c = true) ∧ parseNat (padTo w n) = some n := by
  have hl := natToStr_length_le hw h
  unfold padTo
  refine ⟨by simp; omega, ?_, ?_⟩
  · intro c hc
    rcases List.mem_append.1 hc with hc | hc
    · rw [(List.mem_replicate.1 hc).2]; rfl
    · exact natToStr_all n c hc
  · have hp := parseNat_natToStr n
    have key : ∀ s : Str, s ≠ [] → parseNat s = digitsVal 0 s := by
      intro s hs; cases s with
      | nil => exact absurd rfl hs
      | cons c cs => rfl
    rw [key _ (by simp [natToStr_ne_nil]), digitsVal_zeros, ← key _ (natToStr_ne_nil n), hp]

/-! ### Coordinates as text -/

theorem minutes_nonneg {r : Coord} (h : CoordOK r) : 0 ≤ minutes r := by
  obtain ⟨⟨a1, a2⟩, ⟨b1, b2⟩, c1, c2⟩ := h
  have q1 : (0 : ℚ) ≤ r.deg.num / r.deg.den := div_nonneg (by exact_mod_cast a1) (by exact_mod_cast a2.le)
  have q2 : (0 : ℚ) ≤ r.min.num / r.min.den := div_nonneg (by exact_mod_cast b1) (by exact_mod_cast b2.le)
  have q3 : (0 : ℚ) ≤ r.sec.num / r.sec.den := div_nonneg (by exact_mod_cast c1) (by exact_mod_cast c2.le)
  unfold minutes
  linarith

theorem coordText_eq (r : Coord) {ref : Str} (href : ref ≠ []) (hd : r.deg.den ≠ 0 ∧ r.min.den ≠ 0 ∧ r.sec.den ≠ 0) :
    coordText r ref = some (itoa (trunc (minutes r / 60)) ++ ',' :: (fixed7 (minutes r - trunc (minutes r / 60) * 60) ++ ref)) := by
  have hm : ratio r.deg * 60 + ratio r.min + ratio r.sec / 60 = minutes r := by unfold ratio minutes; ring
  unfold coordText
  rw [if_neg href, if_neg (by tauto)]
  simp only [hm]

/-- The parts of a number with seven decimals. -/
theorem fixed7_form {x : ℚ} (h0 : 0 ≤ x) (h1 : x < 60) : ∃ m f ds, fixed7 x = natToStr m ++ '.' :: ds ∧ f < 10 ^ 7 ∧
    ds.length = 7 ∧ (∀ c ∈ ds, isDigit c = true) ∧ parseNat ds = some f ∧ m ≤ 60 ∧ (m = 60 → f = 0) ∧
    |(m : ℚ) + f / 10 ^ 7 - x| ≤ 1 / (2 * 10 ^ 7) ∧ (|(m : ℚ) + f / 10 ^ 7 - x| = 1 / (2 * 10 ^ 7) → f % 2 = 0) := by
  have hk0 : 0 ≤ roundEven (x * 10 ^ 7) := roundEven_nonneg (by positivity)
  have hk1 : roundEven (x * 10 ^ 7) ≤ 60 * 10 ^ 7 := roundEven_le (by push_cast; linarith)
  have hn := roundEven_near (x * 10 ^ 7)
  have ht := @roundEven_tie (x * 10 ^ 7)
  unfold fixed7
  rw [abs_of_nonneg h0, if_neg (not_lt.2 h0)]
  obtain ⟨k, hk⟩ : ∃ k : Nat, roundEven (x * 10 ^ 7) = k := ⟨_, (Int.toNat_of_nonneg hk0).symm⟩
  rw [hk] at hn ht hk1 ⊢
  simp only [Int.toNat_natCast, List.nil_append]
  have hkm : (k : ℚ) = 10 ^ 7 * (k / 10 ^ 7 : Nat) + (k % 10 ^ 7 : Nat) := by exact_mod_cast (Nat.div_add_mod k (10 ^ 7)).symm
  have hf : k % 10 ^ 7 < 10 ^ 7 := Nat.mod_lt _ (by norm_num)
  obtain ⟨p1, p2, p3⟩ := padTo_spec (w := 7) (by norm_num) hf
  have e : ((k / 10 ^ 7 : Nat) : ℚ) + (k % 10 ^ 7 : Nat) / 10 ^ 7 - x = ((k : ℚ) - x * 10 ^ 7) / 10 ^ 7 := by
    rw [hkm]; field_simp
  refine ⟨k / 10 ^ 7, k % 10 ^ 7, _, rfl, hf, p1, p2, p3, by omega, by omega, ?_, ?_⟩
  · rw [e, abs_div, abs_of_pos (by positivity : (0 : ℚ) < 10 ^ 7), div_le_div_iff₀ (by positivity) (by positivity)]
    have : |((k : Int) : ℚ) - x * 10 ^ 7| ≤ 1 / 2 := hn
    push_cast at this
    generalize |(k : ℚ) - x * 10 ^ 7| = y at *
    linarith
  · intro h
    rw [e, abs_div, abs_of_pos (by positivity : (0 : ℚ) < 10 ^ 7), div_eq_div_iff (by positivity) (by positivity)] at h
    have h2 : |((k : Int) : ℚ) - x * 10 ^ 7| = 1 / 2 := by
      push_cast
      generalize |(k : ℚ) - x * 10 ^ 7| = y at *
      linarith
    have := ht h2
    omega

/-- **C66.** A coordinate with a direction becomes degrees and minutes with seven decimals that differ from its position
by at most half of the last digit (an even digit if it is exactly half); the degrees are the full degrees of the
position, the minutes are at most 60. -/
theorem coord_position (r : Coord) {ref : Str} (href : ref ≠ []) (h : CoordOK r) :
    ∃ t d m f, coordText r ref = some t ∧ CoordForm t d m f ref ∧ f < 10 ^ 7 ∧ (d : Int) = ⌊minutes r / 60⌋ ∧ m ≤ 60 ∧
      (m = 60 → f = 0) ∧ |60 * (d : ℚ) + m + f / 10 ^ 7 - minutes r| ≤ 1 / (2 * 10 ^ 7) ∧
      (|60 * (d : ℚ) + m + f / 10 ^ 7 - minutes r| = 1 / (2 * 10 ^ 7) → f % 2 = 0) := by
  have hp := minutes_nonneg h
  have hp60 : 0 ≤ minutes r / 60 := by positivity
  obtain ⟨⟨_, a2⟩, ⟨_, b2⟩, _, c2⟩ := h
  rw [coordText_eq r href ⟨by omega, by omega, by omega⟩, trunc_nonneg hp60]
  obtain ⟨d, hd⟩ : ∃ d : Nat, ⌊minutes r / 60⌋ = d := ⟨_, (Int.toNat_of_nonneg (Int.floor_nonneg.2 hp60)).symm⟩
  have f1 := Int.floor_le (minutes r / 60)
  have f2 := Int.lt_floor_add_one (minutes r / 60)
  rw [hd] at f1 f2 ⊢
  push_cast at f1 f2
  obtain ⟨m, f, ds, g1, g2, g3, g4, g5, g6, g7, g8, g9⟩ := fixed7_form (x := minutes r - ((d : Int) : ℚ) * 60)
    (by push_cast; linarith) (by push_cast; linarith)
  rw [g1, itoa_natCast]
  have e : 60 * (d : ℚ) + m + f / 10 ^ 7 - minutes r = m + f / 10 ^ 7 - (minutes r - ((d : Int) : ℚ) * 60) := by push_cast; ring
  refine ⟨_, d, m, f, rfl, ⟨ds, by simp, g3, g4, g5⟩, g2, rfl, g6, g7, ?_, ?_⟩
  · rw [e]; exact g8
  · rw [e]; exact g9

theorem form_unique {t : Str} {d m f d' m' f' : Nat} {ref : Str} (h : CoordForm t d m f ref) (h' : CoordForm t d' m' f' ref) :
    d = d' ∧ m = m' ∧ f = f' := by
  have cut : ∀ (c : Char) (n n' : Nat) (a b : Str), isDigit c = false → natToStr n ++ c :: a = natToStr n' ++ c :: b → n = n' ∧ a = b := by
    intro c n n' a b hc e
    have h1 := indexChar_append (c := c) (a := natToStr n) (b := a) (not_isDigit_of hc)
    have h2 := indexChar_append (c := c) (a := natToStr n') (b := b) (not_isDigit_of hc)
    rw [e, h2] at h1
    have hl : (natToStr n').length = (natToStr n).length := Option.some.inj h1
    obtain ⟨e1, e2⟩ := List.append_inj e hl.symm
    exact ⟨natToStr_injective e1, by simpa using e2⟩
  obtain ⟨ds, rfl, h1, -, h3⟩ := h
  obtain ⟨ds', e, h1', -, h3'⟩ := h'
  obtain ⟨rfl, e⟩ := cut ',' _ _ _ _ (by decide) e
  rename_i e2
  obtain ⟨rfl, e3⟩ := cut '.' _ _ _ _ (by decide) e2
  obtain ⟨e4, -⟩ := List.append_inj e3 (by rw [h1, h1'])
  subst e4
  rw [h3] at h3'
  exact ⟨rfl, rfl, Option.some.inj h3'⟩

/-- **C66.** Coordinates of the same position have the same text, however they are split into degrees, minutes and
seconds and whatever the denominators are. -/
theorem coord_same (r r' : Coord) (ref : Str) (h : CoordOK r) (h' : CoordOK r') (e : minutes r = minutes r') :
    coordText r ref = coordText r' ref := by
  by_cases href : ref = []
  · simp [coordText, href]
  · obtain ⟨⟨_, a2⟩, ⟨_, b2⟩, _, c2⟩ := h
    obtain ⟨⟨_, a2'⟩, ⟨_, b2'⟩, _, c2'⟩ := h'
    rw [coordText_eq r href ⟨by omega, by omega, by omega⟩, coordText_eq r' href ⟨by omega, by omega, by omega⟩, e]

/-- **C66.** Without a direction nothing is written; otherwise there is an error exactly if a denominator is zero.  In
both cases the coordinate of the document is kept. -/
theorem coord_error (r : Coord) (ref old : Str) :
    (coordText r ref = none ↔ ref ≠ [] ∧ (r.deg.den = 0 ∨ r.min.den = 0 ∨ r.sec.den = 0)) ∧ coordText r [] = some [] ∧
    ((ref = [] ∨ r.deg.den = 0 ∨ r.min.den = 0 ∨ r.sec.den = 0) → coordSync old r ref = old) := by
  refine ⟨?_, rfl, ?_⟩
  · unfold coordText
    by_cases h1 : ref = []
    · simp [h1]
    · by_cases h2 : r.deg.den = 0 ∨ r.min.den = 0 ∨ r.sec.den = 0
      · simp [h1, h2]
      · simp [h1, h2]
  · intro h
    unfold coordSync coordText
    by_cases h1 : ref = []
    · simp [h1]
    · rw [if_neg h1, if_pos (h.resolve_left h1)]

/-- **C66.** No coordinate that is written counts as zero, not even that of the equator: the text that counts as zero has no
direction. -/
theorem coord_never_zero (r : Coord) {ref t : Str} (href : ref ≠ []) (h : CoordOK r) (ht : coordText r ref = some t) :
    coordIsZero t = false := by
  obtain ⟨t', d, m, f, e, ⟨ds, rfl, h1, -⟩, -⟩ := coord_position r href h
  rw [ht] at e
  have e := Option.some.inj e
  subst e
  unfold coordIsZero
  have hd := natToStr_ne_nil d
  have hm := natToStr_ne_nil m
  have l1 : 1 ≤ (natToStr d).length := List.length_pos_iff.2 hd
  have l2 : 1 ≤ (natToStr m).length := List.length_pos_iff.2 hm
  have l3 : 1 ≤ ref.length := List.length_pos_iff.2 href
  simp only [Bool.or_eq_false_iff, decide_eq_false_iff_not]
  constructor
  · simp
  · intro e
    have := congrArg List.length e
    simp [h1] at this
    omega

/-- **C66, finding.** Minutes just below the next degree are written as 60 minutes, exactly if they are within half of the last
digit. -/
theorem coord_sixty (r : Coord) {ref : Str} (href : ref ≠ []) (h : CoordOK r) :
    (∃ d, coordText r ref = some (natToStr d ++ ",60.0000000".toList ++ ref)) ↔
      60 - 1 / (2 * 10 ^ 7) ≤ minutes r - 60 * ⌊minutes r / 60⌋ := by
  obtain ⟨t, d, m, f, e, hform, hf, hd, hm, hm60, hn, ht⟩ := coord_position r href h
  have hk : (d : ℚ) = ⌊minutes r / 60⌋ := by exact_mod_cast congrArg (Int.cast : Int → ℚ) hd
  rw [e, ← hk]
  rw [abs_le] at hn
  constructor
  · rintro ⟨d', h'⟩
    have hform' : CoordForm t d' 60 0 ref :=
      ⟨"0000000".toList, by rw [Option.some.inj h']; simp [show natToStr 60 = ['6', '0'] by decide], by decide, by decide, by decide⟩
    obtain ⟨rfl, rfl, rfl⟩ := form_unique hform hform'
    push_cast at hn
    linarith [hn.2]
  · intro hx
    have : m = 60 := by
      by_contra hne
      have hm' : m ≤ 59 := by omega
      have hmq : (m : ℚ) ≤ 59 := by exact_mod_cast hm'
      have hfq : (f : ℚ) ≤ 10 ^ 7 - 1 := by
        have : f + 1 ≤ 10 ^ 7 := hf
        have : ((f + 1 : Nat) : ℚ) ≤ 10 ^ 7 := by exact_mod_cast this
        push_cast at this
        linarith
      have hfd : (f : ℚ) / 10 ^ 7 ≤ (10 ^ 7 - 1) / 10 ^ 7 := by
        apply div_le_div_of_nonneg_right hfq (by positivity)
      have h59 : (59 : ℚ) + (10 ^ 7 - 1) / 10 ^ 7 = 60 - 1 / 10 ^ 7 := by norm_num
      have half : (1 : ℚ) / 10 ^ 7 = 2 * (1 / (2 * 10 ^ 7)) := by norm_num
      have hle : (m : ℚ) + f / 10 ^ 7 ≤ 60 - 2 * (1 / (2 * 10 ^ 7)) := by linarith
      have heq : 60 * (d : ℚ) + m + f / 10 ^ 7 - minutes r = -(1 / (2 * 10 ^ 7)) := by linarith [hn.1]
      have hf2 := ht (by rw [heq, abs_neg, abs_of_nonneg (by positivity)])
      have hfull : (m : ℚ) + f / 10 ^ 7 = 60 - 1 / 10 ^ 7 := by linarith
      have hnat : m * 10 ^ 7 + f + 1 = 60 * 10 ^ 7 := by
        have : ((m * 10 ^ 7 + f + 1 : Nat) : ℚ) = ((60 * 10 ^ 7 : Nat) : ℚ) := by
          push_cast
          have := congrArg (· * (10 : ℚ) ^ 7) hfull
          simp only [add_mul, sub_mul] at this
          rw [div_mul_cancel₀ _ (by positivity), div_mul_cancel₀ _ (by positivity)] at this
          linarith
        exact_mod_cast this
      omega
    have hf0 := hm60 this
    subst this
    subst hf0
    obtain ⟨ds, rfl, h1, h2, h3⟩ := hform
    refine ⟨d, ?_⟩
    have : ds = "0000000".toList := by
      have hz : ∀ (l : Str), (∀ c ∈ l, isDigit c = true) → digitsVal 0 l = some 0 → l = List.replicate l.length '0' := by
        intro l
        induction l with
        | nil => intros; rfl
        | cons c cs ih =>
          intro hc hv
          have hc0 := hc c (by simp)
          rw [digitsVal, if_pos hc0] at hv
          have key : ∀ (l : Str) (a k : Nat), digitsVal a l = some k → a ≤ k := by
            intro l
            induction l with
            | nil => intro a k h; simp [digitsVal] at h; omega
            | cons c cs ih =>
              intro a k h
              rw [digitsVal] at h
              split at h
              · have := ih _ _ h; omega
              · cases h
          have hle := key _ _ _ hv
          have hcz : c = '0' := by
            unfold isDigit at hc0
            simp only [Bool.and_eq_true, decide_eq_true_eq] at hc0
            have : c.toNat = 48 := by omega
            exact Char.toNat_inj.1 this
          subst hcz
          have := ih (fun x hx => hc x (by simp [hx])) (by simpa using hv)
          rw [List.length_cons, List.replicate_succ, ← this]
      have hne : ds ≠ [] := by intro h; simp [h] at h1
      have hv : digitsVal 0 ds = some 0 := by
        cases ds with
        | nil => exact absurd rfl hne
        | cons c cs => exact h3
      have := hz ds h2 hv
      rw [h1] at this
      rw [this]
      decide
    rw [this]
    simp [show natToStr 60 = ['6', '0'] by decide]

/-! ### Negative coordinates -/

/-- The coordinate on the other side. -/
def negCoord (r : Coord) : Coord := ⟨⟨-r.deg.num, r.deg.den⟩, ⟨-r.min.num, r.min.den⟩, ⟨-r.sec.num, r.sec.den⟩⟩

theorem fixed7_neg {x : ℚ} (h : 0 < x) : fixed7 (-x) = '-' :: fixed7 x := by
  unfold fixed7
  rw [abs_neg, if_pos (by linarith), if_neg (by linarith)]
  rfl

/-- **C66, finding.** A coordinate with negative parts of more than a degree gets a sign before the degrees and another one
before the minutes, in addition to the direction. -/
theorem coord_negative (r : Coord) {ref : Str} (href : ref ≠ []) (h : CoordOK r) (h60 : 60 ≤ minutes r)
    (hfrac : ∀ k : Int, minutes r ≠ 60 * k) : ∃ d rest, coordText r ref = some (natToStr d ++ ',' :: rest) ∧
      coordText (negCoord r) ref = some ('-' :: natToStr d ++ ',' :: '-' :: rest) := by
  have hm : minutes (negCoord r) = -minutes r := by
    unfold minutes negCoord
    push_cast
    ring
  obtain ⟨⟨_, a2⟩, ⟨_, b2⟩, _, c2⟩ := h
  have hden : r.deg.den ≠ 0 ∧ r.min.den ≠ 0 ∧ r.sec.den ≠ 0 := ⟨by omega, by omega, by omega⟩
  have hp60 : 0 ≤ minutes r / 60 := by linarith
  have f1 := Int.floor_le (minutes r / 60)
  have f2 : 1 ≤ ⌊minutes r / 60⌋ := Int.le_floor.2 (by push_cast; linarith)
  obtain ⟨d, hd⟩ : ∃ d : Nat, ⌊minutes r / 60⌋ = d := ⟨_, (Int.toNat_of_nonneg (by omega : 0 ≤ ⌊minutes r / 60⌋)).symm⟩
  rw [hd] at f1 f2
  push_cast at f1
  have hx : 0 < minutes r - (d : ℚ) * 60 := by
    have h1 : 0 ≤ minutes r - (d : ℚ) * 60 := by linarith
    rcases lt_or_eq_of_le h1 with h | h
    · exact h
    · exact absurd (by push_cast; linarith) (hfrac d)
  refine ⟨d, fixed7 (minutes r - (d : ℚ) * 60) ++ ref, ?_, ?_⟩
  · rw [coordText_eq r href hden, trunc_nonneg hp60, hd, itoa_natCast]
    push_cast
    rfl
  · rw [coordText_eq (negCoord r) href hden, hm, neg_div, trunc_neg, trunc_nonneg hp60, hd]
    have e : -minutes r - ((-(d : Int) : Int) : ℚ) * 60 = -(minutes r - (d : ℚ) * 60) := by push_cast; ring
    rw [e, fixed7_neg hx]
    have : itoa (-(d : Int)) = '-' :: natToStr d := by
      unfold itoa
      rw [if_pos (by omega)]
      simp
    rw [this]
    rfl

/-! ### Rationals from decimals -/

theorem gcd_nonneg {x y : Int} (hx : 0 ≤ x) (hy : 0 ≤ y) : 0 ≤ gcd x y := by
  induction x, y using gcd.induct with
  | case1 x => rw [gcd]; simpa using hx
  | case2 x y h ih =>
    rw [gcd, dif_neg h]
    exact ih hy (Int.tmod_nonneg _ hx)

theorem reduce_pos {nom den : Int} (hn : 0 ≤ nom) (hd : 0 < den) :
    0 ≤ (reduce nom den).num ∧ 0 < (reduce nom den).den ∧ ratio (reduce nom den) = nom / den := by
  obtain ⟨h1, h2, -⟩ := reduce_lowest (nom := nom) (den := den) (by omega)
  have hg := gcd_nonneg hn hd.le
  have p1 : 0 ≤ (reduce nom den).num := Int.tdiv_nonneg hn hg
  have p2 : 0 ≤ (reduce nom den).den := Int.tdiv_nonneg hd.le hg
  refine ⟨p1, by omega, ?_⟩
  unfold ratio
  rw [div_eq_div_iff (by exact_mod_cast h2) (by exact_mod_cast hd.ne')]
  exact_mod_cast h1

theorem reduce_whole (n : Int) {den : Int} (hd : 0 < den) : reduce (n * den) den = ⟨n, 1⟩ := by
  have hg : gcd (n * den) den = den := by
    rw [gcd, dif_neg (by omega), gcd, dif_pos (Int.mul_tmod_left n den)]
  unfold reduce
  rw [hg, Int.mul_tdiv_cancel _ (by omega), Int.tdiv_self (by omega)]

theorem floatToRational_whole {n : Int} (h : 0 ≤ n) : floatToRational n = ⟨n, 1⟩ := by
  have hq : (0 : ℚ) ≤ n := by exact_mod_cast h
  have key : ∀ den : Int, 0 < den → trunc ((n : ℚ) * den + 1 / 2) = n * den := by
    intro den hd
    have hdq : (0 : ℚ) < den := by exact_mod_cast hd
    rw [trunc_nonneg (by positivity), Int.floor_eq_iff]
    push_cast
    constructor <;> linarith
  unfold floatToRational
  simp only
  rw [if_neg (not_lt.2 hq), key _ (by split <;> omega)]
  exact reduce_whole n (by split <;> omega)

/-- **C66.** A number of at least 0 becomes a fraction that differs by at most half of a millionth, or of a
ten-thousandth above 2147; whole numbers stay what they are. -/
theorem float_rational {f : ℚ} (h : 0 ≤ f) : 0 ≤ (floatToRational f).num ∧ 0 < (floatToRational f).den ∧
    |ratio (floatToRational f) - f| ≤ 1 / (2 * (if f > 2147 then 10 ^ 4 else 10 ^ 6)) := by
  have key : ∀ den : Int, 0 < den → 0 ≤ (reduce (trunc (f * den + 1 / 2)) den).num ∧ 0 < (reduce (trunc (f * den + 1 / 2)) den).den ∧
      |ratio (reduce (trunc (f * den + 1 / 2)) den) - f| ≤ 1 / (2 * den) := by
    intro den hd
    have hdq : (0 : ℚ) < den := by exact_mod_cast hd
    have hnn : (0 : ℚ) ≤ f * den + 1 / 2 := by positivity
    have h0 : 0 ≤ trunc (f * den + 1 / 2) := by rw [trunc_nonneg hnn]; exact Int.floor_nonneg.2 hnn
    obtain ⟨p1, p2, p3⟩ := reduce_pos h0 hd
    refine ⟨p1, p2, ?_⟩
    rw [p3, trunc_nonneg hnn]
    have h1 := Int.floor_le (f * den + 1 / 2)
    have h2 := Int.lt_floor_add_one (f * den + 1 / 2)
    generalize ⌊f * den + 1 / 2⌋ = k at *
    have e : (k : ℚ) / den - f = (k - f * den) / den := by field_simp
    rw [e, abs_div, abs_of_pos hdq, div_le_div_iff₀ hdq (by positivity)]
    have : |(k : ℚ) - f * den| ≤ 1 / 2 := by rw [abs_le]; constructor <;> linarith
    nlinarith
  unfold floatToRational
  simp only
  rw [if_neg (not_lt.2 h)]
  split
  · have := key 10000 (by norm_num)
    norm_num at this ⊢
    exact this
  · have := key 1000000 (by norm_num)
    norm_num at this ⊢
    exact this

/-- **C66.** A decimal fraction between 0 and 1 is read as one over `n` exactly if its reciprocal is between
`n - 1/20` and `n + 19/20`. -/
theorem decimal_below_one {f : ℚ} (h0 : 0 < f) (h1 : f < 1) (n : Int) :
    ratDecimal f = ⟨1, n⟩ ↔ (n : ℚ) - 1 / 20 ≤ 1 / f ∧ 1 / f < n + 19 / 20 := by
  unfold ratDecimal
  rw [if_pos h1]
  have hpos : 0 < 1000 / f + 50 := by positivity
  rw [trunc_nonneg hpos.le]
  have hk : 0 ≤ ⌊1000 / f + 50⌋ := Int.floor_nonneg.2 hpos.le
  have e : 1000 / f = 1000 * (1 / f) := by ring
  simp only [Rational.mk.injEq, true_and]
  rw [Int.tdiv_eq_ediv_of_nonneg hk]
  have h1' : ⌊1000 / f + 50⌋ / 1000 = n ↔ n * 1000 ≤ ⌊1000 / f + 50⌋ ∧ ⌊1000 / f + 50⌋ < n * 1000 + 1000 := by omega
  rw [h1', Int.le_floor, Int.floor_lt, e]
  push_cast
  constructor
  · rintro ⟨a, b⟩; constructor <;> linarith
  · rintro ⟨a, b⟩; constructor <;> linarith

/-- **C66.** So exposure times of one over a whole number of at least 2 are read exactly. -/
theorem decimal_unit (n : Nat) (h : 2 ≤ n) : ratDecimal (1 / n) = ⟨1, n⟩ := by
  have hq : (2 : ℚ) ≤ n := by exact_mod_cast h
  rw [decimal_below_one (by positivity) (by rw [div_lt_one (by positivity)]; linarith)]
  simp only [one_div, inv_inv]
  push_cast
  constructor <;> linarith

/-- **C66, finding.** No negative decimal fraction is read as its value (xmp/xmp_types.go:578-579). -/
theorem decimal_negative_wrong {f : ℚ} (h : f < 0) : ratio (ratDecimal f) ≠ f := by
  unfold ratDecimal
  rw [if_pos (by linarith)]
  unfold ratio
  simp only
  intro e
  push_cast at e
  have hx : 0 < -1 / f := by apply div_pos_of_neg_of_neg <;> linarith
  set m := (trunc (1000 / f + 50)).tdiv 1000 with hm
  have hfne : f ≠ 0 := h.ne
  have hmne : (m : ℚ) ≠ 0 := by
    intro h0
    rw [h0, div_zero] at e
    exact hfne e.symm
  have hmf : (m : ℚ) = 1 / f := by
    rw [← e]; field_simp
  have hmneg : (m : ℚ) < 0 := by rw [hmf]; apply div_neg_of_pos_of_neg <;> linarith
  have hmi : m < 0 := by exact_mod_cast hmneg
  have he : 1000 / f + 50 = ((m * 1000 + 50 : Int) : ℚ) := by push_cast; rw [hmf]; ring
  have ht : trunc (1000 / f + 50) = m * 1000 + 50 := by
    rw [he]
    unfold trunc
    rw [if_pos (by exact_mod_cast (by omega : m * 1000 + 50 < 0))]
    rw [← Int.cast_neg, Int.floor_intCast]
    omega
  have h2 := hm
  rw [ht] at h2
  have h3 : (m * 1000 + 50).tdiv 1000 = -((-(m * 1000 + 50)) / 1000) := by
    rw [← Int.tdiv_eq_ediv_of_nonneg (by omega), Int.neg_tdiv]
    omega
  rw [h3] at h2
  omega

/-! ### Coordinates from decimals -/

/-- **C66.** A decimal coordinate is refused exactly if it is no number, or if it does not begin with a minus sign and has more
than three characters before the point. -/
theorem coord_refused (pf : Str → Option ℚ) (s : Str) :
    coordParse pf s = none ↔ pf s = none ∨ (s.head? ≠ some '-' ∧ ((split '.' s).headD []).length > 3) := by
  unfold coordParse
  cases pf s with
  | none => simp
  | some f =>
    simp only [reduceCtorEq, false_or]
    split <;> simp_all

/-- **C66.** An accepted decimal coordinate is split into whole degrees, whole minutes below 60 and seconds up to 60, and
the position differs by at most half of a millionth of a second. -/
theorem coord_decimal (pf : Str → Option ℚ) (s : Str) {f : ℚ} (hf : pf s = some f) {r : Coord} (h : coordParse pf s = some r) :
    CoordOK r ∧ r.deg = ⟨⌊|f|⌋, 1⟩ ∧ r.min.den = 1 ∧ r.min.num < 60 ∧ r.sec.num ≤ 60 * r.sec.den ∧
      |minutes r - 60 * abs f| ≤ 1 / (2 * 10 ^ 6 * 60) := by
  unfold coordParse at h
  rw [hf] at h
  simp only at h
  split at h
  · cases h
  · have hv : 0 ≤ |f| := abs_nonneg f
    generalize |f| = v at *
    have d1 := Int.floor_le v
    have d2 := Int.lt_floor_add_one v
    have d0 : 0 ≤ ⌊v⌋ := Int.floor_nonneg.2 hv
    generalize ⌊v⌋ = d at *
    have m1 := Int.floor_le (60 * (v - d))
    have m2 := Int.lt_floor_add_one (60 * (v - d))
    have m0 : 0 ≤ ⌊60 * (v - d)⌋ := Int.floor_nonneg.2 (by linarith)
    have m3 : ⌊60 * (v - d)⌋ < 60 := Int.floor_lt.2 (by push_cast; linarith)
    generalize ⌊60 * (v - d)⌋ = m at *
    rw [floatToRational_whole d0, floatToRational_whole m0] at h
    have s0 : 0 ≤ 3600 * (v - d - m / 60) := by linarith
    have s1 : 3600 * (v - d - m / 60) < 60 := by linarith
    have hs := float_rational s0
    rw [if_neg (by linarith)] at hs
    have hsm : (floatToRational (3600 * (v - d - m / 60))).num ≤ 60 * (floatToRational (3600 * (v - d - m / 60))).den := by
      unfold floatToRational
      simp only
      rw [if_neg (by linarith), if_neg (by linarith)]
      have hk0 : 0 ≤ trunc (3600 * (v - d - m / 60) * (1000000 : Int) + 1 / 2) := by
        rw [trunc_nonneg (by push_cast; linarith)]; exact Int.floor_nonneg.2 (by push_cast; linarith)
      have hk1 : trunc (3600 * (v - d - m / 60) * (1000000 : Int) + 1 / 2) ≤ 60 * 1000000 := by
        rw [trunc_nonneg (by push_cast; linarith)]
        have : ⌊3600 * (v - d - m / 60) * ((1000000 : Int) : ℚ) + 1 / 2⌋ < 60 * 1000000 + 1 := Int.floor_lt.2 (by push_cast; linarith)
        omega
      generalize trunc (3600 * (v - d - m / 60) * ((1000000 : Int) : ℚ) + 1 / 2) = k at *
      obtain ⟨q1, q2, q3⟩ := reduce_pos hk0 (by norm_num : (0 : Int) < 1000000)
      have : ratio (reduce k 1000000) ≤ 60 := by
        rw [q3]
        have : (k : ℚ) ≤ 60 * 1000000 := by exact_mod_cast hk1
        push_cast
        rw [div_le_iff₀ (by norm_num)]
        linarith
      unfold ratio at this
      rw [div_le_iff₀ (by exact_mod_cast q2)] at this
      exact_mod_cast this
    have h' := Option.some.inj h
    subst h'
    obtain ⟨s2, s3, s4⟩ := hs
    generalize floatToRational (3600 * (v - d - m / 60)) = sr at *
    refine ⟨⟨⟨d0, by norm_num⟩, ⟨m0, by norm_num⟩, s2, s3⟩, rfl, rfl, m3, hsm, ?_⟩
    unfold minutes
    unfold ratio at s4
    simp only
    generalize (sr.num : ℚ) / sr.den = x at *
    rw [abs_le] at s4 ⊢
    push_cast
    constructor
    · have := s4.1; norm_num at this ⊢; linarith
    · have := s4.2; norm_num at this ⊢; linarith

/-- **C66.** From a decimal text to the coordinate of the document: together the minutes are off by less than a
hundred-millionth. -/
theorem coord_decimal_text (pf : Str → Option ℚ) (s : Str) {f : ℚ} (hf : pf s = some f) {r : Coord} (h : coordParse pf s = some r)
    {ref : Str} (href : ref ≠ []) : ∃ t d m k, coordText r ref = some t ∧ CoordForm t d m k ref ∧
      |60 * (d : ℚ) + m + k / 10 ^ 7 - 60 * abs f| < 1 / 10 ^ 7 := by
  obtain ⟨ok, -, -, -, -, hn⟩ := coord_decimal pf s hf h
  obtain ⟨t, d, m, k, e, hform, -, -, -, -, hn2, -⟩ := coord_position r href ok
  refine ⟨t, d, m, k, e, hform, ?_⟩
  rw [abs_le] at hn hn2
  rw [abs_lt]
  generalize minutes r = p at *
  generalize |f| = v at *
  norm_num at hn hn2 ⊢
  constructor <;> linarith [hn.1, hn.2, hn2.1, hn2.2]

/-- **C66, finding.** The sign of a decimal coordinate is lost: opposite positions give the same coordinate. -/
theorem coord_sign_lost (pf : Str → Option ℚ) (s s' : Str) {f : ℚ} (h : pf s = some f) (h' : pf s' = some (-f)) {r r' : Coord}
    (hr : coordParse pf s = some r) (hr' : coordParse pf s' = some r') : r = r' := by
  unfold coordParse at hr hr'
  rw [h] at hr
  rw [h'] at hr'
  simp only [abs_neg] at hr hr'
  split at hr
  · cases hr
  · split at hr'
    · cases hr'
    · rw [hr] at hr'
      exact Option.some.inj hr'

/-! ### Time stamps -/

theorem trunc_near (q : ℚ) : |(trunc q : ℚ) - q| < 1 := by
  unfold trunc
  split
  · have h1 := Int.floor_le (-q)
    have h2 := Int.lt_floor_add_one (-q)
    rw [abs_lt]; push_cast; constructor <;> linarith
  · have h1 := Int.floor_le q
    have h2 := Int.lt_floor_add_one q
    rw [abs_lt]; constructor <;> linarith

/-- **C66.** Whole hours, minutes and seconds are added to the date exactly. -/
theorem stamp_whole (h m s : Int) : stampDuration [⟨h, 1⟩, ⟨m, 1⟩, ⟨s, 1⟩] = (3600 * h + 60 * m + s) * 10 ^ 9 := by
  have key : ∀ k : Int, trunc (k : ℚ) = k := by
    intro k
    unfold trunc
    split
    · rw [← Int.cast_neg, Int.floor_intCast]; omega
    · rw [Int.floor_intCast]
  have e1 : (h : ℚ) / ((1 : Int) : ℚ) * (3600 * 10 ^ 9) = ((h * (3600 * 10 ^ 9) : Int) : ℚ) := by push_cast; ring
  have e2 : (m : ℚ) / ((1 : Int) : ℚ) * (60 * 10 ^ 9) = ((m * (60 * 10 ^ 9) : Int) : ℚ) := by push_cast; ring
  have e3 : (s : ℚ) / ((1 : Int) : ℚ) * 10 ^ 9 = ((s * 10 ^ 9 : Int) : ℚ) := by push_cast; ring
  simp only [stampDuration, stampUnits, List.zip_cons_cons, List.zip_nil_left, List.map_cons, List.map_nil, List.sum_cons, List.sum_nil,
    ratValue, ratio, one_ne_zero, if_false, e1, e2, e3, key]
  ring

/-- **C66.** With fractions the time is off by less than three nanoseconds; what follows the seconds is ignored. -/
theorem stamp_near (a b c : Rational) (ha : a.den ≠ 0) (hb : b.den ≠ 0) (hc : c.den ≠ 0) (rest : List Rational) :
    |(stampDuration (a :: b :: c :: rest) : ℚ) -
      ((a.num : ℚ) / a.den * 3600 + (b.num : ℚ) / b.den * 60 + (c.num : ℚ) / c.den) * 10 ^ 9| < 3 := by
  simp only [stampDuration, stampUnits, List.zip_cons_cons, List.zip_nil_right, List.map_cons, List.map_nil, List.sum_cons, List.sum_nil,
    ratValue, ratio, ha, hb, hc, if_false]
  have h1 := trunc_near ((a.num : ℚ) / a.den * (3600 * 10 ^ 9))
  have h2 := trunc_near ((b.num : ℚ) / b.den * (60 * 10 ^ 9))
  have h3 := trunc_near ((c.num : ℚ) / c.den * 10 ^ 9)
  generalize (a.num : ℚ) / a.den = x at *
  generalize (b.num : ℚ) / b.den = y at *
  generalize (c.num : ℚ) / c.den = z at *
  push_cast
  generalize trunc (x * (3600 * 10 ^ 9)) = i at *
  generalize trunc (y * (60 * 10 ^ 9)) = j at *
  generalize trunc (z * 10 ^ 9) = k at *
  rw [abs_lt] at h1 h2 h3 ⊢
  constructor
  · linarith [h1.1, h2.1, h3.1]
  · linarith [h1.2, h2.2, h3.2]

/-- **C66, finding.** Parts of a time stamp that are no numbers (denominator 0) count as 1: an invalid time stamp moves the
date by one hour, one minute and one second (xmp/xmp_types.go:521-523). -/
theorem stamp_invalid (a b c : Int) : stampDuration [⟨a, 0⟩, ⟨b, 0⟩, ⟨c, 0⟩] = 3661 * 10 ^ 9 := by
  have e : stampDuration [⟨a, 0⟩, ⟨b, 0⟩, ⟨c, 0⟩] = stampDuration [⟨1, 1⟩, ⟨1, 1⟩, ⟨1, 1⟩] := by
    simp [stampDuration, stampUnits, ratValue, ratio]
  rw [e, stamp_whole]
  norm_num

/-! ### Examples -/

/-- 40° 26' 46.5". -/
def sampleCoord : Coord := ⟨⟨40, 1⟩, ⟨26, 1⟩, ⟨93, 2⟩⟩

example : CoordOK sampleCoord := by unfold CoordOK sampleCoord; decide

example : coordText sampleCoord ['N'] = some "40,26.7750000N".toList := by decide +kernel

example : coordText ⟨⟨40, 1⟩, ⟨2677500, 100000⟩, ⟨0, 1⟩⟩ ['N'] = some "40,26.7750000N".toList := by
  rw [coord_same _ sampleCoord ['N'] (by unfold CoordOK; decide) (by unfold CoordOK sampleCoord; decide)]
  · decide +kernel
  · unfold minutes sampleCoord; norm_num

example : coordText ⟨⟨0, 1⟩, ⟨0, 1⟩, ⟨0, 1⟩⟩ ['N'] = some "0,0.0000000N".toList ∧ coordIsZero "0,0.0000000N".toList = false := by
  decide +kernel

/-- 9° 59' 59.999999". -/
def lateCoord : Coord := ⟨⟨9, 1⟩, ⟨59, 1⟩, ⟨59999999, 1000000⟩⟩

example : coordText lateCoord ['E'] = some "9,60.0000000E".toList := by decide +kernel

example : coordText (negCoord sampleCoord) ['S'] = some "-40,-26.7750000S".toList := by decide +kernel

example : ∀ k : Int, minutes sampleCoord ≠ 60 * k := by
  intro k e
  unfold minutes sampleCoord at e
  norm_num at e
  have : (97071 : ℚ) = 2400 * k := by linarith
  have : (97071 : Int) = 2400 * k := by exact_mod_cast this
  omega

example : coordParse (fun _ => some (-40.446)) "-40.446".toList = some ⟨⟨40, 1⟩, ⟨26, 1⟩, ⟨228, 5⟩⟩ := by decide +kernel

example : coordParse (fun _ => some 179.5) "+179.5".toList = none := by decide +kernel

example : ratDecimal (1 / 250) = ⟨1, 250⟩ ∧ ratDecimal (3 / 4) = ⟨1, 1⟩ ∧ ratDecimal (5 / 2) = ⟨5, 2⟩ := by decide +kernel

example : ratDecimal (-5 / 2) = ⟨1, 0⟩ ∧ ratDecimal (-1 / 2) = ⟨1, -1⟩ := by decide +kernel

example : stampDuration [⟨13, 1⟩, ⟨5, 1⟩, ⟨1050, 100⟩] = 47110500000000 := by decide +kernel

end Xmp.Props
