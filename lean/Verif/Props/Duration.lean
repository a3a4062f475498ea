import Verif.Props.Codec
import Verif.Model.Duration

/-! C60: durations. -/

namespace Xmp.Props

open Xmp Xmp.GoStr

/-! ### Specification -/

/-- The units of time and their nanoseconds. -/
def durUnits : List (Str × Nat) :=
  [("ns".toList, 1), ("us".toList, 1000), (['Â', 'µ', 's'], 1000), (['Î', '¼', 's'], 1000), ("ms".toList, 10 ^ 6),
   ("s".toList, 10 ^ 9), ("m".toList, 60 * 10 ^ 9), ("h".toList, 3600 * 10 ^ 9)]

/-- A part of a duration: a number with digits before the point, possibly a point and digits after it, and a unit. -/
structure DurPart where
  whole : List Nat
  frac : Option (List Nat)
  unit : Str

/-- Digits as text. -/
def digitText (ds : List Nat) : Str := ds.map digitChar

/-- The text of a part. -/
def DurPart.text (p : DurPart) : Str :=
  digitText p.whole ++ (match p.frac with | none => [] | some f => '.' :: digitText f) ++ p.unit

/-- The part is written well: decimal digits, at least one, and a unit. -/
def DurPart.Ok (p : DurPart) : Prop :=
  (∀ d ∈ p.whole, d < 10) ∧ (∀ f, p.frac = some f → ∀ d ∈ f, d < 10) ∧ (p.whole ≠ [] ∨ ∃ f, p.frac = some f ∧ f ≠ []) ∧
  p.unit ∈ durUnits.map Prod.fst

/-- The nanoseconds of a unit. -/
def unitValue (u : Str) : Nat := (durUnits.lookup u).getD 0

/-- The nanoseconds of a part, fractions of nanoseconds are dropped. -/
def DurPart.ns (p : DurPart) : Nat :=
  decVal p.whole * unitValue p.unit +
    (match p.frac with | none => 0 | some f => decVal f * unitValue p.unit / 10 ^ f.length)

/-- There are at most 18 digits after the point. -/
def DurPart.Short (p : DurPart) : Prop := ∀ f, p.frac = some f → f.length ≤ 18

/-- The text of a list of parts. -/
def partsText (ps : List DurPart) : Str := (ps.map DurPart.text).flatten

/-- The nanoseconds of a list of parts. -/
def partsNs (ps : List DurPart) : Nat := (ps.map DurPart.ns).sum

/-- The signs before a duration. -/
def SignText (neg : Bool) (s : Str) : Prop := if neg then s = ['-'] else s = [] ∨ s = ['+']

/-- The number with its sign. -/
def signed (neg : Bool) (n : Nat) : Int := if neg then -(n : Int) else n

/-- The number is a duration of 64 bits with this sign. -/
def FitsSign (neg : Bool) (n : Nat) : Prop := if neg then n ≤ 2 ^ 63 else n < 2 ^ 63

/-! ### Digits -/

theorem digitText_digits {ds : List Nat} (h : ∀ d ∈ ds, d < 10) : ∀ c ∈ digitText ds, isDigit c = true := by
  intro c hc
  obtain ⟨d, hd, rfl⟩ := List.mem_map.mp hc
  exact isDigit_digitChar (h d hd)

theorem digitsVal_text {ds : List Nat} (h : ∀ d ∈ ds, d < 10) : digitsVal 0 (digitText ds) = some (decVal ds) :=
  (digitsVal_iff _ _ _).mpr ⟨ds, h, rfl, by simp [decVal]⟩

theorem decVal_snoc (ds : List Nat) (d : Nat) : decVal (ds ++ [d]) = decVal ds * 10 + d := by
  simp [decVal, Nat.mul_comm]

theorem foldl_dec (ds : List Nat) : ∀ a, ds.foldl (fun a d => 10 * a + d) a = a * 10 ^ ds.length + decVal ds := by
  induction ds with
  | nil => intro a; simp [decVal]
  | cons d ds ih =>
    intro a
    have h := ih (10 * 0 + d)
    simp only [decVal, List.foldl_cons, List.length_cons]
    rw [ih (10 * a + d), h]
    simp only [Nat.mul_zero, Nat.zero_add, Nat.pow_succ, Nat.add_mul]
    rw [← Nat.add_assoc, Nat.mul_comm 10 a, Nat.mul_assoc, Nat.mul_comm 10]

theorem decVal_lt {ds : List Nat} (h : ∀ d ∈ ds, d < 10) : decVal ds < 10 ^ ds.length := by
  induction ds with
  | nil => simp [decVal]
  | cons d ds ih =>
    have h1 : decVal (d :: ds) = d * 10 ^ ds.length + decVal ds := by
      have := foldl_dec ds d
      simp only [decVal, List.foldl_cons, Nat.mul_zero, Nat.zero_add] at this ⊢
      exact this
    have h2 := ih (fun x hx => h x (List.mem_cons_of_mem _ hx))
    have h3 : d * 10 ^ ds.length ≤ 9 * 10 ^ ds.length := Nat.mul_le_mul_right _ (by have := h d (by simp); omega)
    rw [h1, List.length_cons, Nat.pow_succ]
    omega

theorem takeWhile_text {p : Char → Bool} {a b : Str} (ha : ∀ c ∈ a, p c = true) (hb : ∀ c, b.head? = some c → p c = false) :
    (a ++ b).takeWhile p = a ∧ (a ++ b).dropWhile p = b := by
  induction a with
  | nil =>
    cases b with
    | nil => exact ⟨rfl, rfl⟩
    | cons c b =>
      have := hb c rfl
      simp [this]
  | cons c a ih =>
    obtain ⟨h1, h2⟩ := ih (fun x hx => ha x (List.mem_cons_of_mem _ hx))
    have := ha c (by simp)
    simp [this, h1, h2]

/-! ### Units -/

theorem units_table : ∀ u ∈ durUnits.map Prod.fst, Duration.unitNs u = some (unitValue u) ∧ 0 < unitValue u ∧ u ≠ [] ∧
    ∀ c ∈ u, Duration.numChar c = false ∧ isDigit c = false ∧ c ≠ '.' ∧ c ≠ '-' ∧ c ≠ '+' ∧ c ∉ blanks ∧ c ≠ '"' := by decide +kernel

theorem units_only {u : Str} {k : Nat} (h : Duration.unitNs u = some k) : u ∈ durUnits.map Prod.fst := by
  unfold Duration.unitNs at h
  split at h
  · next e => subst e; decide
  split at h
  · next e => subst e; decide
  split at h
  · next e => subst e; decide
  split at h
  · next e => subst e; decide
  split at h
  · next e => subst e; decide
  split at h
  · next e => subst e; decide
  split at h
  · next e => subst e; decide
  split at h
  · next e => subst e; decide
  · cases h

/-! ### Reading a part -/

theorem leadingFraction_text {ds : List Nat} (h : ∀ d ∈ ds, d < 10) {rest : Str} (hr : ∀ c, rest.head? = some c → isDigit c = false) :
    ∀ (x scale : Nat) (a : Nat), x < 10 ^ a → a + ds.length ≤ 18 →
      Duration.leadingFraction x scale false (digitText ds ++ rest) = (x * 10 ^ ds.length + decVal ds, scale * 10 ^ ds.length, rest) := by
  induction ds with
  | nil =>
    intro x scale a _ _
    cases rest with
    | nil => simp [digitText, Duration.leadingFraction, decVal]
    | cons c r =>
      have := hr c rfl
      simp [digitText, Duration.leadingFraction, decVal, this]
  | cons d ds ih =>
    intro x scale a hx ha
    have hd : d < 10 := h d (by simp)
    simp only [List.length_cons] at ha
    have h17 : (10 : Nat) ^ a ≤ 10 ^ 17 := Nat.pow_le_pow_right (by omega) (by omega)
    have hx' : x < 10 ^ 17 := Nat.lt_of_lt_of_le hx h17
    simp only [digitText, List.map_cons, List.cons_append]
    rw [Duration.leadingFraction, if_pos (isDigit_digitChar hd)]
    simp only [Bool.false_eq_true, if_false]
    rw [digitChar_toNat hd, if_neg (by omega), if_neg (by omega)]
    have hx2 : x * 10 + (48 + d - 48) < 10 ^ (a + 1) := by rw [Nat.pow_succ]; omega
    have := ih (fun y hy => h y (List.mem_cons_of_mem _ hy)) (x * 10 + (48 + d - 48)) (scale * 10) (a + 1) hx2 (by omega)
    unfold digitText at this
    rw [this]
    have hv : decVal (d :: ds) = d * 10 ^ ds.length + decVal ds := by
      have := foldl_dec ds d
      simp only [decVal, List.foldl_cons, Nat.mul_zero, Nat.zero_add] at this ⊢
      exact this
    rw [hv, show 48 + d - 48 = d by omega, List.length_cons, Nat.pow_succ, Nat.add_mul, Nat.mul_assoc x, Nat.mul_comm 10, Nat.mul_assoc scale,
      Nat.mul_comm 10, Nat.add_assoc]

theorem component_text {p : DurPart} (hp : p.Ok) (hs : p.Short) (hn : p.ns ≤ 2 ^ 63) {rest : Str}
    (hr : ∀ c, rest.head? = some c → Duration.numChar c = true) :
    Duration.component (p.text ++ rest) = some (p.ns, rest) := by
  obtain ⟨h1, h2, h3, h4⟩ := hp
  obtain ⟨t1, t2, t3, t4⟩ := units_table _ h4
  have hk : ∀ c, (p.unit ++ rest).head? = some c → isDigit c = false := by
    intro c hc
    cases hu : p.unit with
    | nil => exact absurd hu t3
    | cons b u =>
      rw [hu] at hc t4
      simp at hc
      subst hc
      exact (t4 b (by simp)).2.1
  have hu : (p.unit ++ rest).takeWhile (fun c => !Duration.numChar c) = p.unit ∧
      (p.unit ++ rest).dropWhile (fun c => !Duration.numChar c) = rest :=
    takeWhile_text (fun c hc => by simp [(t4 c hc).1]) (fun c hc => by simp [hr c hc])
  have hw : decVal p.whole * unitValue p.unit ≤ 2 ^ 63 := by unfold DurPart.ns at hn; omega
  have hw1 : decVal p.whole ≤ 2 ^ 63 := Nat.le_trans (Nat.le_mul_of_pos_right _ t2) hw
  have hw2 : ¬ (decVal p.whole > 2 ^ 63 / unitValue p.unit) := by
    rw [gt_iff_lt, Nat.not_lt]
    exact (Nat.le_div_iff_mul_le t2).mpr hw
  cases hf : p.frac with
  | none =>
    have e : p.text ++ rest = digitText p.whole ++ (p.unit ++ rest) := by
      unfold DurPart.text; rw [hf]; simp
    have hne : p.whole ≠ [] := by
      rcases h3 with h | ⟨f, h, -⟩
      · exact h
      · rw [hf] at h; cases h
    have hl : Duration.leadingInt (digitText p.whole ++ (p.unit ++ rest)) = some (decVal p.whole, p.unit ++ rest) := by
      obtain ⟨a, b⟩ := takeWhile_text (digitText_digits h1) hk
      unfold Duration.leadingInt
      rw [a, b, digitsVal_text h1]
      simp only
      rw [if_pos hw1]
    have hfr : Duration.fraction (p.unit ++ rest) = (0, 1, false, p.unit ++ rest) := by
      unfold Duration.fraction
      split
      · next r e =>
        cases hu : p.unit with
        | nil => exact absurd hu t3
        | cons b u =>
          rw [hu] at e t4
          simp only [List.cons_append, List.cons.injEq] at e
          exact absurd e.1 (t4 b (by simp)).2.2.1
      · rfl
    have hlen : ¬ ((digitText p.whole ++ (p.unit ++ rest)).length = (p.unit ++ rest).length ∧ false = false) := by
      intro h
      simp [digitText] at h
      exact hne h
    unfold Duration.component
    rw [e, hl]
    simp only [hfr, hu.1, hu.2, t1]
    rw [if_neg (by simpa using hlen), if_neg hw2]
    simp only [DurPart.ns, hf, Nat.zero_mul, Nat.zero_div, Nat.add_zero]
    rw [if_neg (by omega)]
  | some f =>
    have hfd := h2 f hf
    have e : p.text ++ rest = digitText p.whole ++ ('.' :: (digitText f ++ (p.unit ++ rest))) := by
      unfold DurPart.text; rw [hf]; simp
    have hl : Duration.leadingInt (digitText p.whole ++ ('.' :: (digitText f ++ (p.unit ++ rest)))) =
        some (decVal p.whole, '.' :: (digitText f ++ (p.unit ++ rest))) := by
      obtain ⟨a, b⟩ := takeWhile_text (b := '.' :: (digitText f ++ (p.unit ++ rest))) (digitText_digits h1)
        (by intro c hc; simp at hc; subst hc; decide)
      unfold Duration.leadingInt
      rw [a, b, digitsVal_text h1]
      simp only
      rw [if_pos hw1]
    have hfr : Duration.fraction ('.' :: (digitText f ++ (p.unit ++ rest))) =
        (decVal f, 10 ^ f.length, decide (f.length ≠ 0), p.unit ++ rest) := by
      unfold Duration.fraction
      simp only
      rw [leadingFraction_text hfd hk 0 1 0 (by simp) (by have := hs f hf; omega)]
      simp only [Nat.zero_mul, Nat.zero_add, Nat.one_mul, Prod.mk.injEq, true_and, and_true, digitText, List.length_append, List.length_map]
      congr 1
      apply propext
      omega
    have hlen : ¬ ((digitText p.whole ++ ('.' :: (digitText f ++ (p.unit ++ rest)))).length =
        ('.' :: (digitText f ++ (p.unit ++ rest))).length ∧ decide (f.length ≠ 0) = false) := by
      rintro ⟨ha, hb⟩
      simp [digitText] at ha hb
      rcases h3 with h | ⟨f', h, h'⟩
      · exact h ha
      · rw [hf] at h; cases h; exact h' hb
    have hn' : decVal p.whole * unitValue p.unit + decVal f * unitValue p.unit / 10 ^ f.length ≤ 2 ^ 63 := by
      simpa [DurPart.ns, hf] using hn
    unfold Duration.component
    rw [e, hl]
    simp only [hfr, hu.1, hu.2, t1]
    rw [if_neg hlen, if_neg hw2, if_neg (by omega)]
    simp only [DurPart.ns, hf]

theorem part_head {p : DurPart} (hp : p.Ok) : ∃ c s, p.text = c :: s ∧ Duration.numChar c = true := by
  obtain ⟨h1, h2, h3, h4⟩ := hp
  unfold DurPart.text
  cases hw : p.whole with
  | cons d ds =>
    rw [hw] at h1
    refine ⟨digitChar d, _, rfl, ?_⟩
    unfold Duration.numChar
    rw [isDigit_digitChar (h1 d (by simp))]
    simp
  | nil =>
    rw [hw] at h3
    rcases h3 with h | ⟨f, h, h'⟩
    · exact absurd rfl h
    · rw [h]
      exact ⟨'.', _, rfl, rfl⟩

theorem parts_head {ps : List DurPart} (hp : ∀ p ∈ ps, p.Ok) : ∀ c, (partsText ps).head? = some c → Duration.numChar c = true := by
  intro c hc
  cases ps with
  | nil => simp [partsText] at hc
  | cons p ps =>
    obtain ⟨b, s, e, hb⟩ := part_head (hp p (by simp))
    unfold partsText at hc
    rw [List.map_cons, List.flatten_cons, e] at hc
    simp at hc
    rw [← hc]; exact hb

theorem components_text : ∀ (ps : List DurPart) (n d : Nat), (∀ p ∈ ps, p.Ok ∧ p.Short) → d + partsNs ps ≤ 2 ^ 63 → (partsText ps).length ≤ n →
    Duration.components n d (partsText ps) = some (d + partsNs ps) := by
  intro ps
  induction ps with
  | nil => intro n d _ _ _; cases n <;> simp [partsText, partsNs, Duration.components]
  | cons p ps ih =>
    intro n d hp hn hl
    have hpp := hp p (by simp)
    have hrest : ∀ q ∈ ps, q.Ok ∧ q.Short := fun q hq => hp q (List.mem_cons_of_mem _ hq)
    have e : partsText (p :: ps) = p.text ++ partsText ps := by simp [partsText]
    have e2 : partsNs (p :: ps) = p.ns + partsNs ps := by simp [partsNs]
    obtain ⟨c, s, ec, hc⟩ := part_head hpp.1
    rw [e2] at hn
    have hcomp := component_text (p := p) hpp.1 hpp.2 (by omega) (parts_head (fun q hq => (hrest q hq).1))
    rw [e, ec] at hl
    rw [e]
    rw [ec] at hcomp ⊢
    simp only [List.cons_append, List.length_cons, List.length_append] at hl
    cases n with
    | zero => omega
    | succ n =>
      rw [List.cons_append] at hcomp ⊢
      rw [Duration.components, if_pos hc, hcomp]
      simp only
      rw [if_neg (by omega), ih n (d + p.ns) hrest (by omega) (by omega), e2, Nat.add_assoc]

theorem parts_unit {ps : List DurPart} (hne : ps ≠ []) (hp : ∀ p ∈ ps, p.Ok) : ∃ c ∈ partsText ps, isDigit c = false ∧ c ≠ '.' ∧ c ≠ '-' ∧ c ≠ '+' := by
  cases ps with
  | nil => exact absurd rfl hne
  | cons p ps =>
    obtain ⟨-, -, t3, t4⟩ := units_table _ (hp p (by simp)).2.2.2
    cases hu : p.unit with
    | nil => exact absurd hu t3
    | cons b u =>
      rw [hu] at t4
      obtain ⟨-, a1, a2, a3, a4, -, -⟩ := t4 b (by simp)
      refine ⟨b, ?_, a1, a2, a3, a4⟩
      simp [partsText, DurPart.text, hu]

theorem timeParseAbs_text {neg : Bool} {ps : List DurPart} (hne : ps ≠ []) (hp : ∀ p ∈ ps, p.Ok ∧ p.Short) (hf : FitsSign neg (partsNs ps)) :
    Duration.timeParseAbs neg (partsText ps) = some (signed neg (partsNs ps)) := by
  obtain ⟨c, hc, h1, -⟩ := parts_unit hne (fun p h => (hp p h).1)
  have hle : partsNs ps ≤ 2 ^ 63 := by
    unfold FitsSign at hf
    split at hf <;> omega
  unfold Duration.timeParseAbs
  rw [if_neg (by intro e; rw [e] at hc; simp at hc; subst hc; revert h1; decide), if_neg (by intro e; rw [e] at hc; simp at hc),
    components_text ps _ 0 hp (by omega) (Nat.le_refl _)]
  simp only [Nat.zero_add]
  cases neg with
  | true => simp [signed]
  | false =>
    simp only [FitsSign, Bool.false_eq_true, if_false] at hf
    simp only [Bool.false_eq_true, if_false, signed]
    rw [if_neg (by omega)]

theorem timeParse_sign {neg : Bool} {sgn body : Str} (hs : SignText neg sgn) (hb : ∀ c, body.head? = some c → Duration.numChar c = true) :
    Duration.timeParse (sgn ++ body) = Duration.timeParseAbs neg body := by
  unfold SignText at hs
  cases neg with
  | true => simp only [if_true] at hs; subst hs; rfl
  | false =>
    simp only [Bool.false_eq_true, if_false] at hs
    rcases hs with rfl | rfl
    · cases body with
      | nil => rfl
      | cons c r =>
        have hc := hb c rfl
        unfold Duration.timeParse
        split
        · next e => simp at e; rw [e.1] at hc; exact absurd hc (by decide)
        · next e => simp at e; rw [e.1] at hc; exact absurd hc (by decide)
        · rfl
    · rfl

theorem parseInt_chars {s : Str} {i : Int} (h : parseInt 64 s = some i) : ∀ c ∈ s, isDigit c = true ∨ c = '-' ∨ c = '+' := by
  obtain ⟨⟨ds, -, hd, h⟩, -⟩ := (parseInt_iff 64 s i).mp h
  intro c hc
  rcases h with ⟨rfl, -⟩ | ⟨rfl, -⟩ | ⟨rfl, -⟩
  · exact Or.inl (digitText_digits hd c hc)
  · rcases List.mem_cons.mp hc with rfl | hc
    · exact Or.inr (Or.inr rfl)
    · exact Or.inl (digitText_digits hd c hc)
  · rcases List.mem_cons.mp hc with rfl | hc
    · exact Or.inr (Or.inl rfl)
    · exact Or.inl (digitText_digits hd c hc)

theorem timeParse_parts {neg : Bool} {sgn : Str} {ps : List DurPart} (hs : SignText neg sgn) (hne : ps ≠ []) (hp : ∀ p ∈ ps, p.Ok ∧ p.Short)
    (hf : FitsSign neg (partsNs ps)) : Duration.timeParse (sgn ++ partsText ps) = some (signed neg (partsNs ps)) := by
  rw [timeParse_sign hs (parts_head (fun p h => (hp p h).1)), timeParseAbs_text hne hp hf]

/-- **C60.** A duration written as numbers with units, with or without sign and fractions, is read as the sum of its parts. -/
theorem duration_parts {neg : Bool} {sgn : Str} {ps : List DurPart} (hs : SignText neg sgn) (hne : ps ≠ []) (hp : ∀ p ∈ ps, p.Ok ∧ p.Short)
    (hf : FitsSign neg (partsNs ps)) : Duration.unmarshalText (sgn ++ partsText ps) = some (signed neg (partsNs ps)) := by
  unfold Duration.unmarshalText Duration.parse
  cases hi : parseInt 64 (sgn ++ partsText ps) with
  | none => simp only [timeParse_parts hs hne hp hf]
  | some i =>
    exfalso
    obtain ⟨c, hc, h1, h2, h3, h4⟩ := parts_unit hne (fun p h => (hp p h).1)
    rcases parseInt_chars hi c (List.mem_append_right _ hc) with h | h | h
    · rw [h1] at h; cases h
    · exact h3 h
    · exact h4 h

end Xmp.Props
