import Verif.Model.Semver
import Verif.Lemmas.GoStr

/-! Properties C01, C02, C03: versions. -/

namespace Xmp.Props

open GoStr Version

/-! ### C01: order -/

/-- Specification: the components in order of significance, compared as lists. -/
def key (v : Version) : List Int := [v.major, v.minor, v.patch]

theorem before_iff_lex (v a : Version) : v.before a = true ↔ key v < key a := by
  obtain ⟨v1, v2, v3⟩ := v
  obtain ⟨a1, a2, a3⟩ := a
  simp [before, key, List.cons_lt_cons_iff]
  omega

theorem after_iff_lex (v a : Version) : v.after a = true ↔ key a < key v := by
  obtain ⟨v1, v2, v3⟩ := v
  obtain ⟨a1, a2, a3⟩ := a
  simp [after, key, List.cons_lt_cons_iff]
  omega

theorem equal_iff_eq (v a : Version) : v.equal a = true ↔ v = a := by
  obtain ⟨v1, v2, v3⟩ := v
  obtain ⟨a1, a2, a3⟩ := a
  simp [equal, and_assoc]

/-- C01: exactly one of Before, Equal, After holds. -/
theorem version_trichotomy (v a : Version) :
    (v.before a = true ∧ v.equal a = false ∧ v.after a = false) ∨
    (v.before a = false ∧ v.equal a = true ∧ v.after a = false) ∨
    (v.before a = false ∧ v.equal a = false ∧ v.after a = true) := by
  obtain ⟨v1, v2, v3⟩ := v
  obtain ⟨a1, a2, a3⟩ := a
  simp only [before, equal, after, Bool.or_eq_true, Bool.and_eq_true, decide_eq_true_eq, beq_iff_eq,
    Bool.or_eq_false_iff, Bool.and_eq_false_iff, decide_eq_false_iff_not, beq_eq_false_iff_ne, ne_eq]
  omega

/-- C01: Before is a strict order, After is its converse, and both agree with the lexicographic
order on (major, minor, patch). -/
theorem version_total_order :
    (∀ v a : Version, v.before a = true ↔ key v < key a) ∧
    (∀ v a : Version, v.after a = true ↔ a.before v = true) ∧
    (∀ v a : Version, v.equal a = true ↔ v = a) ∧
    (∀ v : Version, v.before v = false) ∧
    (∀ u v w : Version, u.before v = true → v.before w = true → u.before w = true) := by
  refine ⟨before_iff_lex, fun v a => ?_, equal_iff_eq, fun v => ?_, fun u v w h1 h2 => ?_⟩
  · rw [after_iff_lex, before_iff_lex]
  · simp [before]
  · rw [before_iff_lex] at *
    exact List.lt_trans h1 h2

example : (⟨1, 9, 0⟩ : Version).before ⟨1, 10, 0⟩ = true ∧ (⟨2, 0, 0⟩ : Version).after ⟨1, 10, 0⟩ = true := by
  decide

/-! ### C02: text form -/

/-- C02: every version whose components fit Go `int` and are printed is read back unchanged. -/
theorem version_parse_toStr (v : Version) (h1 : InI64 v.major) (h2 : InI64 v.minor)
    (h3 : InI64 v.patch) : parse v.toStr = some v := by
  have d : ∀ i : Int, '.' ∉ itoa i := fun i => itoa_not_mem (by decide) (by decide) i
  unfold parse toStr
  have hs : split '.' (itoa v.major ++ ['.'] ++ itoa v.minor ++ ['.'] ++ itoa v.patch)
      = [itoa v.major, itoa v.minor, itoa v.patch] := by
    simp only [List.append_assoc, List.cons_append, List.nil_append]
    rw [split_append_sep _ (d _), split_append_sep _ (d _), split_no_sep (d _)]
  rw [hs]
  simp only [atoi_itoa h1, atoi_itoa h2, atoi_itoa h3, Option.map]

example : InI64 (⟨1, 20, 300⟩ : Version).minor ∧ parse "1.20.300".toList = some ⟨1, 20, 300⟩ := by
  decide

/-- Specification of the accepted texts: one to three integers joined by dots; missing ones are 0. -/
def Reads (s : Str) (v : Version) : Prop :=
  ∃ ts : List Str, ts ≠ [] ∧ ts.length ≤ 3 ∧ (∀ t ∈ ts, '.' ∉ t) ∧ s = join ['.'] ts ∧
    ts.map atoi = ((key v).take ts.length).map some ∧
    (∀ i ∈ (key v).drop ts.length, i = 0)

/-- C02: `ParseVersion` accepts exactly the specified texts, with the specified value. -/
theorem version_parse_iff (s : Str) (v : Version) : parse s = some v ↔ Reads s v := by
  obtain ⟨x, y, z⟩ := v
  constructor
  · intro h
    have hj := join_split '.' s
    have hn := split_no_sep_mem '.' s
    refine ⟨split '.' s, split_ne_nil _ _, ?_, hn, hj.symm, ?_, ?_⟩ <;>
    · unfold parse at h
      split at h
      · rename_i hs; rw [hs]
        cases ha : atoi _ <;> rw [ha] at h <;> simp at h
        obtain ⟨rfl, rfl, rfl⟩ := h
        simp [key, ha]
      · rename_i hs; rw [hs]
        split at h
        · cases h
        · rename_i hb
          cases ha : atoi _ <;> rw [ha] at h <;> simp at h
          obtain ⟨rfl, rfl, rfl⟩ := h
          simp [key, ha, hb]
      · rename_i hs; rw [hs]
        split at h
        · cases h
        · rename_i hc
          split at h
          · cases h
          · rename_i hb
            cases ha : atoi _ <;> rw [ha] at h <;> simp at h
            obtain ⟨rfl, rfl, rfl⟩ := h
            simp [key, ha, hb, hc]
      · cases h
  · rintro ⟨ts, hne, hl, hno, hs, hv, hz⟩
    have := split_join hne hno
    rw [← hs] at this
    unfold parse
    rw [this]
    match ts, hne, hl, hv, hz with
    | [a], _, _, hv, hz =>
      simp [key] at hv hz
      simp [hv, hz]
    | [a, b], _, _, hv, hz =>
      simp [key] at hv hz
      simp [hv, hz]
    | [a, b, c], _, _, hv, hz =>
      simp [key] at hv
      simp [hv]

example : Reads "1.2".toList ⟨1, 2, 0⟩ :=
  (version_parse_iff _ _).1 (by decide)

/-! ### C03: ranges

Tag syntax documented at xmp/typeinfo.go:221-226: `vX.Y` exactly, `vX.Y+` from, `vX.Y-` up to and
including, `vX.Y<vZ.W` between; no version tag means always.  An unset bound is the zero version. -/

/-- Specification of "v is in the range": unset bounds do not restrict. -/
def InRange (v : Version) (lo hi : Option Version) : Prop :=
  (∀ l ∈ lo, ¬ key v < key l) ∧ (∀ h ∈ hi, ¬ key h < key v)

/-- How the code represents an optional bound. -/
def bound (o : Option Version) : Version := o.getD Version.zero

/-- Realistic version numbers: non-negative components that cannot overflow when added. -/
def Small (v : Version) : Prop :=
  0 ≤ v.major ∧ 0 ≤ v.minor ∧ 0 ≤ v.patch ∧ v.major < 2 ^ 61 ∧ v.minor < 2 ^ 61 ∧ v.patch < 2 ^ 61

instance (v : Version) : Decidable (Small v) := by unfold Small; infer_instance

theorem isZero_iff {v : Version} (h : Small v) : v.isZero = true ↔ v = Version.zero := by
  obtain ⟨v1, v2, v3⟩ := v
  obtain ⟨h1, h2, h3, h4, h5, h6⟩ := h
  simp only [isZero, wrap64, beq_iff_eq, Version.zero, Version.mk.injEq] at *
  rw [Int.bmod_eq_of_le (by omega) (by omega)]
  omega

/-- C03 (partial): for set versions and proper bounds the range test agrees with the specification
when a lower bound is given.  Missing from the full statement: ranges without lower bound, where the
code disagrees with the documentation (see `between_upto_excludes_bound` and
`between_unrestricted_rejects`). -/
theorem between_lower_partial (v l : Version) (hi : Option Version)
    (hv : Small v) (hl : Small l) (hl0 : l ≠ Version.zero)
    (hh : ∀ h ∈ hi, Small h ∧ h ≠ Version.zero ∧ ¬ key h < key l) :
    v.between l (bound hi) = true ↔ (v = Version.zero ∨ InRange v (some l) hi) := by
  have zl : l.isZero = false := by
    cases hc : l.isZero with
    | false => rfl
    | true => exact absurd ((isZero_iff hl).1 hc) hl0
  unfold between InRange
  by_cases hz : v = Version.zero
  · have : v.isZero = true := (isZero_iff hv).2 hz
    rw [if_pos this]; simp [hz]
  · have zv : v.isZero = false := by
      cases hc : v.isZero with
      | false => rfl
      | true => exact absurd ((isZero_iff hv).1 hc) hz
    cases hi with
    | none =>
      have z0 : (bound none).isZero = true := by decide
      simp only [zv, zl, z0, Bool.or_eq_true, hz, Option.mem_def, Option.some.injEq, forall_eq', false_or]
      have ht := version_trichotomy v l
      rw [← before_iff_lex]
      rcases ht with ⟨a, b, c⟩ | ⟨a, b, c⟩ | ⟨a, b, c⟩ <;> simp [a, b, c]
    | some h =>
      obtain ⟨hs, hn, ho⟩ := hh h rfl
      have zh : h.isZero = false := by
        cases hc : h.isZero with
        | false => rfl
        | true => exact absurd ((isZero_iff hs).1 hc) hn
      have hbd : bound (some h) = h := rfl
      simp only [zv, zl, hbd, zh, if_false, Bool.false_eq_true, Bool.or_eq_true, Bool.and_eq_true, hz,
        Option.mem_def, Option.some.injEq, forall_eq', false_or]
      rw [before_iff_lex, after_iff_lex, equal_iff_eq, equal_iff_eq]
      have e1 := version_trichotomy v l
      have e2 := version_trichotomy v h
      rw [← Bool.not_eq_true, ← Bool.not_eq_true, ← Bool.not_eq_true] at e1 e2
      rw [before_iff_lex, after_iff_lex, equal_iff_eq] at e1 e2
      constructor
      · rintro ((h1 | h1) | ⟨h1, h2⟩)
        · subst h1; exact ⟨List.lt_irrefl _, ho⟩
        · subst h1; exact ⟨ho, List.lt_irrefl _⟩
        · constructor
          · intro h3; exact absurd (List.lt_trans h1 h3) (List.lt_irrefl _)
          · intro h3; exact absurd (List.lt_trans h2 h3) (List.lt_irrefl _)
      · rintro ⟨h1, h2⟩
        rcases e1 with ⟨a, _, _⟩ | ⟨_, b, _⟩ | ⟨_, _, c⟩
        · exact absurd a h1
        · exact Or.inl (Or.inl b)
        · rcases e2 with ⟨a', _, _⟩ | ⟨_, b', _⟩ | ⟨_, _, c'⟩
          · exact Or.inr ⟨c, a'⟩
          · exact Or.inl (Or.inr b')
          · exact absurd c' h2

example : Small ⟨1, 2, 0⟩ ∧ (⟨1, 2, 0⟩ : Version).between ⟨1, 0, 0⟩ (bound (some ⟨1, 2, 0⟩)) = true ∧
    (⟨1, 3, 0⟩ : Version).between ⟨1, 0, 0⟩ (bound (some ⟨1, 2, 0⟩)) = false := by decide

/-- C03 finding: a tag documented as "up to and including `h`" never includes `h` itself. -/
theorem between_upto_excludes_bound (h : Version) (hs : Small h) (h0 : h ≠ Version.zero) :
    h.between (bound none) (bound (some h)) = false := by
  have zh : h.isZero = false := by
    cases hc : h.isZero with
    | false => rfl
    | true => exact absurd ((isZero_iff hs).1 hc) h0
  have z0 : (bound none).isZero = true := by decide
  have hb : h.before h = false := version_total_order.2.2.2.1 h
  have he : h.equal (bound none) = false := by
    cases hc : h.equal (bound none) with
    | false => rfl
    | true => exact absurd ((equal_iff_eq _ _).1 hc) h0
  have hbd : bound (some h) = h := rfl
  unfold between
  simp [zh, z0, he, hbd, hb]

/-- C03 finding: below the bound an upper-only range does behave as documented, so the error is
exactly at the bound. -/
theorem between_upto_strict (v h : Version) (hs : Small v) (h0 : v ≠ Version.zero) :
    v.between (bound none) (bound (some h)) = true ↔ key v < key h := by
  have zh : v.isZero = false := by
    cases hc : v.isZero with
    | false => rfl
    | true => exact absurd ((isZero_iff hs).1 hc) h0
  have z0 : (bound none).isZero = true := by decide
  have he : v.equal (bound none) = false := by
    cases hc : v.equal (bound none) with
    | false => rfl
    | true => exact absurd ((equal_iff_eq _ _).1 hc) h0
  have hbd : bound (some h) = h := rfl
  unfold between
  simp [zh, z0, he, hbd, before_iff_lex]

/-- C03 finding: a field without any version restriction is rejected for every set version, so a
decoder with a version set ignores all unversioned fields. -/
theorem between_unrestricted_rejects (v : Version) (hs : Small v) (h0 : v ≠ Version.zero) :
    v.between (bound none) (bound none) = false ∧ InRange v none none := by
  refine ⟨?_, by simp [InRange]⟩
  cases hb : v.between (bound none) (bound none) with
  | false => rfl
  | true =>
    have := (between_upto_strict v Version.zero hs h0).1 hb
    obtain ⟨v1, v2, v3⟩ := v
    obtain ⟨h1, h2, h3, -⟩ := hs
    simp [key, Version.zero, List.cons_lt_cons_iff] at this h1 h2 h3
    omega

/-- C03: the full statement fails on a concrete version and bound. -/
theorem between_full_statement_false :
    ¬ ∀ (v : Version) (lo hi : Option Version), Small v →
      (v.between (bound lo) (bound hi) = true ↔ (v = Version.zero ∨ InRange v lo hi)) := by
  intro h
  have h1 := (h ⟨1, 0, 0⟩ none (some ⟨1, 0, 0⟩) (by decide)).2 (Or.inr ⟨by simp, by simp [key, List.lt_irrefl]⟩)
  revert h1; decide

example : Small ⟨1, 0, 0⟩ ∧ (⟨1, 0, 0⟩ : Version) ≠ Version.zero := by decide

end Xmp.Props
