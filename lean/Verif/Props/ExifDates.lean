import Verif.Model.Exif
import Verif.Props.Dates
import Verif.Props.Codec

/-! C54: Exif dates as text, and Exif tags and XMP properties that stand for the same thing. -/

namespace Xmp.Props

open GoStr Exif

/-! ### Dates as text -/

/-- The layouts of dates in Exif data and of the same dates in XMP. -/
def exifLayouts : List Str :=
  ["2006-01-02T15:04:05.999999999", "2006-01-02T15:04:05.999999999Z07:00", "2006-01-02T15:04:05.999999999Z", "2006-01-02T15:04:05Z",
   "2006-01-02T15:04:05", "2006-01-02T15:04", "2006:01:02 15:04:05.999999999-07:00", "2006:01:02 15:04:05-07:00",
   "2006:01:02 15:04:05", "2006:01:02 15:04", "2006:01:02", "2006:01", "2006"].map String.toList

theorem exif_layouts_read : ∀ l ∈ exifLayouts, forShapes (layoutToks l) (fun k n u => decide (symText (layoutToks l) k n u ≠ []) &&
    decide (symFirst false (symText (layoutToks l) k n u) (exifDateFormats.map layoutToks) = some (some (expect (layoutToks l) k n u)))) = true := by
  decide +kernel

theorem exif_no_year2 : ∀ l ∈ exifLayouts, .year2 ∉ layoutToks l := by decide +kernel

/-- Texts of all layouts are read as what they say about the date. -/
theorem exif_date_read {l : Str} (hl : l ∈ exifLayouts) {t : GoTime} (h : ValidDate t) (old : GoTime) :
    exifDateParse old (t.format l) = some (seen (layoutToks l) t) := by
  obtain ⟨k, hk9, hk, hf, hr⟩ := forShapes_sound h (exif_layouts_read l hl)
  simp only [Bool.and_eq_true, decide_eq_true_eq] at hr
  rw [hf, exifDateParse, if_neg (by rw [List.map_eq_nil_iff]; exact hr.1), first_sound h (fun hy => by cases hy) _ _ hr.2, Option.map_some,
    expect_time h (fun hy => absurd hy (exif_no_year2 l hl)) hk9 hk]

theorem exif_layout_known : exifDateLayout ∈ exifLayouts ∧ layoutToks exifDateLayout =
    [.year4, .lit ':', .month, .lit ':', .day, .lit ' ', .hour, .lit ':', .min, .lit ':', .sec] := by
  refine ⟨?_, ?_⟩ <;> decide +kernel

/-- Exif dates survive as text and in documents up to fractions of a second and the zone, which Exif keeps elsewhere. -/
theorem exif_date_roundtrip_partial {t : GoTime} (h : ValidDate t) (old : GoTime) :
    exifDateParse old (exifDateXMP t) = some { t with nsec := 0, off := 0 } ∧
    (t.isZero = false → exifDateText t = some (exifDateXMP t)) := by
  refine ⟨?_, fun hz => by rw [exifDateText, hz]; rfl⟩
  obtain ⟨h1, h2⟩ := exif_layout_known
  rw [exifDateXMP, exif_date_read h1 h old]
  have hn := h.nsec
  have h0 : fracDigits (layoutToks exifDateLayout) = 0 := by rw [h2]; rfl
  unfold seen
  rw [h0]
  have hz : t.nsec / 10 ^ (9 - 0) * 10 ^ (9 - 0) = 0 := by omega
  rw [hz]
  simp [h2]

example : exifDateParse {} (exifDateXMP { year := 2017, month := 2, day := 28, hour := 23, min := 5, sec := 9 }) =
    some { year := 2017, month := 2, day := 28, hour := 23, min := 5, sec := 9 } :=
  (exif_date_roundtrip_partial (t := { year := 2017, month := 2, day := 28, hour := 23, min := 5, sec := 9 })
    ⟨by decide, by decide, by decide +kernel, by decide, by decide, by decide, by decide, by decide⟩ {}).1

/-- A date with a zone other than UTC becomes another moment: the clock is kept and the zone is not. -/
theorem exif_date_zone_lost {t : GoTime} (h : ValidDate t) (ho : t.off ≠ 0) (old : GoTime) :
    ∃ u, exifDateParse old (exifDateXMP t) = some u ∧ u.seconds ≠ t.seconds := by
  refine ⟨_, (exif_date_roundtrip_partial h old).1, ?_⟩
  simp only [GoTime.seconds]
  omega

/-! ### Sub-seconds -/

/-- The digits of a sub-second tag stand for the first digits behind the point: the number of nanoseconds. -/
def SubSec (s : Str) (ns : Nat) : Prop :=
  ∃ ds : List Nat, ds ≠ [] ∧ (∀ d ∈ ds, d < 10) ∧ s = ds.map digitChar ∧ ds.length ≤ 9 ∧ ns = decVal ds * 10 ^ (9 - ds.length)

theorem natDigits_length : ∀ f n, n < f → n < 10 ^ (natDigits f n).length ∧ (n ≠ 0 → 10 ^ ((natDigits f n).length - 1) ≤ n) := by
  intro f
  induction f with
  | zero => intro n h; omega
  | succ f ih =>
    intro n h
    unfold natDigits
    by_cases h10 : n < 10
    · rw [if_pos h10]
      simp only [List.length_singleton]
      exact ⟨by omega, fun _ => by simp; omega⟩
    · rw [if_neg h10, List.length_append, List.length_singleton]
      obtain ⟨h1, h2⟩ := ih (n / 10) (by omega)
      have h2 := h2 (by omega)
      have hpos : 0 < (natDigits f (n / 10)).length := by
        cases f with
        | zero => omega
        | succ f => exact List.length_pos_iff.2 (natDigits_ne_nil f _)
      generalize (natDigits f (n / 10)).length = L at *
      obtain ⟨M, rfl⟩ : ∃ M, L = M + 1 := ⟨L - 1, by omega⟩
      have e1 : (10 : Nat) ^ (M + 1 + 1) = 10 * 10 ^ (M + 1) := by rw [Nat.pow_succ (n := 10) (m := M + 1), Nat.mul_comm]
      have e2 : (10 : Nat) ^ (M + 1) = 10 * 10 ^ M := by rw [Nat.pow_succ, Nat.mul_comm]
      simp only [Nat.add_sub_cancel] at h2 ⊢
      exact ⟨by omega, fun _ => by omega⟩

theorem subSec_natToStr {n m : Nat} (h : SubSec (natToStr n) m) : (natToStr n).length ≤ 9 ∧ m = n * 10 ^ (9 - (natToStr n).length) := by
  obtain ⟨ds, h1, h2, h3, h4, h5⟩ := h
  have hp := (parseNat_iff (natToStr n) (decVal ds)).2 ⟨ds, h1, h2, h3, rfl⟩
  rw [parseNat_natToStr] at hp
  have hl : (natToStr n).length = ds.length := by rw [h3, List.length_map]
  rw [hl]
  exact ⟨h4, by rw [h5, Option.some.inj hp]⟩

/-- The sub-seconds that are taken from a date are right only if there are none or at least a tenth of a second: zeros
behind the point are dropped. -/
theorem exif_subsec_iff {x : GoTime} (hz : x.isZero = false) (hn : x.nsec < 10 ^ 9) (old : GoTime × Str) :
    SubSec (fromXmpDate old x).2 x.nsec ↔ x.nsec = 0 ∨ 10 ^ 8 ≤ x.nsec := by
  have he : (fromXmpDate old x).2 = natToStr x.nsec := by
    rw [fromXmpDate, hz, if_neg (by decide)]
    show itoa (x.nsec : Int) = _
    unfold itoa
    rw [if_neg (by omega)]
    rfl
  rw [he]
  obtain ⟨l1, l2⟩ := natDigits_length (x.nsec + 1) x.nsec (by omega)
  change x.nsec < 10 ^ (natToStr x.nsec).length at l1
  change x.nsec ≠ 0 → 10 ^ ((natToStr x.nsec).length - 1) ≤ x.nsec at l2
  constructor
  · intro h
    obtain ⟨h9, hv⟩ := subSec_natToStr h
    by_cases h0 : x.nsec = 0
    · exact Or.inl h0
    · right
      have hlen : (natToStr x.nsec).length = 9 := by
        by_contra hne
        have hk : 10 ^ 1 ≤ 10 ^ (9 - (natToStr x.nsec).length) := Nat.pow_le_pow_right (by decide) (by omega)
        have : x.nsec * 10 ^ 1 ≤ x.nsec * 10 ^ (9 - (natToStr x.nsec).length) := Nat.mul_le_mul_left _ hk
        omega
      have := l2 h0
      rw [hlen] at this
      exact this
  · intro h
    obtain ⟨ds, h1, h2, h3, h4⟩ := (parseNat_iff _ _).1 (parseNat_natToStr x.nsec)
    have hl : (natToStr x.nsec).length = ds.length := by
      have := congrArg List.length h3
      rwa [List.length_map] at this
    have hlen : (natToStr x.nsec).length ≤ 9 := by
      by_contra hgt
      by_cases h0 : x.nsec = 0
      · rw [h0] at hgt; exact hgt (by decide)
      · have := l2 h0
        have hk : 10 ^ 9 ≤ 10 ^ ((natToStr x.nsec).length - 1) := Nat.pow_le_pow_right (by decide) (by omega)
        omega
    refine ⟨ds, h1, h2, h3, by omega, ?_⟩
    rw [← h4]
    rcases h with h0 | h8
    · rw [h0, Nat.zero_mul]
    · have : ¬ (natToStr x.nsec).length ≤ 8 := by
        intro hle
        have hk : 10 ^ (natToStr x.nsec).length ≤ 10 ^ 8 := Nat.pow_le_pow_right (by decide) hle
        omega
      rw [show 9 - ds.length = 0 by omega, Nat.pow_zero, Nat.mul_one]

example : SubSec (fromXmpDate ({}, []) { year := 2017, nsec := 250000000 }).2 250000000 ∧
    ¬ SubSec (fromXmpDate ({}, []) { year := 2017, nsec := 50000000 }).2 50000000 :=
  ⟨(exif_subsec_iff (x := { year := 2017, nsec := 250000000 }) (by decide +kernel) (by decide) _).2 (Or.inr (by decide)),
   fun h => absurd ((exif_subsec_iff (x := { year := 2017, nsec := 50000000 }) (by decide +kernel) (by decide) _).1 h) (by decide)⟩

/-- Sub-seconds of Exif are never taken over: whatever they are, the date is left as it is.  When there are none, this is
reported as an error, which is ignored. -/
theorem exif_subsec_ignored {d : GoTime} (hz : d.isZero = false) (old : GoTime) (s : Str) :
    toXmpDate old d s = d ∧ ((convertDate d s).2 = true ↔ trimSpace s = []) := by
  have hc : convertDate d s = (d, decide (trimSpace s = [])) := by
    unfold convertDate
    rw [hz, if_neg (by decide)]
    by_cases h : trimSpace s = []
    · simp only [h]; rfl
    · simp [h]
  rw [toXmpDate, hz, if_neg (by decide), hc]
  simp

/-- The zero date stands for no date: the property is left alone. -/
theorem exif_no_date {d : GoTime} (hz : d.isZero = true) (old : GoTime) (s : Str) : toXmpDate old d s = old := by
  rw [toXmpDate, if_pos hz]

example : toXmpDate {} { year := 2017, sec := 7 } "25".toList = { year := 2017, sec := 7 } :=
  (exif_subsec_ignored (by decide +kernel) {} _).1

/-! ### Artists and software -/

/-- One creator, without separators, survives. -/
theorem exif_artist_roundtrip_partial (old : List Str) {a : Str} (hne : a ≠ []) (ha : ';' ∉ a) :
    toXmpArtists old (fromXmpArtists [a]) = [a] := by
  rw [fromXmpArtists, join, toXmpArtists, if_pos hne]
  have := split_join (c := ';') (l := [a]) (by simp) (by simpa using ha)
  rwa [join] at this

/-- Several creators become one. -/
theorem exif_artists_merged (old : List Str) {l : List Str} (h2 : 2 ≤ l.length) (hl : ∀ a ∈ l, ';' ∉ a) :
    toXmpArtists old (fromXmpArtists l) = [join [','] l] ∧ toXmpArtists old (fromXmpArtists l) ≠ l := by
  have hj : ';' ∉ join [','] l := by
    clear h2
    induction l with
    | nil => simp [join]
    | cons a l ih =>
      have h1 := hl a (List.mem_cons_self ..)
      have ih := ih (fun x hx => hl x (List.mem_cons_of_mem _ hx))
      cases l with
      | nil => simpa [join] using h1
      | cons b l =>
        rw [join]
        · simp only [List.mem_append, List.mem_singleton, not_or]
          exact ⟨⟨h1, by decide⟩, ih⟩
        · simp
  have hne : join [','] l ≠ [] := by
    match l, h2 with
    | a :: b :: l, _ => rw [join] <;> simp
  have : toXmpArtists old (fromXmpArtists l) = [join [','] l] := by
    rw [fromXmpArtists, toXmpArtists, if_pos hne]
    have := split_join (c := ';') (l := [join [','] l]) (by simp) (by simpa using hj)
    rwa [join] at this
  refine ⟨this, fun he => ?_⟩
  rw [this] at he
  rw [← he] at h2
  simp at h2

example : toXmpArtists [] (fromXmpArtists ["Ann".toList, "Bob".toList]) = ["Ann,Bob".toList] :=
  (exif_artists_merged [] (by decide) (by decide)).1

/-- The tool of a document is never taken over as software; a document without one erases the software. -/
theorem exif_software_wrong (sw tool : Str) :
    fromXmpSoftware sw tool = if tool = [] then [] else sw := by
  unfold fromXmpSoftware
  split
  · rename_i h; rw [h]
  · rfl

theorem exif_software_lost : ∃ sw tool, tool ≠ [] ∧ fromXmpSoftware sw tool ≠ tool ∧ sw ≠ [] ∧ fromXmpSoftware sw [] = [] :=
  ⟨"a".toList, "b".toList, by decide, by decide, by decide, rfl⟩

/-- Software is taken over as tool of the document, but never replaces one. -/
theorem exif_software_to_tool (sw tool : Str) :
    toXmpSoftware tool sw = if tool = [] then sw else tool := by
  unfold toXmpSoftware
  by_cases h : tool = []
  · subst h
    by_cases hs : sw = []
    · simp [hs]
    · simp [hs]
  · simp [h]

end Xmp.Props
