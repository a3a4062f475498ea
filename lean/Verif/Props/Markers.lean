import Verif.Model.Markers
import Verif.Props.Rational
import Verif.Props.Media

/-!
# C57: markers and video frame rates
-/

namespace Xmp.Props

open Xmp Xmp.GoStr Xmp.Media Xmp.Codec

/-- A frame rate in use: so many frames (`rate`) in so many seconds (`base`). -/
def Ticking (x : FrameCount) : Prop := 0 < x.rate.rate ∧ 0 < x.rate.base

/-- The time of a count is `count * base / rate` seconds: `x` is before `y`. -/
def Earlier (x y : FrameCount) : Prop :=
  x.count * x.rate.base * y.rate.rate < y.count * y.rate.base * x.rate.rate

instance (x y : FrameCount) : Decidable (Earlier x y) := by unfold Earlier; infer_instance
instance (x : FrameCount) : Decidable (Ticking x) := by unfold Ticking; infer_instance

/-- What is compared: the product of count and rate. -/
theorem isSmaller_iff {x y : FrameCount} (hx : Ticking x) (hy : Ticking y) :
    x.isSmaller y = true ↔
      x.count * x.rate.rate * y.rate.base < y.count * y.rate.rate * x.rate.base := by
  obtain ⟨_, hx⟩ := hx
  obtain ⟨_, hy⟩ := hy
  have vx : x.rate.value = (x.rate.rate, x.rate.base) := by
    unfold FrameRate.value; rw [if_neg (by omega)]
  have vy : y.rate.value = (y.rate.rate, y.rate.base) := by
    unfold FrameRate.value; rw [if_neg (by omega)]
  unfold FrameCount.isSmaller fracLess
  rw [vx, vy]
  simp only [decide_eq_true_eq]
  rw [if_pos (Int.mul_pos hx hy)]

/-- **C57.** Counts of frames with one rate are compared as the times they stand for. -/
theorem marker_same_rate {x y : FrameCount} (hx : Ticking x) (h : x.rate = y.rate) :
    x.isSmaller y = true ↔ Earlier x y := by
  have hy : Ticking y := by unfold Ticking; rw [← h]; exact hx
  rw [isSmaller_iff hx hy]
  unfold Earlier
  rw [← h]
  obtain ⟨h1, h2⟩ := hx
  generalize x.rate.rate = r at *
  generalize x.rate.base = b at *
  rw [Int.mul_right_comm x.count b r, Int.mul_right_comm y.count b r]

example : Ticking ⟨5, ⟨25, 1⟩⟩ ∧ Earlier ⟨5, ⟨25, 1⟩⟩ ⟨7, ⟨25, 1⟩⟩ := by decide

/-- **C57.** For equal counts with different rates the comparison is the wrong way round: whatever is
later counts as smaller. -/
theorem marker_less_reversed {x y : FrameCount} (hx : Ticking x) (hy : Ticking y)
    (h : x.count = y.count) : x.isSmaller y = true ↔ Earlier y x := by
  rw [isSmaller_iff hx hy]
  unfold Earlier
  rw [h]
  rw [Int.mul_right_comm y.count x.rate.rate y.rate.base,
    Int.mul_right_comm y.count y.rate.rate x.rate.base]

/-- **C57.** Ten frames at ten frames in a second (one second) count as less than ten frames at a
hundred frames in a second (a tenth of a second). -/
theorem marker_less_wrong : (⟨10, ⟨10, 1⟩⟩ : FrameCount).isSmaller ⟨10, ⟨100, 1⟩⟩ = true ∧
    Earlier ⟨10, ⟨100, 1⟩⟩ ⟨10, ⟨10, 1⟩⟩ := by decide

/-- **C57.** The mark `maximum` counts as smaller than every count from zero on: markers lasting to
the end of the media are put in front. -/
theorem marker_maximum_first {x y : FrameCount} (hx : Ticking x) (hy : Ticking y)
    (h : x.count = -1) (h0 : 0 ≤ y.count) : x.isSmaller y = true := by
  rw [isSmaller_iff hx hy, h]
  obtain ⟨hx1, hx2⟩ := hx
  obtain ⟨hy1, hy2⟩ := hy
  have h1 : 0 ≤ y.count * y.rate.rate * x.rate.base :=
    Int.mul_nonneg (Int.mul_nonneg h0 (by omega)) (by omega)
  have h2 : 0 < x.rate.rate * y.rate.base := Int.mul_pos hx1 hy2
  rw [Int.neg_mul, Int.neg_mul, Int.one_mul]
  omega

example : FrameCount.parse "maximum".toList = some ⟨-1, ⟨1, 1⟩⟩ ∧ Ticking ⟨-1, ⟨1, 1⟩⟩ := by
  decide +kernel

/-! ### Sorting -/

/-- All rates are in use. -/
def AllTicking (l : List Marker) : Prop := ∀ m ∈ l, Ticking m.start

theorem marker_less_iff {x y : Marker} (hx : Ticking x.start) (hy : Ticking y.start) :
    x.less y = true ↔ x.start.count * x.start.rate.rate * y.start.rate.base <
      y.start.count * y.start.rate.rate * x.start.rate.base := isSmaller_iff hx hy

/-- `Not less` is transitive: comparing two fractions by way of a third. -/
theorem marker_not_less_trans {a b c : Marker} (ha : Ticking a.start) (hb : Ticking b.start)
    (hc : Ticking c.start) (h1 : b.less a = false) (h2 : c.less b = false) : c.less a = false := by
  have h1' := mt (marker_less_iff hb ha).mpr (by simp [h1])
  have h2' := mt (marker_less_iff hc hb).mpr (by simp [h2])
  have h3' : ¬ (c.start.count * c.start.rate.rate * a.start.rate.base <
      a.start.count * a.start.rate.rate * c.start.rate.base) := by
    obtain ⟨_, ha⟩ := ha
    obtain ⟨_, hb⟩ := hb
    obtain ⟨_, hc⟩ := hc
    generalize a.start.count * a.start.rate.rate = p at *
    generalize b.start.count * b.start.rate.rate = q at *
    generalize c.start.count * c.start.rate.rate = r at *
    generalize a.start.rate.base = x at *
    generalize b.start.rate.base = y at *
    generalize c.start.rate.base = z at *
    simp only [Int.not_lt] at *
    -- p*y ≤ q*x, q*z ≤ r*y; so p*y*z ≤ q*x*z ≤ r*y*x
    have e1 : p * y * z ≤ q * x * z := Int.mul_le_mul_of_nonneg_right h1' (by omega)
    have e2 : q * z * x ≤ r * y * x := Int.mul_le_mul_of_nonneg_right h2' (by omega)
    have e3 : (p * z) * y ≤ (r * x) * y := by
      have a1 : (p * z) * y = p * y * z := Int.mul_right_comm _ _ _
      have a2 : (r * x) * y = r * y * x := Int.mul_right_comm _ _ _
      have a3 : q * x * z = q * z * x := Int.mul_right_comm _ _ _
      omega
    exact Int.le_of_mul_le_mul_right e3 hb
  cases h : c.less a with
  | false => rfl
  | true => exact absurd ((marker_less_iff hc ha).mp h) h3'

/-- Neighbours in order are all in order. -/
theorem marker_pairwise : ∀ (l : List Marker), AllTicking l →
    (∀ i a b, l[i]? = some a → l[i + 1]? = some b → b.less a = false) →
    l.Pairwise (fun a b => b.less a = false)
  | [], _, _ => .nil
  | [a], _, _ => by simp
  | a :: b :: l, ht, h => by
    have ih := marker_pairwise (b :: l) (fun m hm => ht m (by simp [hm])) (by
      intro i x y hx hy
      exact h (i + 1) x y (by simpa using hx) (by simpa using hy))
    have hab : b.less a = false := h 0 a b rfl rfl
    rw [List.pairwise_cons]
    refine ⟨?_, ih⟩
    intro c hc
    rcases List.mem_cons.mp hc with hc | hc
    · rw [hc]; exact hab
    · exact marker_not_less_trans (ht a (by simp)) (ht b (by simp)) (ht c (by simp [hc])) hab
        ((List.pairwise_cons.mp ih).1 c hc)

/-- **C57.** Sorting markers that share one rate puts them in the order of time and loses none,
whichever outcome the sorting library chooses. -/
theorem marker_sort_partial {x y : List Marker} {r : FrameRate} (h : SortOutcome x y)
    (hr : ∀ m ∈ x, m.start.rate = r) (hpos : 0 < r.rate ∧ 0 < r.base) :
    y.Perm x ∧ y.Pairwise (fun a b => ¬ Earlier b.start a.start) := by
  have hy : ∀ m ∈ y, m.start.rate = r := fun m hm => hr m (h.1.mem_iff.mp hm)
  have ht : AllTicking y := fun m hm => by
    unfold Ticking; rw [hy m hm]; exact hpos
  refine ⟨h.1, ?_⟩
  have hp := marker_pairwise y ht h.2
  refine hp.imp_of_mem ?_
  intro a b ha hb hlt he
  have := (marker_same_rate (ht b hb) (by rw [hy a ha, hy b hb])).mpr he
  unfold Marker.less at hlt
  rw [this] at hlt
  cases hlt

example : SortOutcome [⟨[], ⟨7, ⟨25, 1⟩⟩, []⟩, ⟨[], ⟨5, ⟨25, 1⟩⟩, []⟩]
    [⟨[], ⟨5, ⟨25, 1⟩⟩, []⟩, ⟨[], ⟨7, ⟨25, 1⟩⟩, []⟩] := by
  refine ⟨List.Perm.swap _ _ _, ?_⟩
  intro i a b ha hb
  match i with
  | 0 =>
    simp at ha hb
    subst ha hb
    decide
  | i + 1 => simp at hb

/-- **C57.** There is an outcome for every list of markers with rates in use. -/
theorem marker_sort_exists {x : List Marker} (ht : AllTicking x) : ∃ y, SortOutcome x y := by
  induction x with
  | nil => exact ⟨[], List.Perm.nil, by intro i a b h; simp at h⟩
  | cons m x ih =>
    obtain ⟨y, hp, hs⟩ := ih (fun n hn => ht n (by simp [hn]))
    have hy : AllTicking y := fun n hn => ht n (by simp [hp.mem_iff.mp hn])
    have hm := ht m (by simp)
    have hpw := marker_pairwise y hy hs
    -- insert in front of the first that is not less
    have key : ∀ (y : List Marker), AllTicking y → y.Pairwise (fun a b => b.less a = false) →
        ∃ z : List Marker, z.Perm (m :: y) ∧ z.Pairwise (fun a b => b.less a = false) := by
      intro y
      induction y with
      | nil => intro _ _; exact ⟨[m], List.Perm.refl _, by simp⟩
      | cons a y ih =>
        intro hy hpw
        rw [List.pairwise_cons] at hpw
        by_cases hl : a.less m = true
        · obtain ⟨z, hz, hzp⟩ := ih (fun n hn => hy n (by simp [hn])) hpw.2
          refine ⟨a :: z, ?_, ?_⟩
          · exact (hz.cons a).trans (List.Perm.swap _ _ _)
          · rw [List.pairwise_cons]
            refine ⟨?_, hzp⟩
            intro b hb
            rcases List.mem_cons.mp (hz.mem_iff.mp hb) with hb | hb
            · rw [hb]
              have h1 := (marker_less_iff (hy a (by simp)) hm).mp hl
              cases h : m.less a with
              | false => rfl
              | true =>
                have h2 := (marker_less_iff hm (hy a (by simp))).mp h
                omega
            · exact hpw.1 b hb
        · refine ⟨m :: a :: y, List.Perm.refl _, ?_⟩
          rw [List.pairwise_cons]
          have hl : a.less m = false := by simpa using hl
          refine ⟨?_, List.pairwise_cons.mpr hpw⟩
          intro b hb
          rcases List.mem_cons.mp hb with hb | hb
          · rw [hb]; exact hl
          · exact marker_not_less_trans hm (hy a (by simp)) (hy b (by simp [hb])) hl (hpw.1 b hb)
    obtain ⟨z, hz, hzp⟩ := key y hy hpw
    refine ⟨z, hz.trans (hp.cons m), ?_⟩
    intro i a b ha hb
    obtain ⟨h1, rfl⟩ := List.getElem?_eq_some_iff.mp ha
    obtain ⟨h2, rfl⟩ := List.getElem?_eq_some_iff.mp hb
    exact List.pairwise_iff_getElem.mp hzp i (i + 1) h1 h2 (by omega)

example : AllTicking [⟨[], ⟨7, ⟨25, 1⟩⟩, []⟩, ⟨[], ⟨5, ⟨30000, 1001⟩⟩, []⟩] := by
  intro m hm
  simp at hm
  rcases hm with rfl | rfl <;> decide

/-- **C57.** Two markers with equal positive counts and different rates are always sorted the wrong
way round: the only outcome has the later one first. -/
theorem marker_sort_wrong {a b : Marker} (ha : Ticking a.start) (hb : Ticking b.start)
    (hc : a.start.count = b.start.count) (he : Earlier a.start b.start) {y : List Marker}
    (h : SortOutcome [a, b] y) : y = [b, a] := by
  have hlt : b.less a = true := (marker_less_reversed hb ha hc.symm).mpr he
  have hlen := h.1.length_eq
  match y, hlen with
  | [u, v], _ =>
    have hs := h.2 0 u v rfl rfl
    have hmem : ∀ m ∈ [u, v], m = a ∨ m = b := fun m hm => by simpa using h.1.mem_iff.mp hm
    have hab : a ≠ b := by
      intro e; rw [e] at he; unfold Earlier at he; omega
    have hu := hmem u (by simp)
    have hv := hmem v (by simp)
    have hnd : [u, v].Nodup := h.1.nodup_iff.mpr (by simp [hab])
    have huv : u ≠ v := by simpa using hnd
    rcases hu with rfl | rfl <;> rcases hv with rfl | rfl
    · exact absurd rfl huv
    · rw [hlt] at hs; cases hs
    · rfl
    · exact absurd rfl huv

example : Ticking ⟨10, ⟨100, 1⟩⟩ ∧ Ticking ⟨10, ⟨10, 1⟩⟩ ∧ Earlier ⟨10, ⟨100, 1⟩⟩ ⟨10, ⟨10, 1⟩⟩ := by
  decide

/-! ### Filtering -/

/-- **C57.** Filtering keeps exactly the markers with at least one of the types, in their order. -/
theorem marker_filter (x : List Marker) (types : List Str) :
    (∀ m, m ∈ filterMarkers x types ↔ m ∈ x ∧ ∃ t ∈ types, hasType m.types t = true) ∧
    (filterMarkers x types).Sublist x ∧
    (∀ m, (∃ t ∈ types, t ∈ m.types) → (filterMarkers x types).count m = x.count m) := by
  have key : ∀ m : Marker, 0 < (intersect types m.types).length ↔ ∃ t ∈ types, t ∈ m.types := by
    intro m
    rw [List.length_pos_iff_exists_mem]
    unfold intersect
    simp only [List.mem_filter, List.contains_iff_mem]
    constructor
    · rintro ⟨t, h1, h2⟩; exact ⟨t, h2, h1⟩
    · rintro ⟨t, h1, h2⟩; exact ⟨t, h2, h1⟩
  refine ⟨?_, List.filter_sublist, ?_⟩
  · intro m
    unfold filterMarkers hasType
    simp only [List.mem_filter, decide_eq_true_eq, key, List.any_eq_true, beq_iff_eq, exists_eq_right]
  · intro m hm
    unfold filterMarkers
    rw [List.count_filter]
    simpa using (key m).mpr hm

/-- **C57.** Without types to look for no marker is found. -/
theorem marker_filter_none (x : List Marker) : filterMarkers x [] = [] := by
  unfold filterMarkers intersect
  rw [List.filter_eq_nil_iff]
  simp

/-- **C57.** The common types are those of the second list that stand in the first, in the order of
the second and as often as there. -/
theorem marker_intersect (x y : List Str) :
    (∀ t, t ∈ intersect x y ↔ t ∈ x ∧ t ∈ y) ∧ (intersect x y).Sublist y ∧
    ∀ t ∈ x, (intersect x y).count t = y.count t := by
  unfold intersect
  refine ⟨?_, List.filter_sublist, ?_⟩
  · intro t
    simp [List.mem_filter, and_comm]
  · intro t ht
    rw [List.count_filter]
    simpa using ht

/-! ### Video frame rates -/

/-- **C57.** Whole numbers and fractions are read as they are. -/
theorem video_rate_numbers (dec : Str → Option Rational) (float : Str → Option (Int × Int))
    {n d : Int} (hn : InI64 n) (hd : InI64 d) (h0 : d ≠ 0) :
    videoRate dec float (itoa n) = some (n, 1) ∧
    videoRate dec float (Rational.text ⟨n, d⟩) = some (n, d) := by
  have hup : ∀ (s : Str), (∀ c ∈ s, isDigit c = true ∨ c = '-' ∨ c = '/') → s ≠ [] →
      s.map upperChar ≠ "NTSC".toList ∧ s.map upperChar ≠ "PAL".toList := by
    intro s hs hne
    match s, hne with
    | c :: s, _ =>
      have hc := hs c (by simp)
      have hcu : upperChar c = c := by
        unfold upperChar
        rw [if_neg]
        rcases hc with hc | rfl | rfl
        · simp [isDigit] at hc; omega
        · decide
        · decide
      have hne : c ≠ 'N' ∧ c ≠ 'P' := by
        constructor <;> rintro rfl <;> revert hc <;> decide
      constructor
      · intro h
        rw [List.map_cons, hcu] at h
        injection h with h _; exact hne.1 h
      · intro h
        rw [List.map_cons, hcu] at h
        injection h with h _; exact hne.2 h
  have hit : ∀ i : Int, ∀ c ∈ itoa i, isDigit c = true ∨ c = '-' := by
    intro i c hc
    cases hcd : isDigit c with
    | true => exact Or.inl rfl
    | false =>
      right
      by_contra hm
      exact itoa_not_mem hcd hm i hc
  have hne : itoa n ≠ [] := by
    intro h
    have := atoi_itoa hn
    rw [h, show atoi [] = none from by decide] at this
    cases this
  unfold videoRate
  constructor
  · have h := hup (itoa n) (fun c hc => by rcases hit n c hc with h | h <;> simp [h]) hne
    rw [if_neg h.1, if_neg h.2, rational_whole dec _ hn]
    simp [ratValue]
  · have h := hup (Rational.text ⟨n, d⟩) (by
      intro c hc
      unfold Rational.text at hc
      simp only [List.mem_append, List.mem_cons] at hc
      rcases hc with hc | rfl | hc
      · rcases hit n c hc with h | h <;> simp [h]
      · simp
      · rcases hit d c hc with h | h <;> simp [h]) (by unfold Rational.text; simp)
    rw [if_neg h.1, if_neg h.2, rational_roundtrip dec _ (r := ⟨n, d⟩) hn hd]
    simp [ratValue, h0]

example : InI64 30000 ∧ InI64 1001 ∧ (1001 : Int) ≠ 0 := by unfold InI64; decide

/-- **C57.** The names of the television norms, in small or capital letters. -/
theorem video_rate_names (dec : Str → Option Rational) (float : Str → Option (Int × Int)) :
    videoRate dec float "NTSC".toList = some (2997, 100) ∧
    videoRate dec float "ntsc".toList = some (2997, 100) ∧
    videoRate dec float "PAL".toList = some (25, 1) ∧
    videoRate dec float "Pal".toList = some (25, 1) := by
  refine ⟨?_, ?_, ?_, ?_⟩ <;> rfl

/-- **C57.** A rate is read with the unit behind it: whatever the number reader makes of the number
alone. -/
theorem video_rate_unit (dec : Str → Option Rational) (float : Str → Option (Int × Int)) :
    videoRate dec float "25 fps".toList = float "25".toList ∧
    videoRate dec float "25fps".toList = float "25".toList ∧
    videoRate dec float "50i".toList = float "50".toList ∧
    videoRate dec float "24p".toList = float "24".toList := by
  refine ⟨?_, ?_, ?_, ?_⟩ <;> rfl

/-- **C57.** A text without a number, and a fraction with the denominator zero, are read as one frame
in a second instead of being refused. -/
theorem video_rate_one (dec : Str → Option Rational) (float : Str → Option (Int × Int)) {n : Int}
    (hn : InI64 n) :
    videoRate dec float [] = some (1, 1) ∧
    videoRate dec float (Rational.text ⟨n, 0⟩) = some (1, 1) := by
  constructor
  · rfl
  · have key : ∀ s : Str, '/' ∈ s → s.map upperChar ≠ "NTSC".toList ∧ s.map upperChar ≠ "PAL".toList := by
      intro s hs
      have hm : '/' ∈ s.map upperChar := List.mem_map.mpr ⟨'/', hs, by decide⟩
      constructor
      · intro h; rw [h] at hm; revert hm; decide
      · intro h; rw [h] at hm; revert hm; decide
    have h := key (Rational.text ⟨n, 0⟩) (by unfold Rational.text; simp)
    unfold videoRate
    rw [if_neg h.1, if_neg h.2, rational_roundtrip dec _ (r := ⟨n, 0⟩) hn (by unfold InI64; simp only; decide)]
    rfl

end Xmp.Props
