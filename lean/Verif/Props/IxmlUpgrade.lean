import Verif.Props.Ixml

/-!
# C56: the upgrade of old iXML chunks, the start timecode and the exchange
-/

namespace Xmp.Props

open Xmp Xmp.GoStr Xmp.Ixml

/-! ### Upgrade -/

theorem ixml_v13_rest (x : Chunk) :
    v13 x = { x with points := (v13 x).points, preCount := (v13 x).preCount } := by
  unfold v13
  split
  · split <;> rfl
  · rfl

theorem ixml_v1x_rest (x : Chunk) :
    v1x x = { x with takeType := (v1x x).takeType, notGood := false, falseStart := false,
                     wildTrack := false, comment := x.comment.map trimSpace } := by
  unfold v1x
  cases h1 : x.notGood <;> cases h2 : x.falseStart <;> cases h3 : x.wildTrack <;> simp [h1, h2, h3]

theorem ixml_v1x_mem (x : Chunk) (t : Str) :
    t ∈ (v1x x).takeType ↔ t ∈ x.takeType ∨ (x.notGood ∧ t = "NO_GOOD".toList) ∨
      (x.falseStart ∧ t = "FALSE_START".toList) ∨ (x.wildTrack ∧ t = "WILD_TRACK".toList) := by
  unfold v1x
  cases h1 : x.notGood <;> cases h2 : x.falseStart <;> cases h3 : x.wildTrack <;>
    simp only [h1, h2, h3, if_true, if_false, Bool.false_eq_true, ixml_add_mem, false_and, true_and,
      or_false, false_or, or_assoc]

/-- **C56.** After the upgrade of an old chunk the take has exactly the types that it had and those
that the old marks stand for; the marks are cleared. -/
theorem ixml_upgrade_takes (x : Chunk) (t : Str) :
    (Ixml.contains (upgrade x).takeType t = true ↔
      t ∈ x.takeType ∨ (x.notGood ∧ t = "NO_GOOD".toList) ∨
      (x.falseStart ∧ t = "FALSE_START".toList) ∨ (x.wildTrack ∧ t = "WILD_TRACK".toList)) ∧
    (upgrade x).notGood = false ∧ (upgrade x).falseStart = false ∧ (upgrade x).wildTrack = false := by
  unfold upgrade
  refine ⟨?_, ?_, ?_, ?_⟩
  · rw [ixml_contains, ixml_v1x_mem, ixml_v13_rest]
  all_goals rw [ixml_v1x_rest]

/-- **C56.** The types that were there keep their order and stand first. -/
theorem ixml_upgrade_types_first (x : Chunk) : x.takeType <+: (upgrade x).takeType := by
  have key : ∀ (l : List Str) (t : Str), l <+: Ixml.add l t := by
    intro l t
    unfold Ixml.add
    split
    · exact List.prefix_rfl
    · exact List.prefix_append _ _
  have h13 : (v13 x).takeType = x.takeType := by rw [ixml_v13_rest]
  rw [← h13]
  unfold upgrade
  generalize v13 x = y
  unfold v1x
  cases h1 : y.notGood <;> cases h2 : y.falseStart <;> cases h3 : y.wildTrack <;>
    simp only [h1, h2, h3, if_true, if_false, Bool.false_eq_true]
  · exact List.prefix_rfl
  · exact key _ _
  · exact key _ _
  · exact (key _ _).trans (key _ _)
  · exact key _ _
  · exact (key _ _).trans (key _ _)
  · exact (key _ _).trans (key _ _)
  · exact ((key _ _).trans (key _ _)).trans (key _ _)

/-- **C56.** Nothing else is changed by the upgrade, and the version stays the old one. -/
theorem ixml_upgrade_keeps (x : Chunk) :
    (upgrade x).version = x.version ∧ (upgrade x).project = x.project ∧
    (upgrade x).scene = x.scene ∧ (upgrade x).roll = x.roll ∧ (upgrade x).take = x.take ∧
    (upgrade x).circled = x.circled ∧ (upgrade x).note = x.note ∧
    (upgrade x).comment = x.comment.map trimSpace := by
  unfold upgrade
  rw [ixml_v1x_rest, ixml_v13_rest]
  simp

theorem containsFunc_found (f : Str) : ∀ (l : List SyncPoint) (i : Nat),
    ((∀ p ∈ l, p.function ≠ f) ∧ containsFunc f l i = none) ∨
    ∃ a p b, l = a ++ p :: b ∧ (∀ q ∈ a, q.function ≠ f) ∧ p.function = f ∧
      containsFunc f l i = some (i + a.length)
  | [], _ => Or.inl ⟨by simp, rfl⟩
  | v :: l, i => by
    rw [containsFunc]
    by_cases h : v.function = f
    · right
      exact ⟨[], v, l, rfl, by simp, h, by rw [if_pos h]; simp⟩
    · rw [if_neg h]
      rcases containsFunc_found f l (i + 1) with ⟨h1, e⟩ | ⟨a, p, b, h1, h2, h3, e⟩
      · left
        refine ⟨?_, e⟩
        intro p hp
        rcases List.mem_cons.mp hp with hp | hp
        · rw [hp]; exact h
        · exact h1 p hp
      · right
        refine ⟨v :: a, p, b, by rw [h1]; rfl, ?_, h3, ?_⟩
        · intro q hq
          rcases List.mem_cons.mp hq with hq | hq
          · rw [hq]; exact h
          · exact h2 q hq
        · rw [e]; simp; omega

theorem ixml_upgrade_points_eq (x : Chunk) :
    (upgrade x).points = (v13 x).points ∧ (upgrade x).preCount = (v13 x).preCount := by
  unfold upgrade
  rw [ixml_v1x_rest]
  exact ⟨rfl, rfl⟩

/-- The number of samples that a sync point stands for: two halves of 32 bits. -/
def IxmlSamples (p : SyncPoint) : Int := p.high * 2 ^ 32 + p.low

/-- **C56.** A count of samples recorded in advance becomes a sync point after the others if there is
none for it, with that count; the old field is cleared.  A chunk without count keeps its points.
(If there is one already see `ixml_upgrade_high`.) -/
theorem ixml_upgrade_count_partial (x : Chunk) :
    (x.preCount ≤ 0 → (upgrade x).points = x.points ∧ (upgrade x).preCount = x.preCount) ∧
    (0 < x.preCount → (upgrade x).preCount = 0 ∧
      ((∀ p ∈ x.points, p.function ≠ preRecord) →
        ∃ p, (upgrade x).points = x.points ++ [p] ∧ p.function = preRecord ∧
          p.type = "RELATIVE".toList ∧ IxmlSamples p = x.preCount)) := by
  rw [(ixml_upgrade_points_eq x).1, (ixml_upgrade_points_eq x).2]
  unfold v13
  refine ⟨fun h => ?_, fun h => ?_⟩
  · rw [if_neg (by omega)]; exact ⟨rfl, rfl⟩
  · rw [if_pos h]
    rcases containsFunc_found preRecord x.points 0 with ⟨_, e⟩ | ⟨a, p, b, h1, _, h3, e⟩
    · rw [e]
      refine ⟨rfl, fun _ => ⟨_, rfl, rfl, rfl, ?_⟩⟩
      simp [IxmlSamples]
    · rw [e]
      refine ⟨rfl, fun hn => ?_⟩
      exact absurd h3 (hn p (by rw [h1]; simp))

example : (0 : Int) < 48000 ∧ ∀ p ∈ ([] : List SyncPoint), p.function ≠ preRecord := by
  constructor
  · decide
  · intro p hp; cases hp

/-- **C56.** If there is a sync point for it, the lower half of the first one is replaced, the other
points are kept. -/
theorem ixml_upgrade_existing {x : Chunk} (h : 0 < x.preCount) {a b : List SyncPoint}
    {p : SyncPoint} (hp : x.points = a ++ p :: b) (ha : ∀ q ∈ a, q.function ≠ preRecord)
    (hf : p.function = preRecord) :
    (upgrade x).points = a ++ { p with low := x.preCount } :: b := by
  rw [(ixml_upgrade_points_eq x).1]
  unfold v13
  rw [if_pos h]
  rcases containsFunc_found preRecord x.points 0 with ⟨h1, _⟩ | ⟨a', p', b', h1, h2, h3, e⟩
  · exact absurd hf (h1 p (by rw [hp]; simp))
  · have hab : a' = a ∧ p' = p ∧ b' = b := by
      rw [hp] at h1
      rcases List.append_eq_append_iff.mp h1 with ⟨c, hc1, hc2⟩ | ⟨c, hc1, hc2⟩
      · cases c with
        | nil => simp at hc1 hc2; exact ⟨hc1, hc2.1.symm, hc2.2.symm⟩
        | cons y c =>
          injection hc2 with h4 _
          exact absurd (h4 ▸ hf) (h2 y (by rw [hc1]; simp))
      · cases c with
        | nil => simp at hc1 hc2; exact ⟨hc1.symm, hc2⟩
        | cons y c =>
          injection hc2 with h4 _
          exact absurd (h4 ▸ h3) (ha y (by rw [hc1]; simp))
    obtain ⟨rfl, rfl, rfl⟩ := hab
    rw [e]
    simp only [hp, Nat.zero_add]
    rw [List.modify_eq_take_cons_drop (by simp)]
    simp

example : (0 : Int) < 5 ∧ ([⟨[], preRecord, [], 7, 1⟩] : List SyncPoint) =
    [] ++ ⟨[], preRecord, [], 7, 1⟩ :: [] := by decide

/-- **C56.** The upper half of that point is kept, so that unless it was zero the point stands for
another count than the chunk says. -/
theorem ixml_upgrade_high {x : Chunk} (h : 0 < x.preCount) {a b : List SyncPoint}
    {p : SyncPoint} (hp : x.points = a ++ p :: b) (ha : ∀ q ∈ a, q.function ≠ preRecord)
    (hf : p.function = preRecord) :
    ∃ q, (upgrade x).points = a ++ q :: b ∧ (IxmlSamples q = x.preCount ↔ p.high = 0) := by
  refine ⟨_, ixml_upgrade_existing h hp ha hf, ?_⟩
  unfold IxmlSamples
  constructor
  · intro h; simp only at h; omega
  · intro h; simp [h]

/-- **C56.** An upgraded chunk is not changed by a further upgrade. -/
theorem ixml_upgrade_twice (x : Chunk) :
    upgrade (upgrade x) = upgrade x := by
  have hpre : ¬ 0 < (upgrade x).preCount := by
    by_cases h : 0 < x.preCount
    · rw [((ixml_upgrade_count_partial x).2 h).1]; decide
    · rw [((ixml_upgrade_count_partial x).1 (by omega)).2]; exact h
  have e1 : v13 (upgrade x) = upgrade x := by
    unfold v13; rw [if_neg hpre]
  have hm := (ixml_upgrade_takes x []).2
  have hcm := (ixml_upgrade_keeps x).2.2.2.2.2.2.2
  show v1x (v13 (upgrade x)) = upgrade x
  rw [e1]
  generalize hy : upgrade x = y at *
  unfold v1x
  simp only [hm.1, hm.2.1, hm.2.2, Bool.false_eq_true, if_false]
  have : y.comment.map trimSpace = y.comment := by
    rw [hcm]
    cases hx : x.comment with
    | none => rfl
    | some c => simp [trimSpace_idem]
  rw [this]
  obtain ⟨h1, h2, h3⟩ := hm
  cases y
  simp only at h1 h2 h3
  subst h1 h2 h3
  rfl

/-! ### Start timecode -/

theorem ixml_samples {hi lo : Nat} (h : lo < 2 ^ 32) : hi <<< 32 ||| lo = hi * 2 ^ 32 + lo := by
  rw [Nat.shiftLeft_eq, ← Nat.shiftLeft_eq, Nat.shiftLeft_add_eq_or_of_lt h]

/-- **C56.** With a sample rate, the hours, minutes and seconds of the start timecode are those of the
number of samples since midnight; it is a drop frame timecode exactly for the flag `DF`. -/
theorem ixml_clock (x : Speed) (hlo : x.lo < 2 ^ 32) (hr : 0 < x.sampleRate) :
    ∃ t, x.timecode = some t ∧ t.m < 60 ∧ t.s < 60 ∧
      t.h * 3600 + t.m * 60 + t.s = (x.hi * 2 ^ 32 + x.lo) / x.sampleRate ∧
      (t.drop = true ↔ x.flag = "DF".toList) := by
  have hrate : x.rate = x.sampleRate * 1000 := by
    unfold Speed.rate; rw [if_neg (by omega)]
  unfold Speed.timecode
  simp only [hrate, ixml_samples hlo]
  rw [if_neg (by omega)]
  rw [Nat.mul_div_mul_right _ _ (by decide : 0 < 1000)]
  refine ⟨_, rfl, ?_, ?_, ?_, by simp only [decide_eq_true_eq]⟩
  all_goals
    generalize (x.hi * 2 ^ 32 + x.lo) / x.sampleRate = sec
    simp only
    omega

example : (⟨0, 172800000, 48000, 25, 1, []⟩ : Speed).timecode.map (fun t => (t.h, t.m, t.s)) =
    some (1, 0, 0) := by decide +kernel

/-- **C56.** The frame is right where the numerator of the timecode rate is a thousand times the
number of frames in a second, as in `24000/1001` or `30000/1001`. -/
theorem ixml_frames_partial (x : Speed) (hlo : x.lo < 2 ^ 32) (hr : 0 < x.sampleRate) {n : Nat}
    (hn : x.num = n * 1000) :
    ∃ t, x.timecode = some t ∧
      t.f = (x.hi * 2 ^ 32 + x.lo) % x.sampleRate * n / x.sampleRate ∧ (0 < n → t.f < n) := by
  have hrate : x.rate = x.sampleRate * 1000 := by
    unfold Speed.rate; rw [if_neg (by omega)]
  have key : (x.hi * 2 ^ 32 + x.lo) * 1000 % (x.sampleRate * 1000) * (n * 1000) / (x.sampleRate * 1000) / 1000
      = (x.hi * 2 ^ 32 + x.lo) % x.sampleRate * n / x.sampleRate := by
    rw [Nat.mul_mod_mul_right]
    generalize (x.hi * 2 ^ 32 + x.lo) % x.sampleRate = r
    rw [← Nat.mul_assoc, Nat.mul_div_mul_right _ _ (by decide : 0 < 1000), Nat.div_div_eq_div_mul]
    rw [show r * 1000 * n = r * n * 1000 by rw [Nat.mul_right_comm]]
    rw [Nat.mul_div_mul_right _ _ (by decide : 0 < 1000)]
  unfold Speed.timecode
  simp only [hrate, ixml_samples hlo]
  rw [if_neg (by omega)]
  refine ⟨_, rfl, ?_, ?_⟩
  · simp only [hn]; exact key
  · intro h0
    simp only [hn]
    rw [key]
    have hlt : (x.hi * 2 ^ 32 + x.lo) % x.sampleRate < x.sampleRate := Nat.mod_lt _ hr
    rw [Nat.div_lt_iff_lt_mul hr, Nat.mul_comm n]
    exact Nat.mul_lt_mul_of_pos_right hlt h0

example : (30000 : Nat) = 30 * 1000 ∧ (⟨0, 172824000, 48000, 30000, 1001, "DF".toList⟩ : Speed).timecode =
    some ⟨"2997DropTimecode".toList, 1, 0, 0, 15, true⟩ := by
  constructor
  · rfl
  · decide +kernel

/-- **C56.** For the rates given as whole numbers, such as `25/1`, the frame is always zero: every
start within a second is moved to the beginning of the second. -/
theorem ixml_frames_lost (x : Speed) (hr : 0 < x.sampleRate) (hn : x.num ≤ 1000) :
    ∃ t, x.timecode = some t ∧ t.f = 0 := by
  have hrate : x.rate = x.sampleRate * 1000 := by
    unfold Speed.rate; rw [if_neg (by omega)]
  unfold Speed.timecode
  simp only [hrate]
  rw [if_neg (by omega)]
  refine ⟨_, rfl, ?_⟩
  simp only
  have key : ∀ a, a % (x.sampleRate * 1000) * x.num / (x.sampleRate * 1000) / 1000 = 0 := ?_
  · exact key _
  intro a
  have hlt : a % (x.sampleRate * 1000) < x.sampleRate * 1000 := Nat.mod_lt _ (by omega)
  generalize a % (x.sampleRate * 1000) = r at hlt
  have hpos : 0 < x.sampleRate * 1000 := by omega
  rw [Nat.div_eq_zero_iff]
  right
  by_cases h0 : x.num = 0
  · rw [h0]; simp
  · rw [Nat.div_lt_iff_lt_mul hpos]
    have h1 : r * x.num < x.sampleRate * 1000 * x.num := Nat.mul_lt_mul_of_pos_right hlt (by omega)
    have h2 : x.sampleRate * 1000 * x.num ≤ x.sampleRate * 1000 * 1000 := Nat.mul_le_mul_left _ hn
    rw [Nat.mul_comm 1000]
    omega

/-- **C56.** Twelve frames after one o'clock at 25 frames in a second is one o'clock. -/
theorem ixml_frames_lost_25 : (⟨0, 172800000 + 12 * 1920, 48000, 25, 1, "NDF".toList⟩ : Speed).timecode =
    some ⟨"25Timecode".toList, 1, 0, 0, 0, false⟩ := by decide +kernel

/-- **C56.** The start timecode fails with a division by zero exactly if there is no sample rate and
the timecode rate is less than a thousandth. -/
theorem ixml_timecode_panics (x : Speed) :
    x.timecode = none ↔ x.sampleRate = 0 ∧ x.den ≠ 0 ∧ x.num * 1000 < x.den := by
  have h1 : x.timecode = none ↔ x.rate = 0 := by
    unfold Speed.timecode
    simp only
    split <;> simp_all
  rw [h1]
  unfold Speed.rate
  by_cases hs : x.sampleRate = 0
  · rw [if_pos (by omega)]
    by_cases hd : x.den = 0
    · simp [hd]
    · simp only [hd, if_false, hs, true_and, not_false_eq_true, ne_eq]
      rw [Nat.div_eq_zero_iff]
      constructor
      · rintro (h | h)
        · exact absurd h hd
        · exact h
      · exact Or.inr
  · rw [if_neg (by omega)]
    constructor
    · intro h; omega
    · intro h; exact absurd h.1 hs

/-- **C56.** So a timecode rate of `0/1` without a sample rate stops the program. -/
theorem ixml_timecode_panics_zero : (⟨0, 1, 0, 0, 1, []⟩ : Speed).timecode = none := by decide

/-- **C56.** The names of the usual rates. -/
theorem ixml_formats (d : Nat) (hd : 0 < d) (drop : Bool) :
    timecodeFormat (24 * d) d drop = "24Timecode".toList ∧
    timecodeFormat (25 * d) d drop = "25Timecode".toList ∧
    timecodeFormat (30 * d) d drop = "30Timecode".toList ∧
    timecodeFormat (50 * d) d drop = "50Timecode".toList ∧
    timecodeFormat (60 * d) d drop = "60Timecode".toList ∧
    timecodeFormat (24000 * d) (1001 * d) drop = "23976Timecode".toList ∧
    timecodeFormat (30000 * d) (1001 * d) true = "2997DropTimecode".toList ∧
    timecodeFormat (30000 * d) (1001 * d) false = "2997NonDropTimecode".toList ∧
    timecodeFormat (60000 * d) (1001 * d) true = "5994DropTimecode".toList := by
  refine ⟨?_, ?_, ?_, ?_, ?_, ?_, ?_, ?_, ?_⟩ <;> unfold timecodeFormat
  · rw [if_neg (by omega), if_pos rfl]
  · rw [if_neg (by omega), if_neg (by omega), if_pos rfl]
  · rw [if_neg (by omega), if_neg (by omega), if_neg (by omega), if_neg (by omega), if_pos rfl]
  · rw [if_neg (by omega), if_neg (by omega), if_neg (by omega), if_neg (by omega),
      if_neg (by omega), if_pos rfl]
  · rw [if_neg (by omega), if_neg (by omega), if_neg (by omega), if_neg (by omega),
      if_neg (by omega), if_neg (by omega), if_neg (by omega), if_pos rfl]
  · rw [if_pos (by omega)]
  · rw [if_neg (by omega), if_neg (by omega), if_neg (by omega), if_pos (by omega), if_pos rfl]
  · rw [if_neg (by omega), if_neg (by omega), if_neg (by omega), if_pos (by omega),
      if_neg (by decide)]
  · rw [if_neg (by omega), if_neg (by omega), if_neg (by omega), if_neg (by omega),
      if_neg (by omega), if_neg (by omega), if_pos (by omega), if_pos rfl]

/-- **C56.** The same for the rates rounded to two or three decimals. -/
theorem ixml_formats_decimal (d : Nat) (hd : 0 < d) (drop : Bool) :
    timecodeFormat (23976 * d) (1000 * d) drop = "23976Timecode".toList ∧
    timecodeFormat (2398 * d) (100 * d) drop = "23976Timecode".toList ∧
    timecodeFormat (2997 * d) (100 * d) true = "2997DropTimecode".toList ∧
    timecodeFormat (2997 * d) (100 * d) false = "2997NonDropTimecode".toList ∧
    timecodeFormat (5994 * d) (100 * d) true = "5994DropTimecode".toList := by
  refine ⟨?_, ?_, ?_, ?_, ?_⟩ <;> unfold timecodeFormat
  · rw [if_pos (by omega)]
  · rw [if_pos (by omega)]
  · rw [if_neg (by omega), if_neg (by omega), if_neg (by omega), if_pos (by omega), if_pos rfl]
  · rw [if_neg (by omega), if_neg (by omega), if_neg (by omega), if_pos (by omega),
      if_neg (by decide)]
  · rw [if_neg (by omega), if_neg (by omega), if_neg (by omega), if_neg (by omega),
      if_neg (by omega), if_neg (by omega), if_pos (by omega), if_pos rfl]

/-- **C56.** The non-drop form of 59.94 frames in a second is never named: it is given the name of the
drop form. -/
theorem ixml_5994_drop (num den : Nat) :
    timecodeFormat num den false ≠ "5994NonDropTimecode".toList ∧
    (0 < den → num = 60000 * den → timecodeFormat num (1001 * den) false = "5994DropTimecode".toList) := by
  constructor
  · unfold timecodeFormat
    repeat' split
    all_goals decide
  · intro h0 h
    subst h
    unfold timecodeFormat
    rw [if_neg (by omega), if_neg (by omega), if_neg (by omega), if_neg (by omega),
      if_neg (by omega), if_neg (by omega), if_pos (by omega), if_neg (by decide)]

/-- **C56.** The start of a recording with another rate, such as 48 frames in a second, counts as
absent and is not written, whatever its hours, minutes and seconds. -/
theorem ixml_start_dropped (x : Speed) (hr : 0 < x.sampleRate) (hn : x.num = 48) (hd : x.den = 1) :
    ∃ t, x.timecode = some t ∧ t.isZero = true := by
  have hrate : x.rate = x.sampleRate * 1000 := by
    unfold Speed.rate; rw [if_neg (by omega)]
  unfold Speed.timecode
  simp only [hrate]
  rw [if_neg (by omega)]
  refine ⟨_, rfl, ?_⟩
  simp only [hn, hd, Start.isZero]
  generalize decide (x.flag = "DF".toList) = b
  cases b <;> decide

/-! ### Exchange -/

/-- **C56.** What the chunk says is found in the dynamic media schema afterwards. -/
theorem ixml_sync (x : Chunk) (d : Dm) :
    (syncTo x d).tapeName = x.roll ∧ (syncTo x d).scene = x.scene ∧
    (syncTo x d).trackNumber = x.take ∧ (syncTo x d).logComment = x.note ∧
    (syncTo x d).projectName = x.project ∧ (syncTo x d).good = x.circled ∧
    (syncTo x d).artist = d.artist := ⟨rfl, rfl, rfl, rfl, rfl, rfl, rfl⟩

/-- **C56.** What the chunk does not say is erased there: the names and the comment of the document
are lost if the chunk has none. -/
theorem ixml_sync_erases (x : Chunk) (d : Dm) (h : x.roll = [] ∧ x.scene = [] ∧ x.note = []) :
    (syncTo x d).tapeName = [] ∧ (syncTo x d).scene = [] ∧ (syncTo x d).logComment = [] := h

example : ∃ x : Chunk, (x.roll = [] ∧ x.scene = [] ∧ x.note = []) ∧ x.take = 3 :=
  ⟨⟨"2.0".toList, [], [], [], 3, [], false, false, false, 0, false, [], [], none⟩, by decide, rfl⟩

end Xmp.Props
