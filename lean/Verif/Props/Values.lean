import Verif.Model.Values
import Verif.Props.Codec
import Verif.Props.Fields
import Verif.Props.Dates
import Mathlib.Tactic.IntervalCases
import Mathlib.Data.List.Induction

/-! # Values of iTunes and Photo Mechanic and the place of recording in QuickTime

Numbers in base 16 are described by the value of their digits, dates as in `Verif.Props.DateText`. -/

namespace Xmp.Props

open Xmp Xmp.GoStr Xmp.Codec Xmp.Values

/-! ### Specification -/

/-- A digit in base 16, in lower or upper case. -/
def HexChar (c : Char) (d : Nat) : Prop := "0123456789abcdef".toList[d]? = some c ∨ "0123456789ABCDEF".toList[d]? = some c

/-- One or more digits in base 16. -/
inductive HexNum : Str → Nat → Prop
  | one {c : Char} {d : Nat} : HexChar c d → HexNum [c] d
  | snoc {s : Str} {n : Nat} {c : Char} {d : Nat} : HexNum s n → HexChar c d → HexNum (s ++ [c]) (16 * n + d)

/-- A number in base 16 with an optional sign. -/
def HexText (s : Str) (i : Int) : Prop :=
  ∃ ds n, HexNum ds n ∧ ((s = ds ∧ i = n) ∨ (s = '+' :: ds ∧ i = n) ∨ (s = '-' :: ds ∧ i = -(n : Int)))

/-- The range of signed numbers. -/
def InBits (bits : Nat) (i : Int) : Prop := -(2 ^ (bits - 1) : Int) ≤ i ∧ i < (2 ^ (bits - 1) : Int)

/-! ### Numbers in base 16 -/

theorem hexDigit_some {c : Char} {d : Nat} (h : HexChar c d) : hexDigit c = some d := by
  have key : ∀ d < 16, ∀ c ∈ "0123456789abcdefABCDEF".toList, HexChar c d → hexDigit c = some d := by unfold HexChar; decide +kernel
  have hd : d < 16 := by
    rcases h with h | h
    · exact (List.getElem?_eq_some_iff.mp h).1
    · exact (List.getElem?_eq_some_iff.mp h).1
  refine key d hd c ?_ h
  have m1 : ∀ x ∈ "0123456789abcdef".toList, x ∈ "0123456789abcdefABCDEF".toList := by decide +kernel
  have m2 : ∀ x ∈ "0123456789ABCDEF".toList, x ∈ "0123456789abcdefABCDEF".toList := by decide +kernel
  rcases h with h | h
  · exact m1 _ (List.mem_of_getElem? h)
  · exact m2 _ (List.mem_of_getElem? h)

theorem hexDigit_char {c : Char} {d : Nat} (h : hexDigit c = some d) : HexChar c d := by
  unfold hexDigit at h
  split at h
  · next h1 =>
    obtain ⟨e, he, rfl⟩ := isDigit_iff.mp h1
    have key : ∀ e < 10, HexChar (digitChar e) ((digitChar e).toNat - 48) := by unfold HexChar; decide +kernel
    cases h
    exact key e he
  split at h
  · next h1 h2 =>
    cases h
    have a : 97 ≤ c.toNat := h2.1
    have b : c.toNat ≤ 102 := h2.2
    have key : ∀ n, 97 ≤ n → n ≤ 102 → HexChar (Char.ofNat n) (n - 87) := by
      intro n h1 h2
      unfold HexChar
      interval_cases n <;> decide +kernel
    have := key _ a b
    rwa [Char.ofNat_toNat] at this
  split at h
  · next h1 h2 h3 =>
    cases h
    have a : 65 ≤ c.toNat := h3.1
    have b : c.toNat ≤ 70 := h3.2
    have key : ∀ n, 65 ≤ n → n ≤ 70 → HexChar (Char.ofNat n) (n - 55) := by
      intro n h1 h2
      unfold HexChar
      interval_cases n <;> decide +kernel
    have := key _ a b
    rwa [Char.ofNat_toNat] at this
  · cases h

theorem hexVal_snoc (s : Str) (c : Char) (k : Nat) : hexVal k (s ++ [c]) = (hexVal k s).bind (fun n => (hexDigit c).map (fun d => 16 * n + d)) := by
  induction s generalizing k with
  | nil =>
    simp only [List.nil_append, hexVal, Option.bind_some]
    cases hexDigit c <;> rfl
  | cons a s ih =>
    simp only [List.cons_append, hexVal]
    cases hexDigit a with
    | none => rfl
    | some d => simp only [Option.bind_some]; exact ih _

theorem hexVal_iff (s : Str) (n : Nat) (hs : s ≠ []) : hexVal 0 s = some n ↔ HexNum s n := by
  constructor
  · induction s using List.reverseRecOn generalizing n with
    | nil => exact absurd rfl hs
    | append_singleton s c ih =>
      intro h
      rw [hexVal_snoc] at h
      cases h1 : hexVal 0 s with
      | none => rw [h1] at h; cases h
      | some m =>
        rw [h1, Option.bind_some] at h
        cases h2 : hexDigit c with
        | none => rw [h2] at h; cases h
        | some d =>
          rw [h2] at h
          cases h
          by_cases he : s = []
          · subst he
            cases h1
            simpa using HexNum.one (hexDigit_char h2)
          · exact .snoc (ih m he h1) (hexDigit_char h2)
  · intro h
    clear hs
    induction h with
    | one hc => simp [hexVal, hexDigit_some hc]
    | snoc _ hc ih => rw [hexVal_snoc, ih, hexDigit_some hc]; rfl

theorem hexNum_ne_nil {s : Str} {n : Nat} (h : HexNum s n) : s ≠ [] := by cases h <;> simp

theorem hexNum_unsigned {c : Char} {s : Str} {n : Nat} (h : HexNum (c :: s) n) : c ≠ '-' ∧ c ≠ '+' := by
  have h1 := (hexVal_iff _ _ (by simp)).mpr h
  refine ⟨?_, ?_⟩ <;> rintro rfl <;> cases h1

theorem hexAbs_iff {bits : Nat} {neg : Bool} {s : Str} {i : Int} : hexAbs bits neg s = some i ↔
    ∃ n, HexNum s n ∧ i = (if neg then -(n : Int) else n) ∧ InBits bits i := by
  unfold hexAbs InBits
  by_cases hs : s = []
  · rw [if_pos hs]
    constructor
    · intro h; cases h
    · rintro ⟨n, hn, -⟩; exact absurd hs (hexNum_ne_nil hn)
  rw [if_neg hs]
  have hc : ((2 ^ (bits - 1) : Nat) : Int) = 2 ^ (bits - 1) := by push_cast; rfl
  constructor
  · intro h
    cases h1 : hexVal 0 s with
    | none => rw [h1] at h; cases h
    | some n =>
      rw [h1] at h
      refine ⟨n, (hexVal_iff _ _ hs).mp h1, ?_⟩
      cases neg with
      | true =>
        have hpos : 0 < (2 ^ (bits - 1) : Nat) := Nat.two_pow_pos _
        simp only [if_true] at h
        split at h
        · cases h
        · cases h; exact ⟨rfl, by omega, by omega⟩
      | false =>
        simp only [Bool.false_eq_true, if_false] at h
        split at h
        · cases h
        · cases h; exact ⟨rfl, by omega, by omega⟩
  · rintro ⟨n, hn, hi, h1, h2⟩
    rw [(hexVal_iff _ _ hs).mpr hn]
    cases neg with
    | true =>
      simp only [if_true] at hi ⊢
      rw [if_neg (by omega), hi]
    | false =>
      simp only [Bool.false_eq_true, if_false] at hi ⊢
      rw [if_neg (by omega), hi]

theorem parseHex_iff (bits : Nat) (s : Str) (i : Int) : parseHex bits s = some i ↔ HexText s i ∧ InBits bits i := by
  unfold parseHex
  split
  · next r =>
    rw [hexAbs_iff]
    constructor
    · rintro ⟨n, h1, h2, h3⟩
      exact ⟨⟨r, n, h1, Or.inr (Or.inr ⟨rfl, h2⟩)⟩, h3⟩
    · rintro ⟨⟨ds, n, h1, h2⟩, h3⟩
      rcases h2 with ⟨rfl, -⟩ | ⟨h, -⟩ | ⟨h, hi⟩
      · exact absurd rfl (hexNum_unsigned h1).1
      · cases h
      · cases h; exact ⟨n, h1, hi, h3⟩
  · next r =>
    rw [hexAbs_iff]
    constructor
    · rintro ⟨n, h1, h2, h3⟩
      exact ⟨⟨r, n, h1, Or.inr (Or.inl ⟨rfl, h2⟩)⟩, h3⟩
    · rintro ⟨⟨ds, n, h1, h2⟩, h3⟩
      rcases h2 with ⟨rfl, -⟩ | ⟨h, hi⟩ | ⟨h, -⟩
      · exact absurd rfl (hexNum_unsigned h1).2
      · cases h; exact ⟨n, h1, hi, h3⟩
      · cases h
  · next hn hp =>
    rw [hexAbs_iff]
    constructor
    · rintro ⟨n, h1, h2, h3⟩
      exact ⟨⟨s, n, h1, Or.inl ⟨rfl, h2⟩⟩, h3⟩
    · rintro ⟨⟨ds, n, h1, h2⟩, h3⟩
      rcases h2 with ⟨rfl, hi⟩ | ⟨h, -⟩ | ⟨h, -⟩
      · exact ⟨n, h1, hi, h3⟩
      · exact absurd h (hp _)
      · exact absurd h (hn _)

/-! ### Gapless playback -/

/-- **C61.** The fields of a note on gapless playback are read by their place: delay, padding, number of samples and the end offset are the
second, third, fourth and sixth words, in base 16; the first, the fifth and all later words may be anything. Nothing else is accepted. -/
theorem smpb_reads {w0 w1 w2 w3 w4 w5 : Str} {rest : List Str} (h : ∀ w ∈ w0 :: w1 :: w2 :: w3 :: w4 :: w5 :: rest, IsWord w) (m : Smpb) :
    smpb (join [' '] (w0 :: w1 :: w2 :: w3 :: w4 :: w5 :: rest)) = some m ↔
      (HexText w1 m.delay ∧ InBits 32 m.delay) ∧ (HexText w2 m.padding ∧ InBits 32 m.padding) ∧
      (HexText w3 m.count ∧ InBits 64 m.count) ∧ (HexText w5 m.offset ∧ InBits 64 m.offset) := by
  unfold smpb
  rw [fields_join h]
  simp only [← parseHex_iff]
  simp only [hexField, List.getElem?_cons_succ, List.getElem?_cons_zero]
  cases parseHex 32 w1 <;> cases parseHex 32 w2 <;> cases parseHex 64 w3 <;> cases parseHex 64 w5 <;> simp
  cases m
  simp

/-- **C61.** Delays of 32 bits with the highest bit set are refused, although the field has 64 bits and the note writes eight digits. -/
theorem smpb_high_refused {w0 w1 : Str} {rest : List Str} (h : ∀ w ∈ w0 :: w1 :: rest, IsWord w) {n : Nat} (h1 : HexNum w1 n) (hn : 2 ^ 31 ≤ n) :
    smpb (join [' '] (w0 :: w1 :: rest)) = none := by
  have hp : parseHex 32 w1 = none := by
    cases hp : parseHex 32 w1 with
    | none => rfl
    | some i =>
      exfalso
      obtain ⟨⟨ds, k, h2, h3⟩, h4⟩ := (parseHex_iff _ _ _).mp hp
      have hf : ∀ c s, w1 = c :: s → c ≠ '-' ∧ c ≠ '+' := by
        rintro c s rfl
        exact hexNum_unsigned h1
      rcases h3 with ⟨rfl, rfl⟩ | ⟨rfl, -⟩ | ⟨rfl, -⟩
      · have e : k = n := by
          have a := (hexVal_iff _ _ (hexNum_ne_nil h1)).mpr h1
          have b := (hexVal_iff _ _ (hexNum_ne_nil h2)).mpr h2
          rw [a] at b
          cases b
          rfl
        subst e
        have := h4.2
        simp only [Nat.add_one_sub_one, Int.reducePow] at this
        omega
      · exact (hf _ _ rfl).2 rfl
      · exact (hf _ _ rfl).1 rfl
  unfold smpb
  rw [fields_join h]
  simp only [hexField, List.getElem?_cons_succ, List.getElem?_cons_zero]
  rw [hp]

/-- **C61.** Missing fields are read as zero, without an error: a text of one word, whatever it is, is a note of zeroes. -/
theorem smpb_missing (w : Str) (h : IsWord w) : smpb w = some ⟨0, 0, 0, 0⟩ := by
  have : fields w = [w] := fields_join (ws := [w]) (by simpa using h)
  unfold smpb
  rw [this]
  rfl

/-! ### Preferences of Photo Mechanic -/

/-- **C61.** Preferences survive as text. -/
theorem prefs_roundtrip {p : Prefs} (h1 : InI64 p.tag) (h2 : InI64 p.color) (h3 : InI64 p.rating) (h4 : InI64 p.frame) :
    prefsUnmarshal (prefsText p) = some p := by
  have hc : ∀ i, ':' ∉ itoa i := fun i => itoa_not_mem (by decide) (by decide) i
  have hs : split ':' (prefsText p) = [itoa p.tag, itoa p.color, itoa p.rating, itoa p.frame] := by
    unfold prefsText
    rw [split_append_sep _ (hc _), split_append_sep _ (hc _), split_append_sep _ (hc _), split_no_sep (hc _)]
  unfold prefsUnmarshal
  rw [hs]
  have hp : ∀ i, InI64 i → parseInt 64 (itoa i) = some i := fun i h => atoi_itoa h
  simp only [hp _ h1, hp _ h2, hp _ h3, hp _ h4]

/-- **C61.** Preferences are read from exactly four whole numbers with colons between them. -/
theorem prefs_reads (s : Str) (p : Prefs) : prefsUnmarshal s = some p ↔
    ∃ a b c d, s = join [':'] [a, b, c, d] ∧ (IntText a p.tag ∧ InBits 64 p.tag) ∧ (IntText b p.color ∧ InBits 64 p.color) ∧
      (IntText c p.rating ∧ InBits 64 p.rating) ∧ (IntText d p.frame ∧ InBits 64 p.frame) := by
  have hi : ∀ s i, parseInt 64 s = some i ↔ IntText s i ∧ InBits 64 i := fun s i => parseInt_iff 64 s i
  simp only [← hi]
  unfold prefsUnmarshal
  constructor
  · intro h
    cases hs : split ':' s with
    | nil => rw [hs] at h; cases h
    | cons a l =>
      match l, hs with
      | [], hs => rw [hs] at h; cases h
      | [_], hs => rw [hs] at h; cases h
      | [_, _], hs => rw [hs] at h; cases h
      | _ :: _ :: _ :: _ :: _, hs => rw [hs] at h; cases h
      | [b, c, d], hs =>
        rw [hs] at h
        simp only at h
        refine ⟨a, b, c, d, by rw [← hs]; exact (join_split _ _).symm, ?_⟩
        split at h
        · next h1 h2 h3 h4 => cases h; exact ⟨h1, h2, h3, h4⟩
        · cases h
  · rintro ⟨a, b, c, d, rfl, h1, h2, h3, h4⟩
    have hc : ∀ s i, parseInt 64 s = some i → ':' ∉ s := by
      intro s i h hm
      obtain ⟨ds, -, h2, h3⟩ := ((hi s i).mp h).1
      have : ':' ∉ ds.map digitChar := by
        intro hm
        obtain ⟨e, he, hd⟩ := List.mem_map.mp hm
        have key : ∀ e < 10, digitChar e ≠ ':' := by decide
        exact key e (h2 e he) hd
      rcases h3 with ⟨rfl, -⟩ | ⟨rfl, -⟩ | ⟨rfl, -⟩
      · exact this hm
      · rcases List.mem_cons.mp hm with hm | hm
        · cases hm
        · exact this hm
      · rcases List.mem_cons.mp hm with hm | hm
        · cases hm
        · exact this hm
    rw [split_join (by simp) (by
      intro x hx
      simp only [List.mem_cons, List.not_mem_nil, or_false] at hx
      rcases hx with rfl | rfl | rfl | rfl
      · exact hc _ _ h1
      · exact hc _ _ h2
      · exact hc _ _ h3
      · exact hc _ _ h4)]
    simp only [h1, h2, h3, h4]

/-- **C61.** The ranges of the documentation are not checked: any tag status, colour class, rating and frame are read. -/
theorem prefs_unchecked (a b c d : Int) (ha : InI64 a) (hb : InI64 b) (hc : InI64 c) (hd : InI64 d) :
    ∃ s, prefsUnmarshal s = some ⟨a, b, c, d⟩ := ⟨_, prefs_roundtrip (p := ⟨a, b, c, d⟩) ha hb hc hd⟩

/-! ### Times of Photo Mechanic -/

theorem pm_layout_shapes : forShapes (layoutToks pmLayout) (fun k n u =>
    decide (symText (layoutToks pmLayout) k n u ≠ []) &&
    decide (symFirst false (symText (layoutToks pmLayout) k n u) [layoutToks pmLayout] = some (some (expect (layoutToks pmLayout) k n u)))) = true := by
  decide +kernel

/-- **C61.** Times of Photo Mechanic survive as text: hours, minutes, seconds and the zone; the day is lost. -/
theorem pm_time_roundtrip {t : GoTime} (h : ValidDate t) (hz : t.isZero = false) (old : GoTime) :
    pmTimeUnmarshal old (pmTimeMarshal t) =
      some { year := 0, month := 1, day := 1, hour := t.hour, min := t.min, sec := t.sec, nsec := 0, off := t.off } := by
  have h4 : layoutToks pmLayout = [.hour, .min, .sec, .tz] := by decide +kernel
  obtain ⟨k, hk9, hk, hf, hr⟩ := forShapes_sound h pm_layout_shapes
  simp only [Bool.and_eq_true, decide_eq_true_eq] at hr
  have hn := h.nsec
  have hz' : t.nsec / 10 ^ (9 - 0) * 10 ^ (9 - 0) = 0 := by omega
  have hp : firstParse (t.format pmLayout) [pmLayout] = some (seen (layoutToks pmLayout) t) := by
    rw [hf, first_sound h (fun hy => by cases hy) _ _ hr.2, Option.map_some,
      expect_time h (fun hy => absurd hy (by rw [h4]; decide)) hk9 hk]
  have hne : t.format pmLayout ≠ [] := by
    rw [hf, Ne, List.map_eq_nil_iff]
    exact hr.1
  have hp' : timeParse pmLayout (t.format pmLayout) = some (seen (layoutToks pmLayout) t) := by
    unfold firstParse at hp
    split at hp
    · next a => rw [a]; exact hp
    · cases hp
  unfold pmTimeUnmarshal pmTimeMarshal
  rw [hz]
  simp only [Bool.false_eq_true, if_false]
  rw [if_neg hne, hp']
  have h0 : fracDigits (layoutToks pmLayout) = 0 := by rw [h4]; rfl
  unfold seen
  rw [h0, hz', h4]
  simp

/-- **C61.** The zero time is written as nothing, and nothing leaves a time as it was. -/
theorem pm_time_zero {t : GoTime} (hz : t.isZero = true) (old : GoTime) : pmTimeMarshal t = [] ∧ pmTimeUnmarshal old [] = some old := by
  exact ⟨by unfold pmTimeMarshal; rw [hz]; rfl, rfl⟩

/-! ### The place of recording -/

section
variable {δ φ : Type}

/-- **C61.** Locations survive the exchange with the plain fields, if they have a name and their coordinates have no plus sign. -/
theorem location_exchange (fmt : φ → Str) (read : Str → φ) (zero : φ) {l : Loc δ φ} (x : QtLoc δ φ) (hl : x.loc = some l) (hn : l.name ≠ [])
    (h1 : '+' ∉ l.lat) (h2 : '+' ∉ l.lon) (h3 : '+' ∉ fmt l.alt) (h4 : hasSuffix (fmt l.alt) ['/'] = false) (h5 : read (fmt l.alt) = l.alt) :
    (syncTo read zero { syncFrom fmt x with loc := none }).loc = some l := by
  have hs : split '+' (join ['+'] [l.lat, l.lon, fmt l.alt]) = [l.lat, l.lon, fmt l.alt] := by
    apply split_join (by simp)
    intro s hs
    simp only [List.mem_cons, List.not_mem_nil, or_false] at hs
    rcases hs with rfl | rfl | rfl <;> assumption
  have hne : join ['+'] [l.lat, l.lon, fmt l.alt] ≠ [] := by
    intro he
    rw [he] at hs
    have := congrArg List.length hs
    simp [split_no_sep] at this
  unfold syncFrom syncTo
  rw [hl]
  simp only [Option.isNone_none, hne, hn, ne_eq, not_false_eq_true, decide_true, Bool.and_self, if_true]
  rw [hs]
  simp only [coords]
  have ht : trimSuffix (fmt l.alt) ['/'] = fmt l.alt := by
    unfold trimSuffix
    rw [h4]
    rfl
  rw [ht, h5]

/-- **C61.** Coordinates in the form of the standard, as in the comment of the code, are shifted by one: the latitude is empty, the longitude
is the latitude, the altitude is read from the longitude, and the altitude is lost. -/
theorem location_shifted (read : Str → φ) (zero : φ) (x : QtLoc δ φ) (hl : x.loc = none) (hn : x.name ≠ []) {a b c : Str}
    (ha : '+' ∉ a) (hb : '+' ∉ b) (hc : '+' ∉ c) (hi : x.iso = '+' :: (a ++ '+' :: (b ++ '+' :: (c ++ ['/'])))) :
    ∃ l, (syncTo read zero x).loc = some l ∧ l.lat = [] ∧ l.lon = a ∧ l.alt = read (trimSuffix b ['/']) := by
  have hs : split '+' x.iso = [[], a, b, c ++ ['/']] := by
    rw [hi]
    rw [show '+' :: (a ++ '+' :: (b ++ '+' :: (c ++ ['/']))) = [] ++ '+' :: (a ++ '+' :: (b ++ '+' :: (c ++ ['/']))) from rfl,
      split_append_sep _ (by simp), split_append_sep _ ha, split_append_sep _ hb, split_no_sep (by simp [hc])]
  unfold syncTo
  rw [hl, if_pos (by simp [hi, hn]), hs]
  exact ⟨_, rfl, rfl, rfl, rfl⟩

/-- **C61.** South and west of the origin both coordinates are taken for the latitude. -/
theorem location_west (read : Str → φ) (zero : φ) (x : QtLoc δ φ) (hl : x.loc = none) (hn : x.name ≠ []) {a b : Str}
    (ha : '+' ∉ a) (hb : '+' ∉ b) (hi : x.iso = '-' :: (a ++ '-' :: (b ++ ['/']))) :
    ∃ l, (syncTo read zero x).loc = some l ∧ l.lat = x.iso ∧ l.lon = [] ∧ l.alt = zero := by
  have hs : split '+' x.iso = [x.iso] := split_no_sep (by rw [hi]; simp [ha, hb])
  unfold syncTo
  rw [hl, if_pos (by simp [hi, hn]), hs]
  exact ⟨_, rfl, rfl, rfl, rfl⟩

/-- **C61.** Coordinates without a name are not used. -/
theorem location_no_name (read : Str → φ) (zero : φ) (x : QtLoc δ φ) (hn : x.name = []) : syncTo read zero x = x := by
  unfold syncTo
  rw [if_neg (by simp [hn])]

/-- **C61.** A location that is already there is kept, whatever the plain fields say. -/
theorem location_kept (read : Str → φ) (zero : φ) (x : QtLoc δ φ) (hl : x.loc.isSome) : syncTo read zero x = x := by
  unfold syncTo
  rw [if_neg (by cases h : x.loc <;> simp_all)]

/-- **C61.** Without a location the plain fields are kept. -/
theorem location_fields_kept (fmt : φ → Str) (x : QtLoc δ φ) (hl : x.loc = none) : syncFrom fmt x = x := by
  unfold syncFrom
  rw [hl]

end

/-! ### Cases -/

example : smpb "00000000 00000840 000001CA 00000000003F31F6 00000000 00000000 00000000".toList = some ⟨2112, 458, 4141558, 0⟩ := by decide +kernel
example : smpb "00000000 80000000 000001CA 00000000003F31F6 00000000 00000000".toList = none := by decide +kernel
example : prefsUnmarshal "1:2:5:-1".toList = some ⟨1, 2, 5, -1⟩ ∧ prefsUnmarshal "7:99:-3:0".toList = some ⟨7, 99, -3, 0⟩ ∧ prefsUnmarshal "1:2:5".toList = none := by
  decide +kernel
example : pmTimeMarshal someDate = "201741-0330".toList := by decide +kernel
example : ∃ l, (syncTo (fun s => s) [] (⟨[], (), "+43.5968+005.4797+362.904/".toList, "Aix".toList, [], 0, none⟩ : QtLoc Unit Str)).loc = some l ∧
    l.lat = [] ∧ l.lon = "43.5968".toList ∧ l.alt = "005.4797".toList := ⟨_, rfl, rfl, rfl, rfl⟩

end Xmp.Props
