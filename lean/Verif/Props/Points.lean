import Verif.Model.Values
import Verif.Props.Rational
import Verif.Props.Codec

/-! C61: points are read in all forms that are written (models/qt/types.go, models/crs/types.go). -/

namespace Xmp.Props

open Xmp.GoStr Xmp.Codec Xmp.Values

/-! ### Specification -/

/-- A run of spaces inside a line. -/
def SpaceRun (w : Str) : Prop := ∃ l : List Str, (∀ x ∈ l, x ∈ spaces ∧ x ≠ ['\n']) ∧ w = l.flatten

/-- The text begins with spaces and a whole number of 64 bits, and the rest follows. -/
def Begins (s : Str) (i : Int) (rest : Str) : Prop :=
  ∃ w t, SpaceRun w ∧ IntText t i ∧ InI64 i ∧ s = w ++ t ++ rest ∧ ∀ c, rest.head? = some c → isDigit c = false

/-! ### Scanning numbers -/

theorem space_prefix_free : ∀ v ∈ spaces, ∀ w ∈ spaces, v <+: w → v = w := by decide +kernel

theorem scanSpaces_mem {w : Str} : w ∈ scanSpaces ↔ w ∈ spaces ∧ w ≠ ['\n'] := by simp [scanSpaces]

theorem scan_find {w : Str} (hw : w ∈ scanSpaces) (s : Str) : scanSpaces.find? (fun v => hasPrefix (w ++ s) v) = some w := by
  cases hf : scanSpaces.find? (fun v => hasPrefix (w ++ s) v) with
  | none => exact absurd (hasPrefix_iff.mpr ⟨s, rfl⟩ : hasPrefix (w ++ s) w = true) (List.find?_eq_none.mp hf _ hw)
  | some v =>
    have hv := List.mem_of_find?_eq_some hf
    obtain ⟨t, ht⟩ := hasPrefix_iff.mp (List.find?_some hf)
    have h1 := (scanSpaces_mem.mp hv).1
    have h2 := (scanSpaces_mem.mp hw).1
    rcases List.prefix_or_prefix_of_prefix (⟨t, ht.symm⟩ : v <+: w ++ s) ⟨s, rfl⟩ with h | h
    · rw [space_prefix_free v h1 w h2 h]
    · rw [space_prefix_free w h2 v h1 h]

theorem dropRun_run {s : Str} (hs : ∀ w ∈ scanSpaces, hasPrefix s w = false) : ∀ (l : List Str), (∀ x ∈ l, x ∈ scanSpaces) → ∀ f, l.flatten.length ≤ f →
    dropRun scanSpaces f (l.flatten ++ s) = s := by
  intro l
  induction l with
  | nil => intro _ f _; exact dropRun_fix hs f
  | cons w l ih =>
    intro h f hf
    have hw := h w (by simp)
    have hne : 0 < w.length := List.length_pos_iff.2 (spaces_ne_nil w (scanSpaces_mem.mp hw).1)
    simp only [List.flatten_cons, List.length_append] at hf
    obtain ⟨f, rfl⟩ : ∃ g, f = g + 1 := ⟨f - 1, by omega⟩
    rw [List.flatten_cons, List.append_assoc, dropRun, scan_find hw]
    simp only [List.drop_left]
    exact ih (fun x hx => h x (by simp [hx])) f (by omega)

theorem dropRun_split : ∀ (f : Nat) (s : Str), ∃ l : List Str, (∀ x ∈ l, x ∈ scanSpaces) ∧ s = l.flatten ++ dropRun scanSpaces f s := by
  intro f
  induction f with
  | zero => intro s; exact ⟨[], by simp, rfl⟩
  | succ f ih =>
    intro s
    rw [dropRun]
    cases hf : scanSpaces.find? (fun w => hasPrefix s w) with
    | none => exact ⟨[], by simp, rfl⟩
    | some w =>
      have hw := List.mem_of_find?_eq_some hf
      obtain ⟨t, rfl⟩ := hasPrefix_iff.mp (List.find?_some hf)
      obtain ⟨l, h1, h2⟩ := ih t
      refine ⟨w :: l, ?_, ?_⟩
      · intro x hx
        rcases List.mem_cons.mp hx with rfl | hx
        · exact hw
        · exact h1 x hx
      · simp only [List.drop_left, List.flatten_cons, List.append_assoc]
        exact congrArg (w ++ ·) h2

theorem digitChar_visible {d : Nat} (h : d < 10) : Visible (digitChar d) := by
  have : ∀ d < 10, Visible (digitChar d) := by decide
  exact this d h

theorem digits_all {ds : List Nat} (h : ∀ d ∈ ds, d < 10) : ∀ c ∈ ds.map digitChar, isDigit c = true := by
  intro c hc
  obtain ⟨d, hd, rfl⟩ := List.mem_map.mp hc
  exact isDigit_iff.mpr ⟨d, h d hd, rfl⟩

theorem digit_not_sign {c : Char} (h : isDigit c = true) : c ≠ '+' ∧ c ≠ '-' := by
  constructor <;> (rintro rfl; revert h; decide)

/-- The parts of a number: a sign and digits. -/
theorem intText_parts {t : Str} {i : Int} (h : IntText t i) : ∃ (g : Str) (ds : List Nat), ds ≠ [] ∧ (∀ d ∈ ds, d < 10) ∧ t = g ++ ds.map digitChar ∧
    (g = [] ∨ g = ['+'] ∨ g = ['-']) := by
  obtain ⟨ds, h1, h2, h | h | h⟩ := h
  · exact ⟨[], ds, h1, h2, h.1, by simp⟩
  · exact ⟨['+'], ds, h1, h2, h.1, by simp⟩
  · exact ⟨['-'], ds, h1, h2, h.1, by simp⟩

theorem scanSign_text {g : Str} {ds : List Nat} {rest : Str} (hne : ds ≠ []) (hd : ∀ d ∈ ds, d < 10) (hg : g = [] ∨ g = ['+'] ∨ g = ['-']) :
    scanSign (g ++ ds.map digitChar ++ rest) = g := by
  rcases hg with rfl | rfl | rfl
  · cases ds with
    | nil => exact absurd rfl hne
    | cons d ds =>
      obtain ⟨a, b⟩ := digit_not_sign (digits_all hd (digitChar d) (by simp))
      simp only [List.nil_append, List.map_cons, List.cons_append]
      unfold scanSign
      split
      · next e => exact absurd (List.cons.inj e).1 a
      · next e => exact absurd (List.cons.inj e).1 b
      · rfl
  · rfl
  · rfl

theorem drop_takeDigits (s : Str) : s.drop (takeDigits s).length = s.dropWhile isDigit := by
  have h : s = takeDigits s ++ s.dropWhile isDigit := (List.takeWhile_append_dropWhile).symm
  conv_lhs => rw [h]
  have e : takeDigits (takeDigits s ++ s.dropWhile isDigit) = takeDigits s := by rw [← h]
  rw [e, List.drop_left]

/-- Scanning a number takes exactly the number at the beginning. -/
theorem scanInt_iff (s : Str) (i : Int) (rest : Str) : scanInt s = some (i, rest) ↔ Begins s i rest := by
  constructor
  · intro h
    unfold scanInt at h
    obtain ⟨l, h1, h2⟩ := dropRun_split s.length s
    generalize dropRun scanSpaces s.length s = u at h h2
    simp only at h
    split at h
    · cases h
    · next hne =>
      rw [Option.map_eq_some_iff] at h
      obtain ⟨j, hj, he⟩ := h
      simp only [Prod.mk.injEq] at he
      obtain ⟨rfl, hrest⟩ := he
      obtain ⟨hj1, hj2⟩ := (parseInt_iff 64 _ _).mp hj
      have hu : u = scanSign u ++ u.drop (scanSign u).length := by
        unfold scanSign
        split <;> rfl
      rw [drop_takeDigits] at hrest
      have hd : u.drop (scanSign u).length = takeDigits (u.drop (scanSign u).length) ++ rest := by
        rw [← hrest]
        exact (List.takeWhile_append_dropWhile).symm
      refine ⟨l.flatten, scanSign u ++ takeDigits (u.drop (scanSign u).length), ⟨l, fun x hx => scanSpaces_mem.mp (h1 x hx), rfl⟩, hj1, hj2, ?_, ?_⟩
      · rw [h2]
        conv_lhs => rw [hu, hd]
        simp
      · intro c hc
        rw [← hrest] at hc
        have := List.head?_dropWhile_not (p := isDigit) (u.drop (scanSign u).length)
        rw [hc] at this
        simpa using this
  · rintro ⟨w, t, ⟨l, hl, rfl⟩, ht, hi, rfl, hrest⟩
    obtain ⟨g, ds, d1, d2, rfl, hg⟩ := intText_parts ht
    have hp : parseInt 64 (g ++ ds.map digitChar) = some i := (parseInt_iff 64 _ _).mpr ⟨ht, hi⟩
    have hvis : ∀ w ∈ scanSpaces, hasPrefix (g ++ ds.map digitChar ++ rest) w = false := by
      have : ∃ c cs, g ++ ds.map digitChar ++ rest = c :: cs ∧ Visible c := by
        rcases hg with rfl | rfl | rfl
        · cases ds with
          | nil => exact absurd rfl d1
          | cons d ds => exact ⟨_, _, rfl, digitChar_visible (d2 d (by simp))⟩
        · exact ⟨_, _, rfl, by decide⟩
        · exact ⟨_, _, rfl, by decide⟩
      obtain ⟨c, cs, e, hc⟩ := this
      rw [e]
      intro w hw
      obtain ⟨d, ds', rfl, hd⟩ := scanSpaces_head w hw
      cases hpre : hasPrefix (c :: cs) (d :: ds') with
      | false => rfl
      | true =>
        obtain ⟨t, ht⟩ := hasPrefix_iff.mp hpre
        simp only [List.cons_append, List.cons.injEq] at ht
        rw [← ht.1] at hd
        exact absurd hc hd
    unfold scanInt
    rw [List.append_assoc, dropRun_run hvis l (fun x hx => scanSpaces_mem.mpr (hl x hx)) _ (by simp)]
    simp only
    rw [scanSign_text d1 d2 hg, List.append_assoc, List.drop_left, takeDigits_append (digits_all d2) hrest, hp,
      if_neg (by simpa using d1), List.drop_left]
    rfl

theorem begins_itoa {i : Int} (hi : InI64 i) {rest : Str} (hr : ∀ c, rest.head? = some c → isDigit c = false) : Begins (itoa i ++ rest) i rest :=
  (scanInt_iff _ _ _).mp (scanInt_itoa hi hr)

theorem begins_blank {i : Int} (hi : InI64 i) {rest : Str} (hr : ∀ c, rest.head? = some c → isDigit c = false) :
    Begins (' ' :: (itoa i ++ rest)) i rest := by
  obtain ⟨w, t, ⟨l, hl, rfl⟩, h2, h3, h4, h5⟩ := begins_itoa hi hr
  refine ⟨' ' :: l.flatten, t, ⟨[' '] :: l, ?_, rfl⟩, h2, h3, by rw [h4]; rfl, h5⟩
  intro x hx
  rcases List.mem_cons.mp hx with rfl | hx
  · decide
  · exact hl x hx

/-! ### Points of QuickTime -/

/-- The separator of a point: a slash, a colon, a blank or a semicolon if the text has one, in this order of preference, and a comma
otherwise. -/
def PointSep (s : Str) (c : Char) : Prop :=
  (c = '/' ∧ '/' ∈ s) ∨ (c = ':' ∧ ':' ∈ s ∧ '/' ∉ s) ∨ (c = ' ' ∧ ' ' ∈ s ∧ '/' ∉ s ∧ ':' ∉ s) ∨
    (c = ';' ∧ ';' ∈ s ∧ '/' ∉ s ∧ ':' ∉ s ∧ ' ' ∉ s) ∨ (c = ',' ∧ '/' ∉ s ∧ ':' ∉ s ∧ ' ' ∉ s ∧ ';' ∉ s)

/-- Between the numbers of a point: the separator itself, or at least one space if it is a blank. -/
def Between (c : Char) (r r' : Str) : Prop := if c = ' ' then r' = r ∧ ∃ w ∈ spaces, w ≠ ['\n'] ∧ w <+: r else r = c :: r'

theorem scanPair_iff (c : Char) (s : Str) (p : Point) : scanPair c s = some p ↔
    ∃ r r', Begins s p.x (c :: r) ∧ Begins r p.y r' := by
  unfold scanPair
  constructor
  · intro h
    cases h1 : scanInt s with
    | none => rw [h1] at h; cases h
    | some a =>
      obtain ⟨x, r⟩ := a
      rw [h1] at h
      cases r with
      | nil => cases h
      | cons d r =>
        simp only at h
        split at h
        · next e =>
          subst e
          cases h2 : scanInt r with
          | none => rw [h2] at h; cases h
          | some b =>
            obtain ⟨y, r'⟩ := b
            rw [h2] at h
            cases h
            exact ⟨r, r', (scanInt_iff _ _ _).mp h1, (scanInt_iff _ _ _).mp h2⟩
        · cases h
  · rintro ⟨r, r', h1, h2⟩
    rw [(scanInt_iff _ _ _).mpr h1]
    simp only [if_true]
    rw [(scanInt_iff _ _ _).mpr h2]

theorem scanGap_iff (s : Str) (i : Int) (r : Str) : scanGap s = some (i, r) ↔ Begins s i r ∧ ∃ w ∈ spaces, w ≠ ['\n'] ∧ w <+: s := by
  unfold scanGap
  have hany : scanSpaces.any (fun w => hasPrefix s w) = true ↔ ∃ w ∈ spaces, w ≠ ['\n'] ∧ w <+: s := by
    rw [List.any_eq_true]
    constructor
    · rintro ⟨w, h1, h2⟩
      obtain ⟨t, ht⟩ := hasPrefix_iff.mp h2
      exact ⟨w, (scanSpaces_mem.mp h1).1, (scanSpaces_mem.mp h1).2, t, ht.symm⟩
    · rintro ⟨w, h1, h2, t, ht⟩
      exact ⟨w, scanSpaces_mem.mpr ⟨h1, h2⟩, hasPrefix_iff.mpr ⟨t, ht.symm⟩⟩
  split
  · next h => rw [scanInt_iff]; exact ⟨fun a => ⟨a, hany.mp h⟩, fun a => a.1⟩
  · next h => constructor
              · intro a; cases a
              · rintro ⟨-, a⟩; exact absurd (hany.mpr a) h

theorem scanBlank_iff (s : Str) (p : Point) : scanBlank s = some p ↔
    ∃ r r', Begins s p.x r ∧ Begins r p.y r' ∧ ∃ w ∈ spaces, w ≠ ['\n'] ∧ w <+: r := by
  unfold scanBlank
  constructor
  · intro h
    cases h1 : scanInt s with
    | none => rw [h1] at h; cases h
    | some a =>
      obtain ⟨x, r⟩ := a
      rw [h1] at h
      simp only at h
      cases h2 : scanGap r with
      | none => rw [h2] at h; cases h
      | some b =>
        obtain ⟨y, r'⟩ := b
        rw [h2] at h
        cases h
        obtain ⟨h3, h4⟩ := (scanGap_iff _ _ _).mp h2
        exact ⟨r, r', (scanInt_iff _ _ _).mp h1, h3, h4⟩
  · rintro ⟨r, r', h1, h2, h3⟩
    rw [(scanInt_iff _ _ _).mpr h1]
    simp only
    rw [(scanGap_iff _ _ _).mpr ⟨h2, h3⟩]

theorem sep_unique {s : Str} {c d : Char} (h : PointSep s c) (h' : PointSep s d) : c = d := by
  unfold PointSep at h h'
  rcases h with ⟨rfl, h⟩ | ⟨rfl, h⟩ | ⟨rfl, h⟩ | ⟨rfl, h⟩ | ⟨rfl, h⟩ <;> rcases h' with ⟨rfl, h'⟩ | ⟨rfl, h'⟩ | ⟨rfl, h'⟩ | ⟨rfl, h'⟩ | ⟨rfl, h'⟩ <;>
    first | rfl | (exfalso; tauto)

/-- **C61.** Exactly these texts are read as a point of QuickTime: two numbers with the preferred separator between them; spaces before the
numbers and anything after the second number are ignored. -/
theorem qt_point_reads (s : Str) (p : Point) : qtUnmarshal s = some p ↔
    ∃ c r r' r'', PointSep s c ∧ Begins s p.x r ∧ Between c r r' ∧ Begins r' p.y r'' := by
  have key : ∀ c, PointSep s c → (qtUnmarshal s = some p ↔ ∃ r r' r'', Begins s p.x r ∧ Between c r r' ∧ Begins r' p.y r'') := by
    intro c hc
    have hpair : ∀ c, c ≠ ' ' → (scanPair c s = some p ↔ ∃ r r' r'', Begins s p.x r ∧ Between c r r' ∧ Begins r' p.y r'') := by
      intro c hne
      rw [scanPair_iff]
      simp only [Between, if_neg hne]
      constructor
      · rintro ⟨r, r', h1, h2⟩; exact ⟨_, r, r', h1, rfl, h2⟩
      · rintro ⟨_, r', r'', h1, rfl, h2⟩; exact ⟨r', r'', h1, h2⟩
    unfold qtUnmarshal
    simp only [containsChar_eq]
    rcases hc with ⟨rfl, h⟩ | ⟨rfl, h1, h2⟩ | ⟨rfl, h1, h2, h3⟩ | ⟨rfl, h1, h2, h3, h4⟩ | ⟨rfl, h1, h2, h3, h4⟩
    · rw [if_pos h]; exact hpair _ (by decide)
    · rw [if_neg h2, if_pos h1]; exact hpair _ (by decide)
    · rw [if_neg h2, if_neg h3, if_pos h1, scanBlank_iff]
      simp only [Between, if_true]
      constructor
      · rintro ⟨r, r', a, b, d⟩; exact ⟨r, r, r', a, ⟨rfl, d⟩, b⟩
      · rintro ⟨r, _, r', a, ⟨rfl, d⟩, b⟩; exact ⟨_, r', a, b, d⟩
    · rw [if_neg h2, if_neg h3, if_neg h4, if_pos h1]; exact hpair _ (by decide)
    · rw [if_neg h1, if_neg h2, if_neg h3, if_neg h4]; exact hpair _ (by decide)
  obtain ⟨c, hc⟩ : ∃ c, PointSep s c := by
    unfold PointSep
    by_cases h1 : '/' ∈ s
    · exact ⟨_, Or.inl ⟨rfl, h1⟩⟩
    by_cases h2 : ':' ∈ s
    · exact ⟨_, Or.inr (Or.inl ⟨rfl, h2, h1⟩)⟩
    by_cases h3 : ' ' ∈ s
    · exact ⟨_, Or.inr (Or.inr (Or.inl ⟨rfl, h3, h1, h2⟩))⟩
    by_cases h4 : ';' ∈ s
    · exact ⟨_, Or.inr (Or.inr (Or.inr (Or.inl ⟨rfl, h4, h1, h2, h3⟩)))⟩
    · exact ⟨_, Or.inr (Or.inr (Or.inr (Or.inr ⟨rfl, h1, h2, h3, h4⟩)))⟩
  constructor
  · intro h
    obtain ⟨r, r', r'', a, b, d⟩ := (key c hc).mp h
    exact ⟨c, r, r', r'', hc, a, b, d⟩
  · rintro ⟨d, r, r', r'', hd, a, b, e⟩
    exact (key d hd).mpr ⟨r, r', r'', a, b, e⟩

theorem itoa_seps (i : Int) : ∀ c ∈ ['/', ':', ' ', ';', ','], c ∉ itoa i := by
  intro c hc
  simp only [List.mem_cons, List.not_mem_nil, or_false] at hc
  rcases hc with rfl | rfl | rfl | rfl | rfl <;> exact itoa_not_mem (by decide) (by decide) i

/-- **C61.** All five separators are read, and after the second number anything without separators may follow. -/
theorem qt_point_separators {p : Point} (hx : InI64 p.x) (hy : InI64 p.y) {c : Char} (hc : c ∈ ['/', ':', ' ', ';', ',']) {rest : Str}
    (hr : ∀ d, rest.head? = some d → isDigit d = false) (hs : ∀ d ∈ ['/', ':', ' ', ';'], d ∉ rest) :
    qtUnmarshal (itoa p.x ++ c :: (itoa p.y ++ rest)) = some p := by
  rw [qt_point_reads]
  have hd : ∀ d, (c :: (itoa p.y ++ rest)).head? = some d → isDigit d = false := by
    intro d hd
    cases hd
    simp only [List.mem_cons, List.not_mem_nil, or_false] at hc
    rcases hc with rfl | rfl | rfl | rfl | rfl <;> decide
  have hmem : ∀ d ∈ ['/', ':', ' ', ';'], d ∈ itoa p.x ++ c :: (itoa p.y ++ rest) ↔ d = c := by
    intro d hd
    have h1 := itoa_seps p.x d (by simp only [List.mem_cons, List.not_mem_nil, or_false] at hd ⊢; tauto)
    have h2 := itoa_seps p.y d (by simp only [List.mem_cons, List.not_mem_nil, or_false] at hd ⊢; tauto)
    have h3 := hs d hd
    simp [h1, h2, h3]
  have hsep : PointSep (itoa p.x ++ c :: (itoa p.y ++ rest)) c := by
    unfold PointSep
    rw [hmem '/' (by simp), hmem ':' (by simp), hmem ' ' (by simp), hmem ';' (by simp)]
    simp only [List.mem_cons, List.not_mem_nil, or_false] at hc
    rcases hc with rfl | rfl | rfl | rfl | rfl <;> decide
  by_cases hb : c = ' '
  · subst hb
    exact ⟨' ', _, _, rest, hsep, begins_itoa hx hd, by rw [Between, if_pos rfl]; exact ⟨rfl, [' '], by decide, by decide, _, rfl⟩, begins_blank hy hr⟩
  · exact ⟨c, _, itoa p.y ++ rest, rest, hsep, begins_itoa hx hd, by rw [Between, if_neg hb], begins_itoa hy hr⟩

/-- **C61.** Points of QuickTime survive as text, except the zero point (see `qt_point_zero`). -/
theorem qt_point_roundtrip_partial {p : Point} (hx : InI64 p.x) (hy : InI64 p.y) (hz : p ≠ ⟨0, 0⟩) : qtUnmarshal (qtMarshal p) = some p := by
  unfold qtMarshal
  rw [if_neg (fun h => hz (by cases p; simp_all))]
  have := qt_point_separators hx hy (c := ',') (by decide) (rest := []) (by simp) (by simp)
  rwa [List.append_nil] at this

/-- **C61.** The zero point is written as nothing, which is refused by the reader. -/
theorem qt_point_zero : qtMarshal ⟨0, 0⟩ = [] ∧ qtUnmarshal [] = none := by decide +kernel

/-- **C61.** A comma and a blank between the numbers are refused: the blank is taken for the separator. -/
theorem qt_point_comma_blank {p : Point} (hx : InI64 p.x) : qtUnmarshal (crsText p) = none := by
  cases h : qtUnmarshal (crsText p) with
  | none => rfl
  | some q =>
    exfalso
    obtain ⟨c, r, r', r'', h1, h2, h3, h4⟩ := (qt_point_reads _ _).mp h
    have hc : c = ' ' := by
      refine sep_unique h1 (Or.inr (Or.inr (Or.inl ⟨rfl, by simp [crsText], ?_, ?_⟩)))
      · have a := itoa_seps p.x '/' (by decide)
        have b := itoa_seps p.y '/' (by decide)
        simp [crsText, a, b]
      · have a := itoa_seps p.x ':' (by decide)
        have b := itoa_seps p.y ':' (by decide)
        simp [crsText, a, b]
    subst hc
    have e1 : scanInt (crsText p) = some (q.x, r) := (scanInt_iff _ _ _).mpr h2
    have e2 : scanInt (crsText p) = some (p.x, ',' :: ' ' :: itoa p.y) := scanInt_itoa hx (by simp; decide)
    rw [e2] at e1
    simp only [Option.some.injEq, Prod.mk.injEq] at e1
    rw [Between, if_pos rfl] at h3
    obtain ⟨-, w, hw, hw2, hw3⟩ := h3
    rw [← e1.2] at hw3
    have : ∀ w ∈ spaces, w.head? ≠ some ',' ∧ w ≠ [] := by decide
    obtain ⟨a, b⟩ := this w hw
    obtain ⟨t, ht⟩ := hw3
    cases w with
    | nil => exact b rfl
    | cons d w => simp only [List.cons_append, List.cons.injEq] at ht; exact a (by rw [ht.1]; rfl)

/-! ### Points of Camera Raw -/

/-- **C61.** Exactly these texts are read as a point of Camera Raw: two numbers with a comma and at least one space between them. -/
theorem crs_point_reads (s : Str) (p : Point) : crsUnmarshal s = some p ↔
    ∃ r r', Begins s p.x (',' :: r) ∧ Begins r p.y r' ∧ ∃ w ∈ spaces, w ≠ ['\n'] ∧ w <+: r := by
  unfold crsUnmarshal
  constructor
  · intro h
    cases h1 : scanInt s with
    | none => rw [h1] at h; cases h
    | some a =>
      obtain ⟨x, r⟩ := a
      rw [h1] at h
      cases r with
      | nil => cases h
      | cons d r =>
        simp only at h
        split at h
        · next e =>
          subst e
          cases h2 : scanGap r with
          | none => rw [h2] at h; cases h
          | some b =>
            obtain ⟨y, r'⟩ := b
            rw [h2] at h
            cases h
            obtain ⟨h3, h4⟩ := (scanGap_iff _ _ _).mp h2
            exact ⟨r, r', (scanInt_iff _ _ _).mp h1, h3, h4⟩
        · cases h
  · rintro ⟨r, r', h1, h2, h3⟩
    rw [(scanInt_iff _ _ _).mpr h1]
    simp only [if_true]
    rw [(scanGap_iff _ _ _).mpr ⟨h2, h3⟩]

/-- **C61.** Points of Camera Raw survive as text, the zero point as well. -/
theorem crs_point_roundtrip {p : Point} (hx : InI64 p.x) (hy : InI64 p.y) : crsUnmarshal (crsText p) = some p := by
  rw [crs_point_reads]
  have := begins_blank hy (rest := []) (by simp)
  rw [List.append_nil] at this
  exact ⟨_, _, begins_itoa hx (by simp; decide), this, [' '], by decide, by decide, _, rfl⟩

/-- **C61.** Without the blank the text is refused. -/
theorem crs_point_no_blank {p : Point} (hx : InI64 p.x) : crsUnmarshal (qtText p) = none := by
  cases h : crsUnmarshal (qtText p) with
  | none => rfl
  | some q =>
    exfalso
    obtain ⟨r, r', h1, h2, w, hw, hw2, hw3⟩ := (crs_point_reads _ _).mp h
    have e1 : scanInt (qtText p) = some (q.x, ',' :: r) := (scanInt_iff _ _ _).mpr h1
    have e2 : scanInt (qtText p) = some (p.x, ',' :: itoa p.y) := scanInt_itoa hx (by simp; decide)
    rw [e2] at e1
    simp only [Option.some.injEq, Prod.mk.injEq, List.cons.injEq, true_and] at e1
    rw [← e1.2] at hw3
    obtain ⟨t, ht⟩ := hw3
    have hv : ∀ w ∈ spaces, w ≠ [] ∧ ∀ d, w.head? = some d → isDigit d = false ∧ d ≠ '-' := by decide
    obtain ⟨a, b⟩ := hv w hw
    cases w with
    | nil => exact a rfl
    | cons d w =>
      obtain ⟨b1, b2⟩ := b d rfl
      exact itoa_not_mem b1 b2 p.y (by rw [← ht]; simp)

/-! ### Cases -/

example : qtUnmarshal "640,480".toList = some ⟨640, 480⟩ ∧ qtUnmarshal " +3: -4x".toList = some ⟨3, -4⟩ ∧ qtUnmarshal "3, 4".toList = none := by decide +kernel
example : crsUnmarshal "255, -1".toList = some ⟨255, -1⟩ ∧ crsUnmarshal "255,1".toList = none := by decide +kernel

end Xmp.Props
