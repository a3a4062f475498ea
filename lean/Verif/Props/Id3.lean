import Verif.Model.Id3
import Verif.Props.Dates
import Verif.Props.Codec
import Verif.Props.Rational

/-! C55: values of ID3 tags as text. -/

namespace Xmp.Props

open GoStr Id3

/-! ### Genres -/

/-- Names and numbers of genres are unique, no name is a number, none has a comma or blanks around it. -/
theorem genreMap_names : (genreMap.map (·.2)).Nodup ∧ (genreMap.map (·.1)).Nodup ∧
    ∀ g ∈ genreMap, g.1 < 256 ∧ atoi g.2 = none ∧ ',' ∉ g.2 ∧ g.2 ≠ [] := by
  refine ⟨?_, ?_, ?_⟩ <;> decide +kernel

theorem genreMap_trim : ∀ g ∈ genreMap, trimSpace g.2 = g.2 ∧ trimSpace (' ' :: g.2) = g.2 := by decide +kernel

theorem find_name {l : List (Nat × Str)} (hn : (l.map (·.2)).Nodup) {g : Nat × Str} (hg : g ∈ l) :
    l.find? (fun x => x.2 = g.2) = some g := by
  induction l with
  | nil => cases hg
  | cons a l ih =>
    rw [List.map_cons, List.nodup_cons] at hn
    rcases List.mem_cons.1 hg with rfl | hg
    · simp
    · have : a.2 ≠ g.2 := fun h => hn.1 (List.mem_map.2 ⟨g, hg, h.symm⟩)
      rw [List.find?_cons_of_neg (by simpa using this)]
      exact ih hn.2 hg

theorem find_number {l : List (Nat × Str)} (hn : (l.map (·.1)).Nodup) {g : Nat × Str} (hg : g ∈ l) :
    l.find? (fun x => x.1 = g.1) = some g := by
  induction l with
  | nil => cases hg
  | cons a l ih =>
    rw [List.map_cons, List.nodup_cons] at hn
    rcases List.mem_cons.1 hg with rfl | hg
    · simp
    · have : a.1 ≠ g.1 := fun h => hn.1 (List.mem_map.2 ⟨g, hg, h.symm⟩)
      rw [List.find?_cons_of_neg (by simpa using this)]
      exact ih hn.2 hg

/-- The genre is listed. -/
def Listed (g : Nat) (s : Str) : Prop := (g, s) ∈ genreMap

/-- Samples of the list from the ID3 specification. -/
theorem genres_known : Listed 0 "Blues".toList ∧ Listed 17 "Rock".toList ∧ Listed 79 "Hard Rock".toList ∧ Listed 125 "Dance Hall".toList ∧
    Listed 191 "Psybient".toList ∧ Listed 255 "None".toList ∧ genreMap.length = 193 := by
  unfold Listed
  refine ⟨?_, ?_, ?_, ?_, ?_, ?_, ?_⟩ <;> decide +kernel

/-- A text is read as genre exactly if it is a name or a number; of a number the lowest byte counts. -/
theorem id3_genre_read (s : Str) (g : Nat) : parseGenre s = some g ↔
    Listed g s ∨ (∀ h, ¬ Listed h s) ∧ ∃ n, IntText s n ∧ InI64 n ∧ (g : Int) = n % 256 := by
  obtain ⟨hn, -, hg⟩ := genreMap_names
  unfold parseGenre
  by_cases h : ∃ k, Listed k s
  · obtain ⟨k, hk⟩ := h
    rw [show genreMap.find? (fun g => g.2 = s) = some (k, s) from find_name hn hk]
    simp only [Option.some.injEq]
    constructor
    · rintro rfl; exact Or.inl hk
    · rintro (hl | ⟨hno, -⟩)
      · have := find_name hn hl
        rw [show genreMap.find? (fun g => g.2 = s) = some (k, s) from find_name hn hk] at this
        simpa using this
      · exact absurd hk (hno k)
  · have hno : genreMap.find? (fun g => g.2 = s) = none := by
      rw [List.find?_eq_none]
      intro x hx he
      simp only [decide_eq_true_eq] at he
      exact h ⟨x.1, by rw [← he]; exact hx⟩
    rw [hno]
    simp only [Option.map_eq_some_iff]
    have hall : ∀ k, ¬ Listed k s := fun k hk => h ⟨k, hk⟩
    constructor
    · rintro ⟨n, hn, rfl⟩
      refine Or.inr ⟨hall, n, ?_⟩
      have := (parseInt_iff 64 s n).1 hn
      refine ⟨this.1, ?_, by omega⟩
      have := this.2
      simp [InI64] at *
      omega
    · rintro (hl | ⟨-, n, ht, hi, he⟩)
      · exact absurd hl (hall g)
      · refine ⟨n, ?_, by omega⟩
        apply (parseInt_iff 64 s n).2
        refine ⟨ht, ?_⟩
        simp [InI64] at *
        omega

/-- Every genre number survives as text. -/
theorem id3_genre_roundtrip {g : Nat} (h : g < 256) : parseGenre (genreText g) = some g := by
  obtain ⟨hn, hk, hg⟩ := genreMap_names
  unfold genreText
  cases hf : genreMap.find? (fun x => x.1 = g) with
  | some x =>
    have h1 := List.find?_some hf
    have h2 := List.mem_of_find?_eq_some hf
    simp only [decide_eq_true_eq] at h1
    simp only
    rw [id3_genre_read]
    left
    show (g, x.2) ∈ genreMap
    rw [← h1]
    exact h2
  | none =>
    simp only
    rw [id3_genre_read]
    right
    have ha : atoi (natToStr g) = some (g : Int) := by
      have := atoi_itoa (i := (g : Int)) (by unfold InI64; omega)
      have e : itoa (g : Int) = natToStr g := by unfold itoa; rw [if_neg (by omega)]; rfl
      rwa [e] at this
    refine ⟨fun k hl => ?_, g, ?_, ?_, ?_⟩
    · rw [(hg _ hl).2.1] at ha
      cases ha
    · exact ((parseInt_iff 64 _ _).1 ha).1
    · unfold InI64; omega
    · omega

example : genreText 17 = "Rock".toList ∧ genreText 200 = "200".toList ∧ parseGenre "Rock".toList = some 17 ∧ parseGenre "rock".toList = none := by
  refine ⟨?_, ?_, ?_, ?_⟩ <;> decide +kernel

/-- Numbers that are no bytes are taken for genres: every number means the same as the one 256 above. -/
theorem id3_genre_wraps {n : Int} (h0 : InI64 n) (h1 : InI64 (n + 256)) : ∃ g, parseGenre (itoa n) = some g ∧ parseGenre (itoa (n + 256)) = some g := by
  obtain ⟨-, -, hg⟩ := genreMap_names
  have hr : ∀ m : Int, InI64 m → parseGenre (itoa m) = some ((m % 256).toNat) := by
    intro m hm
    rw [id3_genre_read]
    right
    have ha := atoi_itoa hm
    refine ⟨fun k hl => ?_, m, ((parseInt_iff 64 _ _).1 ha).1, hm, by omega⟩
    rw [(hg _ hl).2.1] at ha
    cases ha
  refine ⟨_, hr n h0, ?_⟩
  rw [hr _ h1]
  congr 1
  omega

example : parseGenre "-239".toList = some 17 ∧ parseGenre "273".toList = some 17 := by
  refine ⟨?_, ?_⟩ <;> decide +kernel

/-! ### Lists of genres -/

/-- What one entry of a list of genres stands for. -/
def genreWord (v : Str) : Str :=
  match parseGenre v with
  | some g => genreText g
  | none => if v = "RX".toList then "Remix".toList else if v = "CR".toList then "Cover".toList else v

/-- What a list of genres stands for. -/
def genreWords (value : Str) : List Str := (split ',' value).map (fun v => genreWord (trimSpace v))

/-- A genre or a number. -/
def KnownGenre (v : Str) : Prop := (parseGenre (trimSpace v)).isSome

theorem genreOf_known {value v : Str} (h : KnownGenre v) : genreOf value v = genreWord (trimSpace v) := by
  unfold genreOf genreWord
  unfold KnownGenre at h
  cases hp : parseGenre (trimSpace v) with
  | none => rw [hp] at h; cases h
  | some g => rfl

theorem genreWord_no_comma {v : Str} (h : ',' ∉ v) : ',' ∉ genreWord v := by
  obtain ⟨-, -, hg⟩ := genreMap_names
  unfold genreWord
  cases hp : parseGenre v with
  | some g =>
    simp only
    unfold genreText
    cases hf : genreMap.find? (fun x => x.1 = g) with
    | some x => exact (hg x (List.mem_of_find?_eq_some hf)).2.2.1
    | none =>
      simp only
      intro hm
      have := (natToStr_all g) _ hm
      revert this
      decide
  | none =>
    simp only
    split
    · decide
    · split
      · decide
      · exact h

theorem trimSpace_mem {s : Str} {c : Char} (h : c ∈ trimSpace s) : c ∈ s := by
  unfold trimSpace trimRight at h
  rw [List.mem_reverse] at h
  have h1 := (dropRun_suffix _ _ _).subset h
  rw [List.mem_reverse] at h1
  exact (dropRun_suffix _ _ _).subset h1

/-- A list of genres is read right only if all entries are genres or numbers, or if it is a single entry without blanks
around it: in all other cases the whole text is taken for each entry that is not known. -/
theorem id3_genres_iff (value : Str) : genresParse [] value = genreWords value ↔
    (∀ v ∈ split ',' value, KnownGenre v) ∨ (',' ∉ value ∧ trimSpace value = value) := by
  have hpt : genresParse [] value = genreWords value ↔ ∀ v ∈ split ',' value, genreOf value v = genreWord (trimSpace v) := by
    unfold genresParse genreWords
    rw [List.nil_append, List.map_inj_left]
  rw [hpt]
  constructor
  · intro h
    by_cases hk : ∀ v ∈ split ',' value, KnownGenre v
    · exact Or.inl hk
    · right
      simp only [not_forall] at hk
      obtain ⟨v, hv, hu⟩ := hk
      have hn : parseGenre (trimSpace v) = none := by
        unfold KnownGenre at hu
        cases hp : parseGenre (trimSpace v) with
        | none => rfl
        | some g => rw [hp] at hu; exact absurd rfl hu
      have he := h v hv
      have hcv : ',' ∉ genreWord (trimSpace v) := genreWord_no_comma (fun hm => split_no_sep_mem ',' value v hv (trimSpace_mem hm))
      rw [← he] at hcv
      unfold genreOf genreWord at he
      rw [hn] at he
      simp only at he
      have hc : ',' ∉ value := by
        intro hm
        unfold genreOf at hcv
        rw [hn] at hcv
        simp only at hcv
        have h1 : value ≠ "RX".toList := by rintro rfl; revert hm; decide
        have h2 : value ≠ "CR".toList := by rintro rfl; revert hm; decide
        rw [if_neg h1, if_neg h2] at hcv
        exact hcv hm
      refine ⟨hc, ?_⟩
      rw [split_no_sep hc, List.mem_singleton] at hv
      subst hv
      by_cases h1 : v = "RX".toList
      · rw [h1]; decide +kernel
      by_cases h2 : v = "CR".toList
      · rw [h2]; decide +kernel
      rw [if_neg h1, if_neg h2] at he
      by_cases h3 : trimSpace v = "RX".toList
      · rw [if_pos h3] at he
        rw [he] at h3
        exact absurd h3 (by decide +kernel)
      rw [if_neg h3] at he
      by_cases h4 : trimSpace v = "CR".toList
      · rw [if_pos h4] at he
        rw [he] at h4
        exact absurd h4 (by decide +kernel)
      rw [if_neg h4] at he
      exact he.symm
  · rintro (h | ⟨hc, ht⟩) v hv
    · exact genreOf_known (h v hv)
    · rw [split_no_sep hc, List.mem_singleton] at hv
      subst hv
      unfold genreOf genreWord
      rw [ht]
      rfl

example : genresParse [] "Rock, 8, RX".toList = ["Rock".toList, "Jazz".toList, "Rock, 8, RX".toList] ∧
    genreWords "Rock, 8, RX".toList = ["Rock".toList, "Jazz".toList, "Remix".toList] := by
  refine ⟨?_, ?_⟩ <;> decide +kernel

/-- What is read is added to the genres before. -/
theorem id3_genres_added (old : List Str) (value : Str) : genresParse old value = old ++ genresParse [] value := rfl

theorem split_join_blank {a : Str} {l : List Str} (h : ∀ s ∈ a :: l, ',' ∉ s) :
    split ',' (join ", ".toList (a :: l)) = a :: l.map (' ' :: ·) := by
  induction l generalizing a with
  | nil => rw [join, split_no_sep (h a (by simp))]; rfl
  | cons b l ih =>
    rw [join, List.append_assoc, show ", ".toList = [',', ' '] from rfl, List.cons_append, List.cons_append, List.nil_append,
      split_append_sep _ (h a (by simp))]
    · have hb : split ',' (' ' :: join [',', ' '] (b :: l)) = (' ' :: b) :: l.map (' ' :: ·) := by
        have := ih (a := ' ' :: b) (fun s hs => by
          rcases List.mem_cons.1 hs with rfl | hs
          · simp only [List.mem_cons, not_or]
            exact ⟨by decide, h b (by simp)⟩
          · exact h s (by simp [hs]))
        have e : join ", ".toList ((' ' :: b) :: l) = ' ' :: join [',', ' '] (b :: l) := by
          cases l with
          | nil => rfl
          | cons c l =>
            have key : ∀ x y : Str, ∀ l, join ", ".toList (x :: y :: l) = x ++ ", ".toList ++ join ", ".toList (y :: l) :=
              fun _ _ _ => by rw [join]; simp
            rw [key]
            exact congrArg (' ' :: ·) (key b c l).symm
        rwa [e] at this
      rw [hb]
      rfl
    · simp

/-- Lists of names of genres survive as text. -/
theorem id3_genres_roundtrip {x : List Str} (hne : x ≠ []) (hx : ∀ s ∈ x, ∃ g, Listed g s) : genresParse [] (genresText x) = x := by
  obtain ⟨hn, hk, hg⟩ := genreMap_names
  have hw : ∀ s ∈ x, ∀ v, v = s ∨ v = ' ' :: s → KnownGenre v ∧ genreWord (trimSpace v) = s := by
    intro s hs v hv
    obtain ⟨g, hl⟩ := hx s hs
    have ht : trimSpace v = s := by
      rcases hv with rfl | rfl
      · exact (genreMap_trim _ hl).1
      · exact (genreMap_trim _ hl).2
    have hp : parseGenre s = some g := (id3_genre_read s g).2 (Or.inl hl)
    refine ⟨by unfold KnownGenre; rw [ht, hp]; rfl, ?_⟩
    rw [ht]
    unfold genreWord genreText
    rw [hp]
    simp only
    rw [show genreMap.find? (fun x => x.1 = g) = some (g, s) from find_number hk hl]
  cases x with
  | nil => exact absurd rfl hne
  | cons a l =>
    have hc : ∀ s ∈ a :: l, ',' ∉ s := fun s hs => by
      obtain ⟨g, hl⟩ := hx s hs
      exact (hg _ hl).2.2.1
    have hs := split_join_blank hc
    rw [genresText, (id3_genres_iff _).2]
    · unfold genreWords
      rw [hs, List.map_cons, List.map_map, (hw a (by simp) a (Or.inl rfl)).2]
      congr 1
      conv => rhs; rw [← List.map_id l]
      rw [List.map_inj_left]
      intro s hm
      exact (hw s (by simp [hm]) (' ' :: s) (Or.inr rfl)).2
    · left
      rw [hs]
      intro v hv
      rcases List.mem_cons.1 hv with rfl | hv
      · exact (hw _ (by simp) _ (Or.inl rfl)).1
      · obtain ⟨s, hm, rfl⟩ := List.mem_map.1 hv
        exact (hw s (by simp [hm]) _ (Or.inr rfl)).1

example : genresParse [] (genresText ["Rock".toList, "New Age".toList]) = ["Rock".toList, "New Age".toList] :=
  id3_genres_roundtrip (by decide) (by
    intro s hs
    simp only [List.mem_cons, List.not_mem_nil, or_false] at hs
    rcases hs with rfl | rfl
    · exact ⟨17, by unfold Listed; decide +kernel⟩
    · exact ⟨10, by unfold Listed; decide +kernel⟩)

/-- No genres are read as one genre without name. -/
theorem id3_no_genres : genresParse [] (genresText []) = [[]] := by decide +kernel

/-! ### Dates and times of version 2.3 -/

theorem getnum_digits {n : Nat} (h : n < 100) (fixed : Bool) (r : Str) : getnum fixed (digitsW 2 n ++ r) = some (n, r) := by
  have h1 := digitChar_val (n := n / 10 % 10) (by omega)
  have h2 := digitChar_val (n := n % 10) (by omega)
  have e : digitsW 2 n = [digitChar (n / 10 % 10), digitChar (n % 10)] := by
    unfold digitsW digitsW digitsW
    rfl
  rw [e]
  simp only [List.cons_append, List.nil_append, getnum, h1, h2, Bool.not_true, Bool.false_eq_true, if_false]
  congr 2
  omega

theorem date23_toks : layoutToks date23Layout = [.month, .day] ∧ layoutToks time23Layout = [.hour, .min] := by
  refine ⟨?_, ?_⟩ <;> decide +kernel

/-- What is read from two numbers of two digits as a date: the first is taken for the month. -/
theorem id3_date_read {a b : Nat} (ha : a < 100) (hb : b < 100) : date23Parse (digitsW 2 a ++ digitsW 2 b) =
    if (1 ≤ a ∧ a ≤ 12) ∧ 1 ≤ b ∧ b ≤ monthLength 0 a then some { year := 0, month := a, day := b } else none := by
  have hb' := getnum_digits hb true []
  rw [List.append_nil] at hb'
  unfold date23Parse timeParse
  rw [date23_toks.1]
  simp only [parseToks, parseTok, getnum_digits ha]
  by_cases h1 : 1 ≤ a ∧ a ≤ 12
  · simp only [h1, and_self, if_true, hb', Option.map_some, Option.bind_some, finish, Option.getD_some, Option.getD_none, daysIn_calendar h1]
    by_cases h2 : 1 ≤ b ∧ b ≤ monthLength 0 a
    · rw [if_neg (by omega), if_pos (by simpa using h2)]
    · rw [if_pos (by omega), if_neg (by simpa using h2)]
  · simp only [h1, false_and, if_false, Option.bind_none]

/-- A date of version 2.3 is a day and a month, in this order.  It is read right exactly if both are the same number. -/
theorem id3_date_iff {day month : Nat} (hm : 1 ≤ month ∧ month ≤ 12) (hd : 1 ≤ day ∧ day ≤ monthLength 0 month) :
    date23Parse (digitsW 2 day ++ digitsW 2 month) = some { year := 0, month := month, day := day } ↔ day = month := by
  have h31 : monthLength 0 month ≤ 31 := by rw [← daysIn_calendar hm]; exact (daysIn_le _ _).2
  rw [id3_date_read (by omega) (by omega)]
  constructor
  · intro h
    split at h
    · simp only [Option.some.injEq, GoTime.mk.injEq] at h
      omega
    · cases h
  · rintro rfl
    rw [if_pos ⟨hm, hd⟩]

example : date23Parse "0512".toList = some { year := 0, month := 5, day := 12 } ∧ date23Parse "3112".toList = none := by
  have h1 := id3_date_read (a := 5) (b := 12) (by decide) (by decide)
  have h2 := id3_date_read (a := 31) (b := 12) (by decide) (by decide)
  exact ⟨h1.trans (if_pos (by decide +kernel)), h2.trans (if_neg (by decide +kernel))⟩

theorem year0_not_zero : ∀ m < 13, ∀ d < 32, GoTime.isZero { year := 0, month := m, day := d } = false := by decide +kernel

/-- Dates that are read are written as they were. -/
theorem id3_date_text {a b : Nat} (ha : a < 100) (hb : b < 100) {t : GoTime} (h : date23Parse (digitsW 2 a ++ digitsW 2 b) = some t) :
    date23Text t = digitsW 2 a ++ digitsW 2 b := by
  rw [id3_date_read ha hb] at h
  split at h
  · rename_i hv
    have h31 : monthLength 0 a ≤ 31 := by rw [← daysIn_calendar hv.1]; exact (daysIn_le _ _).2
    cases h
    rw [date23Text, year0_not_zero a (by omega) b (by omega), if_neg (by decide), GoTime.format, date23_toks.1]
    simp [fmtTok]
  · cases h

/-- A time of version 2.3 is read as hours and minutes; anything out of range is refused. -/
theorem id3_time_read {a b : Nat} (ha : a < 100) (hb : b < 100) : time23Parse (digitsW 2 a ++ digitsW 2 b) =
    if a < 24 ∧ b < 60 then some { year := 0, hour := a, min := b } else none := by
  have hb' := getnum_digits hb true []
  rw [List.append_nil] at hb'
  unfold time23Parse timeParse
  rw [date23_toks.2]
  simp only [parseToks, parseTok, getnum_digits ha]
  by_cases h1 : a < 24
  · by_cases h2 : b < 60
    · simp only [h1, h2, and_self, if_true, hb', Option.bind_some, finish, Option.getD_none]
      rfl
    · simp only [h1, h2, and_false, if_true, if_false, hb', Option.bind_none]
  · simp only [h1, false_and, if_false, Option.bind_none]

/-- Times survive as text. -/
theorem id3_time_text {a b : Nat} (ha : a < 24) (hb : b < 60) : ∃ t, time23Parse (digitsW 2 a ++ digitsW 2 b) = some t ∧ t.hour = a ∧ t.min = b ∧
    time23Text t = digitsW 2 a ++ digitsW 2 b := by
  rw [id3_time_read (by omega) (by omega), if_pos ⟨ha, hb⟩]
  refine ⟨_, rfl, rfl, rfl, ?_⟩
  have hz : GoTime.isZero { year := 0, hour := a, min := b } = false := by
    unfold GoTime.isZero GoTime.seconds
    have : GoTime.daysToYear 0 + (GoTime.daysBefore 0 1 : Int) + (((1 : Nat) : Int) - 1) = -366 := by decide +kernel
    simp only [this, decide_eq_false_iff_not]
    omega
  rw [time23Text, hz, if_neg (by decide), GoTime.format, date23_toks.2]
  simp [fmtTok]

example : ∃ t, time23Parse "2359".toList = some t ∧ t.hour = 23 ∧ t.min = 59 ∧ time23Text t = "2359".toList :=
  id3_time_text (a := 23) (b := 59) (by decide) (by decide)

/-! ### Track numbers -/

/-- Track numbers survive as text, with and without total. -/
theorem id3_track_roundtrip {x : TrackNum} (h1 : InI64 x.track) (h2 : InI64 x.total) : trackParse (trackText x) = some x := by
  obtain ⟨a, b⟩ := x
  unfold trackText trackParse
  by_cases h : b = 0
  · subst h
    rw [if_pos rfl, if_neg (itoa_not_mem (by decide) (by decide) _), atoi_itoa h1]
    rfl
  · rw [if_neg h, if_pos (by simp)]
    unfold Codec.scanSlash
    rw [scanInt_itoa h1 (by intro c hc; simp only [List.head?_cons, Option.some.injEq] at hc; subst hc; decide)]
    have := scanInt_itoa h2 (rest := []) (by simp)
    rw [List.append_nil] at this
    simp only [this]
    rfl

example : trackParse "10/12".toList = some ⟨10, 12⟩ ∧ trackParse "7".toList = some ⟨7, 0⟩ :=
  ⟨id3_track_roundtrip (x := ⟨10, 12⟩) (by decide) (by decide), id3_track_roundtrip (x := ⟨7, 0⟩) (by decide) (by decide)⟩

/-- What follows the total is ignored. -/
theorem id3_track_rest {a b : Int} (h1 : InI64 a) (h2 : InI64 b) {junk : Str} (hj : ∀ c, junk.head? = some c → isDigit c = false) :
    trackParse (itoa a ++ '/' :: (itoa b ++ junk)) = some ⟨a, b⟩ := by
  unfold trackParse Codec.scanSlash
  rw [if_pos (by simp), scanInt_itoa h1 (by intro c hc; simp only [List.head?_cons, Option.some.injEq] at hc; subst hc; decide)]
  simp only [scanInt_itoa h2 hj]
  rfl

/-! ### Names of tags -/

/-- Tags of version 2.3 and above are taken as they are; older ones become one of them or are refused. -/
theorem id3_tag_names (tag : Str) : (tag.length = 4 → mapTag tag = some tag) ∧ ∀ t, mapTag tag = some t → t.length = 4 := by
  have h1 : ∀ p ∈ v11Tags ++ v22Tags, p.2.length = 4 := by decide +kernel
  have hl : ∀ (l : List (Str × Str)) (t : Str), l.lookup tag = some t → ∃ p ∈ l, p.2 = t := by
    intro l t h
    induction l with
    | nil => cases h
    | cons p l ih =>
      rw [List.lookup] at h
      split at h
      · cases h; exact ⟨p, by simp, rfl⟩
      · obtain ⟨q, hq, he⟩ := ih h
        exact ⟨q, by simp [hq], he⟩
  unfold mapTag
  constructor
  · intro h
    rw [if_neg (by omega), if_neg (by omega)]
  · intro t h
    split at h
    · obtain ⟨p, hp, rfl⟩ := hl _ _ h
      exact h1 p (by simp [hp])
    · split at h
      · obtain ⟨p, hp, rfl⟩ := hl _ _ h
        exact h1 p (by simp [hp])
      · cases h
        omega

/-- Frames of version 2.2 that have one successor in version 2.4 (ID3v2.4.0 structure, ID3v2.2.0 chapter 4), and the fields of
version 1. -/
def id3Frames : List (Str × Str) :=
  [("BUF", "RBUF"), ("CNT", "PCNT"), ("COM", "COMM"), ("CRA", "AENC"), ("ETC", "ETCO"), ("EQU", "EQU2"),
   ("GEO", "GEOB"), ("IPL", "TIPL"), ("LNK", "LINK"), ("MCI", "MCDI"), ("MLL", "MLLT"), ("PIC", "APIC"),
   ("POP", "POPM"), ("REV", "RVRB"), ("RVA", "RVA2"), ("SLT", "SYLT"), ("STC", "SYTC"), ("TAL", "TALB"),
   ("TBP", "TBPM"), ("TCM", "TCOM"), ("TCR", "TCOP"), ("TDY", "TDLY"), ("TEN", "TENC"), ("TFT", "TFLT"),
   ("TKE", "TKEY"), ("TLA", "TLAN"), ("TLE", "TLEN"), ("TMT", "TMED"), ("TOA", "TOPE"), ("TOF", "TOFN"),
   ("TOL", "TOLY"), ("TOT", "TOAL"), ("TP1", "TPE1"), ("TP2", "TPE2"), ("TP3", "TPE3"), ("TP4", "TPE4"),
   ("TPA", "TPOS"), ("TPB", "TPUB"), ("TRC", "TSRC"), ("TRK", "TRCK"), ("TSS", "TSSE"), ("TT1", "TIT1"),
   ("TT2", "TIT2"), ("TT3", "TIT3"), ("TXT", "TEXT"), ("TXX", "TXXX"), ("UFI", "UFID"), ("ULT", "USLT"),
   ("WAF", "WOAF"), ("WAR", "WOAR"), ("WAS", "WOAS"), ("WCM", "WCOM"), ("WCP", "WCOP"), ("WPB", "WPUB"),
   ("WXX", "WXXX"), ("TCP", "TCMP"), ("TST", "TSOT"), ("TS2", "TSO2"), ("TSA", "TSOA"), ("TSP", "TSOP"),
   ("TSC", "TSOC"),
   ("0x0003", "TIT2"), ("0x0021", "TPE1"), ("0x003f", "TALB"), ("0x007d", "TRCK"), ("0x007f", "TCON")].map
  (fun g => (g.1.toList, g.2.toList))

/-- They become their successors. -/
theorem id3_frames_renamed : ∀ p ∈ id3Frames, mapTag p.1 = some p.2 := by decide +kernel

/-- The content type (genre) of version 2.2 becomes the media type, as the media type does. -/
theorem id3_content_type_misplaced : mapTag "TCO".toList = some "TMED".toList ∧ mapTag "TMT".toList = some "TMED".toList ∧
    mapTag "0x007f".toList = some "TCON".toList ∧ ∀ p ∈ v22Tags, p.2 ≠ "TCON".toList := by
  refine ⟨?_, ?_, ?_, ?_⟩ <;> decide +kernel

end Xmp.Props
