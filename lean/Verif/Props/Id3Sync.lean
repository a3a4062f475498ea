import Verif.Props.Id3

/-! C55: the exchange of ID3 tags with the properties of other schemas. -/

namespace Xmp.Props

open GoStr Id3

/-- Any file with a date and a time of version 2.3 and without a recording time crashes the program. -/
theorem id3_sync_panics {x : Tags} (d : Doc) (hr : x.recordingTime.isZero = true) (hd : x.date23.isZero = false)
    (ht : x.time23.isZero = false) : syncTo x d = .panic := by
  unfold syncTo
  rw [hr, hd, ht, if_pos (by decide)]

/-- In particular whatever these two are, as long as they are legal texts. -/
theorem id3_sync_panics_text {x : Tags} (d : Doc) (hr : x.recordingTime = {}) {a b h m : Nat} (ha : a < 100) (hb : b < 100)
    (hd : date23Parse (digitsW 2 a ++ digitsW 2 b) = some x.date23) (hh : h < 24) (hm : m < 60)
    (ht : time23Parse (digitsW 2 h ++ digitsW 2 m) = some x.time23) : syncTo x d = .panic := by
  apply id3_sync_panics
  · rw [hr]; decide +kernel
  · cases hz : x.date23.isZero with
    | false => rfl
    | true =>
      have := id3_date_text ha hb hd
      rw [date23Text, hz, if_pos rfl] at this
      simp [digitsW] at this
  · obtain ⟨t, h1, -, -, h4⟩ := id3_time_text hh hm
    rw [ht, Option.some.injEq] at h1
    subst h1
    cases hz : x.time23.isZero with
    | false => rfl
    | true =>
      rw [time23Text, hz, if_pos rfl] at h4
      simp [digitsW] at h4

example : syncTo { date23 := { year := 0, month := 5, day := 12 }, time23 := { year := 0, hour := 23, min := 59 } } {} = .panic :=
  id3_sync_panics {} (by decide +kernel) (by decide +kernel) (by decide +kernel)

/-- A tag says the same in the document, and leaves the document as it is when it is not set. -/
def Carried {α : Type} (set : Prop) (tag old now : α) : Prop := (set → now = tag) ∧ (¬ set → now = old)

theorem carried_if {α : Type} {set : Prop} [Decidable set] (tag old : α) : Carried set tag old (if set then tag else old) :=
  ⟨fun h => if_pos h, fun h => if_neg h⟩

/-- What the document says after tags are carried over. -/
structure TagsCarried (x : Tags) (d d' : Doc) (old now : Dm) : Prop where
  date : Carried (x.recordingTime.isZero = false) (some x.recordingTime) d.base d'.base
  comments : Carried (x.comments ≠ []) x.comments old.logComment now.logComment
  album : Carried (x.album ≠ []) x.album old.album now.album
  composer : Carried (x.composer ≠ []) x.composer old.composer now.composer
  artist : Carried (x.leadPerformer ≠ []) x.leadPerformer old.artist now.artist
  engineer : Carried (x.modifiedBy ≠ []) x.modifiedBy old.engineer now.engineer
  genre : Carried (x.genres ≠ []) (genresText x.genres) old.genre now.genre
  disc : Carried (x.disc ≠ {}) x.disc.track old.discNumber now.discNumber
  track : Carried (x.track ≠ {}) x.track.track old.trackNumber now.trackNumber
  lyrics : Carried (x.lyrics ≠ []) (join ['\n'] x.lyrics) old.lyrics now.lyrics
  web : Carried (x.copyrightInfo ≠ []) (some x.copyrightInfo) d.rights d'.rights

/-- All tags but the compilation mark are carried over and erase nothing. -/
theorem id3_sync_carried_partial {x : Tags} {d d' : Doc} (h : syncTo x d = .ok d') :
    ∃ now, d'.dm = some now ∧ TagsCarried x d d' (d.dm.getD {}) now := by
  unfold syncTo at h
  split at h
  · cases h
  · cases h
    refine ⟨_, rfl, ?_⟩
    have hz : ∀ t : TrackNum, t.isZero = true ↔ t = {} := by
      rintro ⟨a, b⟩
      simp [TrackNum.isZero]
    constructor
    · simp only
      cases hr : x.recordingTime.isZero
      · exact ⟨fun _ => rfl, fun h => absurd rfl h⟩
      · exact ⟨fun h => (Bool.noConfusion h), fun _ => rfl⟩
    · exact carried_if _ _
    · exact carried_if _ _
    · exact carried_if _ _
    · exact carried_if _ _
    · exact carried_if _ _
    · have : x.genres.length > 0 ↔ x.genres ≠ [] := List.length_pos_iff
      simp only [syncDm, this]
      exact carried_if _ _
    · constructor
      · intro hn
        simp only [syncDm]
        rw [if_neg (fun e => hn ((hz _).1 e))]
      · intro hn
        simp only [syncDm]
        rw [if_pos ((hz _).2 (not_not.1 hn))]
    · constructor
      · intro hn
        simp only [syncDm]
        rw [if_neg (fun e => hn ((hz _).1 e))]
      · intro hn
        simp only [syncDm]
        rw [if_pos ((hz _).2 (not_not.1 hn))]
    · have : x.lyrics.length > 0 ↔ x.lyrics ≠ [] := List.length_pos_iff
      simp only [syncDm, this]
      exact carried_if _ _
    · exact carried_if _ _

/-- The compilation mark of the document is replaced even when there is no such tag. -/
theorem id3_compilation_erased {x : Tags} {d d' : Doc} (h : syncTo x d = .ok d') (hx : x.compilation = 0) :
    ∃ now, d'.dm = some now ∧ now.partOfCompilation = false := by
  unfold syncTo at h
  split at h
  · cases h
  · cases h
    exact ⟨_, rfl, by simp [syncDm, hx]⟩

example : ∃ d', syncTo {} { dm := some { partOfCompilation := true, album := "A".toList } } = .ok d' ∧
    d'.dm = some { partOfCompilation := false, album := "A".toList } :=
  ⟨_, rfl, by decide +kernel⟩

/-- Title and copyright are added to documents that have none, and replace none. -/
theorem id3_sync_title {x : Tags} {d d' : Doc} (h : syncTo x d = .ok d') :
    let old := d.dc.getD {}
    let now := d'.dc.getD {}
    (old.title ≠ [] → now.title = old.title) ∧ (old.title = [] → now.title.default = x.title) ∧
    (old.rights ≠ [] → now.rights = old.rights) ∧ (old.rights = [] → now.rights.default = x.copyright) := by
  unfold syncTo at h
  split at h
  · cases h
  · cases h
    simp only
    have hd : ∀ l v : Str, AltString.default (AltString.addDefault [] l v) = v := by
      intro l v
      unfold AltString.addDefault
      by_cases hv : v = []
      · rw [if_pos hv, hv]; rfl
      · rw [if_neg hv]; rfl
    unfold syncDc
    by_cases ht : x.title = [] <;> by_cases hc : x.copyright = []
    · simp only [ht, hc, ne_eq, not_true_eq_false, or_self, if_false]
      exact ⟨fun _ => trivial, fun h => by rw [h]; rfl, fun _ => trivial, fun h => by rw [h]; rfl⟩
    all_goals
      simp only [ht, hc, ne_eq, not_true_eq_false, not_false_eq_true, or_self, or_true, true_or, if_true, Option.getD_some, true_and,
        false_and, if_false]
      refine ⟨fun h => ?_, fun h => ?_, fun h => ?_, fun h => ?_⟩
      all_goals
        first
        | exact trivial
        | rfl
        | exact if_neg (fun e => h (List.length_eq_zero_iff.1 e))
        | rw [if_pos (by rw [h]; rfl), h, hd]
        | (rw [h]; rfl)

/-- What comes back when tags are carried over and read again into tags `y`. -/
structure TagsBack (x y z : Tags) : Prop where
  date : x.recordingTime.isZero = false → z.recordingTime = x.recordingTime
  comments : x.comments ≠ [] → z.comments = x.comments
  album : x.album ≠ [] → z.album = x.album
  composer : x.composer ≠ [] → z.composer = x.composer
  artist : x.leadPerformer ≠ [] → z.leadPerformer = x.leadPerformer
  engineer : x.modifiedBy ≠ [] → z.modifiedBy = x.modifiedBy
  compilation : z.compilation = 1 ↔ x.compilation = 1
  genre : x.genres ≠ [] → (∀ s ∈ x.genres, ∃ g, Listed g s) → z.genres = y.genres ++ x.genres
  disc : 0 < x.disc.track → z.disc = { track := x.disc.track }
  track : 0 < x.track.track → z.track = { track := x.track.track }
  lyrics : x.lyrics ≠ [] → x.lyrics ≠ [[]] → (∀ s ∈ x.lyrics, '\n' ∉ s) → z.lyrics = x.lyrics
  web : x.copyrightInfo ≠ [] → z.copyrightInfo = x.copyrightInfo

theorem join_eq_nil {l : List Str} {c : Char} (h : join [c] l = []) : l = [] ∨ l = [[]] := by
  match l with
  | [] => exact Or.inl rfl
  | [a] => rw [join] at h; rw [h]; exact Or.inr rfl
  | a :: b :: l =>
    rw [join] at h
    · simp at h
    · simp

theorem fromRights_other {α : Type} (f : Tags → α) (hf : ∀ t w, f { t with copyrightInfo := w } = f t) (x : Tags) (w : Option Str) :
    f (fromRights x w) = f x := by
  unfold fromRights
  split
  · rfl
  · split
    · exact hf _ _
    · rfl

theorem fromBase_genres (x : Tags) (t : Option GoTime) : (fromBase x t).genres = x.genres := by
  unfold fromBase
  split
  · rfl
  · split <;> rfl

theorem fromDc_genres (x : Tags) (m : Option Dc) : (fromDc x m).genres = x.genres := by
  unfold fromDc
  split <;> rfl

theorem id3_sync_back_partial {x : Tags} {d d' : Doc} (h : syncTo x d = .ok d') (y : Tags) : TagsBack x y (syncFrom y d') := by
  obtain ⟨now, hn, hc⟩ := id3_sync_carried_partial h
  have hcomp : now.partOfCompilation = decide (x.compilation = 1) := by
    unfold syncTo at h
    split at h
    · cases h
    · cases h
      cases hn
      rfl
  have hor : ∀ a b : Str, a ≠ [] → orElse a b = a := fun a b h => by unfold orElse; rw [if_pos h]
  unfold syncFrom
  rw [hn]
  have hg : (fromBase (fromDc y d'.dc) d'.base).genres = y.genres := by rw [fromBase_genres, fromDc_genres]
  have hd : x.recordingTime.isZero = false → (fromBase (fromDc y d'.dc) d'.base).recordingTime = x.recordingTime := by
    intro hz
    rw [hc.date.1 hz, fromBase, hz]
    rfl
  generalize fromBase (fromDc y d'.dc) d'.base = y2 at hg hd ⊢
  constructor
  · intro h
    rw [fromRights_other (·.recordingTime) (fun _ _ => rfl)]
    exact hd h
  · intro h
    rw [fromRights_other (·.comments) (fun _ _ => rfl)]
    simp only [fromDm]
    rw [hc.comments.1 h, hor _ _ h]
  · intro h
    rw [fromRights_other (·.album) (fun _ _ => rfl)]
    simp only [fromDm]
    rw [hc.album.1 h, hor _ _ h]
  · intro h
    rw [fromRights_other (·.composer) (fun _ _ => rfl)]
    simp only [fromDm]
    rw [hc.composer.1 h, hor _ _ h]
  · intro h
    rw [fromRights_other (·.leadPerformer) (fun _ _ => rfl)]
    simp only [fromDm]
    rw [hc.artist.1 h, hor _ _ h]
  · intro h
    rw [fromRights_other (·.modifiedBy) (fun _ _ => rfl)]
    simp only [fromDm]
    rw [hc.engineer.1 h, hor _ _ h]
  · rw [fromRights_other (·.compilation) (fun _ _ => rfl)]
    simp [fromDm, hcomp]
  · intro h hl
    rw [fromRights_other (·.genres) (fun _ _ => rfl)]
    simp only [fromDm]
    rw [hc.genre.1 h, if_pos, id3_genres_added, id3_genres_roundtrip h hl, hg]
    intro he
    have hr := id3_genres_roundtrip h hl
    rw [he, show genresParse [] [] = [[]] by decide +kernel] at hr
    obtain ⟨g, hg⟩ := hl [] (by rw [← hr]; simp)
    exact (genreMap_names.2.2 _ hg).2.2.2 rfl
  · intro h
    rw [fromRights_other (·.disc) (fun _ _ => rfl)]
    simp only [fromDm]
    have hne : x.disc ≠ {} := by intro e; rw [e] at h; simp at h
    rw [hc.disc.1 hne, if_pos h]
  · intro h
    rw [fromRights_other (·.track) (fun _ _ => rfl)]
    simp only [fromDm]
    have hne : x.track ≠ {} := by intro e; rw [e] at h; simp at h
    rw [hc.track.1 hne, if_pos h]
  · intro h h1 h2
    rw [fromRights_other (·.lyrics) (fun _ _ => rfl)]
    simp only [fromDm]
    rw [hc.lyrics.1 h, if_pos, split_join h h2]
    intro he
    rcases join_eq_nil he with e | e
    · exact h e
    · exact h1 e
  · intro h
    rw [hc.web.1 h]
    simp [fromRights, h]

/-- The total number of tracks is lost when tags are carried over and back, even over themselves. -/
theorem id3_sync_total_lost {x : Tags} {d d' : Doc} (h : syncTo x d = .ok d') (ht : 0 < x.track.track) (hn : x.track.total ≠ 0) :
    (syncFrom x d').track ≠ x.track := by
  rw [(id3_sync_back_partial h x).track ht]
  intro e
  rw [← e] at hn
  exact hn rfl

/-- Genres are doubled. -/
theorem id3_sync_genres_doubled {x : Tags} {d d' : Doc} (h : syncTo x d = .ok d') (hn : x.genres ≠ [])
    (hl : ∀ s ∈ x.genres, ∃ g, Listed g s) : (syncFrom x d').genres = x.genres ++ x.genres :=
  (id3_sync_back_partial h x).genre hn hl

example : ∃ d', syncTo { track := ⟨3, 12⟩, genres := ["Rock".toList], album := "A".toList } {} = .ok d' ∧
    (syncFrom { track := ⟨3, 12⟩, genres := ["Rock".toList], album := "A".toList } d').genres = ["Rock".toList, "Rock".toList] ∧
    (syncFrom {} d').track = ⟨3, 0⟩ ∧ (syncFrom {} d').album = "A".toList := by
  refine ⟨_, rfl, ?_, ?_, ?_⟩ <;> decide +kernel

end Xmp.Props
