import Verif.Model.Exif
import Verif.Props.Fields
import Verif.Props.Native
import Mathlib.Data.List.Forall2
import Mathlib.Data.Nat.Bitwise

/-! C54: values of Exif tags are read from their texts as the Exif standard says: bytes, tables, flash. -/

namespace Xmp.Props

open GoStr Exif List

/-! ### Bytes -/

/-- The word is the decimal number `b`, and `b` is a byte. -/
def ByteWord (w : Str) (b : Nat) : Prop :=
  ∃ ds : List Nat, ds ≠ [] ∧ (∀ d ∈ ds, d < 10) ∧ w = ds.map digitChar ∧ b = decVal ds ∧ b < 256

theorem byteWord_iff (w : Str) (b : Nat) : parseUint 8 w = some b ↔ ByteWord w b := by
  rw [parseUint_iff]
  constructor
  · rintro ⟨ds, h1, h2, h3, h4, h5⟩
    exact ⟨ds, h1, h2, h3, h5, by rw [h5]; exact h4⟩
  · rintro ⟨ds, h1, h2, h3, h4, h5⟩
    exact ⟨ds, h1, h2, h3, by rw [← h4]; exact h5, h4⟩

theorem parseBytes_iff (ws : List Str) (x : List Nat) : parseBytes ws = some x ↔ Forall₂ ByteWord ws x := by
  induction ws generalizing x with
  | nil =>
    simp only [parseBytes, Option.some.injEq, forall₂_nil_left_iff]
    exact eq_comm
  | cons w ws ih =>
    rw [parseBytes]
    cases h : parseUint 8 w with
    | none =>
      simp only [reduceCtorEq, false_iff]
      intro hf
      cases hf with
      | cons hb _ => rw [(byteWord_iff w _).2 hb] at h; cases h
    | some j =>
      simp only [Option.map_eq_some_iff]
      constructor
      · rintro ⟨y, hy, rfl⟩
        exact .cons ((byteWord_iff w j).1 h) ((ih y).1 hy)
      · intro hf
        cases hf with
        | cons hb hr =>
          rw [(byteWord_iff w _).2 hb] at h
          cases h
          exact ⟨_, (ih _).2 hr, rfl⟩

/-- The text of an array of bytes is read as the numbers it lists; anything else is refused. -/
theorem exif_bytes_read (old : List Nat) {ws : List Str} (hne : ws ≠ []) (hw : ∀ w ∈ ws, IsWord w) (x : List Nat) :
    bytesParse old (join [' '] ws) = some x ↔ Forall₂ ByteWord ws x := by
  rw [bytesParse, fields_join hw, if_neg hne, parseBytes_iff]

example (old : List Nat) : bytesParse old "7 0 255".toList = some [7, 0, 255] ∧ bytesParse old "7 256".toList = none :=
  ⟨(exif_bytes_read old (ws := ["7".toList, "0".toList, "255".toList]) (by decide)
      (fun w hw => by
        simp only [List.mem_cons, List.not_mem_nil, or_false] at hw
        rcases hw with rfl | rfl | rfl
        · exact word_natToStr 7
        · exact word_natToStr 0
        · exact word_natToStr 255) _).2
    (.cons ⟨[7], by decide⟩ (.cons ⟨[0], by decide⟩ (.cons ⟨[2, 5, 5], by decide⟩ .nil))), rfl⟩

theorem natToStr_byteWord {b : Nat} (h : b < 256) : ByteWord (natToStr b) b := by
  rw [← byteWord_iff, parseUint, parseNat_natToStr]
  simp only
  rw [if_pos (by omega)]

/-- Arrays of bytes survive as text. -/
theorem exif_bytes_roundtrip (old : List Nat) {x : List Nat} (hne : x ≠ []) (hx : ∀ b ∈ x, b < 256) :
    bytesParse old (bytesText x) = some x := by
  rw [bytesText, exif_bytes_read old (by simpa using hne)]
  · rw [forall₂_map_left_iff, forall₂_same]
    exact fun b hb => natToStr_byteWord (hx b hb)
  · intro w hw
    obtain ⟨b, _, rfl⟩ := List.mem_map.1 hw
    exact word_natToStr b

/-- An empty array does not: the value before is kept. -/
theorem exif_bytes_empty_kept (old : List Nat) : bytesParse old (bytesText []) = some old := rfl

example : bytesParse [1] (bytesText [9, 8]) = some [9, 8] ∧ bytesParse [1] (bytesText []) = some [1] :=
  ⟨exif_bytes_roundtrip [1] (by decide) (by decide), exif_bytes_empty_kept [1]⟩

/-! ### Tables -/

/-- A size that can be allocated. -/
def SmallTable (c r : Int) : Prop := 0 ≤ c * r ∧ c * r ≤ 2 ^ 40

instance (c r : Int) : Decidable (SmallTable c r) := by unfold SmallTable; infer_instance

theorem wrap64_id {i : Int} (h : -(2 ^ 63) ≤ i ∧ i < 2 ^ 63) : wrap64 i = i := by
  unfold wrap64 Int.bmod
  dsimp only
  split <;> omega

theorem gridLoop_values {α : Type} (size : Int) (one : Str → Option α) (i : Nat) (ws : List Str) (g g' : Grid α) :
    gridLoop size one (i + 2) ws g = .ok g' ↔
      ∃ x, Forall₂ (fun w b => one w = some b) ws x ∧ g' = { g with values := g.values ++ x } := by
  induction ws generalizing i g with
  | nil =>
    simp only [gridLoop, Res.ok.injEq, forall₂_nil_left_iff, exists_eq_left, List.append_nil]
    exact eq_comm
  | cons w ws ih =>
    rw [gridLoop]
    cases h : one w with
    | none =>
      simp only [reduceCtorEq, false_iff]
      rintro ⟨x, hf, -⟩
      cases hf with
      | cons hb _ => rw [h] at hb; cases hb
    | some j =>
      simp only
      rw [ih (i + 1)]
      constructor
      · rintro ⟨x, hx, rfl⟩
        exact ⟨j :: x, .cons h hx, by simp⟩
      · rintro ⟨x, hx, rfl⟩
        cases hx with
        | cons hb hr =>
          rw [h] at hb
          cases hb
          exact ⟨_, hr, by simp⟩

theorem atoi_itoa' {i : Int} (h : InI64 i) : atoi (itoa i) = some i := atoi_itoa h

theorem table_words {c r : Int} {ws : List Str} (hw : ∀ w ∈ ws, IsWord w) : ∀ w ∈ itoa c :: itoa r :: ws, IsWord w := by
  intro w hx
  rcases List.mem_cons.1 hx with rfl | hx
  · exact word_itoa c
  · rcases List.mem_cons.1 hx with rfl | hx
    · exact word_itoa r
    · exact hw w hx

theorem grid_head {α : Type} {size : Int} (one : Str → Option α) {c r : Int} (hc : InI64 c) (hr : InI64 r) (ws : List Str)
    (ho : makeOk size (wrap64 (c * r)) = true) :
    gridLoop size one 0 (itoa c :: itoa r :: ws) {} = gridLoop size one 2 ws { columns := c, rows := r, values := [] } := by
  rw [gridLoop, atoi_itoa hc]
  simp only
  rw [gridLoop, atoi_itoa hr]
  simp only
  rw [if_pos ho]

theorem grid_head_panic {α : Type} {size : Int} (one : Str → Option α) {c r : Int} (hc : InI64 c) (hr : InI64 r) (ws : List Str)
    (ho : makeOk size (wrap64 (c * r)) = false) : gridLoop size one 0 (itoa c :: itoa r :: ws) {} = .panic := by
  rw [gridLoop, atoi_itoa hc]
  simp only
  rw [gridLoop, atoi_itoa hr]
  simp only
  rw [if_neg (by simp [ho])]

/-- Columns, rows and values of a pattern of color filters are read as they are listed. -/
theorem exif_cfa_read {c r : Int} (hc : InI64 c) (hr : InI64 r) (hs : SmallTable c r) {ws : List Str} (hw : ∀ w ∈ ws, IsWord w)
    (g : Grid Nat) : cfaParse (join [' '] (itoa c :: itoa r :: ws)) = .ok g ↔
      g.columns = c ∧ g.rows = r ∧ Forall₂ ByteWord ws g.values := by
  obtain ⟨h0, h1⟩ := hs
  rw [cfaParse, fields_join (table_words hw), grid_head _ hc hr, gridLoop_values 1 _ 0]
  · simp only [List.nil_append, byteWord_iff]
    constructor
    · rintro ⟨x, hx, rfl⟩; exact ⟨rfl, rfl, hx⟩
    · rintro ⟨rfl, rfl, hx⟩; exact ⟨_, hx, rfl⟩
  · rw [wrap64_id (by omega)]
    simp only [makeOk, decide_eq_true_eq]
    omega

/-- The same for settings of devices, whose values are words. -/
theorem exif_device_read {c r : Int} (hc : InI64 c) (hr : InI64 r) (hs : SmallTable c r) {ws : List Str} (hw : ∀ w ∈ ws, IsWord w) :
    deviceParse (join [' '] (itoa c :: itoa r :: ws)) = .ok { columns := c, rows := r, values := ws } := by
  obtain ⟨h0, h1⟩ := hs
  rw [deviceParse, fields_join (table_words hw), grid_head _ hc hr, gridLoop_values 16 _ 0]
  · exact ⟨ws, by rw [forall₂_same]; intros; rfl, rfl⟩
  · rw [wrap64_id (by omega)]
    simp only [makeOk, decide_eq_true_eq]
    omega

example : cfaParse (join [' '] (itoa 2 :: itoa 1 :: [natToStr 0, natToStr 17])) = .ok { columns := 2, rows := 1, values := [0, 17] } :=
  (exif_cfa_read (by decide) (by decide) (by decide +kernel) (by
    intro w hw
    simp only [List.mem_cons, List.not_mem_nil, or_false] at hw
    rcases hw with rfl | rfl <;> exact word_natToStr _) _).2
    ⟨rfl, rfl, .cons (natToStr_byteWord (by decide)) (.cons (natToStr_byteWord (by decide)) .nil)⟩

/-- The number of values is not compared with columns and rows. -/
theorem exif_table_size_unchecked : ∃ g : Grid Nat, cfaParse "2 2 7".toList = .ok g ∧ (g.values.length : Int) ≠ g.columns * g.rows :=
  ⟨{ columns := 2, rows := 2, values := [7] }, by decide +kernel, by decide⟩

/-- A negative product of columns and rows crashes the program, whatever follows. -/
theorem exif_table_panics {c r : Int} (hc : InI64 c) (hr : InI64 r) (hn : -(2 ^ 63) ≤ c * r ∧ c * r < 0) {ws : List Str}
    (hw : ∀ w ∈ ws, IsWord w) :
    cfaParse (join [' '] (itoa c :: itoa r :: ws)) = .panic ∧ deviceParse (join [' '] (itoa c :: itoa r :: ws)) = .panic := by
  have hb : ∀ size, makeOk size (wrap64 (c * r)) = false := by
    intro size
    rw [wrap64_id (by omega)]
    simp only [makeOk, decide_eq_false_iff_not]
    omega
  rw [cfaParse, deviceParse, fields_join (table_words hw)]
  exact ⟨grid_head_panic _ hc hr _ (hb _), grid_head_panic _ hc hr _ (hb _)⟩

example : cfaParse (join [' '] (itoa (-1) :: itoa 1 :: [])) = .panic :=
  (exif_table_panics (c := -1) (r := 1) (ws := []) (by decide) (by decide) (by decide) (by simp)).1

/-! ### Opto-electric conversion functions -/

/-- What the loop keeps: the names are at most one less than the columns. -/
theorem oecfLoop_names (dec : Str → Option Codec.Rational) (ws : List Str) : ∀ (i : Nat) (o o' : Oecf), oecfLoop dec i ws o = .ok o' →
    (i = 0 → o.columns = 0) → (i ≤ 2 → o.names = []) → (o.columns ≤ 2 ^ 44) →
    (2 ≤ i → (o.names.length : Int) ≤ i - 2 ∧ (1 ≤ o.columns → (o.names.length : Int) < o.columns)) →
    (1 ≤ o'.columns → (o'.names.length : Int) < o'.columns) := by
  induction ws with
  | nil =>
    intro i o o' h hi0 hi2 hsz hnm hc
    rw [oecfLoop] at h
    cases h
    rcases Nat.lt_or_ge i 2 with h2 | h2
    · rw [hi2 (by omega)]; simp only [List.length_nil]; omega
    · exact (hnm h2).2 hc
  | cons w ws ih =>
    intro i o o' h hi0 hi2 hsz hnm hc
    rw [oecfLoop] at h
    split at h
    · rename_i h0
      subst h0
      split at h
      · cases h
      · split at h
        · rename_i c _ hmk
          simp only [makeOk, decide_eq_true_eq] at hmk
          exact ih _ _ _ h (by omega) (fun _ => rfl) (by simp only; omega) (by omega) hc
        · cases h
    · rename_i h0
      split at h
      · rename_i h1
        subst h1
        split at h
        · cases h
        · split at h
          · refine ih _ _ _ h (by omega) (fun _ => ?_) hsz (fun _ => ?_) hc
            · exact hi2 (by omega)
            · simp only
              rw [hi2 (by omega)]
              constructor
              · simp
              · intro h1; simp only [List.length_nil]; omega
          · cases h
      · rename_i h1
        have h2 : 2 ≤ i := by omega
        have hn := hnm h2
        split at h
        · rename_i hlt
          refine ih _ _ _ h (by omega) (by omega) hsz (fun _ => ?_) hc
          simp only [List.length_append, List.length_singleton]
          refine ⟨by omega, fun h1 => ?_⟩
          have := hlt.2
          rw [wrap64_id (by omega)] at this
          omega
        · split at h
          · cases h
          · refine ih _ _ _ h (by omega) (by omega) hsz (fun _ => ?_) hc
            simp only
            exact ⟨by omega, hn.2⟩

/-- Every table that is read has fewer names than columns: no text gives a complete table. -/
theorem exif_oecf_names_missing (dec : Str → Option Codec.Rational) {text : Str} {o : Oecf} (h : oecfParse dec text = .ok o)
    (hc : 1 ≤ o.columns) : (o.names.length : Int) < o.columns :=
  oecfLoop_names dec _ 0 {} o h (fun _ => rfl) (fun _ => rfl) (by decide) (by omega) hc

theorem oecf_head (dec : Str → Option Codec.Rational) {c r : Int} (hc : InI64 c) (hr : InI64 r) (h0 : 0 ≤ c ∧ c ≤ 2 ^ 40)
    (hs : SmallTable c r) (ws : List Str) :
    oecfLoop dec 0 (itoa c :: itoa r :: ws) {} = oecfLoop dec 2 ws { columns := c, rows := r } := by
  obtain ⟨hs0, hs1⟩ := hs
  rw [oecfLoop, if_pos rfl, atoi_itoa hc]
  simp only
  rw [if_pos (by simp only [makeOk, decide_eq_true_eq]; omega), oecfLoop, if_neg (by omega), if_pos rfl, atoi_itoa hr]
  simp only
  rw [if_pos (by rw [wrap64_id (by omega)]; simp only [makeOk, decide_eq_true_eq]; omega)]

theorem oecf_take_names (dec : Str → Option Codec.Rational) (ws ns : List Str) : ∀ (i : Nat) (o : Oecf), 2 ≤ i → 0 ≤ o.columns ∧ o.columns ≤ 2 ^ 40 →
    (i + ns.length : Int) ≤ o.columns + 1 →
    oecfLoop dec i (ns ++ ws) o = oecfLoop dec (i + ns.length) ws { o with names := o.names ++ ns } := by
  induction ns with
  | nil => intro i o _ _ _; simp
  | cons n ns ih =>
    intro i o hi hc hl
    simp only [List.length_cons] at hl
    rw [List.cons_append, oecfLoop, if_neg (by omega), if_neg (by omega), if_pos, ih]
    · simp only [List.append_assoc, List.singleton_append, List.length_cons]
      congr 1
      omega
    · omega
    · exact hc
    · simp only; omega
    · rw [wrap64_id (by omega)]; omega

theorem oecf_take_values (dec : Str → Option Codec.Rational) (ws : List Str) : ∀ (x : List Codec.Rational) (i : Nat) (o : Oecf), 2 ≤ i →
    0 ≤ o.columns ∧ o.columns ≤ 2 ^ 40 → o.columns + 1 ≤ i → Forall₂ (fun w v => Codec.ratParse dec ⟨0, 0⟩ w = some v) ws x →
    oecfLoop dec i ws o = .ok { o with values := o.values ++ x } := by
  induction ws with
  | nil => intro x i o _ _ _ hf; cases hf; simp [oecfLoop]
  | cons w ws ih =>
    intro x i o hi hc hl hf
    cases hf with
    | cons hb hr =>
      rw [oecfLoop, if_neg (by omega), if_neg (by omega), if_neg (by rw [wrap64_id (by omega)]; omega), hb]
      simp only
      rw [ih _ _ { o with values := o.values ++ [_] } (by omega) hc (by push_cast; omega) hr]
      simp

/-- What is read: one name less than there are columns, then values. -/
theorem exif_oecf_read_partial (dec : Str → Option Codec.Rational) {c r : Int} (hc : InI64 c) (hr : InI64 r) (h0 : 1 ≤ c ∧ c ≤ 2 ^ 40)
    (hs : SmallTable c r) {ns ws : List Str} {x : List Codec.Rational} (hns : (ns.length : Int) + 1 = c) (hn : ∀ n ∈ ns, IsWord n)
    (hw : ∀ w ∈ ws, IsWord w) (hx : Forall₂ (fun w v => Codec.ratParse dec ⟨0, 0⟩ w = some v) ws x) :
    oecfParse dec (join [' '] (itoa c :: itoa r :: (ns ++ ws))) = .ok { columns := c, rows := r, names := ns, values := x } := by
  rw [oecfParse, fields_join, oecf_head dec hc hr (by omega) hs, oecf_take_names]
  · rw [oecf_take_values dec ws x _ _ (by omega) (by simp only; omega) (by simp only; omega) hx]
    simp
  · omega
  · simp only; omega
  · simp only; omega
  · apply table_words
    intro w h
    rcases List.mem_append.1 h with h | h
    · exact hn w h
    · exact hw w h

example : oecfParse (fun _ => none) "2 1 A 1/2 3".toList =
    .ok { columns := 2, rows := 1, names := ["A".toList], values := [⟨1, 2⟩, ⟨3, 1⟩] } := by decide +kernel

/-- A complete table, with a name for each column, is refused unless its last name looks like a number. -/
theorem exif_oecf_refused (dec : Str → Option Codec.Rational) {c r : Int} (hc : InI64 c) (hr : InI64 r) (h0 : 1 ≤ c ∧ c ≤ 2 ^ 40)
    (hs : SmallTable c r) {ns ws : List Str} {n : Str} (hns : (ns.length : Int) + 1 = c) (hn : ∀ m ∈ ns, IsWord m) (hl : IsWord n)
    (hw : ∀ w ∈ ws, IsWord w) (hno : Codec.ratParse dec ⟨0, 0⟩ n = none) :
    oecfParse dec (join [' '] (itoa c :: itoa r :: (ns ++ n :: ws))) = .err := by
  rw [oecfParse, fields_join, oecf_head dec hc hr (by omega) hs, oecf_take_names]
  · rw [oecfLoop, if_neg (by omega), if_neg (by omega), if_neg (by simp only; rw [wrap64_id (by omega)]; omega), hno]
  · omega
  · simp only; omega
  · simp only; omega
  · apply table_words
    intro w h
    rcases List.mem_append.1 h with h | h
    · exact hn w h
    · rcases List.mem_cons.1 h with rfl | h
      · exact hl
      · exact hw w h

example (dec : Str → Option Codec.Rational) : oecfParse dec (join [' '] (itoa 2 :: itoa 1 :: (["Red".toList] ++ "Blue".toList :: ["1/2".toList, "1/3".toList]))) = .err := by
  have hv : ∀ s ∈ ["Red".toList, "Blue".toList, "1/2".toList, "1/3".toList], IsWord s := by
    intro s hs
    have h1 : ∀ s ∈ ["Red".toList, "Blue".toList, "1/2".toList, "1/3".toList], s ≠ [] ∧ ∀ c ∈ s, 33 ≤ c.toNat ∧ c.toNat ≤ 126 := by decide
    exact ⟨(h1 s hs).1, noSpace_of_visible (h1 s hs).2⟩
  exact exif_oecf_refused dec (by decide) (by decide) (by decide) (by decide +kernel) (ns := ["Red".toList]) (n := "Blue".toList)
    (by decide) (fun m hm => hv m (by simp only [List.mem_singleton] at hm; subst hm; simp)) (hv _ (by simp))
    (fun w hw => hv w (by simp only [List.mem_cons, List.not_mem_nil, or_false] at hw; rcases hw with rfl | rfl <;> simp)) (by rfl)

/-! ### Flash -/

/-- The number that the Exif standard gives to the fields: bit 0 fired, bits 1-2 return, bits 3-4 mode, bit 5 function,
bit 6 red-eye reduction. -/
def flashNumber (f : Flash) : Nat :=
  (if f.fired then 1 else 0) + 2 * f.ret + 8 * f.mode + (if f.function then 32 else 0) + (if f.redEyeMode then 64 else 0)

theorem and_pow_pos (n i : Nat) : (n &&& 2 ^ i > 0) ↔ n / 2 ^ i % 2 = 1 := by
  rw [Nat.and_two_pow, Nat.testBit, Nat.shiftRight_eq_div_pow, Nat.one_and_eq_mod_two]
  have hp : 0 < 2 ^ i := Nat.pow_pos (by decide)
  rcases Nat.mod_two_eq_zero_or_one (n / 2 ^ i) with h | h
  · rw [h]; simp [hp]
  · rw [h]; simp [hp]

theorem shift_and3 (n i : Nat) : n >>> i &&& 3 = n / 2 ^ i % 4 := by
  have := Nat.and_two_pow_sub_one_eq_mod (n >>> i) 2
  rw [Nat.shiftRight_eq_div_pow] at *
  simpa using this

/-- Every flash number is taken apart as the standard says; bits above the seventh are ignored. -/
theorem exif_flash_read (old : Flash) {v : Int} (h : -(2 ^ 31) ≤ v ∧ v < 2 ^ 31) : ∃ f, flashParse old (itoa v) = some f ∧
    f.ret < 4 ∧ f.mode < 4 ∧ ((flashNumber f : Nat) : Int) = v % 128 := by
  have hne : itoa v ≠ [] := (word_itoa v).1
  have hp : parseInt 32 (itoa v) = some v := parseInt_itoa (by simpa using h.1) (by simpa using h.2)
  rw [flashParse, if_neg hne, hp]
  refine ⟨_, rfl, ?_, ?_, ?_⟩
  · simp only [shift_and3]; omega
  · simp only [shift_and3]; omega
  · have a0 := and_pow_pos (bits64 v) 0
    have a5 := and_pow_pos (bits64 v) 5
    have a6 := and_pow_pos (bits64 v) 6
    simp only [Nat.reducePow] at a0 a5 a6
    simp only [flashNumber, shift_and3, decide_eq_true_eq, a0, a5, a6, Nat.reducePow]
    have hb : (bits64 v : Int) = v % 2 ^ 64 := by unfold bits64; omega
    have hm : ((bits64 v % 128 : Nat) : Int) = v % 128 := by omega
    rw [← hm]
    congr 1
    split <;> split <;> split <;> omega

/-- The fields are determined by the number. -/
theorem flashNumber_injective {f g : Flash} (hf : f.ret < 4 ∧ f.mode < 4) (hg : g.ret < 4 ∧ g.mode < 4)
    (h : flashNumber f = flashNumber g) : f = g := by
  obtain ⟨a1, a2, a3, a4, a5⟩ := f
  obtain ⟨b1, b2, b3, b4, b5⟩ := g
  simp only [flashNumber] at h hf hg
  have : a3 = b3 ∧ a5 = b5 ∧ a1 = b1 ∧ a2 = b2 ∧ a4 = b4 := by
    cases a1 <;> cases a2 <;> cases a4 <;> cases b1 <;> cases b2 <;> cases b4 <;> simp at h ⊢ <;> omega
  obtain ⟨rfl, rfl, rfl, rfl, rfl⟩ := this
  rfl

/-- The fields of a flash survive as number. -/
theorem exif_flash_roundtrip (old : Flash) {f : Flash} (hf : f.ret < 4 ∧ f.mode < 4) :
    flashParse old (itoa (flashNumber f)) = some f := by
  have hlt : flashNumber f < 128 := by
    obtain ⟨a1, a2, a3, a4, a5⟩ := f
    simp only [flashNumber] at hf ⊢
    split <;> split <;> split <;> omega
  obtain ⟨g, h1, h2, h3, h4⟩ := exif_flash_read old (v := flashNumber f) (by omega)
  rw [h1, flashNumber_injective ⟨h2, h3⟩ hf (by omega)]

example : flashParse {} (itoa 93) = some { fired := true, function := false, mode := 3, redEyeMode := true, ret := 2 } :=
  exif_flash_roundtrip {} (f := { fired := true, function := false, mode := 3, redEyeMode := true, ret := 2 }) (by decide)

end Xmp.Props
