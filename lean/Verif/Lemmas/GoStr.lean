import Verif.Model.GoStr

/-! Helper lemmas about the Go string functions. -/

namespace Xmp.GoStr

/-! ### digits -/

theorem digitChar_toNat {n : Nat} (h : n < 10) : (digitChar n).toNat = 48 + n := by
  have : n = 0 ∨ n = 1 ∨ n = 2 ∨ n = 3 ∨ n = 4 ∨ n = 5 ∨ n = 6 ∨ n = 7 ∨ n = 8 ∨ n = 9 := by omega
  rcases this with h | h | h | h | h | h | h | h | h | h <;> subst h <;> decide

theorem isDigit_digitChar {n : Nat} (h : n < 10) : isDigit (digitChar n) = true := by
  unfold isDigit; rw [digitChar_toNat h]; simp; omega

theorem digitsVal_append (s t : Str) : ∀ acc, digitsVal acc (s ++ t) =
    (digitsVal acc s).bind (fun a => digitsVal a t) := by
  induction s with
  | nil => intro acc; simp [digitsVal]
  | cons c cs ih =>
    intro acc
    simp only [List.cons_append, digitsVal]
    split
    · exact ih _
    · simp

theorem digitsVal_natDigits : ∀ f n, n < f → digitsVal 0 (natDigits f n) = some n := by
  intro f
  induction f with
  | zero => intro n h; omega
  | succ f ih =>
    intro n h
    unfold natDigits
    by_cases h10 : n < 10
    · simp only [h10, if_true, digitsVal, isDigit_digitChar h10]
      rw [digitChar_toNat h10]; simp
    · simp only [h10, if_false]
      rw [digitsVal_append, ih (n / 10) (by omega)]
      have hm : n % 10 < 10 := by omega
      simp only [Option.bind, digitsVal, isDigit_digitChar hm, if_true]
      rw [digitChar_toNat hm]
      congr 1; omega

theorem natDigits_all : ∀ f n, ∀ c ∈ natDigits f n, isDigit c = true := by
  intro f
  induction f with
  | zero => intro n c h; simp [natDigits] at h
  | succ f ih =>
    intro n c h
    unfold natDigits at h
    by_cases h10 : n < 10
    · simp only [h10, if_true, List.mem_singleton] at h
      subst h; exact isDigit_digitChar h10
    · simp only [h10, if_false, List.mem_append, List.mem_singleton] at h
      rcases h with h | h
      · exact ih _ _ h
      · subst h; exact isDigit_digitChar (by omega)

theorem natDigits_ne_nil (f n : Nat) : natDigits (f + 1) n ≠ [] := by
  unfold natDigits; split <;> simp

theorem natToStr_ne_nil (n : Nat) : natToStr n ≠ [] := natDigits_ne_nil _ _

theorem natToStr_all (n : Nat) : ∀ c ∈ natToStr n, isDigit c = true := natDigits_all _ _

theorem parseNat_natToStr (n : Nat) : parseNat (natToStr n) = some n := by
  have h := digitsVal_natDigits (n + 1) n (by omega)
  have hne := natToStr_ne_nil n
  unfold natToStr at *
  cases hd : natDigits (n + 1) n with
  | nil => exact absurd hd hne
  | cons c cs => rw [hd] at h; exact h

theorem natToStr_injective {a b : Nat} (h : natToStr a = natToStr b) : a = b := by
  have ha := parseNat_natToStr a
  rw [h, parseNat_natToStr b] at ha
  exact (Option.some.inj ha).symm

theorem not_isDigit_of {c : Char} (h : isDigit c = false) {n : Nat} : c ∉ natToStr n := by
  intro hm
  have := natToStr_all n c hm
  rw [h] at this; cases this

theorem natToStr_head (n : Nat) : ∃ c cs, natToStr n = c :: cs ∧ isDigit c = true := by
  cases h : natToStr n with
  | nil => exact absurd h (natToStr_ne_nil n)
  | cons c cs => exact ⟨c, cs, rfl, natToStr_all n c (by rw [h]; simp)⟩

theorem parseIntRaw_itoa (i : Int) : parseIntRaw (itoa i) = some i := by
  unfold itoa
  split
  · rename_i h
    simp [parseIntRaw, parseNat_natToStr]
    omega
  · rename_i h
    obtain ⟨c, cs, hc, hd⟩ := natToStr_head i.natAbs
    have hp := parseNat_natToStr i.natAbs
    rw [hc] at hp ⊢
    have h1 : c ≠ '-' := by intro hh; subst hh; revert hd; decide
    have h2 : c ≠ '+' := by intro hh; subst hh; revert hd; decide
    simp [parseIntRaw, h1, h2, hp]
    omega

theorem parseInt_itoa {bits : Nat} {i : Int} (h1 : -(2 ^ (bits - 1) : Int) ≤ i)
    (h2 : i < (2 ^ (bits - 1) : Int)) : parseInt bits (itoa i) = some i := by
  unfold parseInt
  rw [parseIntRaw_itoa]
  simp [h1, h2]

theorem atoi_itoa {i : Int} (h : InI64 i) : atoi (itoa i) = some i := by
  unfold atoi
  exact parseInt_itoa h.1 h.2

theorem atoi_range {s : Str} {i : Int} (h : atoi s = some i) : InI64 i := by
  unfold atoi parseInt at h
  cases hr : parseIntRaw s with
  | none => rw [hr] at h; cases h
  | some j =>
    rw [hr] at h
    simp only at h
    split at h
    · rename_i hc; injection h with h; subst h; exact hc
    · cases h

theorem parseUint_natToStr {bits n : Nat} (h : n < 2 ^ bits) :
    parseUint bits (natToStr n) = some n := by
  unfold parseUint; rw [parseNat_natToStr]; simp [h]

theorem itoa_ne_nil (i : Int) : itoa i ≠ [] := by
  unfold itoa; split
  · simp
  · exact natToStr_ne_nil _

theorem itoa_not_mem {c : Char} (h : isDigit c = false) (h' : c ≠ '-') (i : Int) : c ∉ itoa i := by
  unfold itoa; split
  · simp only [List.mem_cons, not_or]; exact ⟨h', not_isDigit_of h⟩
  · exact not_isDigit_of h

theorem itoa_injective {a b : Int} (h : itoa a = itoa b) : a = b := by
  have ha := parseIntRaw_itoa a
  rw [h, parseIntRaw_itoa b] at ha
  exact (Option.some.inj ha).symm

/-! ### index -/

theorem indexChar_none {c : Char} {s : Str} : indexChar c s = none ↔ c ∉ s := by
  induction s with
  | nil => simp [indexChar]
  | cons x xs ih =>
    unfold indexChar
    by_cases h : x = c
    · simp [h]
    · simp [h, ih, Ne.symm h]

theorem indexChar_append {c : Char} {a b : Str} (h : c ∉ a) :
    indexChar c (a ++ c :: b) = some a.length := by
  induction a with
  | nil => simp [indexChar]
  | cons x xs ih =>
    simp only [List.mem_cons, not_or] at h
    simp [indexChar, Ne.symm h.1, ih h.2]

theorem indexChar_some {c : Char} {s : Str} {i : Nat} (h : indexChar c s = some i) :
    ∃ a b, s = a ++ c :: b ∧ c ∉ a ∧ a.length = i := by
  induction s generalizing i with
  | nil => simp [indexChar] at h
  | cons x xs ih =>
    unfold indexChar at h
    by_cases hx : x = c
    · simp [hx] at h; subst h
      exact ⟨[], xs, by simp [hx], by simp, rfl⟩
    · simp only [hx, if_false] at h
      cases hi : indexChar c xs with
      | none => simp [hi] at h
      | some j =>
        simp [hi] at h
        obtain ⟨a, b, h1, h2, h3⟩ := ih hi
        refine ⟨x :: a, b, by simp [h1], ?_, by simp; omega⟩
        simp [h2, Ne.symm hx]

theorem lastIndexChar_none {c : Char} {s : Str} : lastIndexChar c s = none ↔ c ∉ s := by
  induction s with
  | nil => simp [lastIndexChar]
  | cons x xs ih =>
    unfold lastIndexChar
    cases h : lastIndexChar c xs with
    | some i =>
      have : c ∈ xs := by
        rcases Classical.em (c ∈ xs) with hm | hm
        · exact hm
        · rw [ih.2 hm] at h; cases h
      simp [this]
    | none =>
      have hm := ih.1 h
      by_cases hx : x = c
      · simp [hx]
      · simp [hx, hm, Ne.symm hx]

theorem lastIndexChar_append {c : Char} {a b : Str} (h : c ∉ b) :
    lastIndexChar c (a ++ c :: b) = some a.length := by
  induction a with
  | nil => simp [lastIndexChar, lastIndexChar_none.2 h]
  | cons x xs ih => simp [lastIndexChar, ih]

/-! ### split and join -/

theorem split_ne_nil (c : Char) (s : Str) : split c s ≠ [] := by
  cases s with
  | nil => simp [split]
  | cons x xs =>
    unfold split
    split
    · simp
    · split <;> simp

theorem split_cons_sep (c : Char) (s : Str) : split c (c :: s) = [] :: split c s := by
  simp [split]

theorem split_no_sep {c : Char} {s : Str} (h : c ∉ s) : split c s = [s] := by
  induction s with
  | nil => simp [split]
  | cons x xs ih =>
    simp only [List.mem_cons, not_or] at h
    simp [split, Ne.symm h.1, ih h.2]

theorem split_append_sep {c : Char} {a : Str} (b : Str) (h : c ∉ a) :
    split c (a ++ c :: b) = a :: split c b := by
  induction a with
  | nil => simp [split]
  | cons x xs ih =>
    simp only [List.mem_cons, not_or] at h
    simp only [List.cons_append, split, Ne.symm h.1, if_false, ih h.2]

theorem join_cons_cons (sep a b : Str) (l : List Str) :
    join sep (a :: b :: l) = a ++ sep ++ join sep (b :: l) := rfl

theorem join_cons {sep a : Str} {l : List Str} (h : l ≠ []) :
    join sep (a :: l) = a ++ sep ++ join sep l := by
  cases l with
  | nil => exact absurd rfl h
  | cons b t => rfl

theorem split_join {c : Char} {l : List Str} (hne : l ≠ []) (h : ∀ s ∈ l, c ∉ s) :
    split c (join [c] l) = l := by
  induction l with
  | nil => exact absurd rfl hne
  | cons a t ih =>
    cases t with
    | nil => exact split_no_sep (h a (by simp))
    | cons b t =>
      rw [join_cons_cons, List.append_assoc, List.singleton_append, split_append_sep _ (h a (by simp)),
        ih (by simp) (fun s hs => h s (by simp [hs]))]

theorem join_split (c : Char) (s : Str) : join [c] (split c s) = s := by
  induction s with
  | nil => simp [split, join]
  | cons x xs ih =>
    unfold split
    by_cases hx : x = c
    · simp only [hx, if_true]
      rw [join_cons (split_ne_nil c xs), ih]; simp
    · simp only [hx, if_false]
      cases hs : split c xs with
      | nil => exact absurd hs (split_ne_nil c xs)
      | cons h t =>
        rw [hs] at ih
        simp only
        cases t with
        | nil => simp only [join] at ih ⊢; rw [ih]
        | cons b t =>
          rw [join_cons_cons] at ih ⊢
          rw [← ih]; simp

theorem split_no_sep_mem (c : Char) (s : Str) : ∀ p ∈ split c s, c ∉ p := by
  induction s with
  | nil => simp [split]
  | cons x xs ih =>
    intro p hp
    unfold split at hp
    by_cases hx : x = c
    · simp only [hx, if_true, List.mem_cons] at hp
      rcases hp with hp | hp
      · subst hp; simp
      · exact ih p hp
    · simp only [hx, if_false] at hp
      cases hs : split c xs with
      | nil => exact absurd hs (split_ne_nil c xs)
      | cons h t =>
        rw [hs] at hp ih
        simp only [List.mem_cons] at hp
        rcases hp with hp | hp
        · subst hp
          have := ih h (by simp)
          simp [this, Ne.symm hx]
        · exact ih p (by simp [hp])

theorem length_split (c : Char) (s : Str) : (split c s).length = s.count c + 1 := by
  induction s with
  | nil => simp [split]
  | cons x xs ih =>
    unfold split
    by_cases hx : x = c
    · subst hx; simp [ih]
    · simp only [hx, if_false]
      cases hs : split c xs with
      | nil => exact absurd hs (split_ne_nil c xs)
      | cons h t =>
        rw [hs] at ih
        rw [List.count_cons_of_ne (by exact hx)]
        simpa using ih

/-! ### prefixes and suffixes -/

theorem hasPrefix_iff {s p : Str} : hasPrefix s p = true ↔ ∃ t, s = p ++ t := by
  unfold hasPrefix
  rw [List.isPrefixOf_iff_prefix]
  constructor
  · rintro ⟨t, h⟩; exact ⟨t, h.symm⟩
  · rintro ⟨t, h⟩; exact ⟨t, h.symm⟩

theorem hasSuffix_iff {s p : Str} : hasSuffix s p = true ↔ ∃ t, s = t ++ p := by
  unfold hasSuffix
  rw [List.isSuffixOf_iff_suffix]
  constructor
  · rintro ⟨t, h⟩; exact ⟨t, h.symm⟩
  · rintro ⟨t, h⟩; exact ⟨t, h.symm⟩

theorem trimPrefix_append (p t : Str) : trimPrefix (p ++ t) p = t := by
  unfold trimPrefix
  rw [if_pos (hasPrefix_iff.2 ⟨t, rfl⟩)]; simp

theorem trimSuffix_append (t p : Str) : trimSuffix (t ++ p) p = t := by
  unfold trimSuffix
  rw [if_pos (hasSuffix_iff.2 ⟨t, rfl⟩)]; simp

theorem hasPrefix_singleton {s : Str} {c : Char} : hasPrefix s [c] = true ↔ s.head? = some c := by
  rw [hasPrefix_iff]
  cases s with
  | nil => simp
  | cons x xs => simp

theorem hasSuffix_singleton {s : Str} {c : Char} : hasSuffix s [c] = true ↔ s.getLast? = some c := by
  rw [hasSuffix_iff]
  constructor
  · rintro ⟨t, rfl⟩; simp
  · intro h
    refine ⟨s.dropLast, ?_⟩
    obtain ⟨hne, h⟩ := List.getLast?_eq_some_iff.1 h
    rw [h]; simp

/-! ### trimSpace -/

theorem dropRun_fix {ws : List Str} {s : Str} (h : ∀ w ∈ ws, hasPrefix s w = false) :
    ∀ f, dropRun ws f s = s := by
  intro f
  cases f with
  | zero => rfl
  | succ f =>
    unfold dropRun
    have : ws.find? (fun w => hasPrefix s w) = none := by
      rw [List.find?_eq_none]
      intro w hw; simp [h w hw]
    rw [this]

theorem dropRun_suffix (ws : List Str) : ∀ f s, dropRun ws f s <:+ s := by
  intro f
  induction f with
  | zero => intro s; exact List.suffix_refl _
  | succ f ih =>
    intro s
    unfold dropRun
    split
    · exact (ih _).trans (List.drop_suffix _ _)
    · exact List.suffix_refl _

theorem dropRun_stop {ws : List Str} (hws : ∀ w ∈ ws, w ≠ []) : ∀ f s, s.length ≤ f →
    ∀ w ∈ ws, hasPrefix (dropRun ws f s) w = false := by
  intro f
  induction f with
  | zero =>
    intro s hs w hw
    have : s = [] := List.length_eq_zero_iff.1 (by omega)
    subst this
    simp only [dropRun]
    cases h : hasPrefix [] w with
    | false => rfl
    | true =>
      obtain ⟨t, ht⟩ := hasPrefix_iff.1 h
      have := hws w hw
      have h0 : w = [] := (List.append_eq_nil_iff.1 ht.symm).1
      exact absurd h0 this
  | succ f ih =>
    intro s hs w hw
    unfold dropRun
    split
    · rename_i v hv
      have hp := List.find?_some hv
      have hm := List.mem_of_find?_eq_some hv
      have hl : 0 < v.length := List.length_pos_iff.2 (hws v hm)
      exact ih _ (by simp; omega) w hw
    · rename_i hn
      rw [List.find?_eq_none] at hn
      have := hn w hw
      cases hh : hasPrefix s w with
      | false => rfl
      | true => exact absurd hh this

/-- Nothing to trim: no white space at either end. -/
def Trimmed (s : Str) : Prop :=
  (∀ w ∈ spaces, hasPrefix s w = false) ∧ (∀ w ∈ spaces, hasSuffix s w = false)

instance (s : Str) : Decidable (Trimmed s) := by unfold Trimmed; infer_instance

theorem hasPrefix_reverse (s w : Str) : hasPrefix s.reverse w.reverse = hasSuffix s w := by
  unfold hasPrefix hasSuffix
  rw [Bool.eq_iff_iff, List.isPrefixOf_iff_prefix, List.isSuffixOf_iff_suffix, List.reverse_prefix]

theorem trimSpace_of_trimmed {s : Str} (h : Trimmed s) : trimSpace s = s := by
  have h1 : trimLeft s = s := dropRun_fix h.1 _
  unfold trimSpace
  rw [h1]
  unfold trimRight
  rw [dropRun_fix]
  · simp
  · intro w hw
    obtain ⟨v, hv, rfl⟩ := List.mem_map.1 hw
    rw [hasPrefix_reverse]; exact h.2 v hv

theorem spaces_ne_nil : ∀ w ∈ spaces, w ≠ [] := by decide

theorem hasPrefix_of_prefix {s t w : Str} (h : t <+: s) (hw : hasPrefix s w = false) :
    hasPrefix t w = false := by
  cases hh : hasPrefix t w with
  | false => rfl
  | true =>
    obtain ⟨u, hu⟩ := hasPrefix_iff.1 hh
    obtain ⟨v, hv⟩ := h
    have : hasPrefix s w = true := hasPrefix_iff.2 ⟨u ++ v, by rw [← hv, hu]; simp⟩
    rw [hw] at this; cases this

theorem trimmed_trimSpace (s : Str) : Trimmed (trimSpace s) := by
  have hl : ∀ w ∈ spaces, hasPrefix (trimLeft s) w = false :=
    dropRun_stop spaces_ne_nil _ _ (Nat.le_refl _)
  have hr : ∀ w ∈ spaces.map List.reverse,
      hasPrefix (dropRun (spaces.map List.reverse) (trimLeft s).length (trimLeft s).reverse) w = false :=
    dropRun_stop (by
      intro w hw; obtain ⟨v, hv, rfl⟩ := List.mem_map.1 hw
      intro h; exact spaces_ne_nil v hv (List.reverse_eq_nil_iff.1 h)) _ _ (by simp)
  constructor
  · intro w hw
    refine hasPrefix_of_prefix ?_ (hl w hw)
    unfold trimSpace trimRight
    have := dropRun_suffix (spaces.map List.reverse) (trimLeft s).length (trimLeft s).reverse
    have h2 := List.reverse_prefix.2 this
    simpa using h2
  · intro w hw
    have := hr w.reverse (List.mem_map.2 ⟨w, hw, rfl⟩)
    unfold trimSpace trimRight
    rw [← hasPrefix_reverse]
    simpa using this

theorem trimSpace_idem (s : Str) : trimSpace (trimSpace s) = trimSpace s :=
  trimSpace_of_trimmed (trimmed_trimSpace s)

/-- A visible ASCII character. -/
def Visible (c : Char) : Prop := 33 ≤ c.toNat ∧ c.toNat ≤ 126

instance (c : Char) : Decidable (Visible c) := by unfold Visible; infer_instance

theorem spaces_not_visible : ∀ w ∈ spaces, ∃ c, c ∈ w ∧ ¬ Visible c ∧ w ≠ [] := by
  have h : ∀ w ∈ spaces, w ≠ [] ∧ ∀ c ∈ w, ¬ Visible c := by decide +kernel
  intro w hw
  obtain ⟨h1, h2⟩ := h w hw
  cases w with
  | nil => exact absurd rfl h1
  | cons c cs => exact ⟨c, by simp, h2 c (by simp), by simp⟩

/-- The ASCII spaces. -/
def blanks : List Char := ['\t', '\n', '\u000b', '\u000c', '\r', ' ']

theorem dropRun_blanks {a s : Str} (ha : ∀ c ∈ a, c ∈ blanks) (hs : ∀ w ∈ spaces, hasPrefix s w = false) :
    ∀ f, a.length ≤ f → dropRun spaces f (a ++ s) = s := by
  induction a with
  | nil => intro f _; exact dropRun_fix hs f
  | cons c a ih =>
    intro f hf
    obtain ⟨f, rfl⟩ : ∃ g, f = g + 1 := ⟨f - 1, by simp at hf; omega⟩
    have hc := ha c (by simp)
    have : spaces.find? (fun w => hasPrefix (c :: (a ++ s)) w) = some [c] := by
      simp only [blanks, List.mem_cons, List.not_mem_nil, or_false] at hc
      rcases hc with rfl | rfl | rfl | rfl | rfl | rfl <;> rfl
    rw [List.cons_append, dropRun, this]
    exact ih (fun d hd => ha d (by simp [hd])) f (by simpa using hf)

theorem dropRun_blanks_rev {a s : Str} (ha : ∀ c ∈ a, c ∈ blanks)
    (hs : ∀ w ∈ spaces.map List.reverse, hasPrefix s w = false) :
    ∀ f, a.length ≤ f → dropRun (spaces.map List.reverse) f (a ++ s) = s := by
  induction a with
  | nil => intro f _; exact dropRun_fix hs f
  | cons c a ih =>
    intro f hf
    obtain ⟨f, rfl⟩ : ∃ g, f = g + 1 := ⟨f - 1, by simp at hf; omega⟩
    have hc := ha c (by simp)
    have : (spaces.map List.reverse).find? (fun w => hasPrefix (c :: (a ++ s)) w) = some [c] := by
      simp only [blanks, List.mem_cons, List.not_mem_nil, or_false] at hc
      rcases hc with rfl | rfl | rfl | rfl | rfl | rfl <;> rfl
    rw [List.cons_append, dropRun, this]
    exact ih (fun d hd => ha d (by simp [hd])) f (by simpa using hf)

/-- Spaces around a text without surrounding space are removed. -/
theorem trimSpace_blanks {a s b : Str} (ha : ∀ c ∈ a, c ∈ blanks) (hb : ∀ c ∈ b, c ∈ blanks) (hs : Trimmed s)
    (hn : s ≠ []) : trimSpace (a ++ s ++ b) = s := by
  have h1 : trimLeft (a ++ s ++ b) = s ++ b := by
    unfold trimLeft
    rw [List.append_assoc]
    refine dropRun_blanks ha ?_ _ (by simp)
    intro w hw
    cases h : hasPrefix (s ++ b) w with
    | false => rfl
    | true =>
      exfalso
      obtain ⟨c, s, rfl⟩ : ∃ c t, s = c :: t := by
        cases s with
        | nil => exact absurd rfl hn
        | cons c t => exact ⟨c, t, rfl⟩
      have hl := List.isPrefixOf_iff_prefix.1 h
      have hb' : ∀ c ∈ b, c.toNat < 128 := by
        intro d hd
        have := hb d hd
        simp only [blanks, List.mem_cons, List.not_mem_nil, or_false] at this
        rcases this with rfl | rfl | rfl | rfl | rfl | rfl <;> decide
      -- a space longer than the text would contain an ASCII byte behind its first byte
      have hsp : ∀ w ∈ spaces, ∀ d ∈ w.tail, 128 ≤ d.toNat := by decide
      rcases Nat.lt_or_ge (c :: s).length w.length with hlt | hge
      · cases b with
        | nil =>
          have := hl.length_le
          simp at this hlt
          omega
        | cons d b =>
          obtain ⟨t, ht⟩ := hl
          cases w with
          | nil => simp at hlt
          | cons w0 ws =>
            simp only [List.cons_append, List.cons.injEq] at ht
            have hd : d ∈ ws := by
              have h2 : (ws ++ t)[s.length]? = some d := by rw [ht.2]; simp
              rw [List.getElem?_append_left (by simp at hlt; omega)] at h2
              exact List.mem_of_getElem? h2
            have := hsp _ hw d (by simpa using hd)
            have := hb' d (by simp)
            omega
      · have h3 : w <+: (c :: s) := List.prefix_of_prefix_length_le hl (List.prefix_append _ _) hge
        have := hs.1 w hw
        rw [show hasPrefix (c :: s) w = true from List.isPrefixOf_iff_prefix.2 h3] at this
        cases this
  unfold trimSpace
  rw [h1]
  unfold trimRight
  rw [List.reverse_append, dropRun_blanks_rev (fun c hc => hb c (by simpa using hc)) ?_ _ (by simp)]
  · simp
  · intro w hw
    obtain ⟨v, hv, rfl⟩ := List.mem_map.1 hw
    rw [hasPrefix_reverse]; exact hs.2 v hv

/-- Text of visible characters only has no white space to trim. -/
theorem trimmed_of_visible {s : Str} (h : ∀ c ∈ s, Visible c) : Trimmed s := by
  constructor
  · intro w hw
    obtain ⟨c, hc, hv, _⟩ := spaces_not_visible w hw
    rw [Bool.eq_false_iff]
    intro hp
    obtain ⟨t, rfl⟩ := hasPrefix_iff.1 hp
    exact hv (h c (by simp [hc]))
  · intro w hw
    obtain ⟨c, hc, hv, _⟩ := spaces_not_visible w hw
    rw [Bool.eq_false_iff]
    intro hp
    obtain ⟨t, rfl⟩ := hasSuffix_iff.1 hp
    exact hv (h c (by simp [hc]))

theorem visible_of_isDigit {c : Char} (h : isDigit c = true) : Visible c := by
  unfold isDigit at h
  simp at h
  unfold Visible
  omega

theorem visible_natToStr (n : Nat) : ∀ c ∈ natToStr n, Visible c :=
  fun c hc => visible_of_isDigit (natToStr_all n c hc)

theorem visible_itoa (i : Int) : ∀ c ∈ itoa i, Visible c := by
  unfold itoa
  split
  · intro c hc
    rcases List.mem_cons.1 hc with rfl | hc
    · decide
    · exact visible_natToStr _ c hc
  · exact visible_natToStr _

theorem trimmed_itoa (i : Int) : Trimmed (itoa i) := trimmed_of_visible (visible_itoa i)

end Xmp.GoStr
