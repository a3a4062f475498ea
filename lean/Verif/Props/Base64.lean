import Verif.Model.Base64
import Verif.Props.Codec
import Mathlib.Tactic.IntervalCases

/-! C64: bytes as text. -/

namespace Xmp.Props

open GoStr Base64

/-- One `Char` per byte. -/
def IsBytes (b : Str) : Prop := ∀ c ∈ b, c.toNat < 256

instance (b : Str) : Decidable (IsBytes b) := inferInstanceAs (Decidable (∀ c ∈ b, c.toNat < 256))

/-- The sextet of a character after RFC 4648, section 4. -/
def stdValue (c : Char) : Option Nat :=
  if 65 ≤ c.toNat ∧ c.toNat ≤ 90 then some (c.toNat - 65)
  else if 97 ≤ c.toNat ∧ c.toNat ≤ 122 then some (c.toNat - 97 + 26)
  else if 48 ≤ c.toNat ∧ c.toNat ≤ 57 then some (c.toNat - 48 + 52)
  else if c = '+' then some 62
  else if c = '/' then some 63
  else none

/-- A number with the digits `ds`, most significant first. -/
def ofDigits (base : Nat) (ds : List Nat) : Nat := ds.foldl (fun n d => n * base + d) 0

theorem value_sextet : ∀ n < 64, value (sextet n) = some n := by decide +kernel

theorem sextet_ne : ∀ n < 64, sextet n ≠ '=' ∧ sextet n ≠ '\r' ∧ sextet n ≠ '\n' := by decide +kernel

theorem value_eq_sign : value '=' = none := by decide +kernel

theorem char_of_toNat {c d : Char} (h : c.toNat = d.toNat) : c = d := by
  rw [← Char.ofNat_toNat c, ← Char.ofNat_toNat d, h]

/-- **C64.** The alphabet is that of RFC 4648: `A`-`Z`, `a`-`z`, `0`-`9`, `+` and `/` stand for 0 to 63 and no other
character stands for a number. -/
theorem base64_alphabet (c : Char) : value c = stdValue c := by
  by_cases h : c ∈ alphabet
  · have : ∀ c ∈ alphabet, value c = stdValue c := by decide +kernel
    exact this c h
  · have h1 : value c = none := by
      unfold value
      rw [List.idxOf?_eq_none_iff]
      exact h
    rw [h1]
    symm
    have key : ∀ n, n < 128 → (stdValue (Char.ofNat n)).isSome = true → Char.ofNat n ∈ alphabet := by decide +kernel
    cases hs : stdValue c with
    | none => rfl
    | some v =>
      exfalso
      apply h
      have hlt : c.toNat < 128 := by
        unfold stdValue at hs
        split at hs
        · omega
        · split at hs
          · omega
          · split at hs
            · omega
            · split at hs
              · rename_i e; subst e; decide
              · split at hs
                · rename_i e; subst e; decide
                · cases hs
      have := key c.toNat hlt
      rw [Char.ofNat_toNat] at this
      exact this (by rw [hs]; rfl)

theorem decodeQuanta_encode : ∀ b : Str, IsBytes b → decodeQuanta (encode b) = some b
  | [], _ => rfl
  | [a], h => by
    have ha := h a (by simp)
    have e1 := value_sextet (a.toNat / 4) (by omega)
    have e2 := value_sextet (a.toNat % 4 * 16) (by omega)
    simp only [encode, decodeQuanta, e1, e2, if_true, and_self]
    rw [show a.toNat / 4 * 4 + a.toNat % 4 * 16 / 16 = a.toNat by omega, Char.ofNat_toNat]
  | [a, b], h => by
    have ha := h a (by simp)
    have hb := h b (by simp)
    have e1 := value_sextet (a.toNat / 4) (by omega)
    have e2 := value_sextet (a.toNat % 4 * 16 + b.toNat / 16) (by omega)
    have e3 := value_sextet (b.toNat % 16 * 4) (by omega)
    have n3 := (sextet_ne (b.toNat % 16 * 4) (by omega)).1
    simp only [encode, decodeQuanta, e1, e2, e3, n3, if_true, if_false]
    rw [show a.toNat / 4 * 4 + (a.toNat % 4 * 16 + b.toNat / 16) / 16 = a.toNat by omega,
      show (a.toNat % 4 * 16 + b.toNat / 16) % 16 * 16 + b.toNat % 16 * 4 / 4 = b.toNat by omega, Char.ofNat_toNat,
      Char.ofNat_toNat]
  | a :: b :: c :: rest, h => by
    have ha := h a (by simp)
    have hb := h b (by simp)
    have hc := h c (by simp)
    have e1 := value_sextet (a.toNat / 4) (by omega)
    have e2 := value_sextet (a.toNat % 4 * 16 + b.toNat / 16) (by omega)
    have e3 := value_sextet (b.toNat % 16 * 4 + c.toNat / 64) (by omega)
    have e4 := value_sextet (c.toNat % 64) (by omega)
    have n3 := (sextet_ne (b.toNat % 16 * 4 + c.toNat / 64) (by omega)).1
    have n4 := (sextet_ne (c.toNat % 64) (by omega)).1
    simp only [encode, decodeQuanta, e1, e2, e3, e4, n3, n4, if_false,
      decodeQuanta_encode rest (fun x hx => h x (by simp [hx])), Option.map_some]
    rw [show a.toNat / 4 * 4 + (a.toNat % 4 * 16 + b.toNat / 16) / 16 = a.toNat by omega,
      show (a.toNat % 4 * 16 + b.toNat / 16) % 16 * 16 + (b.toNat % 16 * 4 + c.toNat / 64) / 4 = b.toNat by omega,
      show (b.toNat % 16 * 4 + c.toNat / 64) % 4 * 64 + c.toNat % 64 = c.toNat by omega,
      Char.ofNat_toNat, Char.ofNat_toNat, Char.ofNat_toNat]

theorem encode_chars : ∀ b : Str, IsBytes b → ∀ x ∈ encode b, x = '=' ∨ ∃ n < 64, x = sextet n
  | [], _ => by simp [encode]
  | [a], h => by
    have ha := h a (by simp)
    intro x hx
    simp only [encode, List.mem_cons, List.not_mem_nil, or_false] at hx
    rcases hx with rfl | rfl | rfl | rfl
    · exact .inr ⟨_, by omega, rfl⟩
    · exact .inr ⟨_, by omega, rfl⟩
    · exact .inl rfl
    · exact .inl rfl
  | [a, b], h => by
    have ha := h a (by simp)
    have hb := h b (by simp)
    intro x hx
    simp only [encode, List.mem_cons, List.not_mem_nil, or_false] at hx
    rcases hx with rfl | rfl | rfl | rfl
    · exact .inr ⟨_, by omega, rfl⟩
    · exact .inr ⟨_, by omega, rfl⟩
    · exact .inr ⟨_, by omega, rfl⟩
    · exact .inl rfl
  | a :: b :: c :: rest, h => by
    have ha := h a (by simp)
    have hb := h b (by simp)
    have hc := h c (by simp)
    intro x hx
    simp only [encode, List.mem_cons] at hx
    rcases hx with rfl | rfl | rfl | rfl | hx
    · exact .inr ⟨_, by omega, rfl⟩
    · exact .inr ⟨_, by omega, rfl⟩
    · exact .inr ⟨_, by omega, rfl⟩
    · exact .inr ⟨_, by omega, rfl⟩
    · exact encode_chars rest (fun x hx => h x (by simp [hx])) x hx

/-- **C64.** Decoding an encoded sequence of bytes gives the bytes. -/
theorem base64_roundtrip (b : Str) (h : IsBytes b) : decode (encode b) = some b := by
  unfold decode
  rw [List.filter_eq_self.2, decodeQuanta_encode b h]
  intro x hx
  rcases encode_chars b h x hx with rfl | ⟨n, hn, rfl⟩
  · decide
  · have := sextet_ne n hn
    simp [this.2.1, this.2.2]

example : decode (encode "go".toList) = some "go".toList := base64_roundtrip _ (by decide)

theorem ofDigits_from (base : Nat) (ds : List Nat) (n : Nat) :
    ds.foldl (fun n d => n * base + d) n = n * base ^ ds.length + ofDigits base ds := by
  unfold ofDigits
  induction ds generalizing n with
  | nil => simp
  | cons d ds ih =>
    rw [List.foldl_cons, ih, List.foldl_cons, ih (0 * base + d), List.length_cons, Nat.pow_succ]
    rw [Nat.add_mul, Nat.mul_assoc, Nat.mul_comm base, Nat.zero_mul, Nat.zero_add, Nat.add_assoc]

/-- **C64.** The encoding is big-endian: read as a number with digits of 6 bits, it is the number with the bytes as
digits, times 4 for each padding character; there are four characters for each three bytes that have begun, and at most
two padding characters. -/
theorem base64_digits (b : Str) (h : IsBytes b) :
    ofDigits 64 ((encode b).filterMap value) = ofDigits 256 (b.map Char.toNat) * 4 ^ ((encode b).count '=') ∧
    (encode b).length = 4 * ((b.length + 2) / 3) ∧ (encode b).count '=' = (3 - b.length % 3) % 3 := by
  suffices H : ∀ (b : Str), IsBytes b → ∀ acc,
      ((encode b).filterMap value).foldl (fun n d => n * 64 + d) acc
        = ((b.map Char.toNat).foldl (fun n d => n * 256 + d) acc) * 4 ^ ((encode b).count '=') ∧
      (encode b).length = 4 * ((b.length + 2) / 3) ∧ (encode b).count '=' = (3 - b.length % 3) % 3 from H b h 0
  intro b
  induction b using encode.induct with
  | case1 => intro _ acc; simp [encode]
  | case2 a =>
    intro h acc
    have ha := h a (by simp)
    have e1 := value_sextet (a.toNat / 4) (by omega)
    have e2 := value_sextet (a.toNat % 4 * 16) (by omega)
    have n1 := (sextet_ne (a.toNat / 4) (by omega)).1
    have n2 := (sextet_ne (a.toNat % 4 * 16) (by omega)).1
    have hc : (encode [a]).count '=' = 2 := by simp [encode, n1, n2]
    rw [hc]
    refine ⟨?_, by simp [encode], by simp⟩
    simp only [encode, List.filterMap_cons, e1, e2, value_eq_sign, List.filterMap_nil, List.foldl_cons, List.foldl_nil,
      List.map_cons, List.map_nil]
    omega
  | case3 a b =>
    intro h acc
    have ha := h a (by simp)
    have hb := h b (by simp)
    have e1 := value_sextet (a.toNat / 4) (by omega)
    have e2 := value_sextet (a.toNat % 4 * 16 + b.toNat / 16) (by omega)
    have e3 := value_sextet (b.toNat % 16 * 4) (by omega)
    have n1 := (sextet_ne (a.toNat / 4) (by omega)).1
    have n2 := (sextet_ne (a.toNat % 4 * 16 + b.toNat / 16) (by omega)).1
    have n3 := (sextet_ne (b.toNat % 16 * 4) (by omega)).1
    have hc : (encode [a, b]).count '=' = 1 := by simp [encode, n1, n2, n3]
    rw [hc]
    refine ⟨?_, by simp [encode], by simp⟩
    simp only [encode, List.filterMap_cons, e1, e2, e3, value_eq_sign, List.filterMap_nil, List.foldl_cons, List.foldl_nil,
      List.map_cons, List.map_nil]
    omega
  | case4 a b c rest ih =>
    intro h acc
    have ha := h a (by simp)
    have hb := h b (by simp)
    have hc := h c (by simp)
    have e1 := value_sextet (a.toNat / 4) (by omega)
    have e2 := value_sextet (a.toNat % 4 * 16 + b.toNat / 16) (by omega)
    have e3 := value_sextet (b.toNat % 16 * 4 + c.toNat / 64) (by omega)
    have e4 := value_sextet (c.toNat % 64) (by omega)
    have n1 := (sextet_ne (a.toNat / 4) (by omega)).1
    have n2 := (sextet_ne (a.toNat % 4 * 16 + b.toNat / 16) (by omega)).1
    have n3 := (sextet_ne (b.toNat % 16 * 4 + c.toNat / 64) (by omega)).1
    have n4 := (sextet_ne (c.toNat % 64) (by omega)).1
    have hcnt : (encode (a :: b :: c :: rest)).count '=' = (encode rest).count '=' := by
      simp [encode, n1, n2, n3, n4]
    obtain ⟨i1, i2, i3⟩ := ih (fun x hx => h x (by simp [hx])) (((acc * 256 + a.toNat) * 256 + b.toNat) * 256 + c.toNat)
    rw [hcnt]
    refine ⟨?_, ?_, ?_⟩
    · simp only [encode, List.filterMap_cons, e1, e2, e3, e4, List.foldl_cons, List.map_cons]
      rw [← i1]
      congr 1
      omega
    · simp only [encode, List.length_cons, i2]
      omega
    · rw [i3]
      simp only [List.length_cons]
      omega

example : ofDigits 64 ((encode "Man".toList).filterMap value) = 77 * 65536 + 97 * 256 + 110 := by
  rw [(base64_digits _ (by decide)).1]; decide +kernel

theorem not_padding {c : Char} (h : (value c).isSome = true) : c ≠ '=' := by
  rintro rfl
  rw [value_eq_sign] at h
  cases h

theorem quanta_iff : ∀ s : Str, (decodeQuanta s).isSome = true ↔
    ∃ body pad, s = body ++ pad ∧ (∀ c ∈ body, (value c).isSome = true) ∧ pad ∈ [[], ['='], ['=', '=']] ∧ s.length % 4 = 0
  | [] => ⟨fun _ => ⟨[], [], rfl, by simp, by simp, rfl⟩, fun _ => rfl⟩
  | [_] => ⟨fun h => by simp [decodeQuanta] at h, fun ⟨_, _, _, _, _, h⟩ => by simp at h⟩
  | [_, _] => ⟨fun h => by simp [decodeQuanta] at h, fun ⟨_, _, _, _, _, h⟩ => by simp at h⟩
  | [_, _, _] => ⟨fun h => by simp [decodeQuanta] at h, fun ⟨_, _, _, _, _, h⟩ => by simp at h⟩
  | a :: b :: c :: d :: rest => by
    constructor
    · intro h
      rw [decodeQuanta] at h
      split at h
      · rename_i va vb ha hb
        split at h
        · rename_i hc
          split at h
          · rename_i hd
            obtain ⟨rfl, rfl⟩ := hd
            subst hc
            exact ⟨[a, b], ['=', '='], rfl, by simp [ha, hb], by simp, by simp⟩
          · cases h
        · split at h
          · cases h
          · rename_i vc hc
            split at h
            · rename_i hd
              split at h
              · rename_i hr
                subst hd hr
                exact ⟨[a, b, c], ['='], rfl, by simp [ha, hb, hc], by simp, by simp⟩
              · cases h
            · split at h
              · cases h
              · rename_i vd hd
                rw [Option.isSome_map] at h
                obtain ⟨body, pad, h1, h2, h3, h4⟩ := (quanta_iff rest).1 h
                refine ⟨a :: b :: c :: d :: body, pad, by simp [h1], ?_, h3, by simp only [List.length_cons]; omega⟩
                intro x hx
                simp only [List.mem_cons] at hx
                rcases hx with rfl | rfl | rfl | rfl | hx
                · rw [ha]; rfl
                · rw [hb]; rfl
                · rw [hc]; rfl
                · rw [hd]; rfl
                · exact h2 x hx
      · cases h
    · rintro ⟨body, pad, h1, h2, h3, h4⟩
      have hl := congrArg List.length h1
      simp only [List.length_cons, List.length_append] at hl h4
      have hp : pad.length ≤ 2 ∧ ∀ x ∈ pad, x = '=' := by
        simp only [List.mem_cons, List.not_mem_nil, or_false] at h3
        rcases h3 with rfl | rfl | rfl <;> simp
      match body, h1, h2, hl with
      | [], h1, h2, hl => simp only [List.length_nil] at hl; omega
      | [x], h1, h2, hl => simp only [List.length_cons, List.length_nil] at hl; omega
      | [x, y], h1, h2, hl =>
        have hr : rest = [] := List.eq_nil_of_length_eq_zero (by simp only [List.length_cons, List.length_nil] at hl; omega)
        subst hr
        simp only [List.cons_append, List.nil_append, List.cons.injEq] at h1
        obtain ⟨rfl, rfl, rfl⟩ := h1
        obtain ⟨va, ha⟩ := Option.isSome_iff_exists.1 (h2 a (by simp))
        obtain ⟨vb, hb⟩ := Option.isSome_iff_exists.1 (h2 b (by simp))
        have hc := hp.2 c (by simp)
        have hd := hp.2 d (by simp)
        simp [decodeQuanta, ha, hb, hc, hd]
      | [x, y, z], h1, h2, hl =>
        have hr : rest = [] := List.eq_nil_of_length_eq_zero (by simp only [List.length_cons, List.length_nil] at hl; omega)
        subst hr
        simp only [List.cons_append, List.nil_append, List.cons.injEq] at h1
        obtain ⟨rfl, rfl, rfl, rfl⟩ := h1
        obtain ⟨va, ha⟩ := Option.isSome_iff_exists.1 (h2 a (by simp))
        obtain ⟨vb, hb⟩ := Option.isSome_iff_exists.1 (h2 b (by simp))
        obtain ⟨vc, hc⟩ := Option.isSome_iff_exists.1 (h2 c (by simp))
        have nc := not_padding (h2 c (by simp))
        have hd := hp.2 d (by simp)
        simp [decodeQuanta, ha, hb, hc, hd, nc]
      | x :: y :: z :: w :: body, h1, h2, hl =>
        simp only [List.cons_append, List.cons.injEq] at h1
        obtain ⟨rfl, rfl, rfl, rfl, rfl⟩ := h1
        obtain ⟨va, ha⟩ := Option.isSome_iff_exists.1 (h2 a (by simp))
        obtain ⟨vb, hb⟩ := Option.isSome_iff_exists.1 (h2 b (by simp))
        obtain ⟨vc, hc⟩ := Option.isSome_iff_exists.1 (h2 c (by simp))
        obtain ⟨vd, hd⟩ := Option.isSome_iff_exists.1 (h2 d (by simp))
        have nc := not_padding (h2 c (by simp))
        have nd := not_padding (h2 d (by simp))
        have ih := (quanta_iff (body ++ pad)).2 ⟨body, pad, rfl, fun u hu => h2 u (by simp [hu]), h3, by
          simp only [List.length_append] at hl h4 ⊢; omega⟩
        rw [decodeQuanta]
        simp only [ha, hb, hc, hd, nc, nd, if_false, Option.isSome_map]
        exact ih

/-- **C64.** The texts that count as base64: without line ends, characters of the alphabet and at most two padding
characters behind them, in groups of four. -/
theorem isBase64_iff (s : Str) : isBase64 s = true ↔
    ∃ body pad : Str, s.filter (fun c => c ≠ '\r' ∧ c ≠ '\n') = body ++ pad ∧ (∀ c ∈ body, (stdValue c).isSome = true) ∧
      pad ∈ ["".toList, "=".toList, "==".toList] ∧ (body ++ pad).length % 4 = 0 := by
  unfold isBase64 decode
  have e : s.filter (fun c => !(c = '\r' || c = '\n')) = s.filter (fun c => c ≠ '\r' ∧ c ≠ '\n') := by
    apply List.filter_congr
    intro c _
    by_cases h1 : c = '\r' <;> by_cases h2 : c = '\n' <;> simp [h1, h2]
  rw [e, quanta_iff]
  constructor
  · rintro ⟨body, pad, h1, h2, h3, h4⟩
    exact ⟨body, pad, h1, fun c hc => by rw [← base64_alphabet]; exact h2 c hc, h3, h1 ▸ h4⟩
  · rintro ⟨body, pad, h1, h2, h3, h4⟩
    exact ⟨body, pad, h1, fun c hc => by rw [base64_alphabet]; exact h2 c hc, h3, h1 ▸ h4⟩

example : isBase64 "YW\nJj".toList = true := by
  rw [isBase64_iff]
  exact ⟨"YWJj".toList, [], by decide +kernel, by decide +kernel, by decide, rfl⟩

theorem decodeQuanta_length : ∀ s l : Str, decodeQuanta s = some l → 4 * l.length ≤ 3 * s.length
  | [], l, h => by cases h; simp
  | [_], _, h => by simp [decodeQuanta] at h
  | [_, _], _, h => by simp [decodeQuanta] at h
  | [_, _, _], _, h => by simp [decodeQuanta] at h
  | a :: b :: c :: d :: rest, l, h => by
    rw [decodeQuanta] at h
    split at h
    · split at h
      · split at h
        · cases h; simp only [List.length_cons, List.length_nil]; omega
        · cases h
      · split at h
        · cases h
        · split at h
          · split at h
            · cases h; simp only [List.length_cons, List.length_nil]; omega
            · cases h
          · split at h
            · cases h
            · rw [Option.map_eq_some_iff] at h
              obtain ⟨m, hm, rfl⟩ := h
              have := decodeQuanta_length rest m hm
              simp only [List.length_cons]
              omega
    · cases h

theorem decode_ne_self (b : Str) (h : decode b = some b) : b = [] := by
  have h1 := decodeQuanta_length _ _ h
  have h2 := List.length_filter_le (fun c => !(c = '\r' || c = '\n')) b
  have : b.length = 0 := by omega
  exact List.eq_nil_of_length_eq_zero this

theorem decode_nil : decode [] = some [] := rfl

/-- **C64.** The text of a byte slice is always valid base64, and converting it once more does not change it. -/
theorem raw_is_base64 (b : Str) (h : IsBytes b) : isBase64 (rawBytes b) = true ∧ rawBytes (rawBytes b) = rawBytes b := by
  have h1 : isBase64 (rawBytes b) = true := by
    unfold rawBytes
    cases hb : isBase64 b
    · simp only [Bool.not_false, if_true]
      unfold isBase64
      rw [base64_roundtrip b h]
      rfl
    · simpa using hb
  refine ⟨h1, ?_⟩
  generalize rawBytes b = x at h1
  simp [rawBytes, h1]

/-- **C64.** Decoding the text of a byte slice gives the bytes exactly if they are not themselves the text of a base64
encoding (or there are none). -/
theorem raw_decode_iff (b : Str) (h : IsBytes b) : decode (rawBytes b) = some b ↔ isBase64 b = false ∨ b = [] := by
  unfold rawBytes
  cases hb : isBase64 b
  · simp [base64_roundtrip b h]
  · simp only [Bool.not_true, Bool.false_eq_true, if_false, false_or, reduceCtorEq]
    exact ⟨decode_ne_self b, fun e => by subst e; rfl⟩

example : decode (rawBytes "abc".toList) = some "abc".toList := (raw_decode_iff _ (by decide)).2 (.inl (by decide +kernel))
example : decode (rawBytes "abcd".toList) ≠ some "abcd".toList := fun h => by
  rcases (raw_decode_iff _ (by decide)).1 h with h | h
  · exact absurd h (by decide +kernel)
  · exact absurd h (by decide)

/-- **C64, finding.** Bytes that are not a base64 text and their encoding have the same text, so that the text does not
tell which of the two was meant. -/
theorem raw_not_injective (b : Str) (h : IsBytes b) (hb : isBase64 b = false) :
    encode b ≠ b ∧ rawBytes (encode b) = rawBytes b := by
  have h1 : isBase64 (encode b) = true := by unfold isBase64; rw [base64_roundtrip b h]; rfl
  refine ⟨fun e => ?_, ?_⟩
  · rw [e, hb] at h1; cases h1
  · simp [rawBytes, h1, hb]

/-- **C64, finding.** There is no way to get the bytes back from their text in all cases. -/
theorem raw_no_inverse : ¬ ∃ f : Str → Str, ∀ b, IsBytes b → f (rawBytes b) = b := by
  rintro ⟨f, hf⟩
  have hb : IsBytes "a".toList := by decide
  have h1 := raw_not_injective "a".toList hb (by decide +kernel)
  have h2 : IsBytes (encode "a".toList) := by decide +kernel
  apply h1.1
  rw [← hf _ h2, h1.2, hf _ hb]

/-- **C64, finding.** Setting a byte slice from its own text, as the library reads it (without decoding), gives the same
bytes exactly if they are a base64 text. -/
theorem raw_set_iff (b : Str) (v : Val) (h : IsBytes b) :
    setValue .bytes v (rawBytes b) = some (.bytes b) ↔ isBase64 b = true := by
  unfold setValue rawBytes
  cases hb : isBase64 b
  · simp only [Bool.not_false, if_true, Option.some.injEq, Val.bytes.injEq, Bool.false_eq_true, iff_false]
    exact (raw_not_injective b h hb).1
  · simp

/-- **C64.** Integers in the range of their type and truth values are read back from their text, strings without the
blanks around them. -/
theorem raw_simple (bits : Nat) (i : Int) (h1 : -(2 ^ (bits - 1) : Int) ≤ i) (h2 : i < (2 ^ (bits - 1) : Int))
    (b : Bool) (s : Str) (v : Val) :
    (toRawString (.int i)).bind (setValue (.int bits) v) = some (.int i) ∧
    (toRawString (.bool b)).bind (setValue .bool v) = some (.bool b) ∧
    (toRawString (.str s)).bind (setValue .str v) = some (.str (trimSpace s)) := by
  refine ⟨?_, ?_, rfl⟩
  · simp only [toRawString, Option.bind_some, setValue]
    rw [parseInt_itoa h1 h2]
    rfl
  · cases b <;> rfl

example : (toRawString (.int (-5))).bind (setValue (.int 8) .nil) = some (.int (-5)) :=
  (raw_simple 8 (-5) (by decide) (by decide) true [] .nil).1

/-- **C64, finding.** Documents contain byte slices as they are, while their text for users is encoded: the two agree
exactly for base64 texts. -/
theorem raw_written_iff (b : Str) (h : IsBytes b) : marshalSimple (.bytes b) = toRawString (.bytes b) ↔ isBase64 b = true := by
  simp only [marshalSimple, toRawString, Option.some.injEq]
  unfold rawBytes
  cases hb : isBase64 b
  · simp only [Bool.not_false, if_true, Bool.false_eq_true, iff_false]
    exact fun e => (raw_not_injective b h hb).1 e.symm
  · simp

end Xmp.Props
