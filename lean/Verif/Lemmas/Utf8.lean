import Verif.Model.Utf8
import Mathlib.Tactic.Common

/-! Lemmas about UTF-8. -/

namespace Xmp.Utf8

open GoStr

/-- The bytes of a text of Unicode characters (by Lean's own definition of UTF-8). -/
def ofUnicode (t : List Char) : Str := t.flatMap (fun c => (String.utf8EncodeChar c).map (fun b => Char.ofNat b.toNat))

/-- The bytes are UTF-8. -/
def IsUtf8 (s : Str) : Prop := ∃ t, s = ofUnicode t

/-- The Unicode scalar values. -/
def Scalar (r : Nat) : Prop := r < 0xD800 ∨ (0xE000 ≤ r ∧ r < 0x110000)

theorem toNat_byte {n : Nat} (h : n < 256) : (byte n).toNat = n := by
  have hv : n.isValidChar := Or.inl (by omega)
  simp only [byte, Char.ofNat, hv, dif_pos, Char.toNat, Char.ofNatAux]
  rfl

theorem byte_toNat (c : Char) : byte c.toNat = c := by
  simp [byte]

theorem scalar_char (c : Char) : Scalar c.toNat := by
  have h := c.valid
  simp only [UInt32.isValidChar, Nat.isValidChar] at h
  unfold Scalar Char.toNat
  omega

theorem char_scalar {r : Nat} (h : Scalar r) : (Char.ofNat r).toNat = r := by
  have hv : r.isValidChar := by
    simp only [Nat.isValidChar]; unfold Scalar at h; omega
  simp only [Char.ofNat, hv, dif_pos, Char.toNat, Char.ofNatAux]
  rfl

theorem encode_char (c : Char) : (String.utf8EncodeChar c).map (fun b => Char.ofNat b.toNat) = encode c.toNat := by
  have h := scalar_char c
  unfold Scalar at h
  have hb (n : Nat) (hn : n < 256) : Char.ofNat (UInt8.ofNat n).toNat = byte n := by
    rw [UInt8.toNat_ofNat_of_lt' (by simpa [UInt8.size] using hn)]; rfl
  have e : c.val.toNat = c.toNat := rfl
  unfold String.utf8EncodeChar encode
  rw [e]
  generalize c.toNat = v at h ⊢
  dsimp only
  split_ifs <;> first | omega | skip
  · rw [List.map_singleton, hb _ (by omega)]
  · rw [List.map_cons, List.map_singleton, hb _ (by omega), hb _ (by omega)]
    simp only [List.cons.injEq, and_true]
    exact ⟨congrArg byte (by omega), congrArg byte (by omega)⟩
  · rw [List.map_cons, List.map_cons, List.map_singleton, hb _ (by omega), hb _ (by omega), hb _ (by omega)]
    simp only [List.cons.injEq, and_true]
    exact ⟨congrArg byte (by omega), congrArg byte (by omega), congrArg byte (by omega)⟩
  · rw [List.map_cons, List.map_cons, List.map_cons, List.map_singleton, hb _ (by omega), hb _ (by omega), hb _ (by omega), hb _ (by omega)]
    simp only [List.cons.injEq, and_true]
    exact ⟨congrArg byte (by omega), congrArg byte (by omega), congrArg byte (by omega), congrArg byte (by omega)⟩

theorem isUtf8_iff (s : Str) : IsUtf8 s ↔ ∃ rs : List Nat, (∀ r ∈ rs, Scalar r) ∧ s = rs.flatMap encode := by
  constructor
  · rintro ⟨t, rfl⟩
    refine ⟨t.map Char.toNat, ?_, ?_⟩
    · intro r hr
      obtain ⟨c, -, rfl⟩ := List.mem_map.1 hr
      exact scalar_char c
    · rw [List.flatMap_map]
      unfold ofUnicode
      congr 1
      funext c
      exact encode_char c
  · rintro ⟨rs, h, rfl⟩
    refine ⟨rs.map Char.ofNat, ?_⟩
    unfold ofUnicode
    rw [List.flatMap_map]
    induction rs with
    | nil => rfl
    | cons r rs ih =>
      rw [List.flatMap_cons, List.flatMap_cons, encode_char, char_scalar (h r (by simp)), ih (fun x hx => h x (by simp [hx]))]

theorem encode_length (r : Nat) : (encode r).length =
    if r < 0x80 then 1 else if r < 0x800 then 2 else if r < 0x10000 then 3 else 4 := by
  unfold encode
  split_ifs <;> rfl

theorem secondLo_spec (x : Nat) : 0x80 ≤ secondLo x ∧ secondLo x ≤ 0xA0 ∧ (x = 0xE0 → secondLo x = 0xA0) ∧ (x = 0xF0 → secondLo x = 0x90) ∧
    (x ≠ 0xE0 → x ≠ 0xF0 → secondLo x = 0x80) := by
  unfold secondLo; split_ifs <;> omega

theorem secondHi_spec (x : Nat) : secondHi x ≤ 0xBF ∧ (x = 0xED → secondHi x = 0x9F) ∧ (x = 0xF4 → secondHi x = 0x8F) ∧
    (x ≠ 0xED → x ≠ 0xF4 → secondHi x = 0xBF) := by
  unfold secondHi; split_ifs <;> omega

/-- Reading an encoded scalar value. -/
theorem decode_encode {r : Nat} (h : Scalar r) (t : Str) : decode (encode r ++ t) = some (r, (encode r).length) := by
  unfold Scalar at h
  unfold encode
  split_ifs with h1 h2 h3
  · have : (byte r).toNat = r := toNat_byte (by omega)
    simp only [List.cons_append, List.nil_append, decode, this, h1, if_true, List.length_singleton]
  · have e1 : (byte (0xC0 + r / 64)).toNat = 0xC0 + r / 64 := toNat_byte (by omega)
    have e2 : (byte (0x80 + r % 64)).toNat = 0x80 + r % 64 := toNat_byte (by omega)
    simp only [List.cons_append, List.nil_append, decode, e1, e2, within, List.length_cons, List.length_nil]
    rw [if_neg (by omega), if_neg (by omega), if_pos (by omega), if_pos (by simp; omega)]
    exact congrArg some (Prod.ext (by show _ = _; omega) rfl)
  · have e1 : (byte (0xE0 + r / 4096)).toNat = 0xE0 + r / 4096 := toNat_byte (by omega)
    have e2 : (byte (0x80 + r / 64 % 64)).toNat = 0x80 + r / 64 % 64 := toNat_byte (by omega)
    have e3 : (byte (0x80 + r % 64)).toNat = 0x80 + r % 64 := toNat_byte (by omega)
    simp only [List.cons_append, List.nil_append, decode, e1, e2, e3, within, List.length_cons, List.length_nil]
    rw [if_neg (by omega), if_neg (by omega), if_neg (by omega), if_pos (by omega), if_pos]
    · exact congrArg some (Prod.ext (by show _ = _; omega) rfl)
    · simp only [Bool.and_eq_true, decide_eq_true_eq]
      have := secondLo_spec (0xE0 + r / 4096)
      have := secondHi_spec (0xE0 + r / 4096)
      omega
  · have e1 : (byte (0xF0 + r / 262144)).toNat = 0xF0 + r / 262144 := toNat_byte (by omega)
    have e2 : (byte (0x80 + r / 4096 % 64)).toNat = 0x80 + r / 4096 % 64 := toNat_byte (by omega)
    have e3 : (byte (0x80 + r / 64 % 64)).toNat = 0x80 + r / 64 % 64 := toNat_byte (by omega)
    have e4 : (byte (0x80 + r % 64)).toNat = 0x80 + r % 64 := toNat_byte (by omega)
    simp only [List.cons_append, List.nil_append, decode, e1, e2, e3, e4, within, List.length_cons, List.length_nil]
    rw [if_neg (by omega), if_neg (by omega), if_neg (by omega), if_neg (by omega), if_pos (by omega), if_pos]
    · exact congrArg some (Prod.ext (by show _ = _; omega) rfl)
    · simp only [Bool.and_eq_true, decide_eq_true_eq]
      have := secondLo_spec (0xF0 + r / 262144)
      have := secondHi_spec (0xF0 + r / 262144)
      omega

theorem cons_byte {c : Char} {n : Nat} (h : c.toNat = n) : c = byte n := by rw [← h, byte_toNat]

/-- What is read is an encoded scalar value. -/
theorem decode_some {s : Str} {r n : Nat} (h : decode s = some (r, n)) :
    Scalar r ∧ n = (encode r).length ∧ ∃ t, s = encode r ++ t := by
  match s with
  | [] => simp [decode] at h
  | a :: t =>
    simp only [decode] at h
    split_ifs at h with h1 h2 h3 h4 h5
    · simp only [Option.some.injEq, Prod.mk.injEq] at h
      obtain ⟨rfl, rfl⟩ := h
      refine ⟨Or.inl (by omega), ?_, t, ?_⟩ <;> simp only [encode, h1, if_true]
      · rfl
      · rw [byte_toNat]; rfl
    · match t with
      | [] => simp at h
      | b :: t =>
        simp only [within, Bool.and_eq_true, decide_eq_true_eq, Option.ite_none_right_eq_some, Option.some.injEq, Prod.mk.injEq] at h
        obtain ⟨hb, rfl, rfl⟩ := h
        refine ⟨Or.inl (by omega), ?_, t, ?_⟩
        · rw [encode_length, if_neg (by omega), if_pos (by omega)]
        · unfold encode
          rw [if_neg (by omega), if_pos (by omega)]
          simp only [List.cons_append, List.nil_append, List.cons.injEq, and_true]
          exact ⟨cons_byte (by omega), cons_byte (by omega)⟩
    · match t with
      | [] => simp at h
      | [b] => simp at h
      | b :: c :: t =>
        simp only [within, Bool.and_eq_true, decide_eq_true_eq, Option.ite_none_right_eq_some, Option.some.injEq, Prod.mk.injEq] at h
        obtain ⟨⟨hb, hc⟩, rfl, rfl⟩ := h
        have hs : 0x800 ≤ (a.toNat - 224) * 4096 + (b.toNat - 128) * 64 + (c.toNat - 128) ∧
            (a.toNat - 224) * 4096 + (b.toNat - 128) * 64 + (c.toNat - 128) < 0x10000 ∧
            Scalar ((a.toNat - 224) * 4096 + (b.toNat - 128) * 64 + (c.toNat - 128)) ∧ 0x80 ≤ b.toNat ∧ b.toNat ≤ 0xBF := by
          unfold Scalar
          have := secondLo_spec a.toNat
          have := secondHi_spec a.toNat
          omega
        refine ⟨hs.2.2.1, ?_, t, ?_⟩
        · rw [encode_length, if_neg (by omega), if_neg (by omega), if_pos (by omega)]
        · unfold encode
          rw [if_neg (by omega), if_neg (by omega), if_pos (by omega)]
          simp only [List.cons_append, List.nil_append, List.cons.injEq, and_true]
          exact ⟨cons_byte (by omega), cons_byte (by omega), cons_byte (by omega)⟩
    · match t with
      | [] => simp at h
      | [b] => simp at h
      | [b, c] => simp at h
      | b :: c :: d :: t =>
        simp only [within, Bool.and_eq_true, decide_eq_true_eq, Option.ite_none_right_eq_some, Option.some.injEq, Prod.mk.injEq] at h
        obtain ⟨⟨⟨hb, hc⟩, hd⟩, rfl, rfl⟩ := h
        have hs : 0x10000 ≤ (a.toNat - 240) * 262144 + (b.toNat - 128) * 4096 + (c.toNat - 128) * 64 + (d.toNat - 128) ∧
            Scalar ((a.toNat - 240) * 262144 + (b.toNat - 128) * 4096 + (c.toNat - 128) * 64 + (d.toNat - 128)) ∧ 0x80 ≤ b.toNat ∧ b.toNat ≤ 0xBF := by
          unfold Scalar
          have := secondLo_spec a.toNat
          have := secondHi_spec a.toNat
          omega
        refine ⟨hs.2.1, ?_, t, ?_⟩
        · rw [encode_length, if_neg (by omega), if_neg (by omega), if_neg (by omega)]
        · unfold encode
          rw [if_neg (by omega), if_neg (by omega), if_neg (by omega)]
          simp only [List.cons_append, List.nil_append, List.cons.injEq, and_true]
          exact ⟨cons_byte (by omega), cons_byte (by omega), cons_byte (by omega), cons_byte (by omega)⟩

theorem runesFrom_drop (k : Nat) (s : Str) : runesFrom k s = runes (s.drop k) := by
  induction s generalizing k with
  | nil => cases k <;> simp [runes, runesFrom]
  | cons a t ih =>
    cases k with
    | zero => rfl
    | succ k => rw [runesFrom, ih, List.drop_succ_cons]

theorem encode_pos (r : Nat) : 0 < (encode r).length := by
  rw [encode_length]; split_ifs <;> omega

theorem runes_encode {r : Nat} (h : Scalar r) (t : Str) : runes (encode r ++ t) = some r :: runes t := by
  have hd := decode_encode h t
  have hp := encode_pos r
  obtain ⟨a, u, e⟩ : ∃ a u, encode r = a :: u := by
    cases he : encode r with
    | nil => simp [he] at hp
    | cons a u => exact ⟨a, u, rfl⟩
  rw [e, List.cons_append] at hd ⊢
  unfold runes
  rw [runesFrom, hd]
  simp only [List.length_cons, Nat.add_sub_cancel]
  rw [runesFrom_drop, List.drop_left]
  rfl

theorem runes_bad {a : Char} {t : Str} (h : decode (a :: t) = none) : runes (a :: t) = none :: runes t := by
  unfold runes
  rw [runesFrom, h]

theorem runes_nil : runes [] = [] := rfl

/-- A text is a row of scalar values and bad bytes. -/
theorem rune_induction {P : Str → Prop} (nil : P []) (good : ∀ r t, Scalar r → P t → P (encode r ++ t))
    (bad : ∀ a t, decode (a :: t) = none → P t → P (a :: t)) (s : Str) : P s := by
  induction hn : s.length using Nat.strongRecOn generalizing s with
  | _ n ih =>
    match s with
    | [] => exact nil
    | a :: t =>
      cases hd : decode (a :: t) with
      | none => exact bad a t hd (ih t.length (by subst hn; simp) t rfl)
      | some p =>
        obtain ⟨r, k⟩ := p
        obtain ⟨hs, -, u, e⟩ := decode_some hd
        rw [e]
        refine good r u hs (ih u.length ?_ u rfl)
        have := encode_pos r
        have := congrArg List.length e
        rw [List.length_append] at this
        omega

/-- The scalar values of a UTF-8 text. -/
theorem runes_flatMap {rs : List Nat} (h : ∀ r ∈ rs, Scalar r) : runes (rs.flatMap encode) = rs.map some := by
  induction rs with
  | nil => rfl
  | cons r rs ih =>
    rw [List.flatMap_cons, runes_encode (h r (by simp)), ih (fun x hx => h x (by simp [hx])), List.map_cons]

theorem isUtf8_iff_runes (s : Str) : IsUtf8 s ↔ none ∉ runes s := by
  rw [isUtf8_iff]
  constructor
  · rintro ⟨rs, h, rfl⟩
    rw [runes_flatMap h]
    simp
  · intro h
    induction s using rune_induction with
    | nil => exact ⟨[], by simp⟩
    | good r t hr ih =>
      rw [runes_encode hr] at h
      obtain ⟨rs, h1, rfl⟩ := ih (by simpa using h)
      exact ⟨r :: rs, by simpa using ⟨hr, h1⟩, by simp⟩
    | bad a t hb ih =>
      rw [runes_bad hb] at h
      simp at h

end Xmp.Utf8
