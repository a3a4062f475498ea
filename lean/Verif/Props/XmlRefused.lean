import Verif.Props.XmlBytes

/-! C69: which XML texts are refused, and how references are read. -/

namespace Xmp.Props

open Xmp GoStr Utf8 XmlBytes List

/-! ### Texts -/

theorem chars_of_checked {s : Str} (h : checked s = true) : Chars s := by
  rw [← clean_eq_iff]
  induction s using rune_induction with
  | nil => rfl
  | good r t hr ih =>
    unfold checked at h ih
    rw [runes_encode hr, all_cons, Bool.and_eq_true] at h
    unfold clean at ih ⊢
    rw [runes_encode hr, flatMap_cons, ih h.2]
    have h1 : inRange r = true := h.1
    simp only [plain, h1, if_true]
  | bad a t hb ih =>
    unfold checked at h
    rw [runes_bad hb, all_cons] at h
    simp at h

/-- **C69.** Whatever the bytes of a document are, a text or the value of an attribute that is accepted is UTF-8 and
consists of characters of XML. -/
theorem xml_text_accepted {q : Option Char} {s x t : Str} (h : readText q s = some (x, t)) : IsXmlText x := by
  rw [isXmlText_iff]
  unfold readText at h
  split at h
  · cases h
  · split_ifs at h with hc
    cases h
    exact chars_of_checked hc

example : readText none "a &amp; b</a>".toList = some ("a & b".toList, "</a>".toList) := by decide +kernel

/-- The sixteen digits, small or large. -/
def hexDigit (large : Bool) (d : Fin 16) : Char :=
  if large then "0123456789ABCDEF".toList.getD d ' ' else "0123456789abcdef".toList.getD d ' '

/-- The number that the digits stand for. -/
def hexNumber (ds : List (Bool × Fin 16)) : Nat := ds.foldl (fun n d => 16 * n + d.2.1) 0

theorem digitVal_hex (b : Bool) (d : Fin 16) : digitVal 16 (hexDigit b d) = some d.1 := by
  revert b d; decide

theorem readDigits_hex (ds : List (Bool × Fin 16)) (k acc : Nat) (t : Str) :
    readDigits 16 k acc (ds.map (fun d => hexDigit d.1 d.2) ++ ';' :: t) = some (k + ds.length, ds.foldl (fun n d => 16 * n + d.2.1) acc, t) := by
  induction ds generalizing k acc with
  | nil =>
    have : digitVal 16 ';' = none := by decide
    simp [readDigits, this]
  | cons d ds ih =>
    rw [map_cons, cons_append, readDigits, digitVal_hex]
    simp only
    rw [ih, length_cons, foldl_cons, Nat.mul_comm acc 16]
    congr 2
    omega

/-- **C69.** A character may be written as the hexadecimal number of its code point, with small and large digits and
leading zeros. -/
theorem hex_reference_read (ds : List (Bool × Fin 16)) (h : ds ≠ []) (c : Char) (hn : hexNumber ds = c.toNat) (t : Str) :
    readEntity ("#x".toList ++ ds.map (fun d => hexDigit d.1 d.2) ++ ';' :: t) = some (ofUnicode [c], t) := by
  have hs := scalar_char c
  unfold Scalar at hs
  have e : "#x".toList = ['#', 'x'] := rfl
  rw [e, append_assoc]
  simp only [cons_append, nil_append, readEntity]
  rw [readDigits_hex, ofUnicode_encode]
  have hl : ds.length ≠ 0 := by simpa using h
  unfold hexNumber at hn
  simp only [reference, hn]
  rw [if_neg (by omega), if_neg (by omega)]
  simp

example : hexNumber [(false, 0), (true, 14), (false, 9)] = 'é'.toNat := by decide

/-! ### Tags -/

/-- **C69.** An end tag has to repeat the name of its element: an element with another end tag is refused, whatever
follows. -/
theorem mismatched_end_refused (uni : Str → Bool) (x y : Str) (hx : ValidName uni x) (hy : ValidName uni y) (h : x ≠ y) (w : Str) :
    parse uni ('<' :: x ++ '>' :: '<' :: '/' :: y ++ '>' :: w) = none := by
  obtain ⟨c, u, ec⟩ : ∃ c u, x = c :: u := by
    cases hc : x with
    | nil => exact absurd hc (validName_ne hx)
    | cons c u => exact ⟨c, u, rfl⟩
  have hcb : nameByte c = true := hx.1 c (by simp [ec])
  have c1 : c ≠ '/' := by rintro rfl; simp [nameByte_facts] at hcb
  have c2 : c ≠ '!' := by rintro rfl; simp [nameByte_facts] at hcb
  have c3 : c ≠ '?' := by rintro rfl; simp [nameByte_facts] at hcb
  have key : ∀ n, readElem uni (n + 1 + 1) (x ++ '>' :: '<' :: '/' :: (y ++ '>' :: w)) = none := by
    intro n
    simp only [readElem]
    rw [readName_of hx (by decide)]
    have ha : readAttrs uni (('>' :: '<' :: '/' :: (y ++ '>' :: w)).length + 1) ('>' :: '<' :: '/' :: (y ++ '>' :: w)) =
        some ([], false, '<' :: '/' :: (y ++ '>' :: w)) := by
      simp only [readAttrs]
      rw [skip_cons (by decide)]
      simp
    simp only
    rw [ha]
    simp only
    rw [content_end uni (n + 1) (by omega)]
    simp only
    unfold readEnd
    rw [readName_of hy (by decide)]
    simp only
    rw [skip_cons (by decide)]
    simp [Ne.symm h]
  unfold parse
  obtain ⟨n, en⟩ : ∃ n, ('<' :: x ++ '>' :: '<' :: '/' :: y ++ '>' :: w).length + 1 = n + 1 + 1 + 1 :=
    ⟨('<' :: x ++ '>' :: '<' :: '/' :: y ++ '>' :: w).length - 2, by simp only [length_append, length_cons]; omega⟩
  rw [en]
  have ek := key n
  simp only [append_assoc, cons_append]
  rw [ec] at ek ⊢
  simp only [cons_append] at ek ⊢
  simp only [readRoot, if_true, c1, c2, c3, if_false, or_self]
  rw [ek]
  rfl

example : ValidName (fun _ => true) "a".toList ∧ ValidName (fun _ => true) "b".toList ∧ "a".toList ≠ "b".toList :=
  ⟨⟨by decide, by decide⟩, ⟨by decide, by decide⟩, by decide⟩

end Xmp.Props
