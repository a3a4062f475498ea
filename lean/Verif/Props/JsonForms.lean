import Verif.Model.JsonIndent
import Verif.Props.ShippedJson

/-! C80: the layouts and escapes that JSON allows are read alike. -/

namespace Xmp.Props

open GoStr Utf8 JsonText List

/-! ### Specification: the forms of a value, after RFC 8259 -/

/-- White space. -/
def Blanks (w : Str) : Prop := ∀ c ∈ w, c = ' ' ∨ c = '\t' ∨ c = '\r' ∨ c = '\n'

/-- A hexadecimal digit, in lower or upper case, and its value. -/
def HexIs (c : Char) (v : Nat) : Prop := ("0123456789abcdef".toList)[v]? = some c ∨ ("0123456789ABCDEF".toList)[v]? = some c

/-- Four hexadecimal digits and their value. -/
inductive Hex4 : Nat → Str → Prop
  | mk {a b c d : Char} {w x y z : Nat} (ha : HexIs a w) (hb : HexIs b x) (hc : HexIs c y) (hd : HexIs d z) :
    Hex4 (w * 4096 + x * 256 + y * 16 + z) [a, b, c, d]

/-- The forms of a character: as it is, with a short escape, with its number, or with the numbers of its UTF-16 pair. -/
inductive RuneForm : Nat → Str → Prop
  | plain {r : Nat} (h : 0x20 ≤ r) (h1 : r ≠ 0x22) (h2 : r ≠ 0x5C) : RuneForm r (encode r)
  | short {r : Nat} {c : Char} (h : (c, r) ∈ [('"', 0x22), ('\\', 0x5C), ('/', 0x2F), ('b', 8), ('f', 12), ('n', 10), ('r', 13), ('t', 9)]) :
    RuneForm r ['\\', c]
  | number {r : Nat} {t : Str} (h : Hex4 r t) : RuneForm r ('\\' :: 'u' :: t)
  | pair {hi lo : Nat} {t u : Str} (h : hi < 0x400) (h' : lo < 0x400) (ht : Hex4 (0xD800 + hi) t) (hu : Hex4 (0xDC00 + lo) u) :
    RuneForm (0x10000 + hi * 0x400 + lo) ('\\' :: 'u' :: (t ++ '\\' :: 'u' :: u))

/-- Character by character. -/
inductive TextForm : List Nat → Str → Prop
  | nil : TextForm [] []
  | cons {r : Nat} {t : Str} {rs : List Nat} {u : Str} (hs : Scalar r) (h : RuneForm r t) (hu : TextForm rs u) : TextForm (r :: rs) (t ++ u)

/-- A text between quotes. -/
def StrForm (s t : Str) : Prop := ∃ rs u, TextForm rs u ∧ s = rs.flatMap encode ∧ t = '"' :: (u ++ ['"'])

mutual
/-- The forms of a value without numbers that is nested at most so deep. -/
def Form : Nat → Json → Str → Prop
  | _, .str s, t => StrForm s t
  | _, .num _, _ => False
  | _, .bool true, t => t = "true".toList
  | _, .bool false, t => t = "false".toList
  | _, .null, t => t = "null".toList
  | 0, .arr _, _ => False
  | d + 1, .arr l, t => ∃ u, t = '[' :: u ∧ ((l = [] ∧ ∃ w, Blanks w ∧ u = w ++ [']']) ∨ FormItems d l u)
  | 0, .obj _, _ => False
  | d + 1, .obj m, t => ∃ u, t = '{' :: u ∧ ((m = [] ∧ ∃ w, Blanks w ∧ u = w ++ ['}']) ∨ FormFields d m u)
/-- The forms of the items of an array with the closing bracket. -/
def FormItems : Nat → List Json → Str → Prop
  | _, [], _ => False
  | d, j :: l, u => ∃ w t w' v, Blanks w ∧ Form d j t ∧ Blanks w' ∧ u = w ++ (t ++ (w' ++ v)) ∧
    ((l = [] ∧ v = [']']) ∨ ∃ v', v = ',' :: v' ∧ FormItems d l v')
/-- The forms of the entries of an object with the closing brace. -/
def FormFields : Nat → List (Str × Json) → Str → Prop
  | _, [], _ => False
  | d, (k, j) :: m, u => ∃ w q w1 w2 t w3 v, Blanks w ∧ StrForm k q ∧ Blanks w1 ∧ Blanks w2 ∧ Form d j t ∧ Blanks w3 ∧
    u = w ++ (q ++ (w1 ++ ':' :: (w2 ++ (t ++ (w3 ++ v))))) ∧
    ((m = [] ∧ v = ['}']) ∨ ∃ v', v = ',' :: v' ∧ FormFields d m v')
end

/-! ### Reading -/

theorem blanks_nil : Blanks [] := by intro c h; cases h
theorem blanks_append {a b : Str} (ha : Blanks a) (hb : Blanks b) : Blanks (a ++ b) := by
  intro c hc; rcases mem_append.1 hc with h | h
  · exact ha c h
  · exact hb c h

theorem blank_isSpace {w : Str} (h : Blanks w) : ∀ c ∈ w, isSpace c = true := by
  intro c hc; rcases h c hc with rfl | rfl | rfl | rfl <;> rfl

theorem skip_blanks {w : Str} (h : Blanks w) (t : Str) : skip (w ++ t) = skip t := by
  unfold skip
  induction w with
  | nil => rfl
  | cons c w ih =>
    rw [cons_append, dropWhile_cons_of_pos (blank_isSpace h c (by simp))]
    exact ih (fun x hx => h x (by simp [hx]))

theorem skip_blank_cons {w : Str} (h : Blanks w) {c : Char} (hc : isSpace c = false) (t : Str) : skip (w ++ c :: t) = c :: t := by
  rw [skip_blanks h, skip_cons hc]

theorem hexVal_of {c : Char} {v : Nat} (h : HexIs c v) : hexVal c = some v ∧ v < 16 ∧ c ≠ '"' ∧ c ≠ '\\' := by
  have hv : v < 16 := by
    rcases h with h | h <;>
      · rw [getElem?_eq_some_iff] at h
        exact h.1
  have k1 : ∀ v, v < 16 → ∀ c ∈ ("0123456789abcdef".toList)[v]?, hexVal c = some v ∧ c ≠ '"' ∧ c ≠ '\\' := by decide
  have k2 : ∀ v, v < 16 → ∀ c ∈ ("0123456789ABCDEF".toList)[v]?, hexVal c = some v ∧ c ≠ '"' ∧ c ≠ '\\' := by decide
  have k : hexVal c = some v ∧ c ≠ '"' ∧ c ≠ '\\' := by
    rcases h with h | h
    · exact k1 v hv c h
    · exact k2 v hv c h
  exact ⟨k.1, hv, k.2⟩

theorem hex4_of {r : Nat} {t : Str} (h : Hex4 r t) (u : Str) : hex4 (t ++ u) = some (r, u) := by
  cases h with
  | mk ha hb hc hd => simp only [cons_append, nil_append, hex4, (hexVal_of ha).1, (hexVal_of hb).1, (hexVal_of hc).1, (hexVal_of hd).1]

theorem readStr_form (n : Nat) {r : Nat} {t : Str} (hs : Scalar r) (h : RuneForm r t) (u : Str) :
    readStr (n + 1) (t ++ u) = (readStr n u).map (fun p => (encode r ++ p.1, p.2)) := by
  cases h with
  | plain h h1 h2 =>
    obtain ⟨a, v, e, k1, k2, k3⟩ := first_byte h h1 h2 hs
    have hd := decode_encode hs u
    rw [e, cons_append] at hd ⊢
    simp only [readStr, k1, k2, k3, if_false, hd]
    rw [length_cons, Nat.add_sub_cancel, drop_left, ← e]
  | short h =>
    simp only [mem_cons, not_mem_nil, or_false, Prod.mk.injEq] at h
    rcases h with ⟨rfl, rfl⟩ | ⟨rfl, rfl⟩ | ⟨rfl, rfl⟩ | ⟨rfl, rfl⟩ | ⟨rfl, rfl⟩ | ⟨rfl, rfl⟩ | ⟨rfl, rfl⟩ | ⟨rfl, rfl⟩
    · exact readStr_esc n u (e := '"') (x := '"') (by decide) rfl
    · exact readStr_esc n u (e := '\\') (x := '\\') (by decide) rfl
    · exact readStr_esc n u (e := '/') (x := '/') (by decide) rfl
    · exact readStr_esc n u (e := 'b') (x := '\u0008') (by decide) rfl
    · exact readStr_esc n u (e := 'f') (x := '\u000c') (by decide) rfl
    · exact readStr_esc n u (e := 'n') (x := '\n') (by decide) rfl
    · exact readStr_esc n u (e := 'r') (x := '\r') (by decide) rfl
    · exact readStr_esc n u (e := 't') (x := '\t') (by decide) rfl
  | number h =>
    rw [cons_append, cons_append]
    exact readStr_u n (hex4_of h u) (by unfold Scalar at hs; omega)
  | @pair hi lo t v h h' ht hu =>
    have e1 := hex4_of ht ('\\' :: 'u' :: (v ++ u))
    have e2 := hex4_of hu u
    rw [cons_append, cons_append, append_assoc, cons_append, cons_append]
    simp only [readStr, show ¬ ('\\' = '"') by decide, if_false, if_true, e1]
    rw [if_pos (by omega)]
    simp only [lowHalf, e2]
    rw [if_pos (by omega)]
    simp only [show 0x10000 + (0xD800 + hi - 0xD800) * 1024 + (0xDC00 + lo - 0xDC00) = 0x10000 + hi * 0x400 + lo by omega]

theorem runeForm_pos {r : Nat} {t : Str} (h : RuneForm r t) : 1 ≤ t.length := by
  cases h with
  | plain _ _ _ => exact encode_pos r
  | _ => simp

theorem readStr_textForm {rs : List Nat} {u : Str} (h : TextForm rs u) (n : Nat) (hn : u.length < n) (t : Str) :
    readStr n (u ++ '"' :: t) = some (rs.flatMap encode, t) := by
  induction h generalizing n with
  | nil =>
    cases n with
    | zero => simp at hn
    | succ n => simp [readStr]
  | cons hs h hu ih =>
    cases n with
    | zero => simp at hn
    | succ n =>
      have := runeForm_pos h
      rw [length_append] at hn
      rw [append_assoc, readStr_form n hs h, ih n (by omega)]
      rfl

/-- A text between quotes, and what follows it. -/
theorem strForm_read {s q : Str} (h : StrForm s q) : ∃ b, q = '"' :: b ∧ ∀ t, readStr ((b ++ t).length + 1) (b ++ t) = some (s, t) := by
  obtain ⟨rs, u, h1, rfl, rfl⟩ := h
  refine ⟨_, rfl, fun t => ?_⟩
  rw [append_assoc]
  exact readStr_textForm h1 _ (by simp; omega) t

theorem form_head : ∀ {d : Nat} {j : Json} {t : Str}, Form d j t → ∃ c u, t = c :: u ∧ isSpace c = false ∧ c ≠ ']' ∧ c ≠ '}'
  | _, .str s, t, h => by
    rw [Form] at h
    obtain ⟨rs, u, -, -, rfl⟩ := h
    exact ⟨_, _, rfl, by decide, by decide, by decide⟩
  | _, .num _, _, h => by simp [Form] at h
  | _, .bool true, t, h => by rw [Form] at h; subst h; exact ⟨_, _, rfl, by decide, by decide, by decide⟩
  | _, .bool false, t, h => by rw [Form] at h; subst h; exact ⟨_, _, rfl, by decide, by decide, by decide⟩
  | _, .null, t, h => by rw [Form] at h; subst h; exact ⟨_, _, rfl, by decide, by decide, by decide⟩
  | 0, .arr _, _, h => by simp [Form] at h
  | 0, .obj _, _, h => by simp [Form] at h
  | d + 1, .arr _, _, h => by rw [Form] at h; obtain ⟨u, rfl, -⟩ := h; exact ⟨_, _, rfl, by decide, by decide, by decide⟩
  | d + 1, .obj _, _, h => by rw [Form] at h; obtain ⟨u, rfl, -⟩ := h; exact ⟨_, _, rfl, by decide, by decide, by decide⟩

mutual
theorem json_value_form (num : Str → Option Str) : ∀ (j : Json) (d : Nat) (t : Str), Form d j t →
    ∀ n w rest, Blanks w → t.length ≤ n → value num n d (w ++ (t ++ rest)) = some (j, rest)
  | j, d, t, h, 0, w, rest, hw, hn => by
    obtain ⟨c, u, rfl, -⟩ := form_head h
    simp at hn
  | .str s, d, t, h, n + 1, w, rest, hw, hn => by
    rw [Form] at h
    obtain ⟨b, rfl, hb⟩ := strForm_read h
    rw [value, cons_append, skip_blank_cons hw (by decide)]
    simp only [if_true]
    rw [hb]
    rfl
  | .num _, _, _, h, _ + 1, _, _, _, _ => by simp [Form] at h
  | .bool true, d, t, h, n + 1, w, rest, hw, hn => by
    rw [Form] at h; subst h
    rw [value, skip_blanks hw]
    simp [skip_cons, isSpace, literal, hasPrefix]
  | .bool false, d, t, h, n + 1, w, rest, hw, hn => by
    rw [Form] at h; subst h
    rw [value, skip_blanks hw]
    simp [skip_cons, isSpace, literal, hasPrefix]
  | .null, d, t, h, n + 1, w, rest, hw, hn => by
    rw [Form] at h; subst h
    rw [value, skip_blanks hw]
    simp [skip_cons, isSpace, literal, hasPrefix]
  | .arr _, 0, _, h, _ + 1, _, _, _, _ => by simp [Form] at h
  | .obj _, 0, _, h, _ + 1, _, _, _, _ => by simp [Form] at h
  | .arr l, d + 1, t, h, n + 1, w, rest, hw, hn => by
    rw [Form] at h
    obtain ⟨u, rfl, h⟩ := h
    rw [length_cons] at hn
    rw [value, cons_append, skip_blank_cons hw (by decide)]
    simp only [show ¬ ('[' = '"') by decide, show ¬ ('[' = '{') by decide, if_false, if_true, Nat.succ_ne_zero, Nat.add_sub_cancel]
    rcases h with ⟨rfl, w', hw', rfl⟩ | h
    · rw [append_assoc, cons_append, skip_blank_cons hw' (by decide)]
      simp
    · have hh : (skip (u ++ rest)).head? ≠ some ']' := by
        cases l with
        | nil => simp [FormItems] at h
        | cons j l =>
          rw [FormItems] at h
          obtain ⟨w1, t1, w2, v, h1, h2, -, rfl, -⟩ := h
          obtain ⟨c, u, rfl, k1, k2, -⟩ := form_head h2
          rw [append_assoc, cons_append, cons_append, skip_blank_cons h1 k1]
          simpa using k2
      rw [if_neg hh, json_items_form num l d u h n rest (by omega)]
      rfl
  | .obj m, d + 1, t, h, n + 1, w, rest, hw, hn => by
    rw [Form] at h
    obtain ⟨u, rfl, h⟩ := h
    rw [length_cons] at hn
    rw [value, cons_append, skip_blank_cons hw (by decide)]
    simp only [show ¬ ('{' = '"') by decide, if_false, if_true, Nat.succ_ne_zero, Nat.add_sub_cancel]
    rcases h with ⟨rfl, w', hw', rfl⟩ | h
    · rw [append_assoc, cons_append, skip_blank_cons hw' (by decide)]
      simp
    · have hh : (skip (u ++ rest)).head? ≠ some '}' := by
        cases m with
        | nil => simp [FormFields] at h
        | cons e m =>
          obtain ⟨k, j⟩ := e
          rw [FormFields] at h
          obtain ⟨w0, q, w1, w2, t, w3, v, h1, h2, -, -, -, -, rfl, -⟩ := h
          obtain ⟨b, rfl, -⟩ := strForm_read h2
          rw [append_assoc, cons_append, cons_append, skip_blank_cons h1 (by decide)]
          simp
      rw [if_neg hh, json_fields_form num m d u h n rest (by omega)]
      rfl
theorem json_items_form (num : Str → Option Str) : ∀ (l : List Json) (d : Nat) (u : Str), FormItems d l u →
    ∀ n rest, u.length ≤ n → items num n d (u ++ rest) = some (l, rest)
  | [], _, _, h, _, _, _ => by simp [FormItems] at h
  | j :: l, d, u, h, 0, rest, hn => by
    rw [FormItems] at h
    obtain ⟨w1, t1, w2, v, h1, h2, -, rfl, -⟩ := h
    obtain ⟨c, u, rfl, -⟩ := form_head h2
    simp at hn
  | j :: l, d, u, h, n + 1, rest, hn => by
    rw [FormItems] at h
    obtain ⟨w1, t1, w2, v, h1, h2, h3, rfl, h4⟩ := h
    simp only [length_append] at hn
    rw [items, append_assoc, append_assoc, append_assoc]
    rcases h4 with ⟨rfl, rfl⟩ | ⟨v', rfl, h4⟩
    · rw [length_singleton] at hn
      rw [json_value_form num j d t1 h2 n w1 _ h1 (by omega)]
      simp only [cons_append, skip_blank_cons h3 (show isSpace ']' = false by decide), if_true, nil_append]
    · rw [length_cons] at hn
      rw [json_value_form num j d t1 h2 n w1 _ h1 (by omega)]
      simp only [cons_append, skip_blank_cons h3 (show isSpace ',' = false by decide), if_true, show ¬ (',' = ']') by decide, if_false]
      rw [json_items_form num l d v' h4 n rest (by omega)]
      rfl
theorem json_fields_form (num : Str → Option Str) : ∀ (l : List (Str × Json)) (d : Nat) (u : Str), FormFields d l u →
    ∀ n rest, u.length ≤ n → fields num n d (u ++ rest) = some (l, rest)
  | [], _, _, h, _, _, _ => by simp [FormFields] at h
  | (k, j) :: l, d, u, h, 0, rest, hn => by
    rw [FormFields] at h
    obtain ⟨w0, q, w1, w2, t, w3, v, -, -, -, -, -, -, rfl, -⟩ := h
    simp at hn
  | (k, j) :: l, d, u, h, n + 1, rest, hn => by
    rw [FormFields] at h
    obtain ⟨w0, q, w1, w2, t, w3, v, h1, h2, h3, h4, h5, h6, rfl, h7⟩ := h
    obtain ⟨b, rfl, hb⟩ := strForm_read h2
    simp only [length_append, length_cons] at hn
    rw [fields, append_assoc, cons_append, cons_append, skip_blank_cons h1 (by decide)]
    simp only [if_true]
    rw [append_assoc, hb]
    simp only [append_assoc, cons_append]
    rw [skip_blank_cons h3 (by decide)]
    simp only [if_true]
    rcases h7 with ⟨rfl, rfl⟩ | ⟨v', rfl, h7⟩
    · rw [length_singleton] at hn
      rw [json_value_form num j d t h5 n w2 _ h4 (by omega)]
      simp only [cons_append, skip_blank_cons h6 (show isSpace '}' = false by decide), if_true, nil_append]
    · rw [length_cons] at hn
      rw [json_value_form num j d t h5 n w2 _ h4 (by omega)]
      simp only [cons_append, skip_blank_cons h6 (show isSpace ',' = false by decide), if_true, show ¬ (',' = '}') by decide, if_false]
      rw [json_fields_form num l d v' h7 n rest (by omega)]
      rfl
end

/-- **C80.** Every form of a value is read as the value: any white space between its parts, around it and in empty lists, every
character as it is, with a short escape, with its number or with its pair, with digits in lower or upper case. -/
theorem json_forms_read (num : Str → Option Str) (j : Json) (t : Str) (h : Form maxDepth j t) (w w' : Str) (hw : Blanks w) (hw' : Blanks w') :
    parse num (w ++ t ++ w') = some j := by
  unfold parse
  rw [append_assoc, json_value_form num j maxDepth t h _ w w' hw (by simp; omega)]
  simp only
  rw [if_pos]
  have := skip_blanks hw' []
  rwa [append_nil] at this

/-! ### What is written is a form -/

theorem hexIs_digit : ∀ k, k < 16 → HexIs (hexDigit k) k := by
  intro k hk
  refine Or.inl ?_
  unfold hexDigit
  rw [getD_eq_getElem?_getD]
  have : ∃ c, ("0123456789abcdef".toList)[k]? = some c := ⟨_, getElem?_eq_getElem (by simpa using hk)⟩
  obtain ⟨c, hc⟩ := this
  rw [hc]
  rfl

theorem quoteRune_form {r : Nat} : RuneForm r (quoteRune (some r)) := by
  simp only [quoteRune]
  split_ifs with h1 h2 h3 h4 h5 h6 h7
  · subst h1; exact RuneForm.short (c := '"') (by simp)
  · subst h2; exact RuneForm.short (c := '\\') (by simp)
  · subst h3; exact RuneForm.short (c := 'n') (by simp)
  · subst h4; exact RuneForm.short (c := 'r') (by simp)
  · subst h5; exact RuneForm.short (c := 't') (by simp)
  · have := Hex4.mk (hexIs_digit 0 (by omega)) (hexIs_digit 0 (by omega)) (hexIs_digit (r / 16) (by omega)) (hexIs_digit (r % 16) (by omega))
    rw [show 0 * 4096 + 0 * 256 + r / 16 * 16 + r % 16 = r by omega] at this
    exact .number this
  · have := Hex4.mk (hexIs_digit 2 (by omega)) (hexIs_digit 0 (by omega)) (hexIs_digit 2 (by omega)) (hexIs_digit (r % 16) (by omega))
    rw [show 2 * 4096 + 0 * 256 + 2 * 16 + r % 16 = r by omega] at this
    exact .number this
  · exact .plain (by omega) h1 h2

theorem quote_form {s : Str} (h : IsUtf8 s) : StrForm s (quote s) := by
  obtain ⟨rs, h1, rfl⟩ := (isUtf8_iff s).1 h
  refine ⟨rs, rs.flatMap (fun r => quoteRune (some r)), ?_, rfl, ?_⟩
  · clear h
    induction rs with
    | nil => exact .nil
    | cons r rs ih => exact .cons (h1 r (by simp)) quoteRune_form (ih (fun x hx => h1 x (by simp [hx])))
  · rw [quote, quoteBody, runes_flatMap h1, flatMap_map]

mutual
theorem print_form : ∀ (d : Nat) (j : Json), TextOK d j → Form d j (print j)
  | _, .str s, h => by rw [TextOK] at h; rw [Form, print]; exact quote_form h
  | _, .num _, h => by simp [TextOK] at h
  | _, .bool true, _ => by rw [Form, print]
  | _, .bool false, _ => by rw [Form, print]
  | _, .null, _ => by rw [Form, print]
  | 0, .arr _, h => by simp [TextOK] at h
  | 0, .obj _, h => by simp [TextOK] at h
  | d + 1, .arr [], h => by rw [Form, print]; exact ⟨_, rfl, Or.inl ⟨rfl, [], blanks_nil, by rw [printItems]; rfl⟩⟩
  | d + 1, .arr (j :: l), h => by
    rw [TextOK, TextOKItems] at h
    rw [Form, print]
    refine ⟨_, rfl, Or.inr ?_⟩
    rw [printItems, FormItems]
    exact ⟨[], _, [], _, blanks_nil, print_form d j h.1, blanks_nil, rfl, printMore_form d l h.2⟩
  | d + 1, .obj [], h => by rw [Form, print]; exact ⟨_, rfl, Or.inl ⟨rfl, [], blanks_nil, by rw [printMembers]; rfl⟩⟩
  | d + 1, .obj ((k, j) :: m), h => by
    rw [TextOK, TextOKFields] at h
    rw [Form, print]
    refine ⟨_, rfl, Or.inr ?_⟩
    rw [printMembers, FormFields]
    exact ⟨[], _, [], [], _, [], _, blanks_nil, quote_form h.2.1.1, blanks_nil, blanks_nil, print_form d j h.2.1.2, blanks_nil, rfl,
      printRest_form d m h.2.2⟩
theorem printMore_form : ∀ (d : Nat) (l : List Json), TextOKItems d l →
    (l = [] ∧ printMore l = [']']) ∨ ∃ v', printMore l = ',' :: v' ∧ FormItems d l v'
  | _, [], _ => Or.inl ⟨rfl, by rw [printMore]⟩
  | d, j :: l, h => by
    rw [TextOKItems] at h
    refine Or.inr ⟨_, by rw [printMore], ?_⟩
    rw [FormItems]
    exact ⟨[], _, [], _, blanks_nil, print_form d j h.1, blanks_nil, rfl, printMore_form d l h.2⟩
theorem printRest_form : ∀ (d : Nat) (m : List (Str × Json)), TextOKFields d m →
    (m = [] ∧ printRest m = ['}']) ∨ ∃ v', printRest m = ',' :: v' ∧ FormFields d m v'
  | _, [], _ => Or.inl ⟨rfl, by rw [printRest]⟩
  | d, (k, j) :: m, h => by
    rw [TextOKFields] at h
    refine Or.inr ⟨_, by rw [printRest], ?_⟩
    rw [FormFields]
    exact ⟨[], _, [], [], _, [], _, blanks_nil, quote_form h.1.1, blanks_nil, blanks_nil, print_form d j h.1.2, blanks_nil, rfl,
      printRest_form d m h.2⟩
end

/-! ### Indentation -/

section
variable {pre ind : Str}

theorem newline_blanks (hp : Blanks pre) (hi : Blanks ind) (n : Nat) : Blanks (newline pre ind n) := by
  intro c hc
  unfold newline at hc
  rcases mem_cons.1 hc with rfl | hc
  · simp
  · rcases mem_append.1 hc with h | h
    · exact hp c h
    · obtain ⟨l, hl, hc⟩ := mem_flatten.1 h
      rw [eq_of_mem_replicate hl] at hc
      exact hi c hc

theorem indent_blanks {w : Str} (h : Blanks w) (need : Bool) (k : Nat) (t : Str) :
    indentFrom pre ind false false need k (w ++ t) = indentFrom pre ind false false need k t := by
  induction w with
  | nil => rfl
  | cons c w ih =>
    rw [cons_append, indentFrom, if_pos (blank_isSpace h c (by simp))]
    exact ih (fun x hx => h x (by simp [hx]))

/-- Characters without meaning inside of quotes. -/
theorem indent_inner {u : Str} (h : ∀ c ∈ u, c ≠ '"' ∧ c ≠ '\\') (k : Nat) (t : Str) :
    indentFrom pre ind true false false k (u ++ t) = u ++ indentFrom pre ind true false false k t := by
  induction u with
  | nil => rfl
  | cons c u ih =>
    have hc := h c (by simp)
    rw [cons_append, indentFrom]
    simp only [hc.1, hc.2, ne_eq, not_false_eq_true, decide_true, decide_false]
    rw [ih (fun x hx => h x (by simp [hx])), cons_append]

theorem encode_inner {r : Nat} (hs : Scalar r) (h1 : r ≠ 0x22) (h2 : r ≠ 0x5C) : ∀ c ∈ encode r, c ≠ '"' ∧ c ≠ '\\' := by
  unfold Scalar at hs
  have key (n : Nat) (hn : n < 256) (h4 : n ≠ 0x22) (h5 : n ≠ 0x5C) : byte n ≠ '"' ∧ byte n ≠ '\\' := by
    refine ⟨fun e => h4 ?_, fun e => h5 ?_⟩
    · rw [← toNat_byte hn, e]; rfl
    · rw [← toNat_byte hn, e]; rfl
  unfold encode
  split_ifs
  · simp only [mem_singleton, forall_eq]; exact key _ (by omega) (by omega) (by omega)
  · simp only [mem_cons, not_mem_nil, or_false, forall_eq_or_imp, forall_eq]
    exact ⟨key _ (by omega) (by omega) (by omega), key _ (by omega) (by omega) (by omega)⟩
  · simp only [mem_cons, not_mem_nil, or_false, forall_eq_or_imp, forall_eq]
    exact ⟨key _ (by omega) (by omega) (by omega), key _ (by omega) (by omega) (by omega), key _ (by omega) (by omega) (by omega)⟩
  · simp only [mem_cons, not_mem_nil, or_false, forall_eq_or_imp, forall_eq]
    exact ⟨key _ (by omega) (by omega) (by omega), key _ (by omega) (by omega) (by omega), key _ (by omega) (by omega) (by omega),
      key _ (by omega) (by omega) (by omega)⟩

theorem hex4_inner {r : Nat} {t : Str} (h : Hex4 r t) : ∀ c ∈ t, c ≠ '"' ∧ c ≠ '\\' := by
  cases h with
  | mk ha hb hc hd =>
    simp only [mem_cons, not_mem_nil, or_false, forall_eq_or_imp, forall_eq]
    exact ⟨(hexVal_of ha).2.2, (hexVal_of hb).2.2, (hexVal_of hc).2.2, (hexVal_of hd).2.2⟩

theorem indent_escape (c : Char) (k : Nat) (t : Str) :
    indentFrom pre ind true false false k ('\\' :: c :: t) = '\\' :: c :: indentFrom pre ind true false false k t := by
  rw [indentFrom]
  simp only [show decide ('\\' ≠ '"') = true by decide, decide_true]
  rw [indentFrom]

theorem indent_rune {r : Nat} {u : Str} (hs : Scalar r) (h : RuneForm r u) (k : Nat) (t : Str) :
    indentFrom pre ind true false false k (u ++ t) = u ++ indentFrom pre ind true false false k t := by
  cases h with
  | plain _ h1 h2 => exact indent_inner (encode_inner hs h1 h2) k t
  | short _ => exact indent_escape _ k t
  | number h =>
    rw [cons_append, cons_append, indent_escape, indent_inner (hex4_inner h), cons_append, cons_append]
  | pair _ _ ht hu =>
    simp only [cons_append, append_assoc]
    rw [indent_escape, indent_inner (hex4_inner ht), indent_escape, indent_inner (hex4_inner hu)]

theorem indent_text {rs : List Nat} {u : Str} (h : TextForm rs u) (k : Nat) (t : Str) :
    indentFrom pre ind true false false k (u ++ t) = u ++ indentFrom pre ind true false false k t := by
  induction h with
  | nil => rfl
  | cons hs h hu ih => rw [append_assoc, indent_rune hs h, ih, append_assoc]

/-- The line break that is due and the depth after it. -/
def due (pre ind : Str) (need : Bool) (k : Nat) : Str × Nat := if need then (newline pre ind (k + 1), k + 1) else ([], k)

theorem indent_str {s q : Str} (h : StrForm s q) (need : Bool) (k : Nat) (t : Str) :
    indentFrom pre ind false false need k (q ++ t) =
      (due pre ind need k).1 ++ (q ++ indentFrom pre ind false false false (due pre ind need k).2 t) := by
  obtain ⟨rs, u, h1, -, rfl⟩ := h
  have e : ∀ k, indentFrom pre ind true false false k (u ++ '"' :: t) = u ++ '"' :: indentFrom pre ind false false false k t := by
    intro k
    rw [indent_text h1, indentFrom]
    simp only [show decide ('"' ≠ '"') = false by decide, show decide ('"' = '\\') = false by decide]
  rw [cons_append, append_assoc, cons_append, nil_append, indentFrom]
  rw [if_neg (by decide), if_neg (by decide)]
  simp only [show ¬ ('"' = '{' ∨ '"' = '[') by decide, show ¬ ('"' = ',') by decide, show ¬ ('"' = ':') by decide, if_false, decide_true, e]
  cases need <;> simp [due]

theorem formItems_blank {d : Nat} {l : List Json} {u w : Str} (hw : Blanks w) (h : FormItems d l u) : FormItems d l (w ++ u) := by
  cases l with
  | nil => simp [FormItems] at h
  | cons j l =>
    rw [FormItems] at h ⊢
    obtain ⟨w1, t, w2, v, h1, h2, h3, rfl, h4⟩ := h
    exact ⟨w ++ w1, t, w2, v, blanks_append hw h1, h2, h3, by simp, h4⟩

theorem formFields_blank {d : Nat} {l : List (Str × Json)} {u w : Str} (hw : Blanks w) (h : FormFields d l u) : FormFields d l (w ++ u) := by
  cases l with
  | nil => simp [FormFields] at h
  | cons e l =>
    obtain ⟨k, j⟩ := e
    rw [FormFields] at h ⊢
    obtain ⟨w0, q, w1, w2, t, w3, v, h1, h2, h3, h4, h5, h6, rfl, h7⟩ := h
    exact ⟨w ++ w0, q, w1, w2, t, w3, v, blanks_append hw h1, h2, h3, h4, h5, h6, by simp, h7⟩

theorem due_blanks (hp : Blanks pre) (hi : Blanks ind) (need : Bool) (k : Nat) : Blanks (due pre ind need k).1 := by
  cases need
  · exact blanks_nil
  · exact newline_blanks hp hi _

/-- An opening bracket. -/
theorem indent_open {c : Char} (hc : c = '{' ∨ c = '[') (need : Bool) (k : Nat) (t : Str) :
    indentFrom pre ind false false need k (c :: t) =
      (due pre ind need k).1 ++ c :: indentFrom pre ind false false true (due pre ind need k).2 t := by
  rw [indentFrom]
  rcases hc with rfl | rfl
  · rw [if_neg (by decide), if_neg (by decide)]
    cases need <;> simp [due]
  · rw [if_neg (by decide), if_neg (by decide)]
    cases need <;> simp [due]

/-- A closing bracket. -/
theorem indent_close {c : Char} (hc : c = '}' ∨ c = ']') (k : Nat) (t : Str) :
    indentFrom pre ind false false true k (c :: t) = c :: indentFrom pre ind false false false k t ∧
    indentFrom pre ind false false false k (c :: t) = newline pre ind (k - 1) ++ c :: indentFrom pre ind false false false (k - 1) t := by
  rw [indentFrom, indentFrom]
  rcases hc with rfl | rfl <;> exact ⟨by rw [if_neg (by decide)]; simp, by rw [if_neg (by decide)]; simp⟩

theorem indent_comma (k : Nat) (t : Str) :
    indentFrom pre ind false false false k (',' :: t) = ',' :: (newline pre ind k ++ indentFrom pre ind false false false k t) := by
  rw [indentFrom, if_neg (by decide)]
  simp

theorem indent_colon (k : Nat) (t : Str) :
    indentFrom pre ind false false false k (':' :: t) = ':' :: ' ' :: indentFrom pre ind false false false k t := by
  rw [indentFrom, if_neg (by decide)]
  simp

mutual
theorem indent_value (hp : Blanks pre) (hi : Blanks ind) : ∀ (j : Json) (d : Nat) (t : Str), Form d j t → ∀ need k rest,
    ∃ t', Form d j t' ∧ indentFrom pre ind false false need k (t ++ rest) =
      (due pre ind need k).1 ++ (t' ++ indentFrom pre ind false false false (due pre ind need k).2 rest)
  | .str s, d, t, h, need, k, rest => ⟨t, h, by rw [Form] at h; exact indent_str h need k rest⟩
  | .num _, _, _, h, _, _, _ => by simp [Form] at h
  | .bool true, d, t, h, need, k, rest => ⟨t, h, by
      rw [Form] at h; subst h
      cases need <;> simp [indentFrom, due, isSpace]⟩
  | .bool false, d, t, h, need, k, rest => ⟨t, h, by
      rw [Form] at h; subst h
      cases need <;> simp [indentFrom, due, isSpace]⟩
  | .null, d, t, h, need, k, rest => ⟨t, h, by
      rw [Form] at h; subst h
      cases need <;> simp [indentFrom, due, isSpace]⟩
  | .arr _, 0, _, h, _, _, _ => by simp [Form] at h
  | .obj _, 0, _, h, _, _, _ => by simp [Form] at h
  | .arr l, d + 1, t, h, need, k, rest => by
    rw [Form] at h
    obtain ⟨u, rfl, h⟩ := h
    rw [cons_append, indent_open (Or.inr rfl)]
    rcases h with ⟨rfl, w, hw, rfl⟩ | h
    · refine ⟨['[', ']'], by rw [Form]; exact ⟨_, rfl, Or.inl ⟨rfl, [], blanks_nil, rfl⟩⟩, ?_⟩
      rw [append_assoc, indent_blanks hw, cons_append, (indent_close (Or.inr rfl) _ _).1]
      rfl
    · obtain ⟨u', h1, h2⟩ := indent_items hp hi l d u h true (due pre ind need k).2 rest
      exact ⟨'[' :: u', by rw [Form]; exact ⟨_, rfl, Or.inr h1⟩, by rw [h2]; rfl⟩
  | .obj m, d + 1, t, h, need, k, rest => by
    rw [Form] at h
    obtain ⟨u, rfl, h⟩ := h
    rw [cons_append, indent_open (Or.inl rfl)]
    rcases h with ⟨rfl, w, hw, rfl⟩ | h
    · refine ⟨['{', '}'], by rw [Form]; exact ⟨_, rfl, Or.inl ⟨rfl, [], blanks_nil, rfl⟩⟩, ?_⟩
      rw [append_assoc, indent_blanks hw, cons_append, (indent_close (Or.inl rfl) _ _).1]
      rfl
    · obtain ⟨u', h1, h2⟩ := indent_fields hp hi m d u h true (due pre ind need k).2 rest
      exact ⟨'{' :: u', by rw [Form]; exact ⟨_, rfl, Or.inr h1⟩, by rw [h2]; rfl⟩
theorem indent_items (hp : Blanks pre) (hi : Blanks ind) : ∀ (l : List Json) (d : Nat) (u : Str), FormItems d l u → ∀ need k rest,
    ∃ u', FormItems d l u' ∧ indentFrom pre ind false false need k (u ++ rest) =
      u' ++ indentFrom pre ind false false false ((due pre ind need k).2 - 1) rest
  | [], _, _, h, _, _, _ => by simp [FormItems] at h
  | j :: l, d, u, h, need, k, rest => by
    rw [FormItems] at h
    obtain ⟨w, t, w', v, h1, h2, h3, rfl, h4⟩ := h
    rw [append_assoc, indent_blanks h1, append_assoc, append_assoc]
    obtain ⟨t', h5, h6⟩ := indent_value hp hi j d t h2 need k (w' ++ (v ++ rest))
    rw [h6, indent_blanks h3]
    rcases h4 with ⟨rfl, rfl⟩ | ⟨v', rfl, h4⟩
    · rw [cons_append, nil_append, (indent_close (Or.inr rfl) _ _).2]
      refine ⟨(due pre ind need k).1 ++ (t' ++ (newline pre ind ((due pre ind need k).2 - 1) ++ [']'])), ?_, by simp⟩
      rw [FormItems]
      exact ⟨_, _, _, _, due_blanks hp hi need k, h5, newline_blanks hp hi _, rfl, Or.inl ⟨rfl, rfl⟩⟩
    · rw [cons_append, indent_comma]
      obtain ⟨u', h7, h8⟩ := indent_items hp hi l d v' h4 false (due pre ind need k).2 rest
      rw [h8]
      refine ⟨(due pre ind need k).1 ++ (t' ++ ([] ++ ',' :: (newline pre ind (due pre ind need k).2 ++ u'))), ?_, by simp [due]⟩
      rw [FormItems]
      exact ⟨_, _, _, _, due_blanks hp hi need k, h5, blanks_nil, rfl, Or.inr ⟨_, rfl, formItems_blank (newline_blanks hp hi _) h7⟩⟩
theorem indent_fields (hp : Blanks pre) (hi : Blanks ind) : ∀ (l : List (Str × Json)) (d : Nat) (u : Str), FormFields d l u → ∀ need k rest,
    ∃ u', FormFields d l u' ∧ indentFrom pre ind false false need k (u ++ rest) =
      u' ++ indentFrom pre ind false false false ((due pre ind need k).2 - 1) rest
  | [], _, _, h, _, _, _ => by simp [FormFields] at h
  | (key, j) :: l, d, u, h, need, k, rest => by
    rw [FormFields] at h
    obtain ⟨w, q, w1, w2, t, w3, v, h1, h2, h3, h4, h5, h6, rfl, h7⟩ := h
    simp only [append_assoc, cons_append]
    rw [indent_blanks h1, indent_str h2, indent_blanks h3, indent_colon, indent_blanks h4]
    obtain ⟨t', h8, h9⟩ := indent_value hp hi j d t h5 false (due pre ind need k).2 (w3 ++ (v ++ rest))
    rw [h9, indent_blanks h6]
    have hs : Blanks [' '] := by intro c hc; rw [mem_singleton] at hc; exact Or.inl hc
    rcases h7 with ⟨rfl, rfl⟩ | ⟨v', rfl, h7⟩
    · rw [cons_append, nil_append, (indent_close (Or.inl rfl) _ _).2]
      refine ⟨(due pre ind need k).1 ++ (q ++ ([] ++ ':' :: ([' '] ++ (t' ++ (newline pre ind ((due pre ind need k).2 - 1) ++ ['}']))))), ?_,
        by simp [due]⟩
      rw [FormFields]
      exact ⟨_, _, _, _, _, _, _, due_blanks hp hi need k, h2, blanks_nil, hs, h8, newline_blanks hp hi _, rfl, Or.inl ⟨rfl, rfl⟩⟩
    · rw [cons_append, show (due pre ind false (due pre ind need k).2).2 = (due pre ind need k).2 from rfl, indent_comma]
      obtain ⟨u', h10, h11⟩ := indent_fields hp hi l d v' h7 false (due pre ind need k).2 rest
      rw [h11]
      refine ⟨(due pre ind need k).1 ++ (q ++ ([] ++ ':' :: ([' '] ++ (t' ++ ([] ++ ',' :: (newline pre ind (due pre ind need k).2 ++ u')))))), ?_,
        by simp [due]⟩
      rw [FormFields]
      exact ⟨_, _, _, _, _, _, _, due_blanks hp hi need k, h2, blanks_nil, hs, h8, blanks_nil, rfl,
        Or.inr ⟨_, rfl, formFields_blank (newline_blanks hp hi _) h10⟩⟩
end

/-- **C80.** `json.Indent` gives a form of the same value for every form of a value, with whatever blanks as prefix and
indentation. -/
theorem json_indent_form (hp : Blanks pre) (hi : Blanks ind) (d : Nat) (j : Json) (t w w' : Str) (h : Form d j t) (hw : Blanks w)
    (hw' : Blanks w') : Form d j (indent pre ind (w ++ t ++ w')) := by
  unfold indent
  rw [append_assoc, indent_blanks hw]
  obtain ⟨t', h1, h2⟩ := indent_value hp hi j d t h false 0 w'
  have e := indent_blanks (pre := pre) (ind := ind) hw' false 0 []
  rw [append_nil, indentFrom] at e
  rw [h2]
  simpa [due, e] using h1

end

/-! ### Documents -/

/-- The names of the parts of a document (xmp/json.go:25-30). -/
def partNames : List Str := ["about".toList, "toolkit".toList, "namespaces".toList, "models".toList]

/-- A name of ASCII characters in lower case. -/
def small (k : Str) : Str := k.map Char.toLower

/-- Entries of an object that stand for a document: its parts in any order, with names in any case, and between them entries of other names (of ASCII
characters). -/
structure Parts (jd : JDoc) (m : List (Str × Json)) : Prop where
  ascii : ∀ e ∈ m, ∀ c ∈ e.1, c.toNat < 128
  parts : (m.filter (fun e => small e.1 ∈ partNames)).map (fun e => (small e.1, e.2)) ~ members jd

theorem fold_cons_ascii {c : Char} (cs : Str) (h : c.toNat < 128) : fold (c :: cs) = lowerChar c :: fold cs := by
  rw [fold.eq_def]
  split
  · rename_i heq; exact absurd heq (by simp)
  · rename_i heq; simp only [cons.injEq] at heq; exact absurd h (by rw [heq.1]; decide)
  · rename_i heq; simp only [cons.injEq] at heq; exact absurd h (by rw [heq.1]; decide)
  · rename_i heq; simp only [cons.injEq] at heq; rw [heq.1, heq.2]

theorem lowerChar_small (c : Char) (h : c.toNat < 128) : lowerChar c = c.toLower := by
  have : ∀ n, n < 128 → lowerChar (Char.ofNat n) = (Char.ofNat n).toLower := by decide
  have := this c.toNat h
  rwa [Char.ofNat_toNat] at this

theorem fold_small : ∀ {k : Str}, (∀ c ∈ k, c.toNat < 128) → fold k = small k
  | [], _ => rfl
  | c :: k, h => by
    rw [fold_cons_ascii _ (h c (by simp)), fold_small (fun x hx => h x (by simp [hx])), lowerChar_small c (h c (by simp))]
    rfl

/-- What one entry does. -/
theorem readMembers_congr {k k' : Str} (h : fold k = fold k') (j : Json) (l : List (Str × Json)) (jd : JDoc) :
    readMembers ((k, j) :: l) jd = readMembers ((k', j) :: l) jd := by
  rw [readMembers, readMembers, h]

theorem readMembers_tail {k : Str} {j : Json} {l l' : List (Str × Json)} (h : ∀ jd, readMembers l jd = readMembers l' jd) (jd : JDoc) :
    readMembers ((k, j) :: l) jd = readMembers ((k, j) :: l') jd := by
  rw [readMembers, readMembers]
  simp only [h]

theorem readMembers_other {k : Str} (h : fold k ∉ partNames) (j : Json) (l : List (Str × Json)) (jd : JDoc) :
    readMembers ((k, j) :: l) jd = readMembers l jd := by
  simp only [partNames, mem_cons, not_mem_nil, or_false, not_or] at h
  rw [readMembers, if_neg h.1, if_neg h.2.1, if_neg h.2.2.1, if_neg h.2.2.2]

theorem readMembers_swap {k k' : Str} (h : fold k ≠ fold k') (j j' : Json) (l : List (Str × Json)) (jd : JDoc) :
    readMembers ((k, j) :: (k', j') :: l) jd = readMembers ((k', j') :: (k, j) :: l) jd := by
  by_cases h1 : fold k ∈ partNames
  · by_cases h2 : fold k' ∈ partNames
    · simp only [partNames, mem_cons, not_mem_nil, or_false] at h1 h2
      rcases h1 with h1 | h1 | h1 | h1 <;> rcases h2 with h2 | h2 | h2 | h2 <;>
        first
        | (exact absurd (h1.trans h2.symm) h)
        | (simp [readMembers, h1, h2]
           first
           | (cases textMember jd.about j <;> simp) | skip
           first
           | (cases textMember jd.about j' <;> simp) | skip
           first
           | (cases textMember jd.toolkit j <;> simp) | skip
           first
           | (cases textMember jd.toolkit j' <;> simp) | skip
           first
           | (cases nsMember jd.namespaces j <;> simp) | skip
           first
           | (cases nsMember jd.namespaces j' <;> simp) | skip)
    · rw [readMembers_tail (l' := l) (fun jd => readMembers_other h2 j' l jd), readMembers_other h2]
  · rw [readMembers_other h1, readMembers_tail (l' := l) (fun jd => readMembers_other h1 j l jd)]

theorem readMembers_perm {l l' : List (Str × Json)} (hp : l ~ l') (hn : (l.map (fun e => fold e.1)).Nodup) :
    ∀ jd, readMembers l jd = readMembers l' jd := by
  induction hp with
  | nil => intro _; rfl
  | cons e _ ih =>
    rw [map_cons, nodup_cons] at hn
    exact fun jd => readMembers_tail (ih hn.2) jd
  | swap e e' l =>
    intro jd
    rw [map_cons, map_cons, nodup_cons, mem_cons, not_or] at hn
    exact readMembers_swap hn.1.1 _ _ _ _
  | trans h1 _ ih1 ih2 => exact fun jd => (ih1 hn jd).trans (ih2 ((h1.map _).nodup_iff.1 hn) jd)

theorem small_small (k : Str) (h : ∀ c ∈ k, c.toNat < 128) : (∀ c ∈ small k, c.toNat < 128) ∧ small (small k) = small k := by
  have k1 : ∀ n, n < 128 → (Char.ofNat n).toLower.toNat < 128 ∧ (Char.ofNat n).toLower.toLower = (Char.ofNat n).toLower := by decide
  have k2 : ∀ c ∈ k, c.toLower.toNat < 128 ∧ c.toLower.toLower = c.toLower := by
    intro c hc
    have := k1 c.toNat (h c hc)
    rwa [Char.ofNat_toNat] at this
  unfold small
  refine ⟨fun c hc => ?_, ?_⟩
  · obtain ⟨x, hx, rfl⟩ := mem_map.1 hc
    exact (k2 x hx).1
  · rw [map_map]
    exact map_congr_left (fun c hc => (k2 c hc).2)

theorem readMembers_known : ∀ {m : List (Str × Json)}, (∀ e ∈ m, ∀ c ∈ e.1, c.toNat < 128) → ∀ jd,
    readMembers m jd = readMembers ((m.filter (fun e => small e.1 ∈ partNames)).map (fun e => (small e.1, e.2))) jd
  | [], _, _ => rfl
  | (k, j) :: m, h, jd => by
    have hk := h (k, j) (by simp)
    have ih := readMembers_known (m := m) (fun e he => h e (by simp [he]))
    by_cases hs : small k ∈ partNames
    · rw [filter_cons_of_pos (by simpa using hs), map_cons]
      rw [readMembers_congr (k' := small k) (by rw [fold_small hk, fold_small (small_small k hk).1, (small_small k hk).2])]
      exact readMembers_tail ih jd
    · rw [filter_cons_of_neg (by simpa using hs), readMembers_other (by rw [fold_small hk]; exact hs)]
      exact ih jd

theorem members_folded (jd : JDoc) : ((members jd).map (fun e => fold e.1)).Nodup := by
  unfold members
  split_ifs <;> simp [fold, lowerChar]

theorem readMembers_parts (num : Str → Option Str) {jd : JDoc} (h : DocTextOK jd) {m : List (Str × Json)} (hm : Parts jd m) :
    readMembers m {} = some jd := by
  rw [readMembers_known hm.ascii, readMembers_perm hm.parts ((hm.parts.map _).nodup_iff.2 (members_folded jd))]
  have := json_members_roundtrip num jd h
  unfold readDoc printDoc at this
  rwa [json_tree_roundtrip num _ (members_ok h)] at this

theorem parts_members (jd : JDoc) : Parts jd (members jd) := by
  have k : ∀ e ∈ members jd, e.1 ∈ partNames := by
    intro e he
    unfold members at he
    split_ifs at he <;> simp only [nil_append, cons_append, mem_cons, not_mem_nil, or_false] at he <;>
      (rcases he with rfl | rfl | rfl | rfl) <;> simp [partNames]
  have k2 : ∀ n ∈ partNames, (∀ c ∈ n, c.toNat < 128) ∧ small n = n := by decide
  refine ⟨fun e he => (k2 _ (k e he)).1, ?_⟩
  rw [filter_eq_self.2 (fun e he => by rw [(k2 _ (k e he)).2]; simpa using k e he)]
  have : (members jd).map (fun e => (small e.1, e.2)) = members jd := by
    conv_rhs => rw [← map_id (members jd)]
    exact map_congr_left (fun e he => by rw [(k2 _ (k e he)).2]; rfl)
  rw [this]
/-- A text of a document: any form of an object with its parts, with white space around it. -/
def DocForm (jd : JDoc) (t : Str) : Prop := ∃ m u w w', Parts jd m ∧ Form maxDepth (.obj m) u ∧ Blanks w ∧ Blanks w' ∧ t = w ++ u ++ w'

/-- **C80.** Every form of a document is read as the text that the library writes; its parts may come in any order, with names in
any case, and between entries of other names. -/
theorem json_document_forms (num : Str → Option Str) (jd : JDoc) (h : DocTextOK jd) (t : Str) (ht : DocForm jd t) :
    readDoc num t = readDoc num (printDoc jd) ∧ readDoc num t = some jd := by
  obtain ⟨m, u, w, w', h0, h1, h2, h3, rfl⟩ := ht
  have e : readDoc num (w ++ u ++ w') = some jd := by
    unfold readDoc
    rw [json_forms_read num _ u h1 w w' h2 h3]
    exact readMembers_parts num h h0
  exact ⟨by rw [e]; exact (json_members_roundtrip num jd h).symm, e⟩

/-- **C80.** The text that the library writes, also indented, any number of times, is a form of the document; and so is every form
after it is indented. -/
theorem json_document_indented (jd : JDoc) (h : DocTextOK jd) (l : List (Str × Str)) (hl : ∀ e ∈ l, Blanks e.1 ∧ Blanks e.2) :
    DocForm jd (l.foldl (fun t e => indent e.1 e.2 t) (printDoc jd)) ∧
    ∀ t, DocForm jd t → DocForm jd (l.foldl (fun t e => indent e.1 e.2 t) t) := by
  have start : DocForm jd (printDoc jd) :=
    ⟨_, _, [], [], parts_members jd, print_form _ _ (members_ok h), blanks_nil, blanks_nil, by simp [printDoc]⟩
  have all : ∀ t, DocForm jd t → DocForm jd (l.foldl (fun t e => indent e.1 e.2 t) t) := by
    clear start
    intro t start
    induction l generalizing t with
    | nil => exact start
    | cons e l ih =>
      refine ih (fun x hx => hl x (by simp [hx])) _ ?_
      obtain ⟨m, u, w, w', h0, h1, h2, h3, rfl⟩ := start
      have he := hl e (by simp)
      exact ⟨m, _, [], [], h0, json_indent_form he.1 he.2 _ _ u w w' h1 h2 h3, blanks_nil, blanks_nil, by simp⟩
  exact ⟨all _ start, all⟩

/-- **C80.** In every program that uses packages of the library (with `xmp_base` if it uses `xmp_tpg`), and whose own namespaces
have names of UTF-8 without a colon: a document of models of these packages, whose values can be read back, survive JSON, consist
of texts of UTF-8 and set no field with a prefix of another namespace, is written as JSON, and whatever another program makes of
the text, as long as it is a form of the same document with entries in any order, models with the same values are read
from it. -/
theorem shipped_json_forms_partial (P : List Str) (hc : Closed P) (hx : "xmp_tpg".toList ∈ P → "xmp_base".toList ∈ P)
    (h : RegHistory) (hp : Program P h) (hn : ∀ e ∈ h, e ∉ shippedRegs → JsonNs e.1)
    (K : Str → Codec) (Z : Str → List Val → Bool) (env : Env) (he : ShippedEnv P h K Z env)
    (p : Packet) (hd : ShippedDoc P K Z p.doc) (hj : JsonTexts p) (num : Str → Option Str) :
    ∃ jd, JDoc.ofDoc env p = some jd ∧ ∀ jd1, JDocSame jd jd1 → DocTextOK jd1 ∧ ∀ t, DocForm jd1 t →
      ∃ jd2, readDoc num t = some jd2 ∧ ∀ jd3, JDocSame jd2 jd3 → ∃ p', JDoc.toDoc env Version.zero jd3 = .ok p' ∧
      p'.about = p.about ∧ p'.toolkit = (if p.toolkit = [] then Enc.toolkitVersion else p.toolkit) ∧
      ∃ rs, rs ~ withContent p.doc.roots ∧ Forall₂ SameModel rs p'.doc.roots := by
  obtain ⟨jd, h1, h2⟩ := shipped_json_roundtrip_partial P hc hx h hp hn K Z env he p hd hj num
  have hu := document_utf8 20 (by decide) env p (shipped_utf8Packet hn he hd hj) jd h1
  obtain ⟨k1, k2, k3⟩ := json_keys_distinct h1
  have hok : DocTextOK jd := {
    about := hu.about
    toolkit := hu.toolkit
    nsKeys := k1
    ns := hu.ns
    modelKeys := k2
    models := fun e he => ⟨(hu.models e he).1, textOK_of _ _ (hu.models e he).2.2 (hu.models e he).2.1 (k3 e he)⟩ }
  refine ⟨jd, h1, fun jd1 hs => ⟨docTextOK_same hok hs, fun t ht => ?_⟩⟩
  rw [(json_document_forms num jd1 (docTextOK_same hok hs) t ht).1]
  exact h2 jd1 hs

end Xmp.Props
