import Verif.Model.JsonText
import Verif.Lemmas.Utf8

/-! Lemmas about JSON texts. -/

namespace Xmp.JsonText

open GoStr Utf8

/-! ### Texts between quotes -/

/-- What is read for a scalar value or a byte that is not UTF-8. -/
def plain : Option Nat → Str
  | none => encode replacement
  | some r => encode r

/-- The text with every byte that is not UTF-8 replaced. -/
def clean (s : Str) : Str := (runes s).flatMap plain

/-- A scalar value, or none. -/
def Good : Option Nat → Prop
  | none => True
  | some r => Scalar r

theorem good_runes (s : Str) : ∀ x ∈ runes s, Good x := by
  induction s using rune_induction with
  | nil => simp [runes_nil]
  | good r t hr ih => rw [runes_encode hr]; simpa [Good, hr] using ih
  | bad a t hb ih => rw [runes_bad hb]; simpa [Good] using ih

theorem clean_of_utf8 {s : Str} (h : IsUtf8 s) : clean s = s := by
  obtain ⟨rs, h1, rfl⟩ := (isUtf8_iff s).1 h
  unfold clean
  rw [runes_flatMap h1, List.flatMap_map]
  rfl

theorem scalar_replacement : Scalar replacement := by unfold Scalar replacement; omega

theorem utf8_clean (s : Str) : IsUtf8 (clean s) := by
  rw [isUtf8_iff]
  unfold clean
  have h := good_runes s
  generalize runes s = L at h
  induction L with
  | nil => exact ⟨[], by simp⟩
  | cons x L ih =>
    obtain ⟨rs, h1, h2⟩ := ih (fun y hy => h y (by simp [hy]))
    cases x with
    | none => exact ⟨replacement :: rs, by simpa using ⟨scalar_replacement, h1⟩, by rw [List.flatMap_cons, h2]; rfl⟩
    | some r => exact ⟨r :: rs, by simpa using ⟨h (some r) (by simp), h1⟩, by rw [List.flatMap_cons, h2]; rfl⟩

theorem clean_eq_iff (s : Str) : clean s = s ↔ IsUtf8 s :=
  ⟨fun h => h ▸ utf8_clean s, clean_of_utf8⟩

theorem hexVal_hexDigit : ∀ k, k < 16 → hexVal (hexDigit k) = some k := by decide

theorem first_byte {r : Nat} (h : 0x20 ≤ r) (h1 : r ≠ 0x22) (h2 : r ≠ 0x5C) (hs : Scalar r) :
    ∃ a u, encode r = a :: u ∧ a ≠ '"' ∧ a ≠ '\\' ∧ ¬ a.toNat < 0x20 := by
  unfold Scalar at hs
  have key (n : Nat) (hn : n < 256) (h3 : 0x20 ≤ n) (h4 : n ≠ 0x22) (h5 : n ≠ 0x5C) :
      byte n ≠ '"' ∧ byte n ≠ '\\' ∧ ¬ (byte n).toNat < 0x20 := by
    refine ⟨fun e => h4 ?_, fun e => h5 ?_, ?_⟩
    · rw [← toNat_byte hn, e]; rfl
    · rw [← toNat_byte hn, e]; rfl
    · rw [toNat_byte hn]; omega
  unfold encode
  split_ifs
  · exact ⟨_, _, rfl, key _ (by omega) (by omega) (by omega) (by omega)⟩
  · exact ⟨_, _, rfl, key _ (by omega) (by omega) (by omega) (by omega)⟩
  · exact ⟨_, _, rfl, key _ (by omega) (by omega) (by omega) (by omega)⟩
  · exact ⟨_, _, rfl, key _ (by omega) (by omega) (by omega) (by omega)⟩

/-- Reading `\u` and four digits that are not half of a pair. -/
theorem readStr_u (n : Nat) {u u' : Str} {r : Nat} (h : hex4 u = some (r, u')) (hr : r < 0xD800 ∨ 0xE000 ≤ r) :
    readStr (n + 1) ('\\' :: 'u' :: u) = (readStr n u').map (fun p => (encode r ++ p.1, p.2)) := by
  simp only [readStr, show ¬ ('\\' = '"') by decide, if_false, if_true, h]
  rw [if_neg (by omega)]

theorem readStr_esc (n : Nat) {e x : Char} (u : Str) (h1 : e ≠ 'u') (h : unescape e = some x) :
    readStr (n + 1) ('\\' :: e :: u) = (readStr n u).map (fun p => (x :: p.1, p.2)) := by
  simp only [readStr, show ¬ ('\\' = '"') by decide, if_false, if_true, h, h1]

theorem readStr_rune (n : Nat) {x : Option Nat} (hx : Good x) (u : Str) :
    readStr (n + 1) (quoteRune x ++ u) = (readStr n u).map (fun p => (plain x ++ p.1, p.2)) := by
  cases x with
  | none => exact readStr_u n (u := 'f' :: 'f' :: 'f' :: 'd' :: u) (u' := u) (r := 0xFFFD) rfl (by omega)
  | some r =>
    simp only [quoteRune]
    split_ifs with h1 h2 h3 h4 h5 h6 h7
    · subst h1; exact readStr_esc n u (e := '"') (x := '"') (by decide) rfl
    · subst h2; exact readStr_esc n u (e := '\\') (x := '\\') (by decide) rfl
    · subst h3; exact readStr_esc n u (e := 'n') (x := '\n') (by decide) rfl
    · subst h4; exact readStr_esc n u (e := 'r') (x := '\r') (by decide) rfl
    · subst h5; exact readStr_esc n u (e := 't') (x := '\t') (by decide) rfl
    · have hx : hex4 ('0' :: '0' :: hexDigit (r / 16) :: hexDigit (r % 16) :: u) = some (r, u) := by
        have e1 := hexVal_hexDigit (r / 16) (by omega)
        have e2 := hexVal_hexDigit (r % 16) (by omega)
        simp only [hex4, e1, e2, show hexVal '0' = some 0 from rfl]
        congr 2; omega
      exact readStr_u n (u := '0' :: '0' :: hexDigit (r / 16) :: hexDigit (r % 16) :: u) hx (by omega)
    · rcases h7 with rfl | rfl
      · exact readStr_u n (u := '2' :: '0' :: '2' :: '8' :: u) (u' := u) (r := 0x2028) rfl (by omega)
      · exact readStr_u n (u := '2' :: '0' :: '2' :: '9' :: u) (u' := u) (r := 0x2029) rfl (by omega)
    · obtain ⟨a, v, e, k1, k2, k3⟩ := first_byte (by omega) h1 h2 hx
      have hd := decode_encode hx u
      show readStr (n + 1) (encode r ++ u) = (readStr n u).map (fun p => (encode r ++ p.1, p.2))
      rw [e, List.cons_append] at hd ⊢
      simp only [readStr, k1, k2, k3, if_false, hd]
      rw [List.length_cons, Nat.add_sub_cancel, List.drop_left, e]

theorem readStr_list (L : List (Option Nat)) (h : ∀ x ∈ L, Good x) (n : Nat) (hn : L.length < n) (t : Str) :
    readStr n (L.flatMap quoteRune ++ '"' :: t) = some (L.flatMap plain, t) := by
  induction L generalizing n with
  | nil =>
    cases n with
    | zero => simp at hn
    | succ n => simp [readStr]
  | cons x L ih =>
    cases n with
    | zero => simp at hn
    | succ n =>
      rw [List.flatMap_cons, List.append_assoc, readStr_rune n (h x (by simp)),
        ih (fun y hy => h y (by simp [hy])) n (by simpa using hn)]
      rfl

theorem quoteRune_pos (x : Option Nat) : 1 ≤ (quoteRune x).length := by
  cases x with
  | none => decide
  | some r =>
    have := encode_pos r
    simp only [quoteRune]
    split_ifs <;> (simp; try omega)

theorem quoteBody_length (s : Str) : (runes s).length + 1 ≤ (quoteBody s).length := by
  unfold quoteBody
  generalize runes s = L
  induction L with
  | nil => simp
  | cons x L ih =>
    have := quoteRune_pos x
    simp only [List.length_append, List.flatMap_cons, List.length_cons, List.length_nil] at ih ⊢
    omega

/-- A written text is read as the text with bad bytes replaced. -/
theorem readStr_quote (s t : Str) : readStr ((quoteBody s ++ t).length + 1) (quoteBody s ++ t) = some (clean s, t) := by
  have h := quoteBody_length s
  unfold quoteBody at h ⊢
  rw [List.append_assoc]
  refine readStr_list _ (good_runes s) _ ?_ t
  simp only [List.length_append, List.length_cons, List.length_nil] at h ⊢
  omega

/-! ### Trees -/

mutual
/-- No numbers, and nested at most so deep. -/
def Fits : Nat → Json → Prop
  | _, .str _ => True
  | _, .num _ => False
  | _, .bool _ => True
  | _, .null => True
  | 0, .arr _ => False
  | d + 1, .arr l => FitsItems d l
  | 0, .obj _ => False
  | d + 1, .obj m => FitsFields d m
/-- Item by item. -/
def FitsItems : Nat → List Json → Prop
  | _, [] => True
  | d, j :: l => Fits d j ∧ FitsItems d l
/-- Entry by entry. -/
def FitsFields : Nat → List (Str × Json) → Prop
  | _, [] => True
  | d, (_, j) :: m => Fits d j ∧ FitsFields d m
end

mutual
/-- All texts and keys with bad bytes replaced. -/
def cleanTree : Json → Json
  | .str s => .str (clean s)
  | .num s => .num s
  | .bool b => .bool b
  | .null => .null
  | .arr l => .arr (cleanItems l)
  | .obj m => .obj (cleanFields m)
/-- Item by item. -/
def cleanItems : List Json → List Json
  | [] => []
  | j :: l => cleanTree j :: cleanItems l
/-- Entry by entry. -/
def cleanFields : List (Str × Json) → List (Str × Json)
  | [] => []
  | (k, j) :: m => (clean k, cleanTree j) :: cleanFields m
end

theorem skip_cons {c : Char} (h : isSpace c = false) (t : Str) : skip (c :: t) = c :: t := by
  simp [skip, List.dropWhile, h]

theorem print_pos (j : Json) {d : Nat} (h : Fits d j) : 1 ≤ (print j).length := by
  cases j with
  | num s => cases d <;> simp [Fits] at h
  | bool b => cases b <;> simp [print]
  | _ => simp [print, quote]

theorem printMore_pos (l : List Json) : 1 ≤ (printMore l).length := by cases l <;> simp [printMore]

theorem printRest_pos (l : List (Str × Json)) : 1 ≤ (printRest l).length := by
  match l with
  | [] => simp [printRest]
  | (k, j) :: l => simp [printRest]

/-- A value does not begin with white space or a closing bracket. -/
theorem print_head (j : Json) {d : Nat} (h : Fits d j) :
    ∃ c u, print j = c :: u ∧ isSpace c = false ∧ c ≠ ']' ∧ c ≠ '}' := by
  cases j with
  | num s => cases d <;> simp [Fits] at h
  | bool b => cases b <;> exact ⟨_, _, rfl, by decide, by decide, by decide⟩
  | str s => exact ⟨'"', _, by rw [print]; rfl, by decide, by decide, by decide⟩
  | null => exact ⟨'n', _, by rw [print]; rfl, by decide, by decide, by decide⟩
  | arr l => exact ⟨'[', _, by rw [print], by decide, by decide, by decide⟩
  | obj l => exact ⟨'{', _, by rw [print], by decide, by decide, by decide⟩

theorem value_step (num : Str → Option Str) (n : Nat)
    (ihi : ∀ (j : Json) (l : List Json) (d : Nat) (t : Str), Fits d j → FitsItems d l → (printItems (j :: l)).length ≤ n →
      items num n d (printItems (j :: l) ++ t) = some (cleanItems (j :: l), t))
    (ihf : ∀ (k : Str) (j : Json) (l : List (Str × Json)) (d : Nat) (t : Str), Fits d j → FitsFields d l →
      (printMembers ((k, j) :: l)).length ≤ n → fields num n d (printMembers ((k, j) :: l) ++ t) = some (cleanFields ((k, j) :: l), t))
    (j : Json) (d : Nat) (t : Str) (hf : Fits d j) (hn : (print j).length ≤ n + 1) :
    value num (n + 1) d (print j ++ t) = some (cleanTree j, t) := by
  match j with
  | .str s =>
    rw [print, cleanTree, value, quote, List.cons_append, skip_cons (by decide)]
    simp only [if_true]
    rw [readStr_quote]
    rfl
  | .num s => cases d <;> simp [Fits] at hf
  | .bool true => simp [print, cleanTree, value, skip_cons, isSpace, literal, hasPrefix]
  | .bool false => simp [print, cleanTree, value, skip_cons, isSpace, literal, hasPrefix]
  | .null => simp [print, cleanTree, value, skip_cons, isSpace, literal, hasPrefix]
  | .arr l =>
    match d with
    | 0 => simp [Fits] at hf
    | d + 1 =>
      rw [Fits] at hf
      rw [print, List.length_cons] at hn
      rw [print, cleanTree, value, List.cons_append, skip_cons (by decide)]
      simp only [show ¬ ('[' = '"') by decide, show ¬ ('[' = '{') by decide, if_false, if_true, Nat.succ_ne_zero, Nat.add_sub_cancel]
      match l with
      | [] => simp [printItems, cleanItems, skip_cons, isSpace]
      | j :: l =>
        rw [FitsItems] at hf
        obtain ⟨c, u, e, h1, h2, h3⟩ := print_head j hf.1
        have e2 : skip (printItems (j :: l) ++ t) = c :: (u ++ printMore l ++ t) := by
          rw [printItems, e, List.cons_append, List.cons_append, skip_cons h1]
        rw [e2, List.head?_cons, if_neg (by simpa using h2), ihi j l d t hf.1 hf.2 (by omega)]
        rfl
  | .obj m =>
    match d with
    | 0 => simp [Fits] at hf
    | d + 1 =>
      rw [Fits] at hf
      rw [print, List.length_cons] at hn
      rw [print, cleanTree, value, List.cons_append, skip_cons (by decide)]
      simp only [show ¬ ('{' = '"') by decide, if_false, if_true, Nat.succ_ne_zero, Nat.add_sub_cancel]
      match m with
      | [] => simp [printMembers, cleanFields, skip_cons, isSpace]
      | (k, j) :: l =>
        rw [FitsFields] at hf
        have e2 : (skip (printMembers ((k, j) :: l) ++ t)).head? = some '"' := by
          rw [printMembers, quote, List.cons_append, List.cons_append, skip_cons (by decide), List.head?_cons]
        rw [e2, if_neg (by decide), ihf k j l d t hf.1 hf.2 (by omega)]
        rfl

theorem items_step (num : Str → Option Str) (n : Nat)
    (ihv : ∀ (j : Json) (d : Nat) (t : Str), Fits d j → (print j).length ≤ n → value num n d (print j ++ t) = some (cleanTree j, t))
    (ihi : ∀ (j : Json) (l : List Json) (d : Nat) (t : Str), Fits d j → FitsItems d l → (printItems (j :: l)).length ≤ n →
      items num n d (printItems (j :: l) ++ t) = some (cleanItems (j :: l), t))
    (j : Json) (l : List Json) (d : Nat) (t : Str) (hj : Fits d j) (hl : FitsItems d l)
    (hn : (printItems (j :: l)).length ≤ n + 1) : items num (n + 1) d (printItems (j :: l) ++ t) = some (cleanItems (j :: l), t) := by
  have p1 := print_pos j hj
  have p2 := printMore_pos l
  rw [printItems, List.length_append] at hn
  rw [items, printItems, List.append_assoc, ihv j d _ hj (by omega)]
  match l with
  | [] => simp [printMore, cleanItems, skip_cons, isSpace]
  | j' :: l =>
    rw [FitsItems] at hl
    rw [printMore, List.length_cons, List.length_append] at hn
    simp only [printMore, List.cons_append, skip_cons (show isSpace ',' = false by decide), show ¬ (',' = ']') by decide, if_false, if_true]
    have := ihi j' l d t hl.1 hl.2 (by rw [printItems, List.length_append]; omega)
    rw [printItems] at this
    rw [this, cleanItems, cleanItems]
    rfl

theorem fields_step (num : Str → Option Str) (n : Nat)
    (ihv : ∀ (j : Json) (d : Nat) (t : Str), Fits d j → (print j).length ≤ n → value num n d (print j ++ t) = some (cleanTree j, t))
    (ihf : ∀ (k : Str) (j : Json) (l : List (Str × Json)) (d : Nat) (t : Str), Fits d j → FitsFields d l →
      (printMembers ((k, j) :: l)).length ≤ n → fields num n d (printMembers ((k, j) :: l) ++ t) = some (cleanFields ((k, j) :: l), t))
    (k : Str) (j : Json) (l : List (Str × Json)) (d : Nat) (t : Str) (hj : Fits d j) (hl : FitsFields d l)
    (hn : (printMembers ((k, j) :: l)).length ≤ n + 1) :
    fields num (n + 1) d (printMembers ((k, j) :: l) ++ t) = some (cleanFields ((k, j) :: l), t) := by
  have p1 := print_pos j hj
  have p2 := printRest_pos l
  rw [printMembers, List.length_append, List.length_cons, List.length_append, quote, List.length_cons] at hn
  rw [fields, printMembers, quote, List.cons_append, List.cons_append, skip_cons (by decide)]
  simp only [if_true]
  rw [List.append_assoc, readStr_quote]
  simp only [List.cons_append, skip_cons (show isSpace ':' = false by decide), if_true]
  rw [List.append_assoc, ihv j d _ hj (by omega)]
  match l with
  | [] => simp [printRest, cleanFields, skip_cons, isSpace]
  | (k', j') :: l =>
    rw [FitsFields] at hl
    rw [printRest, List.length_cons, List.length_append, List.length_cons, List.length_append, quote, List.length_cons] at hn
    simp only [printRest, List.cons_append, skip_cons (show isSpace ',' = false by decide), show ¬ (',' = '}') by decide, if_false, if_true]
    have := ihf k' j' l d t hl.1 hl.2 (by
      rw [printMembers, List.length_append, List.length_cons, List.length_append, quote, List.length_cons]; omega)
    rw [printMembers] at this
    rw [this, cleanFields, cleanFields]
    rfl

/-- What is written is read. -/
theorem printed (num : Str → Option Str) (n : Nat) :
    (∀ (j : Json) (d : Nat) (t : Str), Fits d j → (print j).length ≤ n → value num n d (print j ++ t) = some (cleanTree j, t)) ∧
    (∀ (j : Json) (l : List Json) (d : Nat) (t : Str), Fits d j → FitsItems d l → (printItems (j :: l)).length ≤ n →
      items num n d (printItems (j :: l) ++ t) = some (cleanItems (j :: l), t)) ∧
    (∀ (k : Str) (j : Json) (l : List (Str × Json)) (d : Nat) (t : Str), Fits d j → FitsFields d l →
      (printMembers ((k, j) :: l)).length ≤ n → fields num n d (printMembers ((k, j) :: l) ++ t) = some (cleanFields ((k, j) :: l), t)) := by
  induction n with
  | zero =>
    refine ⟨fun j d t hf hn => ?_, fun j l d t hf hl hn => ?_, fun k j l d t hf hl hn => ?_⟩
    · have := print_pos j hf; omega
    · have := print_pos j hf; rw [printItems, List.length_append] at hn; omega
    · rw [printMembers, List.length_append, List.length_cons] at hn; omega
  | succ n ih =>
    obtain ⟨h1, h2, h3⟩ := ih
    exact ⟨value_step num n h2 h3, items_step num n h1 h2, fields_step num n h1 h3⟩

theorem value_print (num : Str → Option Str) (j : Json) (d n : Nat) (t : Str) (hf : Fits d j) (hn : (print j).length ≤ n) :
    value num n d (print j ++ t) = some (cleanTree j, t) := (printed num n).1 j d t hf hn

theorem parse_print (num : Str → Option Str) (j : Json) (h : Fits maxDepth j) : parse num (print j) = some (cleanTree j) := by
  have := value_print num j maxDepth ((print j).length + 1) [] h (by omega)
  rw [List.append_nil] at this
  unfold parse
  rw [this]
  rfl

end Xmp.JsonText
