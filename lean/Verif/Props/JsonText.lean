import Verif.Lemmas.JsonText
import Verif.Props.JsonDoc
import Verif.Props.JsonDocCases

/-! Properties of documents as JSON texts (C68).

`IsUtf8` (Lemmas/Utf8.lean) is Lean's own definition of UTF-8; `clean` (Lemmas/JsonText.lean) is a text in which every byte
that does not belong to a character is replaced by U+FFFD. -/

namespace Xmp.Props

open GoStr Utf8 JsonText List

/-! ### One text -/

theorem parse_quote (num : Str → Option Str) (s : Str) : parse num (quote s) = some (.str (clean s)) := by
  have h := parse_print num (.str s) (by simp [Fits])
  rwa [print, cleanTree] at h

/-- **C68.** A text written to JSON is read back if and only if it is UTF-8: quotes, control characters, line ends, HTML
characters and characters of any plane survive. -/
theorem json_text_survives_iff (num : Str → Option Str) (s : Str) : parse num (quote s) = some (.str s) ↔ IsUtf8 s := by
  rw [parse_quote]
  simp only [Option.some.injEq, Json.str.injEq]
  exact clean_eq_iff s

/-- A text with a quote, a tag, a line end, an accent, a separator and a character outside of the basic plane. -/
example : parse some (quote (ofUnicode "\"<b>\n\u00e9\u2028😀".toList)) = some (.str (ofUnicode "\"<b>\n\u00e9\u2028😀".toList)) :=
  (json_text_survives_iff _ _).2 ⟨_, rfl⟩

/-- How it is written: only the accent and the last character are not escaped. -/
example : quote (ofUnicode "\"<b>\n\u00e9\u2028😀".toList) =
    "\"\\\"\\u003cb\\u003e\\n".toList ++ [byte 0xC3, byte 0xA9] ++ "\\u2028".toList ++
      [byte 0xF0, byte 0x9F, byte 0x98, byte 0x80] ++ ['"'] := by decide +kernel

/-- Other programs write the same text with other escapes. -/
example : parse some " \"\\u0041\\/\\ud83d\\ude00\" ".toList = some (.str (ofUnicode "A/😀".toList)) := by
  have : value some 25 maxDepth " \"\\u0041\\/\\ud83d\\ude00\" ".toList = some (.str (ofUnicode "A/😀".toList), [' ']) := by rfl
  unfold parse
  rw [show (" \"\\u0041\\/\\ud83d\\ude00\" ".toList).length + 1 = 25 from by decide, this]
  rfl

/-- **C68.** Whatever the bytes, the text can be read, and what is read is UTF-8. -/
theorem json_text_never_fails (num : Str → Option Str) (s : Str) : ∃ s', parse num (quote s) = some (.str s') ∧ IsUtf8 s' :=
  ⟨clean s, parse_quote num s, utf8_clean s⟩

/-- **C68.** Different UTF-8 texts are written differently. -/
theorem json_text_injective {s s' : Str} (h : IsUtf8 s) (h' : IsUtf8 s') (e : quote s = quote s') : s = s' := by
  have h1 := (json_text_survives_iff some s).2 h
  have h2 := (json_text_survives_iff some s').2 h'
  rw [e, h2] at h1
  simpa using h1.symm

/-- Two texts as in the theorem. -/
example : IsUtf8 "a<b".toList ∧ IsUtf8 (ofUnicode "\u00e9".toList) := ⟨⟨"a<b".toList, by decide +kernel⟩, ⟨_, rfl⟩⟩

/-- **C68, finding.** Two bytes that are not UTF-8 (`é` and `è` in Latin-1) are written the same: the text is lost without
an error. -/
theorem latin1_lost : quote [byte 0xE9] = quote [byte 0xE8] ∧ ([byte 0xE9] : Str) ≠ [byte 0xE8] ∧
    ∀ num, parse num (quote [byte 0xE9]) = some (.str [byte 0xEF, byte 0xBF, byte 0xBD]) := by
  refine ⟨by decide +kernel, by decide +kernel, fun num => ?_⟩
  rw [parse_quote]
  exact congrArg (fun x => some (Json.str x)) (by decide +kernel)

/-! ### Trees -/

mutual
/-- No numbers, keys are distinct, texts and keys are UTF-8, nested at most so deep. -/
def TextOK : Nat → Json → Prop
  | _, .str s => IsUtf8 s
  | _, .num _ => False
  | _, .bool _ => True
  | _, .null => True
  | 0, .arr _ => False
  | d + 1, .arr l => TextOKItems d l
  | 0, .obj _ => False
  | d + 1, .obj m => (m.map (·.1)).Nodup ∧ TextOKFields d m
/-- Item by item. -/
def TextOKItems : Nat → List Json → Prop
  | _, [] => True
  | d, j :: l => TextOK d j ∧ TextOKItems d l
/-- Entry by entry. -/
def TextOKFields : Nat → List (Str × Json) → Prop
  | _, [] => True
  | d, (k, j) :: m => (IsUtf8 k ∧ TextOK d j) ∧ TextOKFields d m
end

theorem textOKFields_iff (d : Nat) (m : List (Str × Json)) : TextOKFields d m ↔ ∀ e ∈ m, IsUtf8 e.1 ∧ TextOK d e.2 := by
  induction m with
  | nil => simp [TextOKFields]
  | cons e m ih => obtain ⟨k, j⟩ := e; simp [TextOKFields, ih]

theorem textOKItems_iff (d : Nat) (l : List Json) : TextOKItems d l ↔ ∀ j ∈ l, TextOK d j := by
  induction l with
  | nil => simp [TextOKItems]
  | cons j l ih => simp [TextOKItems, ih]

mutual
theorem fits_of_ok : ∀ (d : Nat) (j : Json), TextOK d j → Fits d j
  | _, .str _, _ => by simp [Fits]
  | _, .num _, h => by simp [TextOK] at h
  | _, .bool _, _ => by simp [Fits]
  | _, .null, _ => by simp [Fits]
  | 0, .arr _, h => by simp [TextOK] at h
  | d + 1, .arr l, h => by rw [TextOK] at h; rw [Fits]; exact fitsItems_of_ok d l h
  | 0, .obj _, h => by simp [TextOK] at h
  | d + 1, .obj m, h => by rw [TextOK] at h; rw [Fits]; exact fitsFields_of_ok d m h.2
theorem fitsItems_of_ok : ∀ (d : Nat) (l : List Json), TextOKItems d l → FitsItems d l
  | _, [], _ => by simp [FitsItems]
  | d, j :: l, h => by rw [TextOKItems] at h; rw [FitsItems]; exact ⟨fits_of_ok d j h.1, fitsItems_of_ok d l h.2⟩
theorem fitsFields_of_ok : ∀ (d : Nat) (m : List (Str × Json)), TextOKFields d m → FitsFields d m
  | _, [], _ => by simp [FitsFields]
  | d, (_, j) :: m, h => by rw [TextOKFields] at h; rw [FitsFields]; exact ⟨fits_of_ok d j h.1.2, fitsFields_of_ok d m h.2⟩
end

mutual
theorem cleanTree_of_ok : ∀ (d : Nat) (j : Json), TextOK d j → cleanTree j = j
  | d, .str s, h => by rw [TextOK] at h; rw [cleanTree, clean_of_utf8 h]
  | _, .num _, h => by simp [TextOK] at h
  | _, .bool _, _ => by rw [cleanTree]
  | _, .null, _ => by rw [cleanTree]
  | 0, .arr _, h => by simp [TextOK] at h
  | d + 1, .arr l, h => by rw [TextOK] at h; rw [cleanTree, cleanItems_of_ok d l h]
  | 0, .obj _, h => by simp [TextOK] at h
  | d + 1, .obj m, h => by rw [TextOK] at h; rw [cleanTree, cleanFields_of_ok d m h.2]
theorem cleanItems_of_ok : ∀ (d : Nat) (l : List Json), TextOKItems d l → cleanItems l = l
  | _, [], _ => by rw [cleanItems]
  | d, j :: l, h => by rw [TextOKItems] at h; rw [cleanItems, cleanTree_of_ok d j h.1, cleanItems_of_ok d l h.2]
theorem cleanFields_of_ok : ∀ (d : Nat) (m : List (Str × Json)), TextOKFields d m → cleanFields m = m
  | _, [], _ => by rw [cleanFields]
  | d, (k, j) :: m, h => by
    rw [TextOKFields] at h; rw [cleanFields, clean_of_utf8 h.1.1, cleanTree_of_ok d j h.1.2, cleanFields_of_ok d m h.2]
end

/-- **C68.** A JSON value without numbers whose texts are UTF-8 and that is nested at most 10000 deep is read back from its
text. -/
theorem json_tree_roundtrip (num : Str → Option Str) (j : Json) (h : TextOK maxDepth j) : parse num (print j) = some j := by
  rw [parse_print num j (fits_of_ok _ j h), cleanTree_of_ok _ j h]

/-- An object with a list and a nested object. -/
example : TextOK maxDepth (.obj [("a".toList, .arr [.str "x\ny".toList, .bool true, .arr []]), ("b".toList, .obj [("a".toList, .null)])]) := by
  have u (s : Str) (h : none ∉ runes s) : IsUtf8 s := (isUtf8_iff_runes s).2 h
  show TextOK (9997 + 1 + 1 + 1) _
  simp only [TextOK, TextOKFields, TextOKItems, and_true]
  exact ⟨by decide, ⟨u _ (by decide), u _ (by decide)⟩, u _ (by decide), by decide, u _ (by decide)⟩

/-! ### Characters of the text -/

/-- The characters that may occur in the output. -/
def Harmless (c : Char) : Prop := 0x20 ≤ c.toNat ∧ c ≠ '<' ∧ c ≠ '>' ∧ c ≠ '&'

theorem plain_hex : ∀ k, k < 16 → 0x20 ≤ (hexDigit k).toNat ∧ hexDigit k ≠ '<' ∧ hexDigit k ≠ '>' ∧ hexDigit k ≠ '&' := by decide

theorem plain_encode {r : Nat} (h : 0x20 ≤ r) (h1 : r ≠ 0x3C) (h2 : r ≠ 0x3E) (h3 : r ≠ 0x26) (hs : Scalar r) :
    ∀ c ∈ encode r, Harmless c := by
  unfold Scalar at hs
  have key (n : Nat) (hn : n < 256) (h0 : 0x20 ≤ n) (h4 : n ≠ 0x3C) (h5 : n ≠ 0x3E) (h6 : n ≠ 0x26) : Harmless (byte n) := by
    refine ⟨by rw [toNat_byte hn]; exact h0, fun e => h4 ?_, fun e => h5 ?_, fun e => h6 ?_⟩
    · rw [← toNat_byte hn, e]; rfl
    · rw [← toNat_byte hn, e]; rfl
    · rw [← toNat_byte hn, e]; rfl
  unfold encode
  split_ifs
  · simp only [mem_singleton, forall_eq]; exact key _ (by omega) (by omega) (by omega) (by omega) (by omega)
  · simp only [mem_cons, not_mem_nil, or_false, forall_eq_or_imp, forall_eq]
    exact ⟨key _ (by omega) (by omega) (by omega) (by omega) (by omega), key _ (by omega) (by omega) (by omega) (by omega) (by omega)⟩
  · simp only [mem_cons, not_mem_nil, or_false, forall_eq_or_imp, forall_eq]
    exact ⟨key _ (by omega) (by omega) (by omega) (by omega) (by omega), key _ (by omega) (by omega) (by omega) (by omega) (by omega),
      key _ (by omega) (by omega) (by omega) (by omega) (by omega)⟩
  · simp only [mem_cons, not_mem_nil, or_false, forall_eq_or_imp, forall_eq]
    exact ⟨key _ (by omega) (by omega) (by omega) (by omega) (by omega), key _ (by omega) (by omega) (by omega) (by omega) (by omega),
      key _ (by omega) (by omega) (by omega) (by omega) (by omega), key _ (by omega) (by omega) (by omega) (by omega) (by omega)⟩

instance (c : Char) : Decidable (Harmless c) := by unfold Harmless; infer_instance

theorem plain_rune {x : Option Nat} (h : Good x) : ∀ c ∈ quoteRune x, Harmless c := by
  cases x with
  | none => decide
  | some r =>
    simp only [quoteRune]
    split_ifs with h1 h2 h3 h4 h5 h6 h7
    · decide
    · decide
    · decide
    · decide
    · decide
    · intro c hc
      rw [mem_append] at hc
      rcases hc with hc | hc
      · revert c; decide
      · simp only [mem_cons, not_mem_nil, or_false] at hc
        rcases hc with rfl | rfl
        · exact plain_hex _ (by omega)
        · exact plain_hex _ (by omega)
    · rcases h7 with rfl | rfl <;> decide
    · exact plain_encode (by omega) (by omega) (by omega) (by omega) h

theorem plain_quote (s : Str) : ∀ c ∈ quote s, Harmless c := by
  intro c hc
  simp only [quote, quoteBody, mem_cons, mem_append, mem_flatMap, not_mem_nil, or_false] at hc
  rcases hc with rfl | ⟨x, hx, hc⟩ | rfl
  · decide
  · exact plain_rune (good_runes s x hx) c hc
  · decide

mutual
theorem plain_print : ∀ (d : Nat) (j : Json), Fits d j → ∀ c ∈ print j, Harmless c
  | _, .str s, _ => by rw [print]; exact plain_quote s
  | _, .num _, h => by simp [Fits] at h
  | _, .bool true, _ => by rw [print]; decide
  | _, .bool false, _ => by rw [print]; decide
  | _, .null, _ => by rw [print]; decide
  | 0, .arr _, h => by simp [Fits] at h
  | 0, .obj _, h => by simp [Fits] at h
  | d + 1, .arr l, h => by
    rw [Fits] at h; rw [print]
    intro c hc
    rcases mem_cons.1 hc with rfl | hc
    · decide
    · match l with
      | [] => rw [printItems, mem_singleton] at hc; subst hc; decide
      | j :: l =>
        rw [FitsItems] at h
        rw [printItems, mem_append] at hc
        rcases hc with hc | hc
        · exact plain_print d j h.1 c hc
        · exact plain_more d l h.2 c hc
  | d + 1, .obj m, h => by
    rw [Fits] at h; rw [print]
    intro c hc
    rcases mem_cons.1 hc with rfl | hc
    · decide
    · match m with
      | [] => rw [printMembers, mem_singleton] at hc; subst hc; decide
      | (k, j) :: m =>
        rw [FitsFields] at h
        rw [printMembers, mem_append, mem_cons, mem_append] at hc
        rcases hc with hc | rfl | hc | hc
        · exact plain_quote k c hc
        · decide
        · exact plain_print d j h.1 c hc
        · exact plain_rest d m h.2 c hc
theorem plain_more : ∀ (d : Nat) (l : List Json), FitsItems d l → ∀ c ∈ printMore l, Harmless c
  | _, [], _ => by rw [printMore]; decide
  | d, j :: l, h => by
    rw [FitsItems] at h; rw [printMore]
    intro c hc
    rw [mem_cons, mem_append] at hc
    rcases hc with rfl | hc | hc
    · decide
    · exact plain_print d j h.1 c hc
    · exact plain_more d l h.2 c hc
theorem plain_rest : ∀ (d : Nat) (m : List (Str × Json)), FitsFields d m → ∀ c ∈ printRest m, Harmless c
  | _, [], _ => by rw [printRest]; decide
  | d, (k, j) :: m, h => by
    rw [FitsFields] at h; rw [printRest]
    intro c hc
    rw [mem_cons, mem_append, mem_cons, mem_append] at hc
    rcases hc with rfl | hc | rfl | hc | hc
    · decide
    · exact plain_quote k c hc
    · decide
    · exact plain_print d j h.1 c hc
    · exact plain_rest d m h.2 c hc
end

/-- **C68.** The text of a JSON value has no control characters and no characters that could end a script or begin a tag
in HTML. -/
theorem json_text_safe (d : Nat) (j : Json) (h : Fits d j) : ∀ c ∈ print j, 0x20 ≤ c.toNat ∧ c ∉ "<>&".toList := by
  intro c hc
  have := plain_print d j h c hc
  exact ⟨this.1, by simp only [show "<>&".toList = ['<', '>', '&'] from rfl, mem_cons, not_mem_nil, or_false, not_or]; exact this.2⟩

/-- A value that fits. -/
example : Fits 2 (.arr [.str "<script>".toList, .obj [("&".toList, .null)]]) := by simp [Fits, FitsItems, FitsFields]

/-! ### Nesting -/

/-- So many objects in each other. -/
def nest : Nat → Json
  | 0 => .null
  | n + 1 => .obj [("a".toList, nest n)]

theorem nest_refused (num : Str → Option Str) (d : Nat) : ∀ (n : Nat) (t : Str),
    value num n d (print (nest (d + 1)) ++ t) = none ∧ fields num n d (printMembers [("a".toList, nest (d + 1))] ++ t) = none := by
  induction d with
  | zero =>
    have key : ∀ n t, value num n 0 (print (nest 1) ++ t) = none := by
      intro n t
      cases n with
      | zero => rw [value]
      | succ n =>
        rw [nest, print, value, cons_append, skip_cons (by decide)]
        simp
    intro n t
    refine ⟨key n t, ?_⟩
    cases n with
    | zero => rw [fields]
    | succ n =>
      rw [fields, printMembers, quote, cons_append, cons_append, skip_cons (by decide)]
      simp only [if_true]
      rw [append_assoc, readStr_quote]
      simp only [cons_append, skip_cons (show isSpace ':' = false by decide), if_true]
      rw [append_assoc, key]
  | succ d ih =>
    have key : ∀ n t, value num n (d + 1) (print (nest (d + 1 + 1)) ++ t) = none := by
      intro n t
      cases n with
      | zero => rw [value]
      | succ n =>
        rw [nest, print, value, cons_append, skip_cons (by decide)]
        simp only [show ¬ ('{' = '"') by decide, if_false, if_true, Nat.succ_ne_zero, Nat.add_sub_cancel]
        have e2 : (skip (printMembers [("a".toList, nest (d + 1))] ++ t)).head? = some '"' := by
          rw [printMembers, quote, cons_append, cons_append, skip_cons (by decide), head?_cons]
        rw [e2, if_neg (by decide), (ih n t).2]
        rfl
    intro n t
    refine ⟨key n t, ?_⟩
    cases n with
    | zero => rw [fields]
    | succ n =>
      rw [fields, printMembers, quote, cons_append, cons_append, skip_cons (by decide)]
      simp only [if_true]
      rw [append_assoc, readStr_quote]
      simp only [cons_append, skip_cons (show isSpace ':' = false by decide), if_true]
      rw [append_assoc, key]

theorem nest_parse (num : Str → Option Str) {d : Nat} (h : d = maxDepth) : parse num (print (nest (d + 1))) = none := by
  unfold parse
  rw [← h]
  have := (nest_refused num d ((print (nest (d + 1))).length + 1) []).1
  rw [append_nil] at this
  rw [this]

/-- **C68, finding.** Values nested more than 10000 deep are written but cannot be read. -/
theorem deep_json_refused (num : Str → Option Str) : parse num (print (nest (maxDepth + 1))) = none := nest_parse num rfl

/-! ### Repeated keys -/

theorem assign_new {V : Type} {m : List (Str × V)} {k : Str} (v : V) (h : k ∉ m.map (·.1)) : assign m k v = m ++ [(k, v)] := by
  unfold assign
  rw [if_neg]
  simpa using h

theorem assignAll_nodup {V : Type} (l m : List (Str × V)) (h : ((m ++ l).map (·.1)).Nodup) : assignAll l m = m ++ l := by
  induction l generalizing m with
  | nil => simp [assignAll]
  | cons e l ih =>
    rw [assignAll, assign_new]
    · rw [ih _ (by simpa using h)]; simp
    · rw [map_append, nodup_append] at h
      intro hm
      exact h.2.2 _ hm e.1 (by simp) rfl

mutual
theorem collapse_of_ok : ∀ (d : Nat) (j : Json), TextOK d j → collapse j = j
  | d, .str s, _ => by rw [collapse]
  | _, .num _, h => by simp [TextOK] at h
  | _, .bool _, _ => by rw [collapse]
  | _, .null, _ => by rw [collapse]
  | 0, .arr _, h => by simp [TextOK] at h
  | d + 1, .arr l, h => by rw [TextOK] at h; rw [collapse, collapseItems_of_ok d l h]
  | 0, .obj _, h => by simp [TextOK] at h
  | d + 1, .obj m, h => by
    rw [TextOK] at h; rw [collapse, collapseFields_of_ok d m h.2, assignAll_nodup _ _ (by simpa using h.1), nil_append]
theorem collapseItems_of_ok : ∀ (d : Nat) (l : List Json), TextOKItems d l → collapseItems l = l
  | _, [], _ => by rw [collapseItems]
  | d, j :: l, h => by rw [TextOKItems] at h; rw [collapseItems, collapse_of_ok d j h.1, collapseItems_of_ok d l h.2]
theorem collapseFields_of_ok : ∀ (d : Nat) (m : List (Str × Json)), TextOKFields d m → collapseFields m = m
  | _, [], _ => by rw [collapseFields]
  | d, (k, j) :: m, h => by
    rw [TextOKFields] at h; rw [collapseFields, collapse_of_ok d j h.1.2, collapseFields_of_ok d m h.2]
end

theorem get_assign {V : Type} (m : List (Str × V)) (k k' : Str) (v : V) :
    GoMap.get (assign m k v) k' = if k = k' then some v else GoMap.get m k' := by
  unfold assign
  split_ifs with h1 h2 h2
  · subst h2
    induction m with
    | nil => simp at h1
    | cons e m ih =>
      by_cases he : e.1 = k
      · simp [GoMap.get, he]
      · have := ih (by simpa [he] using h1)
        simp only [GoMap.get] at this ⊢
        rw [map_cons, find?_cons_of_neg (by simp [he])]
        exact this
  · induction m with
    | nil => simp at h1
    | cons e m ih =>
      by_cases he : e.1 = k
      · have hk : (m.map (fun e => if e.1 = k then (k, v) else e)).find? (fun e => decide (e.1 = k')) = m.find? (fun e => decide (e.1 = k')) := by
          clear ih h1
          induction m with
          | nil => rfl
          | cons f m ih =>
            by_cases hf : f.1 = k
            · simp [hf, h2, ih]
            · by_cases hf' : f.1 = k'
              · have : ¬ k' = k := fun h => h2 h.symm
                simp [hf', this]
              · simp [hf, hf', ih]
        simp only [GoMap.get, map_cons, he, if_true]
        rw [find?_cons_of_neg (by simpa using h2), find?_cons_of_neg (by simp [he, h2]), hk]
      · have := ih (by simpa [he] using h1)
        by_cases hf' : e.1 = k'
        · have : ¬ k' = k := fun h => h2 h.symm
          simp [GoMap.get, hf', this]
        · simp only [GoMap.get] at this ⊢
          rw [map_cons, if_neg he, find?_cons_of_neg (by simpa using hf'), find?_cons_of_neg (by simpa using hf')]
          exact this
  · subst h2
    simp only [any_eq_true, not_exists, not_and, decide_eq_true_eq] at h1
    rw [GoMap.get, find?_append, find?_eq_none.2 (by simpa using h1)]
    simp
  · rw [GoMap.get, GoMap.get, find?_append]
    cases m.find? (fun e => decide (e.1 = k')) <;> simp [h2]

theorem get_assignAll {V : Type} (l m : List (Str × V)) (k : Str) :
    GoMap.get (assignAll l m) k = (GoMap.get l.reverse k).or (GoMap.get m k) := by
  induction l generalizing m with
  | nil => simp [assignAll, GoMap.get]
  | cons e l ih =>
    rw [assignAll, ih, get_assign, reverse_cons]
    simp only [GoMap.get, find?_append]
    cases find? (fun e => decide (e.1 = k)) l.reverse with
    | some x => simp
    | none => by_cases h : e.1 = k <;> simp [h]

/-- **C68.** A key that occurs again in an object: the last value counts. -/
theorem repeated_key_last (l : List (Str × Json)) (k : Str) :
    ∃ m, collapse (.obj l) = .obj m ∧ GoMap.get m k = ((GoMap.get l.reverse k).map collapse) := by
  refine ⟨_, by rw [collapse], ?_⟩
  rw [get_assignAll]
  have e : ∀ l : List (Str × Json), collapseFields l = l.map (fun e => (e.1, collapse e.2)) := by
    intro l
    induction l with
    | nil => rw [collapseFields]; rfl
    | cons e l ih => obtain ⟨k, j⟩ := e; rw [collapseFields, ih]; rfl
  rw [e, ← map_reverse]
  simp only [GoMap.get, find?_map, find?_nil, Option.map_none, Option.or_none, Option.map_map]
  rfl

/-- The last of three entries. -/
example : ∃ m, collapse (.obj [("k".toList, .str "1".toList), ("l".toList, .null), ("k".toList, .str "2".toList)]) = .obj m ∧
    GoMap.get m "k".toList = some (.str "2".toList) := ⟨_, rfl, rfl⟩

/-! ### Documents -/

/-- The texts of a document are UTF-8, its keys are distinct, and it is not nested too deep. -/
structure DocTextOK (jd : JDoc) : Prop where
  about : IsUtf8 jd.about
  toolkit : IsUtf8 jd.toolkit
  nsKeys : (jd.namespaces.map (·.1)).Nodup
  ns : ∀ e ∈ jd.namespaces, IsUtf8 e.1 ∧ IsUtf8 e.2
  modelKeys : (jd.models.map (·.1)).Nodup
  models : ∀ e ∈ jd.models, IsUtf8 e.1 ∧ TextOK (maxDepth - 2) e.2

theorem ascii_utf8 {s : Str} (h : ∀ c ∈ s, c.toNat < 0x80) : IsUtf8 s := by
  rw [isUtf8_iff]
  refine ⟨s.map Char.toNat, ?_, ?_⟩
  · intro r hr
    obtain ⟨c, hc, rfl⟩ := mem_map.1 hr
    have := h c hc
    exact Or.inl (by omega)
  · induction s with
    | nil => rfl
    | cons c s ih =>
      rw [map_cons, flatMap_cons, ← ih (fun x hx => h x (by simp [hx]))]
      rw [encode, if_pos (h c (by simp)), byte_toNat]
      rfl

theorem members_ok {jd : JDoc} (h : DocTextOK jd) : TextOK maxDepth (.obj (members jd)) := by
  show TextOK (9999 + 1) _
  rw [TextOK]
  have hns : TextOK 9999 (.obj (jd.namespaces.map (fun e => (e.1, Json.str e.2)))) := by
    show TextOK (9998 + 1) _
    rw [TextOK]
    refine ⟨by simpa [Function.comp_def] using h.nsKeys, (textOKFields_iff _ _).2 ?_⟩
    intro e he
    obtain ⟨x, hx, rfl⟩ := mem_map.1 he
    exact ⟨(h.ns x hx).1, by rw [TextOK]; exact (h.ns x hx).2⟩
  have hm : TextOK 9999 (.obj jd.models) := by
    show TextOK (9998 + 1) _
    rw [TextOK]
    exact ⟨h.modelKeys, (textOKFields_iff _ _).2 h.models⟩
  have a1 : IsUtf8 "about".toList := ascii_utf8 (by decide)
  have a2 : IsUtf8 "toolkit".toList := ascii_utf8 (by decide)
  have a3 : IsUtf8 "namespaces".toList := ascii_utf8 (by decide)
  have a4 : IsUtf8 "models".toList := ascii_utf8 (by decide)
  refine ⟨?_, (textOKFields_iff _ _).2 ?_⟩
  · unfold members
    split_ifs <;> simp
  · intro e he
    unfold members at he
    simp only [mem_append, mem_cons, not_mem_nil, or_false] at he
    rcases he with (he | he) | rfl | rfl
    · split_ifs at he with h1
      · simp at he
      · rw [mem_singleton] at he; subst he; exact ⟨a1, by rw [TextOK]; exact h.about⟩
    · split_ifs at he with h1
      · simp at he
      · rw [mem_singleton] at he; subst he; exact ⟨a2, by rw [TextOK]; exact h.toolkit⟩
    · exact ⟨a3, hns⟩
    · exact ⟨a4, hm⟩

theorem nsEntries_map (l m : List (Str × Str)) : nsEntries (l.map (fun e => (e.1, Json.str e.2))) m = some (assignAll l m) := by
  induction l generalizing m with
  | nil => rfl
  | cons e l ih => rw [map_cons, nsEntries, ih, assignAll]

/-- **C68.** The parts of a document are read back from its text, with every entry of every object. -/
theorem json_members_roundtrip (num : Str → Option Str) (jd : JDoc) (h : DocTextOK jd) : readDoc num (printDoc jd) = some jd := by
  unfold readDoc printDoc
  rw [json_tree_roundtrip num _ (members_ok h)]
  simp only
  have f1 : fold "about".toList = "about".toList := by decide
  have f2 : fold "toolkit".toList = "toolkit".toList := by decide
  have f3 : fold "namespaces".toList = "namespaces".toList := by decide
  have f4 : fold "models".toList = "models".toList := by decide
  have n21 : "toolkit".toList ≠ "about".toList := by decide
  have n31 : "namespaces".toList ≠ "about".toList := by decide
  have n32 : "namespaces".toList ≠ "toolkit".toList := by decide
  have n41 : "models".toList ≠ "about".toList := by decide
  have n42 : "models".toList ≠ "toolkit".toList := by decide
  have n43 : "models".toList ≠ "namespaces".toList := by decide
  have last (a t : Str) : readMembers [("namespaces".toList, .obj (jd.namespaces.map (fun e => (e.1, .str e.2)))), ("models".toList, .obj jd.models)]
      { about := a, toolkit := t } = some { about := a, toolkit := t, namespaces := jd.namespaces, models := jd.models } := by
    simp only [readMembers, f3, f4, n31, n32, n41, n42, n43, if_false, if_true, nsMember, modelsMember, nsEntries_map, Option.bind_some]
    rw [collapseFields_of_ok (maxDepth - 2) _ ((textOKFields_iff _ _).2 h.models), assignAll_nodup _ _ (by simpa using h.nsKeys),
      assignAll_nodup _ _ (by simpa using h.modelKeys)]
    rfl
  obtain ⟨a, t, ns, ms⟩ := jd
  unfold members
  simp only at last ⊢
  split_ifs with h1 h2 h2
  · subst h1; subst h2; exact last [] []
  · subst h1
    simp only [nil_append, cons_append]
    rw [readMembers, f2, if_neg n21, if_pos rfl]
    exact last [] t
  · subst h2
    simp only [nil_append, cons_append, append_nil]
    rw [readMembers, f1, if_pos rfl]
    exact last a []
  · simp only [nil_append, cons_append]
    rw [readMembers, f1, if_pos rfl]
    simp only [textMember, Option.bind_some]
    rw [readMembers, f2, if_neg n21, if_pos rfl]
    exact last a t

/-- A document with one model. -/
example : DocTextOK { about := [], toolkit := "t".toList, namespaces := [("dc".toList, "u".toList)], models := [("dc".toList, .obj [])] } := by
  have u (s : Str) (h : none ∉ runes s) : IsUtf8 s := (isUtf8_iff_runes s).2 h
  refine ⟨u _ (by decide), u _ (by decide), by decide, ?_, by decide, ?_⟩
  · intro e he
    rw [mem_singleton] at he; subst he
    exact ⟨u _ (by decide), u _ (by decide)⟩
  · intro e he
    rw [mem_singleton] at he; subst he
    refine ⟨u _ (by decide), ?_⟩
    show TextOK (9997 + 1) (.obj [])
    simp [TextOK, TextOKFields]

end Xmp.Props
