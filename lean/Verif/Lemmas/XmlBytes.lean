import Verif.Model.XmlBytes
import Verif.Lemmas.Utf8

/-! Lemmas about XML texts. -/

namespace Xmp.XmlBytes

open GoStr Utf8 List

/-! ### Character data and values of attributes -/

/-- What is read for a scalar value or a byte that is not UTF-8. -/
def plain : Option Nat → Str
  | none => encode replacement
  | some r => if inRange r then encode r else encode replacement

/-- The text with every byte that is not UTF-8 and every character that is not one of XML replaced. -/
def clean (s : Str) : Str := (runes s).flatMap plain

/-- A row of characters of XML. -/
def Chars (s : Str) : Prop := ∃ rs : List Nat, (∀ r ∈ rs, Scalar r ∧ inRange r = true) ∧ s = rs.flatMap encode

theorem chars_nil : Chars [] := ⟨[], by simp, rfl⟩

theorem chars_append {a b : Str} (ha : Chars a) (hb : Chars b) : Chars (a ++ b) := by
  obtain ⟨rs, h1, rfl⟩ := ha
  obtain ⟨rs', h2, rfl⟩ := hb
  refine ⟨rs ++ rs', ?_, by simp⟩
  intro r hr
  rcases mem_append.1 hr with h | h
  · exact h1 r h
  · exact h2 r h

theorem chars_encode {r : Nat} (h : Scalar r) (hr : inRange r = true) : Chars (encode r) :=
  ⟨[r], by simpa using ⟨h, hr⟩, by simp⟩

theorem scalar_replacement : Scalar replacement := by unfold Scalar replacement; omega

theorem chars_replacement : Chars (encode replacement) := chars_encode scalar_replacement (by decide)

theorem checked_chars {s : Str} (h : Chars s) : checked s = true := by
  obtain ⟨rs, h1, rfl⟩ := h
  unfold checked
  rw [runes_flatMap (fun r hr => (h1 r hr).1), all_map, all_eq_true]
  intro r hr
  exact (h1 r hr).2

/-- A scalar value, or none. -/
def Good : Option Nat → Prop
  | none => True
  | some r => Scalar r

theorem good_runes (s : Str) : ∀ x ∈ runes s, Good x := by
  induction s using rune_induction with
  | nil => simp [runes_nil]
  | good r t hr ih => rw [runes_encode hr]; simpa [Good, hr] using ih
  | bad a t hb ih => rw [runes_bad hb]; simpa [Good] using ih

theorem chars_plain {x : Option Nat} (h : Good x) : Chars (plain x) := by
  cases x with
  | none => exact chars_replacement
  | some r =>
    simp only [plain]
    split_ifs with hr
    · exact chars_encode h hr
    · exact chars_replacement

theorem chars_clean (s : Str) : Chars (clean s) := by
  unfold clean
  have h := good_runes s
  generalize runes s = L at h
  induction L with
  | nil => exact chars_nil
  | cons x L ih =>
    rw [flatMap_cons]
    exact chars_append (chars_plain (h x (by simp))) (ih (fun y hy => h y (by simp [hy])))

theorem clean_of_chars {s : Str} (h : Chars s) : clean s = s := by
  obtain ⟨rs, h1, rfl⟩ := h
  unfold clean
  rw [runes_flatMap (fun r hr => (h1 r hr).1), flatMap_map]
  apply congrArg List.flatten
  apply map_congr_left
  intro r hr
  show plain (some r) = encode r
  rw [plain, if_pos (h1 r hr).2]

theorem clean_eq_iff (s : Str) : clean s = s ↔ Chars s := ⟨fun h => h ▸ chars_clean s, clean_of_chars⟩

theorem plain_ne (x : Option Nat) : plain x ≠ [] := by
  have key : ∀ k, encode k ≠ [] := fun k h => by
    have := encode_pos k
    rw [h] at this
    simp at this
  cases x with
  | none => exact key _
  | some r =>
    simp only [plain]
    split_ifs
    · exact key _
    · exact key _

theorem runes_ne {s : Str} (h : s ≠ []) : runes s ≠ [] := by
  induction s using rune_induction with
  | nil => exact absurd rfl h
  | good r t hr ih => rw [runes_encode hr]; simp
  | bad a t hb ih => rw [runes_bad hb]; simp

theorem clean_nil_iff (s : Str) : clean s = [] ↔ s = [] := by
  constructor
  · intro h
    by_contra hs
    have := runes_ne hs
    unfold clean at h
    cases hr : runes s with
    | nil => exact this hr
    | cons x L =>
      rw [hr, flatMap_cons] at h
      exact plain_ne x (append_eq_nil_iff.1 h).1
  · rintro rfl; rfl

/-- What `readChars` makes of a text, whatever stands before it. -/
def Reads (q : Option Char) (u r v : Str) : Prop :=
  ∀ n b0 b1, u.length < n → b1 ≠ '\r' → readChars q n b0 b1 u = some (r, v)

theorem reads_tag (w : Str) : Reads none ('<' :: w) [] ('<' :: w) := by
  intro n b0 b1 hn hb
  cases n with
  | zero => simp at hn
  | succ n => simp [readChars]

theorem reads_quote (w : Str) : Reads (some '"') ('"' :: w) [] w := by
  intro n b0 b1 hn hb
  cases n with
  | zero => simp at hn
  | succ n => simp [readChars]

/-- A byte that stands for itself. -/
def Simple (c : Char) : Prop := c ≠ '<' ∧ c ≠ '>' ∧ c ≠ '&' ∧ c ≠ '\r' ∧ c ≠ '"'

theorem reads_byte {q : Option Char} (hq : q = none ∨ q = some '"') {c : Char} (hc : Simple c) {u r v : Str} (h : Reads q u r v) :
    Reads q (c :: u) (c :: r) v := by
  intro n b0 b1 hn hb
  obtain ⟨h1, h2, h3, h4, h5⟩ := hc
  cases n with
  | zero => simp at hn
  | succ n =>
    have hq' : ¬ (some c = q) := by
      rcases hq with rfl | rfl
      · simp
      · simpa using h5
    simp only [readChars]
    rw [if_neg (by simp [h2]), if_neg h1, if_neg hq', if_neg h3, if_neg h4, if_neg (by simp [hb]),
      h n b1 c (by simpa using hn) h4]
    rfl

theorem reads_bytes {q : Option Char} (hq : q = none ∨ q = some '"') {s : Str} (hs : ∀ c ∈ s, Simple c) {u r v : Str} (h : Reads q u r v) :
    Reads q (s ++ u) (s ++ r) v := by
  induction s with
  | nil => exact h
  | cons c s ih => exact reads_byte hq (hs c (by simp)) (ih (fun x hx => hs x (by simp [hx])))

theorem reads_entity {q : Option Char} (hq : q = none ∨ q = some '"') {t x u r v : Str} (he : readEntity t = some (x, u))
    (hl : u.length ≤ t.length) (h : Reads q u r v) : Reads q ('&' :: t) (x ++ r) v := by
  intro n b0 b1 hn hb
  cases n with
  | zero => simp at hn
  | succ n =>
    have hq' : ¬ (some '&' = q) := by rcases hq with rfl | rfl <;> decide
    simp only [readChars]
    rw [if_neg (by simp), if_neg (by decide), if_neg hq', if_pos trivial, he]
    simp only
    rw [h n _ _ (by simp at hn; omega) (by decide)]
    rfl

theorem reads_ref {q : Option Char} (hq : q = none ∨ q = some '"') (e x : Str) (he : ∀ u, readEntity (e ++ u) = some (x, u)) {u r v : Str}
    (h : Reads q u r v) : Reads q ('&' :: (e ++ u)) (x ++ r) v :=
  reads_entity hq (he u) (by rw [length_append]; omega) h

theorem simple_byte {n : Nat} (hn : n < 256) (h0 : 0x20 ≤ n) (h1 : n ≠ 0x3C) (h2 : n ≠ 0x3E) (h3 : n ≠ 0x26) (h4 : n ≠ 0x22) : Simple (byte n) := by
  refine ⟨fun e => h1 ?_, fun e => h2 ?_, fun e => h3 ?_, fun e => ?_, fun e => h4 ?_⟩
  · rw [← toNat_byte hn, e]; rfl
  · rw [← toNat_byte hn, e]; rfl
  · rw [← toNat_byte hn, e]; rfl
  · have : n = 13 := by rw [← toNat_byte hn, e]; rfl
    omega
  · rw [← toNat_byte hn, e]; rfl

theorem simple_encode {r : Nat} (h : 0x20 ≤ r) (h1 : r ≠ 0x3C) (h2 : r ≠ 0x3E) (h3 : r ≠ 0x26) (h4 : r ≠ 0x22) (hs : Scalar r) :
    ∀ c ∈ encode r, Simple c := by
  unfold Scalar at hs
  unfold encode
  split_ifs
  · simp only [mem_singleton, forall_eq]
    exact simple_byte (by omega) (by omega) (by omega) (by omega) (by omega) (by omega)
  · simp only [mem_cons, not_mem_nil, or_false, forall_eq_or_imp, forall_eq]
    exact ⟨simple_byte (by omega) (by omega) (by omega) (by omega) (by omega) (by omega),
      simple_byte (by omega) (by omega) (by omega) (by omega) (by omega) (by omega)⟩
  · simp only [mem_cons, not_mem_nil, or_false, forall_eq_or_imp, forall_eq]
    exact ⟨simple_byte (by omega) (by omega) (by omega) (by omega) (by omega) (by omega),
      simple_byte (by omega) (by omega) (by omega) (by omega) (by omega) (by omega),
      simple_byte (by omega) (by omega) (by omega) (by omega) (by omega) (by omega)⟩
  · simp only [mem_cons, not_mem_nil, or_false, forall_eq_or_imp, forall_eq]
    exact ⟨simple_byte (by omega) (by omega) (by omega) (by omega) (by omega) (by omega),
      simple_byte (by omega) (by omega) (by omega) (by omega) (by omega) (by omega),
      simple_byte (by omega) (by omega) (by omega) (by omega) (by omega) (by omega),
      simple_byte (by omega) (by omega) (by omega) (by omega) (by omega) (by omega)⟩

theorem inRange_iff (r : Nat) : inRange r = true ↔
    r = 0x09 ∨ r = 0x0A ∨ r = 0x0D ∨ (0x20 ≤ r ∧ r ≤ 0xD7FF) ∨ (0xE000 ≤ r ∧ r ≤ 0xFFFD) ∨ (0x10000 ≤ r ∧ r ≤ 0x10FFFF) := by
  simp [inRange, or_assoc]

theorem simple_replacement : ∀ c ∈ encode replacement, Simple c :=
  simple_encode (by decide) (by decide) (by decide) (by decide) (by decide) scalar_replacement

theorem reads_rune {q : Option Char} (hq : q = none ∨ q = some '"') {x : Option Nat} (hx : Good x) {u r v : Str} (h : Reads q u r v) :
    Reads q (escapeRune x ++ u) (plain x ++ r) v := by
  cases x with
  | none => exact reads_bytes hq simple_replacement h
  | some k =>
    simp only [escapeRune]
    split_ifs with h1 h2 h3 h4 h5 h6 h7 h8 h9
    · subst h1; exact reads_ref hq "#34;".toList ['"'] (fun _ => rfl) h
    · subst h2; exact reads_ref hq "#39;".toList ['\''] (fun _ => rfl) h
    · subst h3; exact reads_ref hq "amp;".toList ['&'] (fun _ => rfl) h
    · subst h4; exact reads_ref hq "lt;".toList ['<'] (fun _ => rfl) h
    · subst h5; exact reads_ref hq "gt;".toList ['>'] (fun _ => rfl) h
    · subst h6; exact reads_ref hq "#x9;".toList ['\t'] (fun _ => rfl) h
    · subst h7; exact reads_ref hq "#xA;".toList ['\n'] (fun _ => rfl) h
    · subst h8; exact reads_ref hq "#xD;".toList ['\r'] (fun _ => rfl) h
    · rw [plain, if_pos h9]
      have := (inRange_iff k).1 h9
      exact reads_bytes hq (simple_encode (by omega) (by omega) (by omega) (by omega) (by omega) hx) h
    · rw [plain, if_neg h9]
      exact reads_bytes hq simple_replacement h

theorem reads_escape {q : Option Char} (hq : q = none ∨ q = some '"') (s : Str) {u r v : Str} (h : Reads q u r v) :
    Reads q (escape s ++ u) (clean s ++ r) v := by
  unfold escape clean
  have hg := good_runes s
  generalize runes s = L at hg
  induction L with
  | nil => exact h
  | cons x L ih =>
    rw [flatMap_cons, flatMap_cons, append_assoc, append_assoc]
    exact reads_rune hq (hg x (by simp)) (ih (fun y hy => hg y (by simp [hy])))

theorem readText_of {q : Option Char} {u r v : Str} (h : Reads q u r v) (hc : Chars r) : readText q u = some (r, v) := by
  unfold readText
  rw [h _ _ _ (by omega) (by decide)]
  simp only
  rw [if_pos (checked_chars hc)]

/-! ### Names and attributes -/

/-- A name of XML. -/
def ValidName (uni : Str → Bool) (n : Str) : Prop := (∀ c ∈ n, nameByte c = true) ∧ isName uni n = true

theorem validName_ne {uni : Str → Bool} {n : Str} (h : ValidName uni n) : n ≠ [] := by
  rintro rfl
  simp [ValidName, isName] at h

theorem readName_of {uni : Str → Bool} {n : Str} (h : ValidName uni n) {c : Char} (hc : nameByte c = false) (t : Str) :
    readName uni (n ++ c :: t) = some (n, c :: t) := by
  have e1 : (n ++ c :: t).takeWhile nameByte = n := by
    rw [takeWhile_append_of_pos h.1, takeWhile_cons_of_neg (by simp [hc]), append_nil]
  have e2 : (n ++ c :: t).dropWhile nameByte = c :: t := by
    rw [dropWhile_append_of_pos h.1, dropWhile_cons_of_neg (by simp [hc])]
  unfold readName
  simp only [e1, e2, h.2]
  simp

theorem skip_cons {c : Char} (h : isSpace c = false) (t : Str) : skip (c :: t) = c :: t := by
  simp [skip, dropWhile, h]

theorem nameByte_facts : nameByte '>' = false ∧ nameByte '/' = false ∧ nameByte ' ' = false ∧ nameByte '=' = false ∧
    nameByte '\t' = false ∧ nameByte '\r' = false ∧ nameByte '\n' = false ∧ nameByte '!' = false ∧ nameByte '?' = false := by decide

theorem space_name {c : Char} (h : nameByte c = true) : isSpace c = false := by
  have := nameByte_facts
  unfold isSpace
  simp only [Bool.or_eq_false_iff, decide_eq_false_iff_not]
  refine ⟨⟨⟨?_, ?_⟩, ?_⟩, ?_⟩ <;> rintro rfl <;> simp_all

/-- The attributes as they are read. -/
def readBack (a : List Attr) : List (Str × Str) := (a.filter (fun x => x.name.loc ≠ [])).map (fun x => (x.name.loc, clean x.value))

theorem readAttrs_print (uni : Str → Bool) (a : List Attr) (h : ∀ x ∈ a, x.name.loc = [] ∨ ValidName uni x.name.loc) (n : Nat)
    (hn : (a.filter (fun x => x.name.loc ≠ [])).length < n) (w : Str) : readAttrs uni n (printAttrs a ++ '>' :: w) = some (readBack a, false, w) := by
  induction a generalizing n with
  | nil =>
    cases n with
    | zero => simp at hn
    | succ n => simp [printAttrs, readAttrs, skip_cons, isSpace, readBack]
  | cons x a ih =>
    have ih := ih (fun y hy => h y (by simp [hy]))
    rw [printAttrs]
    by_cases hx : x.name.loc = []
    · rw [if_pos hx, ih n (by simpa [hx] using hn)]
      simp [readBack, hx]
    · rw [if_neg hx]
      have hv : ValidName uni x.name.loc := (h x (by simp)).resolve_left hx
      obtain ⟨c, u, e⟩ : ∃ c u, x.name.loc = c :: u := by
        cases hc : x.name.loc with
        | nil => exact absurd hc hx
        | cons c u => exact ⟨c, u, rfl⟩
      have hc : nameByte c = true := hv.1 c (by simp [e])
      cases n with
      | zero => omega
      | succ n =>
        have e1 : skip ((' ' :: (x.name.loc ++ '=' :: '"' :: (escape x.value ++ '"' :: printAttrs a))) ++ '>' :: w) =
            c :: (u ++ '=' :: '"' :: (escape x.value ++ '"' :: (printAttrs a ++ '>' :: w))) := by
          rw [cons_append]
          have : ∀ t, skip (' ' :: t) = skip t := fun t => by simp [skip, dropWhile, isSpace]
          rw [this, e]
          simp only [cons_append, append_assoc]
          rw [skip_cons (space_name hc)]
        have e2 : c :: (u ++ '=' :: '"' :: (escape x.value ++ '"' :: (printAttrs a ++ '>' :: w))) =
            x.name.loc ++ '=' :: '"' :: (escape x.value ++ '"' :: (printAttrs a ++ '>' :: w)) := by
          rw [e]; rfl
        have c1 : c ≠ '>' := by rintro rfl; simp [nameByte_facts] at hc
        have c2 : c ≠ '/' := by rintro rfl; simp [nameByte_facts] at hc
        simp only [readAttrs]
        rw [e1]
        simp only [c1, c2, if_false]
        rw [e2, readName_of hv (by decide)]
        simp only
        rw [skip_cons (by decide)]
        simp only [if_true]
        rw [skip_cons (by decide), readValue]
        simp only [true_or, if_true]
        rw [readText_of (reads_escape (Or.inr rfl) x.value (reads_quote _)) (by rw [append_nil]; exact chars_clean _)]
        simp only
        rw [ih n (by simpa [hx] using hn), append_nil]
        simp [readBack, hx]

/-! ### Elements -/

/-- Prefix and indentation consist of spaces, tabs and line feeds. -/
def IndentOK : Option (Str × Str) → Prop
  | none => True
  | some (pre, indent) => (∀ c ∈ pre, c ∈ " \t\n".toList) ∧ ∀ c ∈ indent, c ∈ " \t\n".toList

theorem blanks_mem {ind : Option (Str × Str)} (h : IndentOK ind) (d : Nat) : ∀ c ∈ Xml.blanks ind d, c ∈ " \t\n".toList := by
  intro c hc
  cases ind with
  | none => simp [Xml.blanks] at hc
  | some p =>
    obtain ⟨pre, indent⟩ := p
    simp only [Xml.blanks, cons_append, mem_cons, mem_append, mem_flatten] at hc
    rcases hc with rfl | hc | ⟨l, hl, hc⟩
    · decide
    · exact h.1 c hc
    · rw [(mem_replicate.1 hl).2] at hc
      exact h.2 c hc

theorem simple_blank {c : Char} (h : c ∈ " \t\n".toList) : Simple c := by
  simp only [show " \t\n".toList = [' ', '\t', '\n'] from rfl, mem_cons, not_mem_nil, or_false] at h
  rcases h with rfl | rfl | rfl <;> exact ⟨by decide, by decide, by decide, by decide, by decide⟩

theorem chars_blank {s : Str} (h : ∀ c ∈ s, c ∈ " \t\n".toList) : Chars s := by
  induction s with
  | nil => exact chars_nil
  | cons c s ih =>
    have hc := h c (by simp)
    refine chars_append (a := [c]) ?_ (ih (fun x hx => h x (by simp [hx])))
    simp only [show " \t\n".toList = [' ', '\t', '\n'] from rfl, mem_cons, not_mem_nil, or_false] at hc
    rcases hc with rfl | rfl | rfl
    · exact chars_encode (r := 0x20) (Or.inl (by decide)) (by decide)
    · exact chars_encode (r := 0x09) (Or.inl (by decide)) (by decide)
    · exact chars_encode (r := 0x0A) (Or.inl (by decide)) (by decide)

mutual
/-- All texts and values of attributes with bad characters replaced. -/
def cleanNode : Node → Node
  | .mk n a v l => .mk n (a.map (fun x => { x with value := clean x.value })) (clean v) (cleanNodes l)
/-- Node by node. -/
def cleanNodes : List Node → List Node
  | [] => []
  | x :: xs => cleanNode x :: cleanNodes xs
end

mutual
/-- The names that are written are names of XML. -/
def NamesOK (uni : Str → Bool) : Node → Prop
  | .mk n a _ l => n.loc = [] ∨
    (ValidName uni n.loc ∧ (∀ x ∈ a, x.name.loc = [] ∨ ValidName uni x.name.loc) ∧ NamesOKAll uni l)
/-- Node by node. -/
def NamesOKAll (uni : Str → Bool) : List Node → Prop
  | [] => True
  | x :: xs => NamesOK uni x ∧ NamesOKAll uni xs
end

/-- Character data in front of a tag. -/
theorem content_text {uni : Str → Bool} (v : Str) (b : Str) (hb : ∀ c ∈ b, c ∈ " \t\n".toList) {t : Str} {n : Nat}
    {c : List Xml} {w : Str} (hn : 1 ≤ n) (h : ∀ m, n ≤ m + (escape v ++ b).length → m ≤ n → readContent uni m ('<' :: t) = some (c, w)) :
    readContent uni n (escape v ++ (b ++ '<' :: t)) = some (Xml.chunk (clean v ++ b) ++ c, w) := by
  by_cases hz : clean v ++ b = []
  · obtain ⟨h1, h2⟩ := append_eq_nil_iff.1 hz
    rw [clean_nil_iff] at h1
    subst h1; subst h2
    rw [hz]
    exact h n (by omega) (by omega)
  · have hr : Reads none (escape v ++ (b ++ '<' :: t)) (clean v ++ (b ++ [])) ('<' :: t) :=
      reads_escape (Or.inl rfl) v (reads_bytes (Or.inl rfl) (fun c hc => simple_blank (hb c hc)) (reads_tag t))
    rw [append_nil] at hr
    obtain ⟨x, u, e⟩ : ∃ x u, escape v ++ (b ++ '<' :: t) = x :: u := by
      cases hx : escape v ++ (b ++ '<' :: t) with
      | nil => simp at hx
      | cons x u => exact ⟨x, u, rfl⟩
    have hx : x ≠ '<' := by
      rintro rfl
      rw [e] at hr
      have h1 := hr ((length ('<' :: u)) + 1) '\u0000' '\u0000' (by omega) (by decide)
      simp [readChars] at h1
      exact hz (by rw [append_eq_nil_iff]; exact ⟨h1.1.1, h1.1.2⟩)
    obtain ⟨n, rfl⟩ : ∃ m, n = m + 1 := ⟨n - 1, by omega⟩
    have ht := readText_of hr (chars_append (chars_clean v) (chars_blank hb))
    rw [e] at ht ⊢
    · simp only [readContent, hx, if_false]
      rw [ht]
      simp only
      have hl : 1 ≤ (escape v ++ b).length := by
        by_contra hl
        have : escape v ++ b = [] := by
          apply length_eq_zero_iff.1; omega
        obtain ⟨h1, h2⟩ := append_eq_nil_iff.1 this
        subst h2
        rw [h1] at e
        simp at e
        exact hx e.1.symm
      rw [h n (by omega) (by omega), Xml.chunk, if_neg hz]
      rfl

/-- What is read for the texts of a row of nodes. -/
theorem printed_nil (ind : Option (Str × Str)) (depth : Nat) (l : List Node) :
    printNodes ind depth l = [] ↔ Xml.ofNodes ind depth (cleanNodes l) = [] := by
  induction l with
  | nil => simp [printNodes, cleanNodes, Xml.ofNodes]
  | cons x l ih =>
    obtain ⟨n, a, v, k⟩ := x
    simp only [printNodes, cleanNodes, cleanNode, Xml.ofNodes, append_eq_nil_iff, ih]
    by_cases hn : n.loc = []
    · simp [printNode, Xml.ofNode, hn]
    · simp [printNode, Xml.ofNode, hn]

theorem readBack_eq (a : List Attr) : readBack a =
    ((a.map (fun x => { x with value := clean x.value })).filter (fun x => x.name.loc ≠ [])).map (fun x => (x.name.loc, x.value)) := by
  induction a with
  | nil => rfl
  | cons x a ih =>
    by_cases hx : x.name.loc = []
    · simpa [readBack, hx] using ih
    · simpa [readBack, hx] using ih

/-- The text of an element behind `<`. -/
def body (ind : Option (Str × Str)) (depth : Nat) (n : Str) (a : List Attr) (v : Str) (l : List Node) : Str :=
  n ++ (printAttrs a ++ '>' :: (escape v ++ ((if (printNodes ind (depth + 1) l).isEmpty then [] else
    printLayout ind depth (printNodes ind (depth + 1) l)) ++ '<' :: '/' :: (n ++ ['>']))))

theorem printNode_body (ind : Option (Str × Str)) (depth : Nat) {n : QName} (hn : n.loc ≠ []) (a : List Attr) (v : Str) (l : List Node) :
    printNode ind depth (.mk n a v l) = ['<' :: body ind depth n.loc a v l] := by
  simp [printNode, body, hn]

theorem attrs_length (a : List Attr) : (a.filter (fun x => x.name.loc ≠ [])).length ≤ (printAttrs a).length := by
  induction a with
  | nil => simp
  | cons x a ih =>
    by_cases hx : x.name.loc = []
    · simpa [printAttrs, hx] using ih
    · simp [printAttrs, hx] at ih ⊢
      omega

theorem attrs_head (a : List Attr) (w : Str) : ∃ c t, printAttrs a ++ '>' :: w = c :: t ∧ nameByte c = false := by
  induction a with
  | nil => exact ⟨'>', w, rfl, by decide⟩
  | cons x a ih =>
    by_cases hx : x.name.loc = []
    · rw [printAttrs, if_pos hx]; exact ih
    · rw [printAttrs, if_neg hx]; exact ⟨' ', _, rfl, by decide⟩

theorem readEnd_of {uni : Str → Bool} {n : Str} (h : ValidName uni n) (w : Str) : readEnd uni n (n ++ '>' :: w) = some w := by
  unfold readEnd
  rw [readName_of h (by decide)]
  simp only
  rw [skip_cons (by decide)]
  simp

theorem content_end (uni : Str → Bool) (n : Nat) (hn : 1 ≤ n) (w : Str) : readContent uni n ('<' :: '/' :: w) = some ([], w) := by
  obtain ⟨n, rfl⟩ : ∃ m, n = m + 1 := ⟨n - 1, by omega⟩
  simp [readContent]

mutual
/-- An element is read back. -/
theorem elem_read (uni : Str → Bool) {ind : Option (Str × Str)} (hi : IndentOK ind) : ∀ (nm : QName) (a : List Attr) (v : Str) (l : List Node)
    (depth : Nat), ValidName uni nm.loc → (∀ x ∈ a, x.name.loc = [] ∨ ValidName uni x.name.loc) → NamesOKAll uni l →
    ∃ y, Xml.ofNode ind depth (cleanNode (.mk nm a v l)) = [y] ∧
      ∀ n w, (body ind depth nm.loc a v l).length ≤ n → readElem uni n (body ind depth nm.loc a v l ++ w) = some (y, w)
  | nm, a, v, l, depth, hv, ha, hl => by
    have hne : nm.loc ≠ [] := validName_ne hv
    have e : Xml.ofNode ind depth (cleanNode (.mk nm a v l)) = [.elem nm.loc (readBack a)
        (if (Xml.ofNodes ind (depth + 1) (cleanNodes l)).isEmpty then Xml.chunk (clean v) else
          Xml.layout ind depth (clean v) (Xml.ofNodes ind (depth + 1) (cleanNodes l)))] := by
      rw [cleanNode, Xml.ofNode, if_neg hne, readBack_eq]
    refine ⟨_, e, ?_⟩
    intro n w hn
    have hlen : 1 ≤ nm.loc.length := by
      cases h : nm.loc with
      | nil => exact absurd h hne
      | cons c t => simp
    unfold body at hn ⊢
    obtain ⟨n, rfl⟩ : ∃ m, n = m + 1 := ⟨n - 1, by simp only [length_append] at hn; omega⟩
    simp only [append_assoc, cons_append]
    generalize hX : (if (printNodes ind (depth + 1) l).isEmpty = true then [] else printLayout ind depth (printNodes ind (depth + 1) l)) = X at hn ⊢
    obtain ⟨c, t, ec, hc⟩ := attrs_head a (escape v ++ (X ++ '<' :: '/' :: (nm.loc ++ ('>' :: ([] ++ w)))))
    simp only [readElem]
    rw [ec, readName_of hv hc, ← ec]
    simp only
    rw [readAttrs_print uni a ha _ (by have := attrs_length a; simp only [length_append]; omega)]
    simp only
    have hcont : readContent uni n (escape v ++ (X ++ '<' :: '/' :: (nm.loc ++ ('>' :: ([] ++ w))))) = some
        ((if (Xml.ofNodes ind (depth + 1) (cleanNodes l)).isEmpty then Xml.chunk (clean v) else
          Xml.layout ind depth (clean v) (Xml.ofNodes ind (depth + 1) (cleanNodes l))), nm.loc ++ ('>' :: ([] ++ w))) := by
      simp only [length_append, length_cons, length_nil] at hn
      by_cases hk : printNodes ind (depth + 1) l = []
      · have hk' := (printed_nil ind (depth + 1) l).1 hk
        rw [hk] at hX
        simp only [isEmpty_nil, if_true] at hX
        subst hX
        rw [hk']
        simp only [isEmpty_nil, if_true]
        rw [content_text v [] (by simp) (by omega) (c := []) (w := nm.loc ++ ('>' :: ([] ++ w)))]
        · simp
        · intro m h1 h2
          apply content_end
          simp only [length_append, length_nil] at h1
          omega
      · have hk' := mt (printed_nil ind (depth + 1) l).2 hk
        rw [if_neg (by simpa using hk)] at hX
        rw [if_neg (by simpa using hk')]
        subst hX
        apply content_read uni hi l depth v hl
        simp only [length_append, length_cons, length_nil]
        omega
    rw [hcont]
    simp only
    rw [readEnd_of hv]
    rfl
/-- The content of an element is read back. -/
theorem content_read (uni : Str → Bool) {ind : Option (Str × Str)} (hi : IndentOK ind) : ∀ (l : List Node) (depth : Nat) (v : Str), NamesOKAll uni l →
    ∀ n w, (escape v ++ (printLayout ind depth (printNodes ind (depth + 1) l) ++ ['<', '/'])).length ≤ n →
      readContent uni n (escape v ++ (printLayout ind depth (printNodes ind (depth + 1) l) ++ '<' :: '/' :: w)) =
        some (Xml.layout ind depth (clean v) (Xml.ofNodes ind (depth + 1) (cleanNodes l)), w)
  | [], depth, v, h => by
    intro n w hn
    simp only [printNodes, cleanNodes, Xml.ofNodes, printLayout, Xml.layout, length_append, length_cons, length_nil] at hn ⊢
    rw [content_text v _ (blanks_mem hi depth) (by omega) (c := []) (w := w)]
    · simp
    · intro m h1 h2
      apply content_end
      simp only [length_append] at h1
      omega
  | .mk nm a x k :: l, depth, v, h => by
    intro n w hn
    obtain ⟨h1, h2⟩ := h
    by_cases hne : nm.loc = []
    · have e1 : printNodes ind (depth + 1) (.mk nm a x k :: l) = printNodes ind (depth + 1) l := by
        simp [printNodes, printNode, hne]
      have e2 : Xml.ofNodes ind (depth + 1) (cleanNodes (.mk nm a x k :: l)) = Xml.ofNodes ind (depth + 1) (cleanNodes l) := by
        simp [cleanNodes, cleanNode, Xml.ofNodes, Xml.ofNode, hne]
      rw [e1] at hn ⊢
      rw [e2]
      exact content_read uni hi l depth v h2 n w hn
    · obtain ⟨hv, ha, hk⟩ := h1.resolve_left hne
      obtain ⟨y, ey, hy⟩ := elem_read uni hi nm a x k (depth + 1) hv ha hk
      have e1 : printNodes ind (depth + 1) (.mk nm a x k :: l) = ('<' :: body ind (depth + 1) nm.loc a x k) :: printNodes ind (depth + 1) l := by
        rw [printNodes, printNode_body ind (depth + 1) hne]; rfl
      have e2 : Xml.ofNodes ind (depth + 1) (cleanNodes (.mk nm a x k :: l)) = y :: Xml.ofNodes ind (depth + 1) (cleanNodes l) := by
        rw [cleanNodes, Xml.ofNodes, ey]; rfl
      rw [e1] at hn ⊢
      rw [e2]
      simp only [printLayout, Xml.layout, length_append, length_cons, length_nil, append_assoc, cons_append] at hn ⊢
      apply content_text v _ (blanks_mem hi (depth + 1)) (by omega)
      intro m hm1 hm2
      simp only [length_append] at hm1
      obtain ⟨m, rfl⟩ : ∃ j, m = j + 1 := ⟨m - 1, by omega⟩
      have he := hy m (printLayout ind depth (printNodes ind (depth + 1) l) ++ '<' :: '/' :: w) (by omega)
      have hr := content_read uni hi l depth [] h2 m w (by
        simp only [length_append, length_cons, length_nil]
        have : (escape []).length = 0 := rfl
        omega)
      have ez : escape [] = [] := rfl
      have ec : clean [] = [] := rfl
      rw [ez, ec, nil_append] at hr
      obtain ⟨c, u, e3⟩ : ∃ c u, nm.loc = c :: u := by
        cases hc : nm.loc with
        | nil => exact absurd hc hne
        | cons c u => exact ⟨c, u, rfl⟩
      have hcb : nameByte c = true := hv.1 c (by simp [e3])
      obtain ⟨s, es⟩ : ∃ s, body ind (depth + 1) nm.loc a x k ++ (printLayout ind depth (printNodes ind (depth + 1) l) ++ '<' :: '/' :: w) = c :: s := by
        unfold body
        rw [e3]
        exact ⟨_, rfl⟩
      have c1 : c ≠ '/' := by rintro rfl; simp [nameByte_facts] at hcb
      have c2 : c ≠ '!' := by rintro rfl; simp [nameByte_facts] at hcb
      have c3 : c ≠ '?' := by rintro rfl; simp [nameByte_facts] at hcb
      rw [es] at he ⊢
      simp only [readContent, if_true, c1, c2, c3, if_false, or_self]
      rw [he]
      simp only
      rw [hr]
      rfl
end

end Xmp.XmlBytes
