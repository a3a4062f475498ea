import Verif.Lemmas.XmlBytes
import Verif.Props.DocXmpCases

/-! C69: documents survive as XML texts. -/

namespace Xmp.Props

open Xmp GoStr Utf8 XmlBytes List

/-! ### Specification -/

/-- A character of XML (https://www.w3.org/TR/xml/#charsets, production 2). -/
def XmlChar (c : Char) : Prop :=
  c = '\t' ∨ c = '\n' ∨ c = '\r' ∨ (0x20 ≤ c.toNat ∧ c.toNat ≤ 0xD7FF) ∨ (0xE000 ≤ c.toNat ∧ c.toNat ≤ 0xFFFD) ∨ 0x10000 ≤ c.toNat

/-- The bytes are the UTF-8 form of characters of XML. -/
def IsXmlText (s : Str) : Prop := ∃ t : List Char, (∀ c ∈ t, XmlChar c) ∧ s = ofUnicode t

theorem xmlChar_iff (c : Char) : XmlChar c ↔ inRange c.toNat = true := by
  have hs := scalar_char c
  have key : ∀ d : Char, c = d ↔ c.toNat = d.toNat := fun d =>
    ⟨fun h => h ▸ rfl, fun h => by rw [← Char.ofNat_toNat c, ← Char.ofNat_toNat d, h]⟩
  rw [inRange_iff]
  unfold XmlChar
  rw [key, key, key]
  unfold Scalar at hs
  have e1 : '\t'.toNat = 9 := rfl
  have e2 : '\n'.toNat = 10 := rfl
  have e3 : '\r'.toNat = 13 := rfl
  omega

theorem ofUnicode_encode (t : List Char) : ofUnicode t = (t.map Char.toNat).flatMap encode := by
  unfold ofUnicode
  rw [flatMap_map]
  exact congrArg List.flatten (map_congr_left (fun c _ => encode_char c))

theorem isXmlText_iff (s : Str) : IsXmlText s ↔ Chars s := by
  constructor
  · rintro ⟨t, ht, rfl⟩
    refine ⟨t.map Char.toNat, ?_, ofUnicode_encode t⟩
    intro r hr
    obtain ⟨c, hc, rfl⟩ := mem_map.1 hr
    exact ⟨scalar_char c, (xmlChar_iff c).1 (ht c hc)⟩
  · rintro ⟨rs, h, rfl⟩
    refine ⟨rs.map Char.ofNat, ?_, ?_⟩
    · intro c hc
      obtain ⟨r, hr, rfl⟩ := mem_map.1 hc
      rw [xmlChar_iff, char_scalar (h r hr).1]
      exact (h r hr).2
    · rw [ofUnicode_encode, map_map]
      congr 1
      conv_lhs => rw [← map_id rs]
      exact map_congr_left (fun r hr => (char_scalar (h r hr).1).symm)

/-! ### Texts -/

/-- The value of an attribute as it is read from its text, which ends with a quote. -/
theorem value_read (s w : Str) : readText (some '"') (escape s ++ '"' :: w) = some (clean s, w) := by
  have := readText_of (reads_escape (Or.inr rfl) s (reads_quote w)) (by rw [append_nil]; exact chars_clean s)
  rwa [append_nil] at this

/-- Character data as it is read from its text, which ends with a tag. -/
theorem chars_read (s w : Str) : readText none (escape s ++ '<' :: w) = some (clean s, '<' :: w) := by
  have := readText_of (reads_escape (Or.inl rfl) s (reads_tag w)) (by rw [append_nil]; exact chars_clean s)
  rwa [append_nil] at this

/-- **C69.** The value of an attribute is read back exactly if it is UTF-8 and consists of characters of XML. -/
theorem xml_value_survives_iff (s w : Str) : readText (some '"') (escape s ++ '"' :: w) = some (s, w) ↔ IsXmlText s := by
  rw [value_read, isXmlText_iff, ← clean_eq_iff]
  simp

/-- **C69.** Character data is read back exactly if it is UTF-8 and consists of characters of XML. -/
theorem xml_chars_survive_iff (s w : Str) : readText none (escape s ++ '<' :: w) = some (s, '<' :: w) ↔ IsXmlText s := by
  rw [chars_read, isXmlText_iff, ← clean_eq_iff]
  simp

/-- Umlauts, line ends, quotes and markup survive. -/
example : IsXmlText (ofUnicode "ä <b>\r\n\"&amp;' \t]]>😀".toList) :=
  ⟨_, by
    intro c hc
    have : ∀ c ∈ "ä <b>\r\n\"&amp;' \t]]>😀".toList, inRange c.toNat = true := by decide
    exact (xmlChar_iff c).2 (this c hc), rfl⟩

/-- **C69.** Whatever is written as the value of an attribute or as character data, the text can be read; what is read is
UTF-8 with characters of XML. -/
theorem xml_text_never_fails (s w : Str) : ∃ s', IsXmlText s' ∧ readText (some '"') (escape s ++ '"' :: w) = some (s', w) ∧
    readText none (escape s ++ '<' :: w) = some (s', '<' :: w) :=
  ⟨clean s, (isXmlText_iff _).2 (chars_clean s), value_read s w, chars_read s w⟩

/-- **C69.** Different texts are written differently. -/
theorem xml_text_injective {s t : Str} (hs : IsXmlText s) (ht : IsXmlText t) (h : escape s = escape t) : s = t := by
  have h1 := (xml_value_survives_iff s []).2 hs
  have h2 := (xml_value_survives_iff t []).2 ht
  rw [h, h2] at h1
  simpa using h1.symm

/-- **C69.** No text can end the value or element it stands in: brackets, quotes and line ends are always written as
references. -/
theorem xml_text_safe (s : Str) : ∀ c ∈ escape s, c ∉ "<>\"'\t\r\n".toList := by
  unfold escape
  have hg := good_runes s
  generalize runes s = L at hg
  intro c hc
  obtain ⟨x, hx, hcx⟩ := mem_flatMap.1 hc
  have key : ∀ r : Nat, Scalar r → inRange r = true → r ≠ 0x22 → r ≠ 0x27 → r ≠ 0x3C → r ≠ 0x3E → r ≠ 9 → r ≠ 0xA → r ≠ 0xD →
      ∀ c ∈ encode r, c ∉ "<>\"'\t\r\n".toList := by
    intro r hs hr n1 n2 n3 n4 n5 n6 n7
    rw [inRange_iff] at hr
    have hb : ∀ k, k < 256 → 0x20 ≤ k → k ≠ 0x22 → k ≠ 0x27 → k ≠ 0x3C → k ≠ 0x3E → byte k ∉ "<>\"'\t\r\n".toList := by
      intro k hk h0 m1 m2 m3 m4 hm
      have h1 := toNat_byte hk
      simp only [show "<>\"'\t\r\n".toList = ['<', '>', '"', '\'', '\t', '\r', '\n'] from rfl, mem_cons, not_mem_nil, or_false] at hm
      rcases hm with e | e | e | e | e | e | e <;> rw [e] at h1
      · exact m3 h1.symm
      · exact m4 h1.symm
      · exact m1 h1.symm
      · exact m2 h1.symm
      · have : (9 : Nat) = k := h1
        omega
      · have : (13 : Nat) = k := h1
        omega
      · have : (10 : Nat) = k := h1
        omega
    unfold Scalar at hs
    unfold encode
    split_ifs
    · simp only [mem_singleton, forall_eq]
      exact hb _ (by omega) (by omega) (by omega) (by omega) (by omega) (by omega)
    · simp only [mem_cons, not_mem_nil, or_false, forall_eq_or_imp, forall_eq]
      exact ⟨hb _ (by omega) (by omega) (by omega) (by omega) (by omega) (by omega),
        hb _ (by omega) (by omega) (by omega) (by omega) (by omega) (by omega)⟩
    · simp only [mem_cons, not_mem_nil, or_false, forall_eq_or_imp, forall_eq]
      exact ⟨hb _ (by omega) (by omega) (by omega) (by omega) (by omega) (by omega),
        hb _ (by omega) (by omega) (by omega) (by omega) (by omega) (by omega),
        hb _ (by omega) (by omega) (by omega) (by omega) (by omega) (by omega)⟩
    · simp only [mem_cons, not_mem_nil, or_false, forall_eq_or_imp, forall_eq]
      exact ⟨hb _ (by omega) (by omega) (by omega) (by omega) (by omega) (by omega),
        hb _ (by omega) (by omega) (by omega) (by omega) (by omega) (by omega),
        hb _ (by omega) (by omega) (by omega) (by omega) (by omega) (by omega),
        hb _ (by omega) (by omega) (by omega) (by omega) (by omega) (by omega)⟩
  have hrep : ∀ c ∈ encode replacement, c ∉ "<>\"'\t\r\n".toList := by decide
  have hx := hg x hx
  cases x with
  | none => exact hrep c hcx
  | some r =>
    simp only [escapeRune] at hcx
    have lit : ∀ l : Str, (∀ c ∈ l, c ∉ "<>\"'\t\r\n".toList) → c ∈ l → c ∉ "<>\"'\t\r\n".toList := fun l h => h c
    split_ifs at hcx with h1 h2 h3 h4 h5 h6 h7 h8 h9
    · exact lit _ (by decide) hcx
    · exact lit _ (by decide) hcx
    · exact lit _ (by decide) hcx
    · exact lit _ (by decide) hcx
    · exact lit _ (by decide) hcx
    · exact lit _ (by decide) hcx
    · exact lit _ (by decide) hcx
    · exact lit _ (by decide) hcx
    · exact key r hx h9 h1 h2 h4 h5 h6 h7 h8 c hcx
    · exact hrep c hcx

/-- **C69, finding.** A text that is not UTF-8 or contains a character that XML does not have (for example a control
character) is written and read without error as another one. -/
theorem xml_text_lost (s w : Str) (h : ¬ IsXmlText s) : ∃ s', s' ≠ s ∧ readText (some '"') (escape s ++ '"' :: w) = some (s', w) :=
  ⟨clean s, fun e => h ((isXmlText_iff s).2 ((clean_eq_iff s).1 e)), value_read s w⟩

/-- **C69, finding.** Every character that XML does not have is read back as U+FFFD. -/
theorem control_replaced (c : Char) (h : ¬ XmlChar c) (w : Str) :
    readText none (escape (ofUnicode [c]) ++ '<' :: w) = some (ofUnicode ['�'], '<' :: w) := by
  rw [chars_read]
  have hr : inRange c.toNat ≠ true := fun e => h ((xmlChar_iff c).2 e)
  have e1 : runes (ofUnicode [c]) = [some c.toNat] := by
    rw [ofUnicode_encode]
    exact runes_flatMap (rs := [c.toNat]) (by simpa using scalar_char c)
  have e2 : clean (ofUnicode [c]) = encode replacement := by
    unfold clean
    rw [e1]
    simp [plain, hr]
  rw [e2, ofUnicode_encode]
  rfl

example : ¬ XmlChar '\u0001' := by rw [xmlChar_iff]; decide

/-- The bytes of "é" in Latin-1 are no text. -/
example : ¬ IsXmlText [Char.ofNat 0xE9] := by
  rw [isXmlText_iff, ← clean_eq_iff]
  decide

/-! ### Trees -/

mutual
/-- The texts and values of attributes of a tree are UTF-8 with characters of XML. -/
def TextsOK : Node → Prop
  | .mk _ a v l => IsXmlText v ∧ (∀ x ∈ a, IsXmlText x.value) ∧ TextsOKAll l
/-- Node by node. -/
def TextsOKAll : List Node → Prop
  | [] => True
  | x :: xs => TextsOK x ∧ TextsOKAll xs
end

mutual
theorem cleanNode_eq : ∀ x : Node, TextsOK x → cleanNode x = x
  | .mk n a v l, ⟨h1, h2, h3⟩ => by
    rw [cleanNode, cleanNodes_eq l h3, clean_of_chars ((isXmlText_iff v).1 h1)]
    congr 1
    conv_rhs => rw [← map_id a]
    refine map_congr_left (fun x hx => ?_)
    rw [clean_of_chars ((isXmlText_iff _).1 (h2 x hx))]
    rfl
theorem cleanNodes_eq : ∀ l : List Node, TextsOKAll l → cleanNodes l = l
  | [], _ => rfl
  | x :: l, ⟨h1, h2⟩ => by rw [cleanNodes, cleanNode_eq x h1, cleanNodes_eq l h2]
end

/-- The header of a packet is skipped. -/
theorem header_read (uni : Str → Bool) (n : Nat) (t : Str) : readRoot uni (n + 1) (packetHeader ++ t) = readRoot uni n ('\n' :: t) := by
  have hn : ValidName uni "xpacket".toList := ⟨by decide, rfl⟩
  have e1 := readName_of hn (c := ' ') (by decide) ("begin=\"\" id=\"W5M0MpCehiHzreSzNTczkc9d\"?>\n".toList ++ t)
  have e2 : packetHeader ++ t = '<' :: '?' :: ("xpacket".toList ++ ' ' :: ("begin=\"\" id=\"W5M0MpCehiHzreSzNTczkc9d\"?>\n".toList ++ t)) := rfl
  have e3 : readOther uni '?' ("xpacket".toList ++ ' ' :: ("begin=\"\" id=\"W5M0MpCehiHzreSzNTczkc9d\"?>\n".toList ++ t)) = some (.other, '\n' :: t) := by
    unfold readOther
    rw [if_pos rfl, e1]
    rfl
  rw [e2, readRoot]
  simp only [if_true, or_true, show ('?' : Char) ≠ '/' by decide, if_false]
  rw [e3]

/-- The root element is read, whatever follows it. -/
theorem root_read (uni : Str → Bool) {ind : Option (Str × Str)} (hi : IndentOK ind) (nm : QName) (a : List Attr) (v : Str) (l : List Node)
    (hn : nm.loc ≠ []) (h : NamesOK uni (.mk nm a v l)) :
    ∃ y, Xml.ofNode ind 0 (cleanNode (.mk nm a v l)) = [y] ∧ ∀ n w, (printNode ind 0 (.mk nm a v l)).flatten.length ≤ n →
      readRoot uni n ((printNode ind 0 (.mk nm a v l)).flatten ++ w) = some y := by
  obtain ⟨hv, ha, hk⟩ := h.resolve_left hn
  obtain ⟨y, ey, hy⟩ := elem_read uni hi nm a v l 0 hv ha hk
  refine ⟨y, ey, fun n w hnl => ?_⟩
  rw [printNode_body ind 0 hn] at hnl ⊢
  simp only [flatten_cons, flatten_nil, append_nil, length_cons, cons_append] at hnl ⊢
  obtain ⟨n, rfl⟩ : ∃ m, n = m + 1 := ⟨n - 1, by omega⟩
  have he := hy n w (by omega)
  obtain ⟨c, u, e3⟩ : ∃ c u, nm.loc = c :: u := by
    cases hc : nm.loc with
    | nil => exact absurd hc hn
    | cons c u => exact ⟨c, u, rfl⟩
  have hcb : nameByte c = true := hv.1 c (by simp [e3])
  obtain ⟨s, es⟩ : ∃ s, body ind 0 nm.loc a v l ++ w = c :: s := by
    unfold body
    rw [e3]
    exact ⟨_, rfl⟩
  have c1 : c ≠ '/' := by rintro rfl; simp [nameByte_facts] at hcb
  have c2 : c ≠ '!' := by rintro rfl; simp [nameByte_facts] at hcb
  have c3 : c ≠ '?' := by rintro rfl; simp [nameByte_facts] at hcb
  rw [es] at he ⊢
  simp only [readRoot, if_true, c1, c2, c3, if_false, or_self]
  rw [he]
  rfl

theorem lead_mem {ind : Option (Str × Str)} (hi : IndentOK ind) : ∀ c ∈ lead ind, c ∈ " \t\n".toList := by
  cases ind with
  | none => intro c hc; cases hc
  | some p => exact hi.1

theorem printNode_cons (ind : Option (Str × Str)) (d : Nat) {x : Node} (h : x.xmlName.loc ≠ []) : ∃ t, (printNode ind d x).flatten = '<' :: t := by
  obtain ⟨n, a, v, l⟩ := x
  rw [printNode_body ind d (n := n) h]
  exact ⟨body ind d n.loc a v l, by simp⟩

/-- The prefix of the first line is skipped. -/
theorem root_lead (uni : Str → Bool) {ind : Option (Str × Str)} (hi : IndentOK ind) (t : Str) (n : Nat) (hn : 1 ≤ n) :
    ∃ k, n ≤ k + (lead ind).length ∧ readRoot uni n (lead ind ++ '<' :: t) = readRoot uni k ('<' :: t) := by
  by_cases hl : lead ind = []
  · exact ⟨n, by omega, by rw [hl]; rfl⟩
  · obtain ⟨n, rfl⟩ : ∃ m, n = m + 1 := ⟨n - 1, by omega⟩
    obtain ⟨c, b, eb⟩ : ∃ c b, lead ind = c :: b := by
      cases hc : lead ind with
      | nil => exact absurd hc hl
      | cons c b => exact ⟨c, b, rfl⟩
    have hr := readText_of (reads_bytes (q := none) (Or.inl rfl) (fun x hx => simple_blank (lead_mem hi x hx)) (reads_tag t))
      (by rw [append_nil]; exact chars_blank (lead_mem hi))
    have hc : c ≠ '<' := (simple_blank (lead_mem hi c (by simp [eb]))).1
    refine ⟨n, by rw [eb, length_cons]; omega, ?_⟩
    rw [eb] at hr ⊢
    rw [cons_append] at hr ⊢
    simp only [readRoot, hc, if_false]
    rw [hr]

/-- **C69.** The text of a tree is read as the tokens that C45 describes, whatever follows it.  The names have to be names
of XML; texts that are not UTF-8 or not XML are those of `xml_text_lost`. -/
theorem xml_tree_read (uni : Str → Bool) {ind : Option (Str × Str)} (hi : IndentOK ind) (x : Node) (hn : x.xmlName.loc ≠ [])
    (h : NamesOK uni x) (w : Str) : ∃ y, Xml.ofNode ind 0 (cleanNode x) = [y] ∧ parse uni (printTree ind x ++ w) = some y := by
  obtain ⟨t, et⟩ := printNode_cons ind 0 hn
  obtain ⟨nm, a, v, l⟩ := x
  obtain ⟨y, ey, hy⟩ := root_read uni hi nm a v l hn h
  refine ⟨y, ey, ?_⟩
  unfold parse printTree
  rw [append_assoc, et, cons_append]
  obtain ⟨k, hk, e⟩ := root_lead uni hi (t ++ w) ((lead ind ++ '<' :: (t ++ w)).length + 1) (by omega)
  rw [e, ← cons_append, ← et]
  apply hy
  rw [et]
  simp only [length_append, length_cons] at hk ⊢
  omega

/-- **C69.** The same for a tree between header and footer of a packet, with any padding and whatever follows. -/
theorem xml_packet_read (uni : Str → Bool) {ind : Option (Str × Str)} (hi : IndentOK ind) (x : Node) (hn : x.xmlName.loc ≠ [])
    (h : NamesOK uni x) (pad w : Str) : ∃ y, Xml.ofNode ind 0 (cleanNode x) = [y] ∧ parse uni (printPacket ind x pad ++ w) = some y := by
  obtain ⟨t, et⟩ := printNode_cons ind 0 hn
  obtain ⟨nm, a, v, l⟩ := x
  obtain ⟨y, ey, hy⟩ := root_read uni hi nm a v l hn h
  refine ⟨y, ey, ?_⟩
  unfold parse printPacket printTree
  simp only [append_assoc]
  have hb : ∀ c ∈ '\n' :: lead ind, c ∈ " \t\n".toList := by
    intro c hc
    rcases mem_cons.1 hc with rfl | hc
    · decide
    · exact lead_mem hi c hc
  have hr := readText_of (reads_bytes (q := none) (Or.inl rfl) (fun x hx => simple_blank (hb x hx)) (reads_tag (t ++ (pad ++ (packetFooter ++ w)))))
    (by rw [append_nil]; exact chars_blank hb)
  rw [header_read]
  have hph : packetHeader.length = 51 := by decide
  obtain ⟨m, hm, hm'⟩ : ∃ m, (packetHeader ++ (lead ind ++ ((printNode ind 0 (.mk nm a v l)).flatten ++ (pad ++ (packetFooter ++ w))))).length = m + 1 ∧
      (printNode ind 0 (.mk nm a v l)).flatten.length ≤ m := by
    simp only [length_append, hph]
    exact ⟨_, by rw [Nat.add_comm, ← Nat.add_assoc], by omega⟩
  rw [hm, et]
  rw [cons_append] at hr ⊢
  simp only [readRoot, show ('\n' : Char) ≠ '<' by decide, if_false]
  rw [hr]
  simp only
  rw [← cons_append, ← et]
  exact hy _ _ hm'

/-- **C69.** A tree with names and texts of XML is read back token by token from its text, alone or in a packet. -/
theorem xml_tree_roundtrip (uni : Str → Bool) {ind : Option (Str × Str)} (hi : IndentOK ind) (x : Node) (hn : x.xmlName.loc ≠ [])
    (h : NamesOK uni x) (ht : TextsOK x) (pad w : Str) :
    ∃ y, Xml.ofNode ind 0 x = [y] ∧ parse uni (printTree ind x ++ w) = some y ∧ parse uni (printPacket ind x pad ++ w) = some y := by
  obtain ⟨y, h1, h2⟩ := xml_tree_read uni hi x hn h w
  obtain ⟨y', h1', h2'⟩ := xml_packet_read uni hi x hn h pad w
  rw [h1] at h1'
  obtain rfl : y = y' := by simpa using h1'
  exact ⟨y, by rw [← h1, cleanNode_eq x ht], h2, h2'⟩

/-! ### Documents -/

theorem indentOK_blank {ind : Option (Str × Str)} (h : IndentOK ind) : Blank ind := by
  have key : ∀ c ∈ " \t\n".toList, c ∈ GoStr.blanks := by decide
  cases ind with
  | none => trivial
  | some p => exact ⟨fun c hc => key c (h.1 c hc), fun c hc => key c (h.2 c hc)⟩

/-- **C69.** A document written as XML text, with or without packet, indentation and padding, is read back from the text,
whatever follows.  What has to hold for the document is said in C46 (`DocOK`); what has to hold for the tree that is
written is that names and texts are those of XML.  Missing are the documents that C46 leaves out. -/
theorem xml_text_document_roundtrip_partial (h : RegHistory) (env : Env) (dv : Version) (S : Str → Prop) (p : Packet)
    (hok : DocOK h env p.doc dv S) (order : Node → List Namespace → List Namespace) (ho : ∀ w l, (order w l).Perm l)
    (ind : Option (Str × Str)) (hi : IndentOK ind) (hu : ind.isSome = true → ∀ r ∈ p.doc.roots, UnmixedAll r.node.nodes)
    (uni : Str → Bool) :
    ∃ t, Enc.encode env order p = some t ∧ (NamesOK uni t → TextsOK t → ∀ pad w, ∃ x t' p',
      parse uni (printPacket ind t pad ++ w) = some x ∧ parse uni (printTree ind t ++ w) = some x ∧
      Xml.read Xml.baseScope x = [t'] ∧ Dec.decode env dv t' = .ok p' ∧ p'.doc.roots = withContent p.doc.roots ∧
      p'.about = (if withContent p.doc.roots = [] then [] else p.about) ∧
      ∀ r ∈ p'.doc.roots, ∀ q, Uses r q → S q → ∃ ns, p'.doc.findNsByPrefix env q = some ns ∧ ns.uri = bindOf env p.doc q) := by
  obtain ⟨t, t', p', h1, h2, h3, h4, h5, -, h6⟩ := document_roundtrip_partial h env dv S p hok order ho ind (indentOK_blank hi) hu
  refine ⟨t, h1, fun hn ht pad w => ?_⟩
  have hne : t.xmlName.loc ≠ [] := by
    intro e
    obtain ⟨n, a, v, l⟩ := t
    have : Xml.ofNode ind 0 (.mk n a v l) = [] := by
      rw [Xml.ofNode, if_pos (show n.loc = [] from e)]
    rw [this] at h2
    cases h2
  obtain ⟨x, e1, e2, e3⟩ := xml_tree_roundtrip uni hi t hne hn ht pad w
  refine ⟨x, t', p', e3, e2, ?_, h3, h4, h5, h6⟩
  rw [e1] at h2
  simpa [Xml.reads] using h2

/-! ### A concrete document -/

instance (c : Char) : Decidable (XmlChar c) := decidable_of_iff _ (xmlChar_iff c).symm

instance (s : Str) : Decidable (IsXmlText s) := decidable_of_iff (clean s = s) ((clean_eq_iff s).trans (isXmlText_iff s).symm)

instance (uni : Str → Bool) (n : Str) : Decidable (ValidName uni n) := inferInstanceAs (Decidable (_ ∧ _))

mutual
/-- Names can be checked. -/
def decNames (uni : Str → Bool) : (x : Node) → Decidable (NamesOK uni x)
  | .mk _ _ _ l =>
    have := decNamesAll uni l
    inferInstanceAs (Decidable (_ ∨ (_ ∧ _ ∧ _)))
/-- Node by node. -/
def decNamesAll (uni : Str → Bool) : (l : List Node) → Decidable (NamesOKAll uni l)
  | [] => .isTrue trivial
  | x :: l =>
    have := decNames uni x
    have := decNamesAll uni l
    inferInstanceAs (Decidable (_ ∧ _))
end

mutual
/-- Texts can be checked. -/
def decTexts : (x : Node) → Decidable (TextsOK x)
  | .mk _ _ _ l =>
    have := decTextsAll l
    inferInstanceAs (Decidable (_ ∧ _ ∧ _))
/-- Node by node. -/
def decTextsAll : (l : List Node) → Decidable (TextsOKAll l)
  | [] => .isTrue trivial
  | x :: l =>
    have := decTexts x
    have := decTextsAll l
    inferInstanceAs (Decidable (_ ∧ _))
end

instance (uni : Str → Bool) (x : Node) : Decidable (NamesOK uni x) := decNames uni x
instance (x : Node) : Decidable (TextsOK x) := decTexts x

/-- The tree of the sample document of C46. -/
def sampleDocTree : Option Node := Enc.encode docEnv (fun _ l => l.reverse) sampleDoc

/-- The sample document meets the conditions. -/
example : ∃ t, sampleDocTree = some t ∧ NamesOK (fun _ => false) t ∧ TextsOK t := by
  have h : (match sampleDocTree with | some t => decide (NamesOK (fun _ => false) t ∧ TextsOK t) | none => false) = true := by decide +kernel
  cases ht : sampleDocTree with
  | none => rw [ht] at h; cases h
  | some t => rw [ht] at h; exact ⟨t, rfl, of_decide_eq_true h⟩

example : IndentOK (some ([], "  ".toList)) := ⟨by simp, by decide⟩

/-! ### Names -/

/-- **C69, finding.** The names of nodes are written as they are.  A node whose name contains a blank is written without
error, but its text can not be read. -/
theorem blank_name_unreadable (uni : Str → Bool) (ind : Option (Str × Str)) (hi : IndentOK ind) (x y : Str) (hx : ValidName uni x) (hy : ValidName uni y)
    (v : Str) (l : List Node) (w : Str) : parse uni (printTree ind (.mk ⟨[], x ++ ' ' :: y⟩ [] v l) ++ w) = none := by
  have hne : (⟨[], x ++ ' ' :: y⟩ : QName).loc ≠ [] := by simp
  unfold parse printTree
  rw [printNode_body ind 0 hne]
  simp only [flatten_cons, flatten_nil, append_nil, append_assoc, cons_append]
  obtain ⟨k, hk, e⟩ := root_lead uni hi (body ind 0 (x ++ ' ' :: y) [] v l ++ w)
    ((lead ind ++ '<' :: (body ind 0 (x ++ ' ' :: y) [] v l ++ w)).length + 1) (by omega)
  rw [e]
  simp only [length_append, length_cons] at hk
  obtain ⟨k, rfl⟩ : ∃ m, k = m + 1 + 1 := ⟨k - 2, by unfold body at hk; simp only [length_append, length_cons] at hk; omega⟩
  obtain ⟨c, u, ec⟩ : ∃ c u, x = c :: u := by
    cases hc : x with
    | nil => exact absurd hc (validName_ne hx)
    | cons c u => exact ⟨c, u, rfl⟩
  have hcb : nameByte c = true := hx.1 c (by simp [ec])
  obtain ⟨d, u', ed⟩ : ∃ c u, y = c :: u := by
    cases hc : y with
    | nil => exact absurd hc (validName_ne hy)
    | cons c u => exact ⟨c, u, rfl⟩
  have hdb : nameByte d = true := hy.1 d (by simp [ed])
  obtain ⟨s, es⟩ : ∃ s, body ind 0 (x ++ ' ' :: y) [] v l ++ w = x ++ ' ' :: (y ++ '>' :: s) := by
    unfold body printAttrs
    simp only [append_assoc, cons_append, nil_append]
    exact ⟨_, rfl⟩
  have c1 : c ≠ '/' := by rintro rfl; simp [nameByte_facts] at hcb
  have c2 : c ≠ '!' := by rintro rfl; simp [nameByte_facts] at hcb
  have c3 : c ≠ '?' := by rintro rfl; simp [nameByte_facts] at hcb
  have d1 : d ≠ '/' := by rintro rfl; simp [nameByte_facts] at hdb
  have d2 : d ≠ '>' := by rintro rfl; simp [nameByte_facts] at hdb
  have he : readElem uni (k + 1) (x ++ ' ' :: (y ++ '>' :: s)) = none := by
    simp only [readElem]
    rw [readName_of hx (by decide)]
    simp only
    have hsk : skip (' ' :: (y ++ '>' :: s)) = d :: (u' ++ '>' :: s) := by
      have : ∀ t, skip (' ' :: t) = skip t := fun t => by simp [skip, dropWhile, isSpace]
      rw [this, ed, cons_append, skip_cons (space_name hdb)]
    have ha : readAttrs uni ((' ' :: (y ++ '>' :: s)).length + 1) (' ' :: (y ++ '>' :: s)) = none := by
      simp only [readAttrs]
      rw [hsk]
      simp only [d1, d2, if_false]
      have : d :: (u' ++ '>' :: s) = y ++ '>' :: s := by rw [ed]; rfl
      rw [this, readName_of hy (by decide)]
      simp only
      rw [skip_cons (by decide)]
      simp
    rw [ha]
  rw [es]
  rw [ec] at he ⊢
  simp only [cons_append] at he ⊢
  simp only [readRoot, if_true, c1, c2, c3, if_false, or_self]
  rw [he]
  rfl

/-- A document with such a node, as it may come from JSON. -/
def blankNameDoc : Packet :=
  { doc := { roots := [⟨.mk ⟨[], "plain".toList⟩ [] [] [.mk ⟨[], "plain:a b".toList⟩ [] "1".toList []], none⟩] } }

/-- **C69, finding.** Such a document is written without error and lost. -/
theorem blank_name_document : ∃ t, Enc.encode docEnv (fun _ l => l) blankNameDoc = some t ∧ parse (fun _ => true) (printPacket none t []) = none := by
  have h : (match Enc.encode docEnv (fun _ l => l) blankNameDoc with
      | some t => (parse (fun _ => true) (printPacket none t [])).isNone | none => false) = true := by decide +kernel
  cases ht : Enc.encode docEnv (fun _ l => l) blankNameDoc with
  | none => rw [ht] at h; cases h
  | some t => rw [ht] at h; exact ⟨t, rfl, by simpa using h⟩

/-- **C69, finding.** Nor are the names of attributes checked: one attribute can be read back as two. -/
theorem attribute_injected : (parse (fun _ => true) (printTree none (.mk ⟨[], "a".toList⟩ [⟨⟨[], "b=\"1\" c".toList⟩, "2".toList⟩] [] []))).map
    (fun x => match x with | .elem n a c => (n, a, c.length) | _ => ([], [], 0)) =
    some ("a".toList, [("b".toList, "1".toList), ("c".toList, "2".toList)], 0) := by decide +kernel

end Xmp.Props
