import Verif.Props.JsonForms
import Verif.Props.InfoCases

/-! C79, C80: the JSON output of `xmpinfo`, and concrete forms of JSON texts. -/

namespace Xmp.Props

open GoStr SyncFlags Utf8 XmlBytes Shipped Info JsonText List

/-- `json.MarshalIndent(model, "", "  ")` in cmd/xmpinfo.go:162: the text of the document, indented; the entries of objects come
in some order. -/
def PrintsJson (w : World) : Prop := ∃ ord : JDoc → JDoc, (∀ jd, JDocSame jd (ord jd)) ∧
  ∀ p, w.json p = (JDoc.ofDoc w.env p).map (fun jd => indent [] "  ".toList (printDoc (ord jd)))

theorem indent_unit : Blanks "  ".toList := by unfold Blanks; decide

/-- **C79.** With `-json` the command prints a text for every file that holds a document of models of the library, whose values
can be read back, survive JSON and consist of texts of UTF-8.  From the text, with the line feed at its end, models with the same
values are read. -/
theorem info_json_partial (P : List Str) (hc : Closed P) (hx : "xmp_tpg".toList ∈ P → "xmp_base".toList ∈ P)
    (h : RegHistory) (hp : Program P h) (w : World) (hn : ∀ e ∈ h, e ∉ shippedRegs → JsonNs e.1)
    (K : Str → Codec) (Z : Str → List Val → Bool) (he : ShippedEnv P h K Z w.env) (hw : PrintsJson w)
    (b : Str) (p : Packet) (hb : unmarshalText w.uni w.env Version.zero b = .ok p) (hd : ShippedDoc P K Z p.doc) (ht : JsonTexts p)
    (name : Str) (reads : List Str) (hf : HoldsFirst name reads b) (num : Str → Option Str) :
    ∃ s, run w { json := true } (.file name (some reads)) = ⟨[.text s], .ok⟩ ∧
      ∃ jd2, readDoc num s = some jd2 ∧ ∀ jd3, JDocSame jd2 jd3 → ∃ p', JDoc.toDoc w.env Version.zero jd3 = .ok p' ∧
      p'.about = p.about ∧ p'.toolkit = (if p.toolkit = [] then Enc.toolkitVersion else p.toolkit) ∧
      ∃ rs, rs ~ withContent p.doc.roots ∧ Forall₂ SameModel rs p'.doc.roots := by
  obtain ⟨ord, h1, h2⟩ := hw
  obtain ⟨jd, h3, h4⟩ := shipped_json_forms_partial P hc hx h hp hn K Z w.env he p hd ht num
  obtain ⟨h5, h6⟩ := h4 (ord jd) (h1 jd)
  refine ⟨indent [] "  ".toList (printDoc (ord jd)) ++ ['\n'], ?_, h6 _ ?_⟩
  · rw [run_holds hf (by simp [Opts.effective]), effective_json _ rfl]
    unfold showBytes showDoc
    simp only [hb, h2, h3, Option.map_some, Bool.false_eq_true, if_false, if_true, out, andThen_ok, append_nil, nil_append]
  · obtain ⟨m, u, v, v', k0, k1, k2, k3, k4⟩ := (json_document_indented (ord jd) h5 [([], "  ".toList)] (by
      intro e he; rw [mem_singleton] at he; subst he; exact ⟨blanks_nil, indent_unit⟩)).1
    refine ⟨m, u, v, v' ++ ['\n'], k0, k1, k2, blanks_append k3 (by unfold Blanks; decide), ?_⟩
    simp only [foldl_cons, foldl_nil] at k4
    rw [k4]
    simp

theorem withContent_twice (l : List Root) : withContent (withContent l) = withContent l := by
  unfold withContent
  rw [filter_filter]
  simp

/-- **C79.** A document that is saved is shown as JSON: take any document of models of the library, whose values can be read back,
survive JSON and consist of texts of XML.  It is written as a packet, the packet is put between other bytes into a file or saved as
a file `.xmp` with whatever after it, and the command prints a text with `-json` from which the models of the document are read,
with the same values.  (The same packets are missing as for `-path`.) -/
theorem info_json_saved_partial (P : List Str) (hc : Closed P) (hx : "xmp_tpg".toList ∈ P → "xmp_base".toList ∈ P)
    (h : RegHistory) (hp : Program P h) (w : World) (hn : ∀ e ∈ h, e ∉ shippedRegs → DeclOK w.uni e.1 ∧ JsonNs e.1)
    (K : Str → Codec) (Z : Str → List Val → Bool) (he : ShippedEnv P h K Z w.env) (hw : PrintsJson w) (p : Packet)
    (hd : ShippedDoc P K Z p.doc) (ht : XmlTexts p) (hj : JsonTexts p) (ho : ∀ x l, (w.order x l).Perm l) (hs : w.sort [] = [])
    (l : PathValueList) (hl : p.doc.listPaths w.env w.sort = .ok l) :
    ∃ b, marshal w p = some b ∧ ∀ rest name reads, HoldsFirst name reads (b ++ rest) → ∀ num : Str → Option Str,
      ∃ s, run w { json := true } (.file name (some reads)) = ⟨[.text s], .ok⟩ ∧
        ∃ jd2, readDoc num s = some jd2 ∧ ∀ jd3, JDocSame jd2 jd3 → ∃ p', JDoc.toDoc w.env Version.zero jd3 = .ok p' ∧
        (withContent p.doc.roots ≠ [] → p'.about = p.about) ∧ ∃ rs, rs ~ withContent p.doc.roots ∧ Forall₂ SameModel rs p'.doc.roots := by
  obtain ⟨t, p1, h1, -, h2, h3, h4, h5, h6, -, -⟩ := shipped_bytes_core hc hx hp (fun e hm hs => (hn e hm hs).1) he hd ht ho hs hl
  refine ⟨_, marshal_some h1, fun rest name reads hf num => ?_⟩
  have hj1 : JsonTexts p1 := {
    about := by
      rw [h4]
      split
      · exact nil8
      · exact hj.about
    toolkit := by rw [h5]; exact nil8
    texts := fun r hr => hj.texts r (by rw [h3, mem_withContent] at hr; exact hr.1)
    values := fun r hr => hj.values r (by rw [h3, mem_withContent] at hr; exact hr.1)
    shown := fun r hr => hj.shown r (by rw [h3, mem_withContent] at hr; exact hr.1) }
  obtain ⟨s, h7, jd2, h8, h9⟩ := info_json_partial P hc hx h hp w (fun e hm hs => (hn e hm hs).2) K Z he hw _ p1 (h2 rest) h6 hj1 name reads hf num
  refine ⟨s, h7, jd2, h8, fun jd3 hsame => ?_⟩
  obtain ⟨p', h10, h11, -, rs, h12, h13⟩ := h9 jd3 hsame
  refine ⟨p', h10, fun hne => by rw [h11, h4, if_neg hne], rs, ?_, h13⟩
  rwa [h3, withContent_twice] at h12

/-! ### Cases -/

/-- The program of the other cases, with JSON. -/
def jsonWorld : World := { infoWorld with
  json := fun p => (JDoc.ofDoc infoWorld.env p).map (fun jd => indent [] "  ".toList (printDoc jd)) }

/-- The document in a file `.xmp` is shown as JSON. -/
example : ∃ b s jd2 p', marshal jsonWorld { doc := licenceDoc, about := "uuid:1".toList } = some b ∧
    run jsonWorld { json := true } (.file "x.xmp".toList (some [b, "\n".toList])) = ⟨[.text s], .ok⟩ ∧ readDoc some s = some jd2 ∧
    JDoc.toDoc jsonWorld.env Version.zero jd2 = .ok p' ∧ ∃ rs, rs ~ withContent licenceDoc.roots ∧ Forall₂ SameModel rs p'.doc.roots := by
  obtain ⟨b, h1, h2⟩ := info_json_saved_partial ["cc".toList, "xmp_bj".toList] (by unfold Closed; decide +kernel) (by decide)
    (regsOf ["cc".toList, "xmp_bj".toList]) ⟨fun _ he => he, fun _ he => Or.inl he⟩ jsonWorld (fun e he hs => absurd (regsOf_sub _ e he) hs)
    (fun _ => numberCodec) (fun _ _ => false) (shippedEnv_ok _ _ _ _) ⟨id, jdocSame_refl, fun _ => rfl⟩ { doc := licenceDoc, about := "uuid:1".toList }
    licenceDoc_ok licence_texts licence_json (fun _ l => List.Perm.refl l) rfl infoListing infoListing_is
  obtain ⟨s, h3, jd2, h4, h5⟩ := h2 "\n".toList "x.xmp".toList [b, "\n".toList] (.sidecar (by decide) (by simp)) some
  obtain ⟨p', h6, -, h7⟩ := h5 jd2 (jdocSame_refl jd2)
  exact ⟨b, s, jd2, p', h1, h3, h4, h6, h7⟩


theorem number41 : Hex4 0x41 "0041".toList := Hex4.mk (a := '0') (b := '0') (c := '4') (d := '1') (w := 0) (x := 0) (y := 4) (z := 1)
  (Or.inl rfl) (Or.inl rfl) (Or.inl rfl) (Or.inl rfl)

/-- A capital letter by its number, a slash with a backslash, and a character outside of the basic plane by its pair, with digits
of both cases. -/
theorem sampleText : StrForm (ofUnicode "A/😀".toList) "\"\\u0041\\/\\ud83d\\uDE00\"".toList := by
  refine ⟨[0x41, 0x2F, 0x1F600], "\\u0041\\/\\ud83d\\uDE00".toList, ?_, by decide +kernel, rfl⟩
  have hi : Hex4 (0xD800 + 0x3D) "d83d".toList := Hex4.mk (a := 'd') (b := '8') (c := '3') (d := 'd') (w := 13) (x := 8) (y := 3) (z := 13)
    (Or.inl rfl) (Or.inl rfl) (Or.inl rfl) (Or.inl rfl)
  have lo : Hex4 (0xDC00 + 0x200) "DE00".toList := Hex4.mk (a := 'D') (b := 'E') (c := '0') (d := '0') (w := 13) (x := 14) (y := 0) (z := 0)
    (Or.inr rfl) (Or.inr rfl) (Or.inl rfl) (Or.inl rfl)
  exact TextForm.cons (Or.inl (by omega)) (RuneForm.number number41)
    (TextForm.cons (Or.inl (by omega)) (RuneForm.short (c := '/') (by simp))
      (TextForm.cons (Or.inr (by omega)) (RuneForm.pair (hi := 0x3D) (lo := 0x200) (by omega) (by omega) hi lo) TextForm.nil))

/-- A list with white space of several kinds. -/
theorem sampleForm : Form maxDepth (.arr [.str (ofUnicode "A/😀".toList), .obj []]) "[ \"\\u0041\\/\\ud83d\\uDE00\"\t,\r\n{ } ]".toList := by
  have blank : ∀ w : Str, (w.all (fun c => c = ' ' ∨ c = '\t' ∨ c = '\r' ∨ c = '\n')) = true → Blanks w := by
    intro w h c hc
    simpa using all_eq_true.1 h c hc
  have last : FormItems 9999 [.obj []] "\r\n{ } ]".toList := by
    rw [FormItems]
    refine ⟨"\r\n".toList, "{ }".toList, " ".toList, [']'], blank _ (by decide), ?_, blank _ (by decide), by decide, Or.inl ⟨rfl, rfl⟩⟩
    show Form (9998 + 1) _ _
    rw [Form]
    exact ⟨" }".toList, by decide, Or.inl ⟨rfl, " ".toList, blank _ (by decide), by decide⟩⟩
  have first : FormItems 9999 [.str (ofUnicode "A/😀".toList), .obj []] " \"\\u0041\\/\\ud83d\\uDE00\"\t,\r\n{ } ]".toList := by
    rw [FormItems]
    exact ⟨" ".toList, "\"\\u0041\\/\\ud83d\\uDE00\"".toList, "\t".toList, ",\r\n{ } ]".toList, blank _ (by decide), by rw [Form]; exact sampleText,
      blank _ (by decide), by decide, Or.inr ⟨"\r\n{ } ]".toList, by decide, last⟩⟩
  show Form (9999 + 1) _ _
  rw [Form]
  exact ⟨_, by decide, Or.inr first⟩

example : parse some ("\n".toList ++ "[ \"\\u0041\\/\\ud83d\\uDE00\"\t,\r\n{ } ]".toList ++ " ".toList) =
    some (.arr [.str (ofUnicode "A/😀".toList), .obj []]) :=
  json_forms_read some _ _ sampleForm _ _ (by unfold Blanks; decide) (by unfold Blanks; decide)

/-- It is indented like this. -/
example : indent [] "  ".toList "[ \"\\u0041\\/\\ud83d\\uDE00\"\t,\r\n{ } ]".toList = "[\n  \"\\u0041\\/\\ud83d\\uDE00\",\n  {}\n]".toList ∧
    Form maxDepth (.arr [.str (ofUnicode "A/😀".toList), .obj []]) "[\n  \"\\u0041\\/\\ud83d\\uDE00\",\n  {}\n]".toList := by
  have e : indent [] "  ".toList "[ \"\\u0041\\/\\ud83d\\uDE00\"\t,\r\n{ } ]".toList = "[\n  \"\\u0041\\/\\ud83d\\uDE00\",\n  {}\n]".toList := by
    decide +kernel
  refine ⟨e, ?_⟩
  rw [← e]
  have := json_indent_form blanks_nil indent_unit maxDepth _ _ [] [] sampleForm blanks_nil blanks_nil
  rwa [nil_append, append_nil] at this

/-- Punctuation inside of quotes is left alone. -/
example : indent [] "\t".toList "{\"a\":\"{\\\"x,y:[\",\"b\":{\"c\":null}}".toList =
    "{\n\t\"a\": \"{\\\"x,y:[\",\n\t\"b\": {\n\t\t\"c\": null\n\t}\n}".toList := by decide +kernel

/-- Entries of an object: parts in another order, names in capitals, and one that the library does not know. -/
def shuffled : List (Str × Json) := [("Models".toList, .obj []), ("note".toList, .arr [.null]), ("ABOUT".toList, .str "A".toList), ("namespaces".toList, .obj [])]

theorem shuffled_parts : Parts { about := "A".toList } shuffled := by
  refine ⟨by unfold shuffled; decide, ?_⟩
  show [("models".toList, Json.obj []), ("about".toList, .str "A".toList), ("namespaces".toList, .obj [])] ~
    [("about".toList, Json.str "A".toList), ("namespaces".toList, .obj []), ("models".toList, .obj [])]
  exact perm_append_comm (l₁ := [("models".toList, Json.obj [])]) (l₂ := [("about".toList, .str "A".toList), ("namespaces".toList, .obj [])])

theorem shuffled_ok : TextOK maxDepth (.obj shuffled) := by
  show TextOK (9998 + 1 + 1) _
  unfold shuffled
  simp only [TextOK, TextOKFields, TextOKItems, and_true]
  exact ⟨by decide, ⟨lit8 "Models" (by decide), by decide⟩, lit8 "note" (by decide), ⟨lit8 "ABOUT" (by decide), lit8 "A" (by decide)⟩,
    lit8 "namespaces" (by decide), by decide⟩

example : readDoc some "{\"Models\":{},\"note\":[null],\"ABOUT\":\"A\",\"namespaces\":{}}".toList = some { about := "A".toList } := by
  have e : print (.obj shuffled) = "{\"Models\":{},\"note\":[null],\"ABOUT\":\"A\",\"namespaces\":{}}".toList := by decide +kernel
  rw [← e]
  refine (json_document_forms some _ ⟨lit8 "A" (by decide), nil8, by simp, by simp, by simp, by simp⟩ _ ?_).2
  exact ⟨shuffled, _, [], [], shuffled_parts, print_form _ _ shuffled_ok, blanks_nil, blanks_nil, by rw [nil_append, append_nil]⟩

/-- The document of two models, indented twice, is read: it has the same models. -/
example : ∃ jd t p', JDoc.ofDoc (shippedEnv (regsOf ["cc".toList, "xmp_bj".toList]) (fun _ => numberCodec) (fun _ _ => false))
      { doc := licenceDoc, about := "uuid:1".toList } = some jd ∧ t = indent [] "\t".toList (indent " ".toList "  ".toList (printDoc jd)) ∧
    ∃ jd2, readDoc some t = some jd2 ∧
    JDoc.toDoc (shippedEnv (regsOf ["cc".toList, "xmp_bj".toList]) (fun _ => numberCodec) (fun _ _ => false)) Version.zero jd2 = .ok p' ∧
    ∃ rs, rs ~ withContent licenceDoc.roots ∧ Forall₂ SameModel rs p'.doc.roots := by
  obtain ⟨jd, h1, h2⟩ := shipped_json_forms_partial ["cc".toList, "xmp_bj".toList] (by unfold Closed; decide +kernel) (by decide)
    (regsOf ["cc".toList, "xmp_bj".toList]) ⟨fun _ he => he, fun _ he => Or.inl he⟩ (fun e he hs => absurd (regsOf_sub _ e he) hs)
    (fun _ => numberCodec) (fun _ _ => false) _ (shippedEnv_ok _ _ _ _) { doc := licenceDoc, about := "uuid:1".toList } licenceDoc_ok licence_json some
  obtain ⟨h3, h4⟩ := h2 jd (jdocSame_refl jd)
  obtain ⟨jd2, h5, h6⟩ := h4 _ (json_document_indented jd h3 [(" ".toList, "  ".toList), ([], "\t".toList)] (by
    intro e he
    simp only [mem_cons, not_mem_nil, or_false] at he
    rcases he with rfl | rfl
    · exact ⟨by unfold Blanks; decide, indent_unit⟩
    · exact ⟨blanks_nil, by unfold Blanks; decide⟩)).1
  obtain ⟨p', h7, -, -, h8⟩ := h6 jd2 (jdocSame_refl jd2)
  exact ⟨jd, _, p', h1, rfl, jd2, h5, h7, h8⟩

end Xmp.Props
