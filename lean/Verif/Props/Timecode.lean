import Verif.Model.Timecode
import Verif.Props.Media
import Verif.Model.Ixml
import Verif.Props.TypedXmpCases

/-! C85: timecodes as properties. -/

namespace Xmp.Props

open GoStr Media

/-! ### Small facts -/

theorem visible_pad2 (n : Int) : ∀ c ∈ pad2 n, Visible c := by
  intro c hc
  unfold pad2 at hc
  rcases List.mem_append.1 hc with h | h
  · split at h
    · rw [List.mem_singleton.1 h]; decide
    · cases h
  · exact visible_itoa n c h

theorem visible_timecode (x : Timecode) : ∀ c ∈ x.text, Visible c := by
  have hs : Visible x.sep := by unfold Timecode.sep; split <;> decide
  intro c hc
  unfold Timecode.text at hc
  simp only [List.mem_append, List.mem_cons] at hc
  rcases hc with h | rfl | h | rfl | h | rfl | h
  · exact visible_pad2 _ c h
  · exact hs
  · exact visible_pad2 _ c h
  · exact hs
  · exact visible_pad2 _ c h
  · exact hs
  · exact visible_pad2 _ c h

theorem timecode_text_ne (x : Timecode) : x.text ≠ [] := by unfold Timecode.text; simp

/-- The text does not depend on the value. -/
theorem timecode_text_value (x : Timecode) (v : Str) : Timecode.text { x with value := v } = x.text := rfl

theorem timecode_faithful (f v : Str) (hf : Trimmed f) (hv : Trimmed v) (hne : v ≠ []) :
    Faithful Version.zero timecodeTy (.struct [.str f, .str v]) := by
  rw [timecodeTy, Faithful]
  refine ⟨_, rfl, ?_⟩
  simp only [FaithfulFields]
  refine ⟨_, _, _, _, rfl, rfl, ?_, _, _, _, _, rfl, rfl, ?_, rfl, rfl⟩
  · split
    · exact ⟨by decide, by simpa [Faithful, LeafFaithful] using hf⟩
    · rename_i h
      have : f = [] := by
        by_contra hc
        apply h
        cases f with
        | nil => exact absurd rfl hc
        | cons c cs => rfl
      rw [this, Ty.zero]
  · rw [if_pos (by cases v with
      | nil => exact absurd rfl hne
      | cons c cs => rfl)]
    exact ⟨by decide, by simpa [Faithful, LeafFaithful] using hv⟩

/-! ### Theorems -/

/-- **C85.** A timecode with numbers that are not negative is found again after it was written into an element and parsed by any
decoder that knows the two names: format, hours, minutes, seconds, frames and the kind of separator are the same, and the value is the
text of the numbers.  What was read is found again exactly. -/
theorem timecode_saved (d : Dec) (uri : Str → Str) (hr : RdfOK d uri) (h1 : NameOK d uri "xmpDM:timeFormat".toList)
    (h2 : NameOK d uri "xmpDM:timeValue".toList) (x : FullTimecode) (hx : GoodTimecode x.tc) (hf : Trimmed x.format) (name : QName) :
    ∃ n, x.marshalXMP (Node.new name) = some n ∧
      FullTimecode.unmarshalXMP d Version.zero (n.reparse uri) = .ok { x with tc := { x.tc with value := x.tc.text } } ∧
      FullTimecode.marshalXMP { x with tc := { x.tc with value := x.tc.text } } (Node.new name) = some n := by
  obtain ⟨n, e1, e2⟩ := model_roundtrip d Version.zero uri hr timecodeTy
    (by
      simp only [timecodeTy, TyNames, TysNames, List.mem_cons, List.not_mem_nil, or_false, forall_eq_or_imp, forall_eq, and_true]
      exact ⟨⟨by decide, h1⟩, by decide, h2⟩)
    (.struct [.str x.format, .str x.tc.text])
    (timecode_faithful _ _ hf (trimmed_of_visible (visible_timecode x.tc)) (timecode_text_ne _)) name
  refine ⟨n, e1, ?_, e1⟩
  unfold FullTimecode.unmarshalXMP
  rw [e2]
  show Res.ofOption (FullTimecode.ofTexts _ _) = _
  unfold FullTimecode.ofTexts
  rw [timecode_decode_encode hx]
  rfl

/-- **C85.** The same in JSON, for all formats. -/
theorem timecode_json (x : FullTimecode) (hx : GoodTimecode x.tc) :
    FullTimecode.unmarshalJSON x.marshalJSON = some { x with tc := { x.tc with value := x.tc.text } } := by
  unfold FullTimecode.unmarshalJSON FullTimecode.marshalJSON FullTimecode.ofTexts
  rw [timecode_decode_encode hx]
  rfl

/-- **C85.** A timecode is also read from attributes, in either order, with white space around them, as from elements. -/
theorem timecode_attributes (d : Dec) (q1 q2 nm : QName) (h1 : d.translate q1 = ⟨[], "xmpDM:timeFormat".toList⟩)
    (h2 : d.translate q2 = ⟨[], "xmpDM:timeValue".toList⟩) (f v text : Str) :
    FullTimecode.unmarshalXMP d Version.zero (.mk nm [⟨q1, f⟩, ⟨q2, v⟩] text []) = Res.ofOption (FullTimecode.ofTexts (trimSpace f) (trimSpace v)) ∧
    FullTimecode.unmarshalXMP d Version.zero (.mk nm [⟨q2, v⟩, ⟨q1, f⟩] text []) = Res.ofOption (FullTimecode.ofTexts (trimSpace f) (trimSpace v)) := by
  have s1 : skipName ⟨[], "xmpDM:timeFormat".toList⟩ = false := by decide
  have s2 : skipName ⟨[], "xmpDM:timeValue".toList⟩ = false := by decide
  have f1 : findStructField Version.zero [({ name := "xmpDM:timeFormat".toList } : FieldInfo), { name := "xmpDM:timeValue".toList }] "xmpDM:timeFormat".toList = some 0 := by decide
  have f2 : findStructField Version.zero [({ name := "xmpDM:timeFormat".toList } : FieldInfo), { name := "xmpDM:timeValue".toList }] "xmpDM:timeValue".toList = some 1 := by decide
  constructor
  · unfold FullTimecode.unmarshalXMP decodeElement timecodeTy
    simp only [unmarshal, derefVal, unmarshalAttrs, h1, h2, s1, s2, f1, f2, Ty.zero, Ty.zeros, Bool.false_eq_true, if_false, List.getElem?_cons_zero,
      List.getElem?_cons_succ, unmarshalAttr, unmarshalAttrBase, setValue, Res.ofOption, rewrap, List.set, unmarshalNodes]
  · unfold FullTimecode.unmarshalXMP decodeElement timecodeTy
    simp only [unmarshal, derefVal, unmarshalAttrs, h1, h2, s1, s2, f1, f2, Ty.zero, Ty.zeros, Bool.false_eq_true, if_false, List.getElem?_cons_zero,
      List.getElem?_cons_succ, unmarshalAttr, unmarshalAttrBase, setValue, Res.ofOption, rewrap, List.set, unmarshalNodes]

/-- **C85, finding.** The value of a timecode is never written, in either format: only the numbers count.  A timecode that was given
its value alone (as the tags suggest) is saved and found again as 00:00:00:00. -/
theorem timecode_value_lost (format v : Str) (name : QName) :
    (∀ (x : FullTimecode) node, FullTimecode.marshalXMP { x with tc := { x.tc with value := v } } node = x.marshalXMP node) ∧
    FullTimecode.marshalXMP ⟨format, ⟨v, 0, 0, 0, 0, false⟩⟩ (Node.new name) =
      marshalValue timecodeTy (.struct [.str format, .str "00:00:00:00".toList]) (Node.new name) ∧
    FullTimecode.unmarshalJSON (FullTimecode.marshalJSON ⟨format, ⟨v, 0, 0, 0, 0, false⟩⟩) =
      some ⟨format, ⟨"00:00:00:00".toList, 0, 0, 0, 0, false⟩⟩ :=
  ⟨fun _ _ => rfl, rfl, timecode_json ⟨format, ⟨v, 0, 0, 0, 0, false⟩⟩ (by unfold GoodTimecode; simp [InI64])⟩

/-- **C85, finding.** And a timecode that was given its numbers alone is not saved at all: the numbers do not count for `IsZero`. -/
theorem timecode_numbers_lost (h m s f : Int) (drop : Bool) (name : QName) (parent : Node) :
    FullTimecode.writeField ⟨[], ⟨[], h, m, s, f, drop⟩⟩ name parent = some parent := rfl

/-- **C85, finding.** An element that has a format but no value is read as the time 00:00:00:00. -/
theorem timecode_missing (format : Str) :
    FullTimecode.ofTexts format [] = some ⟨format, ⟨"00:00:00:00".toList, 0, 0, 0, 0, false⟩⟩ := by
  unfold FullTimecode.ofTexts
  rw [show Timecode.ofValue [] = some ⟨"00:00:00:00".toList, 0, 0, 0, 0, false⟩ by decide +kernel]
  rfl

/-- **C85.** A timecode with a format or a value is written as a field, and then read back as above. -/
theorem timecode_field (x : FullTimecode) (name : QName) (parent : Node) (h : x.format ≠ [] ∨ x.tc.value ≠ []) (n : Node)
    (hn : x.marshalXMP (Node.new name) = some n) : x.writeField name parent = some (parent.addNode n) := by
  unfold FullTimecode.writeField
  have : x.isZero = false := by
    unfold FullTimecode.isZero
    rcases h with h | h <;> simp [h]
  rw [this, hn]
  rfl

/-- The start timecode of an iXML chunk as a property (models/ixml/types.go:160-167: no value). -/
def startTimecode (s : Ixml.Start) : FullTimecode := ⟨s.format, ⟨[], s.h, s.m, s.s, s.f, s.drop⟩⟩

theorem format_trimmed (num den : Nat) (drop : Bool) : Trimmed (Ixml.timecodeFormat num den drop) := by
  unfold Ixml.timecodeFormat
  repeat' split
  all_goals decide

/-- **C85.** The start timecode that an iXML chunk with a frame rate of the table gives is saved and found again with its format,
hours, minutes, seconds and frames; with another frame rate it is not saved. -/
theorem ixml_timecode_saved (d : Dec) (uri : Str → Str) (hr : RdfOK d uri) (h1 : NameOK d uri "xmpDM:timeFormat".toList)
    (h2 : NameOK d uri "xmpDM:timeValue".toList) (x : Ixml.Speed) (s : Ixml.Start) (hs : x.timecode = some s)
    (hb : ∀ n ∈ [s.h, s.m, s.s, s.f], n < 2 ^ 63) (name : QName) (parent : Node) :
    (s.format ≠ [] → ∃ n t, (startTimecode s).writeField name parent = some (parent.addNode n) ∧
      FullTimecode.unmarshalXMP d Version.zero (n.reparse uri) = .ok t ∧
      t.format = s.format ∧ t.tc.h = s.h ∧ t.tc.m = s.m ∧ t.tc.s = s.s ∧ t.tc.f = s.f ∧ t.tc.drop = s.drop) ∧
    (s.format = [] → (startTimecode s).writeField name parent = some parent) := by
  constructor
  · intro hne
    have hg : GoodTimecode (startTimecode s).tc := by
      simp only [List.mem_cons, List.not_mem_nil, or_false, forall_eq_or_imp, forall_eq] at hb
      unfold GoodTimecode startTimecode InI64
      simp only [List.mem_cons, List.not_mem_nil, or_false, forall_eq_or_imp, forall_eq]
      omega
    have hf : Trimmed (startTimecode s).format := by
      unfold Ixml.Speed.timecode at hs
      simp only at hs
      split at hs
      · cases hs
      · rw [← Option.some.inj hs]
        exact format_trimmed _ _ _
    obtain ⟨n, e1, e2, -⟩ := timecode_saved d uri hr h1 h2 (startTimecode s) hg hf name
    exact ⟨n, _, timecode_field _ name parent (Or.inl hne) n e1, e2, rfl, rfl, rfl, rfl, rfl, rfl⟩
  · intro he
    unfold startTimecode
    rw [he]
    exact timecode_numbers_lost _ _ _ _ _ name parent

/-! ### A sample -/

/-- The registry of the sample. -/
def tcReg : RegHistory :=
  [(⟨"rdf".toList, rdfUri, none⟩, []), (⟨"xml".toList, xmlUri, none⟩, []), (⟨"xmpDM".toList, "u:dm".toList, none⟩, [])]

/-- The prefixes as written by the encoder. -/
def tcUri (p : Str) : Str := if p = "xmpDM".toList then "u:dm".toList else rdfBinding p

/-- The decoder after the declaration of `xmpDM`. -/
def tcDec : Dec := decoder tcReg [("xmpDM".toList, "u:dm".toList)]

theorem tcRdf : RdfOK tcDec tcUri where
  bound := ⟨by decide, by decide⟩
  parseType := by decide

theorem tcName (loc : Str) (h : loc ≠ []) : NameOK tcDec tcUri ("xmpDM".toList ++ ':' :: loc) :=
  nameOK_known tcReg _ tcUri (by decide) h ⟨by decide, by decide, ⟨_, rfl, by decide, by decide⟩⟩ (by decide) (by decide) (by decide) (by decide)

/-- A drop-frame timecode. -/
def tcSample : FullTimecode := ⟨"2997DropTimecode".toList, ⟨[], 1, 2, 59, 29, true⟩⟩

theorem tcSample_good : GoodTimecode tcSample.tc := by unfold GoodTimecode; decide

example : ∃ n, tcSample.marshalXMP (Node.new ⟨[], "xmpDM:startTimecode".toList⟩) = some n ∧
    FullTimecode.unmarshalXMP tcDec Version.zero (n.reparse tcUri) = .ok ⟨"2997DropTimecode".toList, ⟨"01;02;59;29".toList, 1, 2, 59, 29, true⟩⟩ ∧
    tcSample.writeField ⟨[], "xmpDM:startTimecode".toList⟩ (Node.new ⟨[], "xmpDM".toList⟩) = some ((Node.new ⟨[], "xmpDM".toList⟩).addNode n) := by
  obtain ⟨n, h1, h2, -⟩ := timecode_saved tcDec tcUri tcRdf (tcName "timeFormat".toList (by decide)) (tcName "timeValue".toList (by decide))
    tcSample tcSample_good (by decide) ⟨[], "xmpDM:startTimecode".toList⟩
  exact ⟨n, h1, h2, timecode_field tcSample _ _ (Or.inl (by decide)) n h1⟩

example : FullTimecode.unmarshalJSON tcSample.marshalJSON = some ⟨"2997DropTimecode".toList, ⟨"01;02;59;29".toList, 1, 2, 59, 29, true⟩⟩ :=
  timecode_json tcSample tcSample_good

example : FullTimecode.unmarshalXMP tcDec Version.zero (.mk ⟨[], "x".toList⟩
    [⟨⟨"u:dm".toList, "timeFormat".toList⟩, "25Timecode".toList⟩, ⟨⟨"u:dm".toList, "timeValue".toList⟩, " 10:00:00:24".toList⟩] [] []) =
    .ok ⟨"25Timecode".toList, ⟨"10:00:00:24".toList, 10, 0, 0, 24, false⟩⟩ :=
  (timecode_attributes tcDec _ _ _ (by decide) (by decide) _ _ _).1.trans (by decide +kernel)

/-- One hour of samples at 48 kHz and 25 frames. -/
def tcSpeed : Ixml.Speed := ⟨0, 172800000, 48000, 25, 1, "NDF".toList⟩

example : ∃ n t, (startTimecode ⟨"25Timecode".toList, 1, 0, 0, 0, false⟩).writeField ⟨[], "xmpDM:startTimecode".toList⟩ (Node.new ⟨[], "xmpDM".toList⟩) =
      some ((Node.new ⟨[], "xmpDM".toList⟩).addNode n) ∧
    FullTimecode.unmarshalXMP tcDec Version.zero (n.reparse tcUri) = .ok t ∧ t.tc.h = 1 := by
  obtain ⟨n, t, a1, a2, -, a3, -⟩ := (ixml_timecode_saved tcDec tcUri tcRdf (tcName "timeFormat".toList (by decide)) (tcName "timeValue".toList (by decide))
    tcSpeed ⟨"25Timecode".toList, 1, 0, 0, 0, false⟩ (by decide +kernel) (by decide) ⟨[], "xmpDM:startTimecode".toList⟩ (Node.new ⟨[], "xmpDM".toList⟩)).1 (by decide)
  exact ⟨n, t, a1, a2, a3⟩

end Xmp.Props
