import Verif.Model.Scan
import Verif.Props.ReaderFinds
import Verif.Props.XmlBytes

/-! C70: documents embedded in files are found and read. -/

namespace Xmp.Props

open Xmp GoStr Utf8 XmlBytes List

/-! ### Texts of trees contain no processing instructions -/

/-- No `<?` occurs, and the text does not end with `<`. -/
def Tagged (s : Str) : Prop := (∀ a b, s ≠ a ++ '<' :: '?' :: b) ∧ ∀ a, s ≠ a ++ ['<']

theorem tagged_append {s t : Str} (hs : Tagged s) (ht : Tagged t) : Tagged (s ++ t) := by
  constructor
  · intro a b e
    rcases append_eq_append_iff.1 e with ⟨u, e1, e2⟩ | ⟨u, e1, e2⟩
    · exact ht.1 u b e2
    · cases u with
      | nil => exact ht.1 [] b (by simpa using e2.symm)
      | cons x u =>
        cases u with
        | nil =>
          simp only [cons_append, nil_append, cons.injEq] at e2
          exact hs.2 a (by rw [e1, e2.1])
        | cons y u =>
          simp only [cons_append, cons.injEq] at e2
          exact hs.1 a u (by rw [e1, e2.1, e2.2.1])
  · intro a e
    rcases append_eq_append_iff.1 e with ⟨u, e1, e2⟩ | ⟨u, e1, e2⟩
    · exact ht.2 u e2
    · cases u with
      | nil => exact ht.2 [] (by simpa using e2.symm)
      | cons x u =>
        simp only [cons_append, cons.injEq] at e2
        obtain ⟨e3, e4⟩ := e2
        have : u = [] := (append_eq_nil_iff.1 e4.symm).1
        exact hs.2 a (by rw [e1, ← e3, this])

theorem tagged_free {s : Str} (h : '<' ∉ s) : Tagged s :=
  ⟨fun a b e => h (by rw [e]; simp), fun a e => h (by rw [e]; simp)⟩

theorem tagged_open {c : Char} {s : Str} (hc : c ≠ '?') (h : Tagged (c :: s)) : Tagged ('<' :: c :: s) := by
  constructor
  · intro a b e
    cases a with
    | nil => simp at e; exact hc e.1
    | cons x a => simp only [cons_append, cons.injEq] at e; exact h.1 a b e.2
  · intro a e
    cases a with
    | nil => simp at e
    | cons x a => simp only [cons_append, cons.injEq] at e; exact h.2 a e.2

theorem free_escape (s : Str) : '<' ∉ escape s := fun h => xml_text_safe s '<' h (by decide)

theorem free_name {uni : Str → Bool} {n : Str} (h : ValidName uni n) : '<' ∉ n := fun hm => by
  have := h.1 _ hm
  revert this
  decide

theorem free_blank {s : Str} (h : ∀ c ∈ s, c ∈ " \t\n".toList) : '<' ∉ s := fun hm => by
  have := h _ hm
  revert this
  decide

theorem free_attrs {uni : Str → Bool} {a : List Attr} (h : ∀ x ∈ a, x.name.loc = [] ∨ ValidName uni x.name.loc) : '<' ∉ printAttrs a := by
  induction a with
  | nil => simp [printAttrs]
  | cons x a ih =>
    have ih := ih (fun y hy => h y (by simp [hy]))
    rw [printAttrs]
    split_ifs with hx
    · exact ih
    · have := free_name ((h x (by simp)).resolve_left hx)
      have := free_escape x.value
      simp_all

theorem head_name {uni : Str → Bool} {n : Str} (h : ValidName uni n) : ∃ c u, n = c :: u ∧ c ≠ '?' := by
  cases n with
  | nil => exact absurd rfl (validName_ne h)
  | cons c u =>
    refine ⟨c, u, rfl, ?_⟩
    rintro rfl
    have := h.1 '?' (by simp)
    revert this
    decide

mutual
theorem tagged_body (uni : Str → Bool) {ind : Option (Str × Str)} (hi : IndentOK ind) : ∀ (nm : QName) (a : List Attr) (v : Str) (l : List Node)
    (depth : Nat), ValidName uni nm.loc → (∀ x ∈ a, x.name.loc = [] ∨ ValidName uni x.name.loc) → NamesOKAll uni l →
    Tagged ('<' :: body ind depth nm.loc a v l)
  | nm, a, v, l, depth, hv, ha, hl => by
    have h1 : Tagged ('<' :: '/' :: (nm.loc ++ ['>'])) := by
      refine tagged_open (by decide) (tagged_free ?_)
      have := free_name hv
      simp_all
    have h2 : Tagged (if (printNodes ind (depth + 1) l).isEmpty then [] else printLayout ind depth (printNodes ind (depth + 1) l)) := by
      split_ifs
      · exact tagged_free (by simp)
      · exact tagged_layout uni hi l depth hl
    have h3 := tagged_append (tagged_free (free_escape v)) (tagged_append h2 h1)
    have h4 : Tagged (nm.loc ++ (printAttrs a ++ ['>'])) := tagged_free (by
      have := free_name hv
      have := free_attrs ha
      simp_all)
    have h5 := tagged_append h4 h3
    have e : body ind depth nm.loc a v l = nm.loc ++ (printAttrs a ++ ['>']) ++ (escape v ++
        ((if (printNodes ind (depth + 1) l).isEmpty then [] else printLayout ind depth (printNodes ind (depth + 1) l)) ++
          '<' :: '/' :: (nm.loc ++ ['>']))) := by
      unfold body
      simp only [append_assoc, cons_append, nil_append]
    rw [e]
    obtain ⟨c, u, ec, hc⟩ := head_name hv
    rw [ec] at h5 ⊢
    exact tagged_open hc h5
theorem tagged_layout (uni : Str → Bool) {ind : Option (Str × Str)} (hi : IndentOK ind) : ∀ (l : List Node) (depth : Nat), NamesOKAll uni l →
    Tagged (printLayout ind depth (printNodes ind (depth + 1) l))
  | [], depth, _ => by
    simp only [printNodes, printLayout]
    exact tagged_free (free_blank (blanks_mem hi depth))
  | .mk nm a v k :: l, depth, h => by
    by_cases hne : nm.loc = []
    · have e1 : printNodes ind (depth + 1) (.mk nm a v k :: l) = printNodes ind (depth + 1) l := by
        simp [printNodes, printNode, hne]
      rw [e1]
      exact tagged_layout uni hi l depth h.2
    · obtain ⟨hv, ha, hk⟩ := h.1.resolve_left hne
      have e1 : printNodes ind (depth + 1) (.mk nm a v k :: l) = ('<' :: body ind (depth + 1) nm.loc a v k) :: printNodes ind (depth + 1) l := by
        rw [printNodes, printNode_body ind (depth + 1) hne]; rfl
      rw [e1, printLayout]
      exact tagged_append (tagged_free (free_blank (blanks_mem hi (depth + 1)))) (tagged_append (tagged_body uni hi nm a v k (depth + 1) hv ha hk)
        (tagged_layout uni hi l depth h.2))
end

theorem tagged_tree (uni : Str → Bool) {ind : Option (Str × Str)} (hi : IndentOK ind) (x : Node) (h : NamesOK uni x) : Tagged (printTree ind x) := by
  unfold printTree
  refine tagged_append (tagged_free (free_blank (lead_mem hi))) ?_
  obtain ⟨nm, a, v, l⟩ := x
  by_cases hne : nm.loc = []
  · simp only [printNode, hne, if_true, flatten_nil]
    exact tagged_free (by simp)
  · obtain ⟨hv, ha, hk⟩ := h.resolve_left hne
    rw [printNode_body ind 0 hne]
    simpa using tagged_body uni hi nm a v l 0 hv ha hk

theorem tagged_noStart {s : Str} (h : Tagged s) : NoStart s := fun a b e => h.1 a _ (by rw [e, append_assoc]; rfl)

/-- **C70.** The text of a document never contains an end marker of a packet: no value can cut a packet short. -/
theorem document_has_no_end_marker (uni : Str → Bool) {ind : Option (Str × Str)} (hi : IndentOK ind) (x : Node) (h : NamesOK uni x) :
    index packetEnd (printTree ind x) = none := by
  rw [index_none_iff packetEnd_ne]
  intro j
  cases hp : hasPrefix ((printTree ind x).drop j) packetEnd with
  | false => rfl
  | true =>
    obtain ⟨u, hu⟩ := hasPrefix_iff.1 hp
    exact absurd (show printTree ind x = (printTree ind x).take j ++ '<' :: '?' :: _ from (by
      conv_lhs => rw [← take_append_drop j (printTree ind x), hu]
      rfl)) ((tagged_tree uni hi x h).1 _ _)

/-! ### Packets -/

theorem packet_eq (ind : Option (Str × Str)) (x : Node) (pad : Str) : printPacket ind x pad = packetHeader ++ printTree ind x ++ pad ++ packetFooter := by
  unfold printPacket
  simp only [append_assoc]

theorem isPacket_print (uni : Str → Bool) {ind : Option (Str × Str)} (hi : IndentOK ind) (x : Node) (h : NamesOK uni x) (pad : Str)
    (hpad : ∀ c ∈ pad, c = ' ' ∨ c = '\n') : IsPacket (printPacket ind x pad) ∧ 51 ≤ (printPacket ind x pad).length := by
  have hb := document_has_no_end_marker uni hi x h
  have he := encoded_end (printTree ind x) pad [] hb hpad
  rw [append_nil, ← packet_eq] at he
  have hlen : (printPacket ind x pad).length = 51 + (printTree ind x).length + pad.length + 20 := by
    rw [packet_eq]
    simp only [length_append, header_length, footer_length]
  have ehead : packetHeader = packetStart ++ "=\"\" id=\"W5M0MpCehiHzreSzNTczkc9d\"?>\n".toList := by decide
  have efoot : packetFooter = '\n' :: (packetEnd ++ "=\"w\"?>".toList) := by decide
  refine ⟨⟨⟨"=\"\" id=\"W5M0MpCehiHzreSzNTczkc9d\"?>\n".toList ++ printTree ind x ++ pad ++ ['\n'], "=\"w\"?>".toList, ?_, by decide⟩, ?_, ?_⟩, by omega⟩
  · rw [packet_eq, ehead, efoot]
    simp only [append_assoc, cons_append, nil_append]
  · rw [he]
    congr 1
    omega
  · refine ⟨"<?xpacket begin=\"\" id=\"".toList, "\"?>\n".toList, ?_⟩
    rw [packet_eq]
    simp only [append_assoc]
    rw [show (51 : Nat) = packetHeader.length from header_length.symm, take_left]
    decide

/-- **C70.** A document written as a packet, with any padding of blanks and line feeds, is found in a stream between bytes
without start marker, however the bytes arrive, as long as no read cuts the start marker and the packet is no longer than
61440 bytes.  It is the only packet that is found. -/
theorem embedded_packet_found (uni : Str → Bool) {ind : Option (Str × Str)} (hi : IndentOK ind) (x : Node) (h : NamesOK uni x) (pad : Str)
    (hpad : ∀ c ∈ pad, c = ' ' ∨ c = '\n') (hlen : (printPacket ind x pad).length ≤ 61440) (before after : Str) (hb : NoStart before)
    (ha : NoStart after) (reads : List Str) (hr : reads.flatten = before ++ printPacket ind x pad ++ after) (hd : Deliverable {} reads = true)
    (hcut : NoMarkerCut [] reads) : scanPackets reads = .ok [printPacket ind x pad] := by
  obtain ⟨h1, h2⟩ := isPacket_print uni hi x h pad hpad
  exact scan_found h1 h2 (by unfold maxTokenSize; omega) ha reads {} before hb (by simpa using hr) ⟨by simp, Or.inl rfl⟩ (Or.inl (by simp)) hcut hd

/-- The bytes arrive in pieces that fit into the buffer of the scanner, and no start marker is cut. -/
structure Arrives (reads : List Str) (s : Str) : Prop where
  bytes : reads.flatten = s
  fits : Deliverable {} reads = true
  uncut : NoMarkerCut [] reads

/-- What the encoder writes is a packet around the text of the tree. -/
theorem encodeOut_packet (limit : Int) (flags : Nat) (hp : flags &&& xpacket ≠ 0) (pieces : List Str) (hne : ∀ b ∈ pieces, b ≠ [])
    (hok : (encodeOut flags pieces { limit := limit }).1 = none) : ∃ pad, (∀ c ∈ pad, c = ' ' ∨ c = '\n') ∧
      (encodeOut flags pieces { limit := limit }).2.w.out = packetHeader ++ pieces.flatten ++ pad ++ packetFooter := by
  by_cases hl : limit > 0 ∧ flags &&& xpadding ≠ 0
  · obtain ⟨-, h, -⟩ := padded_packet limit hl.1 flags hp hl.2 pieces hne
    obtain ⟨-, pad, h1, h2⟩ := h hok
    exact ⟨pad, h2, h1⟩
  · obtain ⟨-, h⟩ := plain_packet limit flags hp (by by_cases h1 : limit > 0 <;> [left; right] <;> [(by_contra h2; exact hl ⟨h1, h2⟩); omega]) pieces hne
    exact ⟨[], by simp, by rw [h hok, append_nil]⟩

/-- **C70.** From a document to a stream and back: a document that meets the conditions of C46 and C69, written as a packet
with any size limit and padding, and put between bytes without start marker, is what `Scan` reads from the stream, however the
bytes arrive; and `Unmarshal` reads it from the packet alone.  Missing are packets of more than 61440 bytes, reads that cut
the marker (both fail, see C25), and the documents that C46 leaves out. -/
theorem scanned_document_roundtrip_partial (h : RegHistory) (env : Env) (dv : Version) (S : Str → Prop) (p : Packet)
    (hok : DocOK h env p.doc dv S) (order : Node → List Namespace → List Namespace) (ho : ∀ w l, (order w l).Perm l)
    (ind : Option (Str × Str)) (hi : IndentOK ind) (hu : ind.isSome = true → ∀ r ∈ p.doc.roots, UnmixedAll r.node.nodes)
    (uni : Str → Bool) (limit : Int) (flags : Nat) (hp : flags &&& xpacket ≠ 0) :
    ∃ t, Enc.encode env order p = some t ∧ (NamesOK uni t → TextsOK t → ∀ pieces, (∀ b ∈ pieces, b ≠ []) → pieces.flatten = printTree ind t →
      ∀ out, encodeOut flags pieces { limit := limit } = (none, out) →
      ∃ p', unmarshalText uni env dv out.w.out = .ok p' ∧
        (out.w.out.length ≤ 61440 → ∀ before after reads, NoStart before → NoStart after → Arrives reads (before ++ out.w.out ++ after) →
          scanDoc uni env dv reads = .ok p') ∧
        p'.doc.roots = withContent p.doc.roots ∧ p'.about = (if withContent p.doc.roots = [] then [] else p.about) ∧
        ∀ r ∈ p'.doc.roots, ∀ q, Uses r q → S q → ∃ ns, p'.doc.findNsByPrefix env q = some ns ∧ ns.uri = bindOf env p.doc q) := by
  obtain ⟨t, h1, h2⟩ := xml_text_document_roundtrip_partial h env dv S p hok order ho ind hi hu uni
  refine ⟨t, h1, fun hn ht pieces hne hpc out he => ?_⟩
  obtain ⟨pad, hpad, ho'⟩ := encodeOut_packet limit flags hp pieces hne (by rw [he])
  rw [he, hpc, ← packet_eq] at ho'
  obtain ⟨x, t', p', e1, -, e3, e4, e5, e6, e7⟩ := h2 hn ht pad []
  rw [append_nil] at e1
  have hun : unmarshalText uni env dv out.w.out = .ok p' := by
    unfold unmarshalText
    rw [ho', e1]
    simp only
    rw [e3]
    simp only
    rw [e4]
  refine ⟨p', hun, ?_, e5, e6, e7⟩
  intro hlen before after reads hb ha hr
  have hf := embedded_packet_found uni hi t hn pad hpad (by rw [← ho']; exact hlen) before after hb ha reads (by rw [← ho']; exact hr.bytes) hr.fits hr.uncut
  unfold scanDoc
  rw [hf, ← ho']
  exact hun

/-- **C70, finding.** Bytes before the packet that happen to contain a start marker hide it: the packet is taken for a part of
something that begins with the first marker and is no packet of XMP. -/
theorem stray_marker_hides (uni : Str → Bool) {ind : Option (Str × Str)} (hi : IndentOK ind) (x : Node) (h : NamesOK uni x) (pad : Str)
    (hpad : ∀ c ∈ pad, c = ' ' ∨ c = '\n') (g t : Str) (hg : '<' ∉ g) (hw : 'W' ∉ g) (hl : 36 ≤ g.length) :
    packetsOf (packetStart ++ g ++ (printPacket ind x pad ++ t)) = packetsOf t := by
  have hb := document_has_no_end_marker uni hi x h
  have he := encoded_end (printTree ind x) pad t hb hpad
  rw [← packet_eq] at he
  have hlen : (printPacket ind x pad).length = 51 + (printTree ind x).length + pad.length + 20 := by
    rw [packet_eq]
    simp only [length_append, header_length, footer_length]
  have hpre : (packetStart ++ g).length = 15 + g.length := by rw [length_append, packetStart_length]
  have hs : index packetStart (packetStart ++ g ++ (printPacket ind x pad ++ t)) = some 0 := by
    rw [index_some_iff packetStart_ne]
    refine ⟨?_, by intro j hj; omega⟩
    rw [drop_zero, append_assoc]
    exact hasPrefix_iff.2 ⟨_, rfl⟩
  have hend : index packetEnd (packetStart ++ g ++ (printPacket ind x pad ++ t)) =
      some (51 + (printTree ind x).length + pad.length + 1 + (15 + g.length)) := by
    rw [index_drop packetEnd_ne (k := 15 + g.length), ← hpre, drop_left, he]
    · rfl
    · intro j hj
      cases hp : hasPrefix ((packetStart ++ g ++ (printPacket ind x pad ++ t)).drop j) packetEnd with
      | false => rfl
      | true =>
        exfalso
        have h0 := hasPrefix_get hp 0 (by decide)
        rw [Nat.add_zero, getElem?_append_left (by omega)] at h0
        by_cases hj15 : j < 15
        · rw [getElem?_append_left (by rw [packetStart_length]; omega)] at h0
          have hj0 : j = 0 := (by decide : ∀ j < 15, packetStart[j]? = packetEnd[0]? → j = 0) j hj15 h0
          subst hj0
          have h10 := hasPrefix_get hp 10 (by decide)
          rw [Nat.zero_add, getElem?_append_left (by omega), getElem?_append_left (by decide)] at h10
          exact absurd h10 (by decide)
        · rw [getElem?_append_right (by rw [packetStart_length]; omega)] at h0
          exact hg (mem_of_getElem? h0)
  have htl : 0 + (51 + (printTree ind x).length + pad.length + 1 + (15 + g.length) + 19) ≤ (packetStart ++ g ++ (printPacket ind x pad ++ t)).length := by
    rw [length_append, hpre, length_append, hlen]
    omega
  rw [packetsOf_token hs (by rw [drop_zero]; exact hend) htl]
  have hm : isXmpPacket (((packetStart ++ g ++ (printPacket ind x pad ++ t)).drop 0).take (51 + (printTree ind x).length + pad.length + 1 + (15 + g.length) + 19)) = false := by
    unfold isXmpPacket
    rw [drop_zero, take_take, Nat.min_eq_left (by omega), take_append_of_le_length (by omega)]
    rw [Option.isSome_eq_false_iff, Option.isNone_iff_eq_none, index_none_iff packetMagic_ne]
    intro j
    cases hp : hasPrefix (((packetStart ++ g).take 51).drop j) packetMagic with
    | false => rfl
    | true =>
      exfalso
      have h0 := hasPrefix_get hp 0 (by decide)
      have hmem := mem_of_mem_take (mem_of_getElem? h0)
      rcases mem_append.1 hmem with hx | hx
      · exact absurd hx (by decide)
      · exact hw hx
  rw [hm, Nat.zero_add]
  have e1 : 51 + (printTree ind x).length + pad.length + 1 + (15 + g.length) + 19 = (packetStart ++ g ++ printPacket ind x pad).length := by
    rw [length_append, hpre, hlen]
    omega
  rw [e1, ← append_assoc, drop_left]
  rfl

/-! ### A concrete stream -/

/-- Up to 4096 bytes may arrive in one piece. -/
theorem arrives_one (s : Str) (h : s ≠ []) (hl : s.length ≤ 4096) : Arrives [s] s where
  bytes := by simp
  fits := by
    have hd : drain false (([] : Str).length + 1) {} = some ([], {}) := rfl
    have hp : prepareRead {} = some { bufLen := 4096 } := rfl
    unfold Deliverable
    simp only [hd, hp]
    simp [Deliverable, h, hl]
  uncut := by
    intro a b hab j h1 h2
    cases a with
    | nil => simp at h1
    | cons x a =>
      have hb : b = [] ∧ a = [] := by
        simp only [cons_append, cons.injEq] at hab
        exact ⟨(append_eq_nil_iff.1 hab.2.symm).2, (append_eq_nil_iff.1 hab.2.symm).1⟩
      obtain ⟨rfl, rfl⟩ := hb
      rw [flatten_nil, append_nil]
      cases hp : hasPrefix (([] ++ [x].flatten).drop j) packetStart with
      | false => rfl
      | true =>
        have := hasPrefix_length hp
        rw [packetStart_length, length_drop] at this
        omega

/-- The bytes of the sample document of C46. -/
def sampleFile : Option Str := sampleDocTree.map (fun t => (encodeOut 1 [printTree none t] {}).2.w.out)

example : sampleFile.map (fun f => decide (f.length ≤ 4000)) = some true := by decide +kernel

/-- Behind other bytes it is found and read, here in three pieces. -/
example : sampleFile.map (fun f =>
    match scanDoc (fun _ => false) docEnv Version.zero ["GIF89a ".toList ++ f.take 100, f.drop 100 |>.take 200, f.drop 300 ++ ";".toList] with
    | .ok q => (q.about, q.doc.roots.map (fun r => r.node.xmlName.loc))
    | _ => ([], [])) = some (sampleDoc.about, sampleDoc.doc.roots.map (fun r => r.node.xmlName.loc)) := by decide +kernel

/-- Behind a stray marker it is not. -/
example : sampleFile.map (fun f =>
    match scanDoc (fun _ => false) docEnv Version.zero ["<?xpacket begin starts a packet, as this text explains. ".toList ++ f] with
    | .ok _ => true
    | _ => false) = some false := by decide +kernel

end Xmp.Props
