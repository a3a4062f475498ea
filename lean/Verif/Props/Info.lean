import Verif.Model.Info
import Verif.Props.ShippedBytes
import Verif.Props.Session
import Verif.Props.TypedXmpCases

/-! C79: the command `xmpinfo` shows what is in a file. -/

namespace Xmp.Props

open GoStr SyncFlags Utf8 XmlBytes Shipped Info

/-! ### Specification -/

/-- The text as `fmt.Println` prints it. -/
def printed (s : Str) : Line := .text (s ++ "\n".toList)

/-- How a path and its value are shown. -/
def shownLine (v : PathValue) : Line := .text (v.path ++ " = ".toList ++ v.value ++ "\n".toList)

theorem pathLine_eq : pathLine = shownLine := rfl

/-- A file with the bytes, in a program that can read them: either a file `.xmp` that consists of them, or a file of another name
in which they are the first packet. -/
inductive HoldsFirst (name : Str) (reads : List Str) (b : Str) : Prop
  | sidecar (h : extOf name = ".xmp".toList) (hb : reads.flatten = b)
  | embedded (h : extOf name ≠ ".xmp".toList) {more : List Str} (hb : scanPackets reads = .ok (b :: more))

/-- The bytes hold a document of models of the library, whose values can be read back and consist of texts of XML, with the
listing. -/
def HoldsListing (w : World) (P : List Str) (K : Str → Codec) (Z : Str → List Val → Bool) (l : PathValueList) (b : Str) : Prop :=
  ∃ p, unmarshalText w.uni w.env Version.zero b = .ok p ∧ ShippedDoc P K Z p.doc ∧ XmlTexts p ∧ p.doc.listPaths w.env w.sort = .ok l

/-- Bytes that the command prints with `-xmp` for a file that holds bytes, which in turn were printed, and so on. -/
inductive Reprinted (w : World) (b : Str) : Str → Prop
  | none : Reprinted w b b
  | again {b' s name reads} (h : Reprinted w b b') (hf : HoldsFirst name reads b')
      (hr : run w { xmp := true } (.file name (some reads)) = ⟨[.text s], .ok⟩) : Reprinted w b s

/-! ### Helper lemmas -/

theorem effective_path (o : Opts) (h : o.path = true) : o.effective = o := by simp [Opts.effective, h]
theorem effective_xmp (o : Opts) (h : o.xmp = true) : o.effective = o := by simp [Opts.effective, h]
theorem effective_json (o : Opts) (h : o.json = true) : o.effective = o := by simp [Opts.effective, h]
theorem effective_orig (o : Opts) (h : o.orig = true) : o.effective = o := by simp [Opts.effective, h]
theorem effective_quiet (o : Opts) (h : o.quiet = true) : o.effective = o := by simp [Opts.effective, h]

theorem andThen_nil (r : Run) : Run.andThen ⟨[], .ok⟩ r = r := rfl
theorem andThen_ok (l : List Line) (r : Run) : Run.andThen ⟨l, .ok⟩ r = ⟨l ++ r.lines, r.status⟩ := rfl

theorem run_holds {w : World} {o : Opts} {name : Str} {reads : List Str} {b : Str} (h : HoldsFirst name reads b)
    (ha : (o.effective.orig && o.effective.all) = false) : run w o (.file name (some reads)) = showBytes w o.effective b := by
  cases h with
  | sidecar h hb => simp only [run, h, if_true, hb]
  | embedded h hb => simp only [run, if_neg h, hb, ha, Bool.false_eq_true, if_false]

theorem outs_all (o : Opts) (hq : o.quiet = false) : ∀ l : List Str,
    l.foldr (fun b r => (out o b).andThen r) ⟨[], .ok⟩ = ⟨l.map printed, .ok⟩
  | [] => rfl
  | b :: l => by
    rw [List.foldr_cons, outs_all o hq l]
    simp [out, hq, andThen_ok, printed]

theorem marshal_some {w : World} {p : Packet} {t : Node} (h : Enc.encode w.env w.order p = some t) :
    marshal w p = some (printPacket (some ([], "  ".toList)) t []) := by
  unfold marshal
  rw [h]
  simp only [encodeOut, CountWriter.writeAll, CountWriter.write, Sink.write, xpacket, xpadding]
  simp [printPacket]

/-- Top-level nodes without content are not listed. -/
theorem listModel_empty {sort : PathValueList → PathValueList} (hs : sort [] = []) {r : Root} (hc : ¬ HasContent r) {m : Mdl} (hm : r.model = some m)
    (hn : m.nss ≠ []) : r.listModel sort = .ok [] := by
  have hf : ∀ (tys : List Ty) (infos : List FieldInfo) (vals : List Val) (path : Path),
      (∀ (i : Nat) (f : FieldInfo) (t : Ty) (v : Val), infos[i]? = some f → tys[i]? = some t → vals[i]? = some v → fieldWritten f t v = false) →
      listFields sort tys infos vals path = some (some []) := by
    intro tys
    induction tys with
    | nil => intro infos vals path _; simp [listFields]
    | cons t tys ih =>
      intro infos vals path h
      cases infos with
      | nil => simp [listFields]
      | cons f infos =>
        cases vals with
        | nil => simp [listFields]
        | cons v vals =>
          have h0 := h 0 f t v rfl rfl rfl
          have : fieldListed f t v = false := by
            unfold fieldWritten at h0
            rw [zero_between] at h0
            unfold fieldListed
            revert h0
            cases v.isNil <;> cases f.omitted <;> simp
          rw [listFields, this]
          simp only [Bool.false_eq_true, if_false]
          exact ih infos vals path (fun i f t v h1 h2 h3 => h (i + 1) f t v h1 h2 h3)
  unfold Root.listModel
  rw [hm]
  simp only [listModelPaths]
  cases hnn : m.nss with
  | nil => exact absurd hnn hn
  | cons ns l =>
    simp only
    have : ∀ path, listPaths sort m.ty m.val path = some [] := by
      intro path
      unfold listPaths
      split
      · rename_i z infos tys vals et ev
        unfold listStruct
        split
        · rfl
        · rw [hf tys infos vals]
          · simp [listEnd, hs]
          · intro i f t v h1 h2 h3
            cases e : fieldWritten f t v with
            | false => rfl
            | true =>
              exact absurd (Or.inr (Or.inr ⟨i, f, t, v, by simpa [rootInfos, hm, et] using h1, by simpa [rootTys, hm, et] using h2,
                by simpa [rootVals, hm, ev] using h3, e⟩)) hc
      · rfl
    rw [this]
    rfl

theorem listRoots_content {P : List Str} {K : Str → Codec} {Z : Str → List Val → Bool} (env : Env) {sort : PathValueList → PathValueList}
    (hs : sort [] = []) : ∀ rs : List Root, (∀ r ∈ rs, ShippedRoot P K Z r) → XDoc.listRoots env sort (withContent rs) = XDoc.listRoots env sort rs
  | [], _ => rfl
  | r :: rs, h => by
    have ih := listRoots_content env hs rs (fun x hx => h x (List.mem_cons_of_mem _ hx))
    by_cases hc : HasContent r
    · rw [withContent_cons_pos hc, XDoc.listRoots, XDoc.listRoots, ih]
    · obtain ⟨pk, hpk, hpP, dc, hdc, s, hs', hnode, v, hmod, -⟩ := (h r (List.mem_cons_self ..)).exact
      rw [withContent_cons_neg hc, ih]
      conv_rhs => rw [XDoc.listRoots, listModel_empty hs hc hmod (by simp [shippedMdl])]
      have : r.node.listPaths env.reg sort (Path.new r.node.name []) = [] := by
        rw [hnode]
        unfold Node.new
        rw [Node.listPaths]
        simp only [Node.listLis, Node.listKids, List.map_nil, List.filter_nil, List.append_nil, hs, ne_eq, not_true, if_false, ite_self]
      rw [this]
      simp only
      cases XDoc.listRoots env sort rs <;> simp

/-- What is read from a document that was written. -/
theorem shipped_bytes_core {P : List Str} (hc : Closed P) (hx : "xmp_tpg".toList ∈ P → "xmp_base".toList ∈ P)
    {h : RegHistory} (hp : Program P h) {w : World} (hn : ∀ e ∈ h, e ∉ shippedRegs → DeclOK w.uni e.1)
    {K : Str → Codec} {Z : Str → List Val → Bool} (he : ShippedEnv P h K Z w.env) {p : Packet} (hd : ShippedDoc P K Z p.doc) (ht : XmlTexts p)
    (ho : ∀ x l, (w.order x l).Perm l) (hs : w.sort [] = []) {l : PathValueList} (hl : p.doc.listPaths w.env w.sort = .ok l) :
    ∃ t p', Enc.encode w.env w.order p = some t ∧ NamesOK w.uni t ∧
      (∀ rest, unmarshalText w.uni w.env Version.zero (printPacket (some ([], "  ".toList)) t [] ++ rest) = .ok p') ∧
      p'.doc.roots = withContent p.doc.roots ∧ p'.about = (if withContent p.doc.roots = [] then [] else p.about) ∧ p'.toolkit = [] ∧
      ShippedDoc P K Z p'.doc ∧ XmlTexts p' ∧ p'.doc.listPaths w.env w.sort = .ok l := by
  obtain ⟨t, p', h1, h2, h3, -, -, h4, -, htk, ll, hll, hint, hext⟩ := document_bytes_core h w.env Version.zero (UsablePrefix P) p
    (shipped_docOK hc hx hp he hd) w.uni (shipped_xmlPacket w.uni hn he hd ht) w.order ho (some ([], "  ".toList)) ⟨by decide, by decide⟩ (by
      intro _ r hr
      obtain ⟨_, _, _, _, _, _, _, hnode, _⟩ := (hd.roots r hr).exact
      rw [hnode]
      trivial)
  obtain ⟨hr1, hr2⟩ := decoder_registered hp he.reg hd.int hd.ext hll
  refine ⟨t, p', h1, (encode_xml w.uni w.env w.order ho p (shipped_xmlPacket w.uni hn he hd ht) t h1).1, h4 [], h2, h3, htk, ⟨?_, ?_, ?_, ?_⟩, ⟨?_, ?_, ?_⟩, ?_⟩
  · intro r hr
    rw [h2, mem_withContent] at hr
    exact hd.roots r hr.1
  · rw [h2]
    exact hd.distinct.sublist (by unfold withContent; exact List.filter_sublist)
  · intro e hm
    exact hr1 e (hint ▸ hm)
  · intro e hm
    exact hr2 e (hext ▸ hm)
  · rw [h3]
    split
    · decide
    · exact ht.about
  · rw [htk]; decide
  · intro r hr
    rw [h2, mem_withContent] at hr
    exact ht.models r hr.1
  · rw [← hl]
    unfold XDoc.listPaths
    rw [h2, listRoots_content w.env hs p.doc.roots hd.roots]

/-- A document that was written and read can be written again. -/
theorem shipped_bytes_again {P : List Str} (hc : Closed P) (hx : "xmp_tpg".toList ∈ P → "xmp_base".toList ∈ P)
    {h : RegHistory} (hp : Program P h) {w : World} (hn : ∀ e ∈ h, e ∉ shippedRegs → DeclOK w.uni e.1)
    {K : Str → Codec} {Z : Str → List Val → Bool} (he : ShippedEnv P h K Z w.env) {p : Packet} (hd : ShippedDoc P K Z p.doc) (ht : XmlTexts p)
    (ho : ∀ x l, (w.order x l).Perm l) (hs : w.sort [] = []) {l : PathValueList} (hl : p.doc.listPaths w.env w.sort = .ok l) :
    ∃ t, Enc.encode w.env w.order p = some t ∧ NamesOK w.uni t ∧
      ∀ rest, HoldsListing w P K Z l (printPacket (some ([], "  ".toList)) t [] ++ rest) := by
  obtain ⟨t, p', h1, h2, h3, -, -, -, h4, h5, h6⟩ := shipped_bytes_core hc hx hp hn he hd ht ho hs hl
  exact ⟨t, h1, h2, fun rest => ⟨p', h3 rest, h4, h5, h6⟩⟩

theorem showBytes_listing {w : World} {P : List Str} {K : Str → Codec} {Z : Str → List Val → Bool} {l : PathValueList} {b : Str}
    (h : HoldsListing w P K Z l b) : showBytes w { path := true } b = ⟨l.map shownLine, .ok⟩ := by
  obtain ⟨p, h1, -, -, h2⟩ := h
  unfold showBytes showDoc
  simp only [h1, h2, Bool.false_eq_true, if_false, if_true, andThen_nil, pathLine_eq]

/-! ### Theorems -/

/-- **C79.** The original is printed byte by byte: without flags, or with `-orig`, the first output for a file is the packet that
the file holds, whether it can be decoded or not. -/
theorem info_prints_original (w : World) (o : Opts) (name : Str) (reads : List Str) (b : Str) (h : HoldsFirst name reads b) (hq : o.quiet = false)
    (ho : o.orig = true ∨ (o.json = false ∧ o.xmp = false ∧ o.path = false)) :
    ∃ rest, (run w o (.file name (some reads))).lines = printed b :: rest := by
  have heff : o.effective.orig = true ∧ o.effective.quiet = false := by
    unfold Opts.effective
    rcases ho with ho | ⟨h1, h2, h3⟩
    · simp [ho, hq]
    · cases e : o.orig <;> simp [*]
  have hsb : ∃ rest, (showBytes w o.effective b).lines = printed b :: rest := by
    unfold showBytes
    simp only [heff.1, if_true, out, heff.2, Bool.false_eq_true, if_false, andThen_ok]
    exact ⟨_, rfl⟩
  cases h with
  | sidecar h hb => simp only [run, h, if_true, hb]; exact hsb
  | embedded h hb =>
    simp only [run, if_neg h, hb]
    split
    · rw [outs_all _ heff.2]
      exact ⟨_, rfl⟩
    · exact hsb

/-- **C79.** All packets of a file are printed with `-all`, in their order, unchanged, and nothing else is. -/
theorem info_prints_all (w : World) (o : Opts) (name : Str) (reads : List Str) (b : Str) (bs : List Str) (hn : extOf name ≠ ".xmp".toList)
    (hs : scanPackets reads = .ok (b :: bs)) (hq : o.quiet = false) (ha : o.all = true)
    (ho : o.orig = true ∨ (o.json = false ∧ o.xmp = false ∧ o.path = false)) :
    run w o (.file name (some reads)) = ⟨(b :: bs).map printed, .ok⟩ := by
  have heff : o.effective.orig = true ∧ o.effective.quiet = false ∧ o.effective.all = true := by
    unfold Opts.effective
    rcases ho with ho | ⟨h1, h2, h3⟩
    · simp [ho, hq, ha]
    · cases e : o.orig <;> simp [*]
  simp only [run, if_neg hn, hs, heff.1, heff.2.2, Bool.and_self, if_true]
  exact outs_all _ heff.2.1 _

/-- **C79.** A document that is saved is shown: take any document of models of the library, whose values can be read back and
consist of texts of XML.  Written as a packet and put between other bytes into a file, or saved as a file `.xmp` with whatever
after it, the command prints with `-path` the listing of the document, and nothing else.  (Packets of more than 61440 bytes and
reads that cut the start marker are missing, see C25.) -/
theorem info_shows_paths_partial (P : List Str) (hc : Closed P) (hx : "xmp_tpg".toList ∈ P → "xmp_base".toList ∈ P)
    (h : RegHistory) (hp : Program P h) (w : World) (hn : ∀ e ∈ h, e ∉ shippedRegs → DeclOK w.uni e.1)
    (K : Str → Codec) (Z : Str → List Val → Bool) (he : ShippedEnv P h K Z w.env) (p : Packet) (hd : ShippedDoc P K Z p.doc) (ht : XmlTexts p)
    (ho : ∀ x l, (w.order x l).Perm l) (hs : w.sort [] = []) (l : PathValueList) (hl : p.doc.listPaths w.env w.sort = .ok l) :
    ∃ b, marshal w p = some b ∧ HoldsListing w P K Z l b ∧
      (∀ name reads rest, extOf name = ".xmp".toList → reads.flatten = b ++ rest →
        run w { path := true } (.file name (some reads)) = ⟨l.map shownLine, .ok⟩) ∧
      (b.length ≤ 61440 → ∀ name reads before after, extOf name ≠ ".xmp".toList → NoStart before → NoStart after →
        Arrives reads (before ++ b ++ after) → run w { path := true } (.file name (some reads)) = ⟨l.map shownLine, .ok⟩) ∧
      run w { path := true } (.demo p) = ⟨l.map shownLine, .ok⟩ := by
  obtain ⟨t, h1, hnames, hlist⟩ := shipped_bytes_again hc hx hp hn he hd ht ho hs hl
  have hshow := fun rest => showBytes_listing (hlist rest)
  have heff : ({ path := true } : Opts).effective = { path := true } := rfl
  refine ⟨_, marshal_some h1, ?_, ?_, ?_, ?_⟩
  · have := hlist []
    rwa [List.append_nil] at this
  · intro name reads rest hname hreads
    rw [run_holds (.sidecar hname hreads) rfl, heff]
    exact hshow rest
  · intro hlen name reads before after hname hb ha hr
    have hf := embedded_packet_found w.uni (ind := some ([], "  ".toList)) ⟨by decide, by decide⟩ t hnames [] (by simp) hlen before after hb ha reads hr.bytes hr.fits hr.uncut
    rw [run_holds (.embedded hname hf) rfl, heff]
    have := hshow []
    rwa [List.append_nil] at this
  · simp only [run, marshal_some h1]
    have := hshow []
    rwa [List.append_nil] at this

/-- **C79.** What the command prints can be used again, any number of times: if bytes hold a document of models of the library,
whose values can be read back and consist of texts of XML, and the command prints it with `-xmp`, the output is saved (with the line
feed at its end) and printed again, and so on, then the command succeeds every time and always lists the same paths and values. -/
theorem info_reprinted_partial (P : List Str) (hc : Closed P) (hx : "xmp_tpg".toList ∈ P → "xmp_base".toList ∈ P)
    (h : RegHistory) (hp : Program P h) (w : World) (hn : ∀ e ∈ h, e ∉ shippedRegs → DeclOK w.uni e.1)
    (K : Str → Codec) (Z : Str → List Val → Bool) (he : ShippedEnv P h K Z w.env) (ho : ∀ x l, (w.order x l).Perm l) (hs : w.sort [] = [])
    (l : PathValueList) (b : Str) (hb : HoldsListing w P K Z l b) (b' : Str) (hr : Reprinted w b b') (name : Str) (reads : List Str)
    (hf : HoldsFirst name reads b') :
    run w { path := true } (.file name (some reads)) = ⟨l.map shownLine, .ok⟩ ∧
      ∃ s, run w { xmp := true } (.file name (some reads)) = ⟨[.text s], .ok⟩ := by
  have step : ∀ b1, HoldsListing w P K Z l b1 → ∀ name reads, HoldsFirst name reads b1 →
      ∃ s, run w { xmp := true } (.file name (some reads)) = ⟨[.text s], .ok⟩ ∧ HoldsListing w P K Z l s := by
    rintro b1 ⟨p, hu, hd, ht, hl⟩ name reads hf
    obtain ⟨t, h1, -, h2⟩ := shipped_bytes_again hc hx hp hn he hd ht ho hs hl
    refine ⟨printPacket (some ([], "  ".toList)) t [] ++ "\n".toList, ?_, h2 _⟩
    rw [run_holds hf rfl, effective_xmp _ rfl]
    unfold showBytes showDoc
    simp only [hu, marshal_some h1, Bool.false_eq_true, if_false, if_true, andThen_nil, out]
    rfl
  have inv : HoldsListing w P K Z l b' := by
    clear hf
    induction hr with
    | none => exact hb
    | @again b1 s name reads _ hf hr ih =>
      obtain ⟨s', h1, h2⟩ := step b1 ih name reads hf
      rw [hr] at h1
      cases h1
      exact h2
  refine ⟨?_, ?_⟩
  · rw [run_holds hf rfl, effective_path _ rfl]
    exact showBytes_listing inv
  · obtain ⟨s, h1, -⟩ := step b' inv name reads hf
    exact ⟨s, h1⟩

/-- **C79.** With `-quiet` and without `-path` nothing is printed but an error. -/
theorem info_quiet_partial (w : World) (o : Opts) (src : Source) (hq : o.quiet = true) (hp : o.path = false) :
    ∀ x ∈ (run w o src).lines, x = .error ∧ (run w o src).status = .failed := by
  have hout : ∀ b, out o b = ⟨[], .ok⟩ := by intro b; simp [out, hq]
  have hdoc : ∀ p, showDoc w o p = ⟨[], .ok⟩ ∨ showDoc w o p = fail := by
    intro p
    unfold showDoc
    simp only [hout, hp, Bool.false_eq_true, if_false]
    cases o.json <;> cases o.xmp <;> cases w.json p <;> cases marshal w p <;> simp [Run.andThen, fail]
  have hbytes : ∀ b, showBytes w o b = ⟨[], .ok⟩ ∨ showBytes w o b = fail ∨ showBytes w o b = ⟨[], .panic⟩ := by
    intro b
    unfold showBytes
    simp only [hout, ite_self, andThen_nil]
    cases unmarshalText w.uni w.env Version.zero b with
    | ok p => rcases hdoc p with e | e <;> simp [e]
    | err => simp
    | panic => simp
  have hfin : ∀ r : Run, r = ⟨[], .ok⟩ ∨ r = fail ∨ r = ⟨[], .panic⟩ → ∀ x ∈ r.lines, x = .error ∧ r.status = .failed := by
    rintro r (rfl | rfl | rfl) x hx
    · simp at hx
    · simp only [fail, List.mem_singleton] at hx
      exact ⟨hx, rfl⟩
    · simp at hx
  have hall : ∀ l : List Str, l.foldr (fun b r => (out o b).andThen r) ⟨[], .ok⟩ = ⟨[], .ok⟩ := by
    intro l
    induction l with
    | nil => rfl
    | cons b l ih => rw [List.foldr_cons, ih, hout]; rfl
  apply hfin
  unfold run
  simp only [effective_quiet o hq]
  split
  · split
    · exact hbytes _
    · exact Or.inr (Or.inl rfl)
  · exact Or.inr (Or.inl rfl)
  · split
    · exact hbytes _
    · split
      · exact Or.inr (Or.inr rfl)
      · exact Or.inr (Or.inl rfl)
      · exact Or.inl rfl
      · split
        · exact Or.inl (hall _)
        · exact hbytes _

/-! ### Findings -/

/-- **C79, finding.** `-quiet` ("don't output anything") does not silence `-path`: the listing is the same with it and without. -/
theorem quiet_prints_paths (w : World) (src : Source) :
    run w { quiet := true, path := true } src = run w { path := true } src := by
  have hb : ∀ b, showBytes w { quiet := true, path := true } b = showBytes w { path := true } b := by
    intro b; unfold showBytes showDoc; rfl
  unfold run
  simp only [effective_path { quiet := true, path := true } rfl, effective_path { path := true } rfl, hb, Bool.and_false, Bool.false_eq_true, if_false]

/-- **C79, finding.** With `-orig -all` the other outputs that are asked for are not printed for files with embedded packets. -/
theorem all_hides_others (w : World) (o : Opts) (ho : o.orig = true) (ha : o.all = true) (name : Str) (reads : List Str)
    (hn : extOf name ≠ ".xmp".toList) :
    run w o (.file name (some reads)) = run w { quiet := o.quiet, orig := true, all := true } (.file name (some reads)) := by
  unfold run
  simp only [effective_orig o ho, effective_orig { quiet := o.quiet, orig := true, all := true } rfl, if_neg hn, ho, ha, Bool.and_self, if_true, out]

/-- **C79, finding.** `-all` ("output all embedded xmp documents") does nothing for the other outputs: only the first document is
shown. -/
theorem all_shows_first (w : World) (o o' : Opts) (ho : o.orig = false) (hx : o.json = true ∨ o.xmp = true ∨ o.path = true)
    (ho' : o' = { o with all := true }) (src : Source) : run w o' src = run w o src := by
  have e : ∀ u : Opts, u.json = true ∨ u.xmp = true ∨ u.path = true → u.effective = u := by
    intro u hu
    unfold Opts.effective
    rcases hu with h | h | h <;> simp [h]
  have e1 := e o hx
  have e2 := e o' (by rw [ho']; exact hx)
  have hb : ∀ b, showBytes w o' b = showBytes w o b := by
    intro b; rw [ho']; unfold showBytes showDoc out; rfl
  have horig : o'.orig = false := by rw [ho']; exact ho
  unfold run
  simp only [e1, e2, hb, ho, horig, Bool.false_and, Bool.false_eq_true, if_false]

/-- **C79, finding.** A file whose name ends in `.XMP`, or in anything else but `.xmp`, and that has no packet around its document
gives no output and no error, whatever is asked for. -/
theorem other_extension_silent (w : World) (o : Opts) (name : Str) (reads : List Str) (hn : extOf name ≠ ".xmp".toList)
    (hs : scanPackets reads = .ok []) : run w o (.file name (some reads)) = ⟨[], .ok⟩ := by
  simp only [run, if_neg hn, hs]

end Xmp.Props
