import Verif.Props.JsonText

/-! Properties of whole documents as JSON texts (C68). -/

namespace Xmp.Props

open GoStr Utf8 JsonText List

/-! ### The order of entries -/

mutual
theorem jsame_trans : ∀ (a b c : Json), JSame a b → JSame b c → JSame a c
  | .str s, b, c, h1, h2 => by rw [JSame] at h1; subst h1; exact h2
  | .num s, b, c, h1, h2 => by rw [JSame] at h1; subst h1; exact h2
  | .bool s, b, c, h1, h2 => by rw [JSame] at h1; subst h1; exact h2
  | .null, b, c, h1, h2 => by rw [JSame] at h1; subst h1; exact h2
  | .arr l, b, c, h1, h2 => by
    rw [JSame] at h1
    obtain ⟨l', rfl, h1⟩ := h1
    rw [JSame] at h2
    obtain ⟨l'', rfl, h2⟩ := h2
    rw [JSame]
    exact ⟨l'', rfl, jsameList_trans l l' l'' h1 h2⟩
  | .obj m, b, c, h1, h2 => by
    rw [JSame] at h1
    obtain ⟨m1, m2, rfl, hp, h1⟩ := h1
    rw [JSame] at h2
    obtain ⟨m3, m4, rfl, hq, h2⟩ := h2
    rw [jsameFields_iff] at h2
    obtain ⟨m5, k1, k2⟩ := perm_comp_forall₂ hp h2
    rw [JSame]
    exact ⟨m3, m5, rfl, k2.trans hq, jsameFields_trans m m2 m5 h1 ((jsameFields_iff _ _).2 k1)⟩
theorem jsameList_trans : ∀ (a b c : List Json), JSameList a b → JSameList b c → JSameList a c
  | [], b, c, h1, h2 => by rw [JSameList] at h1; subst h1; exact h2
  | j :: l, b, c, h1, h2 => by
    rw [JSameList] at h1
    obtain ⟨j', l', rfl, h3, h4⟩ := h1
    rw [JSameList] at h2
    obtain ⟨j'', l'', rfl, h5, h6⟩ := h2
    rw [JSameList]
    exact ⟨j'', l'', rfl, jsame_trans j j' j'' h3 h5, jsameList_trans l l' l'' h4 h6⟩
theorem jsameFields_trans : ∀ (a b c : List (Str × Json)), JSameFields a b → JSameFields b c → JSameFields a c
  | [], b, c, h1, h2 => by rw [JSameFields] at h1; subst h1; exact h2
  | (k, j) :: l, b, c, h1, h2 => by
    rw [JSameFields] at h1
    obtain ⟨j', l', rfl, h3, h4⟩ := h1
    rw [JSameFields] at h2
    obtain ⟨j'', l'', rfl, h5, h6⟩ := h2
    rw [JSameFields]
    exact ⟨j'', l'', rfl, jsame_trans j j' j'' h3 h5, jsameFields_trans l l' l'' h4 h6⟩
end

theorem jdocSame_trans {a b c : JDoc} (h1 : JDocSame a b) (h2 : JDocSame b c) : JDocSame a c := by
  obtain ⟨e1, e2, p1, m1, f1, q1⟩ := h1
  obtain ⟨e3, e4, p2, m2, f2, q2⟩ := h2
  obtain ⟨m3, f3, q3⟩ := perm_comp_forall₂ q1 f2
  refine ⟨e3.trans e1, e4.trans e2, p1.trans p2, m3, ?_, q3.trans q2⟩
  rw [← jsameFields_iff] at f1 f3 ⊢
  exact jsameFields_trans _ _ _ f1 f3

mutual
theorem textOK_same : ∀ (d : Nat) (a b : Json), TextOK d a → JSame a b → TextOK d b
  | _, .str s, b, h, e => by rw [JSame] at e; subst e; exact h
  | _, .num _, b, h, e => by rw [JSame] at e; subst e; exact h
  | _, .bool _, b, h, e => by rw [JSame] at e; subst e; exact h
  | _, .null, b, h, e => by rw [JSame] at e; subst e; exact h
  | 0, .arr _, _, h, _ => by simp [TextOK] at h
  | 0, .obj _, _, h, _ => by simp [TextOK] at h
  | d + 1, .arr l, b, h, e => by
    rw [JSame] at e
    obtain ⟨l', rfl, e⟩ := e
    rw [TextOK] at h ⊢
    exact textOKItems_same d l l' h e
  | d + 1, .obj m, b, h, e => by
    rw [JSame] at e
    obtain ⟨m', m'', rfl, hp, e⟩ := e
    rw [TextOK] at h ⊢
    obtain ⟨h1, h2⟩ := textOKFields_same d m m'' h.2 e
    refine ⟨?_, ?_⟩
    · have := (hp.map (·.1)).nodup_iff.1 (by rw [h2]; exact h.1)
      exact this
    · rw [textOKFields_iff] at h1 ⊢
      exact fun e he => h1 e (hp.mem_iff.2 he)
theorem textOKItems_same : ∀ (d : Nat) (a b : List Json), TextOKItems d a → JSameList a b → TextOKItems d b
  | _, [], b, h, e => by rw [JSameList] at e; subst e; exact h
  | d, j :: l, b, h, e => by
    rw [JSameList] at e
    obtain ⟨j', l', rfl, e1, e2⟩ := e
    rw [TextOKItems] at h ⊢
    exact ⟨textOK_same d j j' h.1 e1, textOKItems_same d l l' h.2 e2⟩
theorem textOKFields_same : ∀ (d : Nat) (a b : List (Str × Json)), TextOKFields d a → JSameFields a b →
    TextOKFields d b ∧ b.map (·.1) = a.map (·.1)
  | _, [], b, h, e => by rw [JSameFields] at e; subst e; exact ⟨h, rfl⟩
  | d, (k, j) :: l, b, h, e => by
    rw [JSameFields] at e
    obtain ⟨j', l', rfl, e1, e2⟩ := e
    rw [TextOKFields] at h
    obtain ⟨h1, h2⟩ := textOKFields_same d l l' h.2 e2
    rw [TextOKFields]
    exact ⟨⟨⟨h.1.1, textOK_same d j j' h.1.2 e1⟩, h1⟩, by rw [map_cons, map_cons, h2]⟩
end

theorem docTextOK_same {a b : JDoc} (h : DocTextOK a) (e : JDocSame a b) : DocTextOK b := by
  obtain ⟨e1, e2, p, m, f, q⟩ := e
  rw [← jsameFields_iff] at f
  obtain ⟨h1, h2⟩ := textOKFields_same _ _ _ ((textOKFields_iff _ _).2 h.models) f
  rw [textOKFields_iff] at h1
  exact {
    about := e1 ▸ h.about
    toolkit := e2 ▸ h.toolkit
    nsKeys := (p.map (·.1)).nodup_iff.1 h.nsKeys
    ns := fun x hx => h.ns x (p.mem_iff.2 hx)
    modelKeys := (q.map (·.1)).nodup_iff.1 (by rw [h2]; exact h.modelKeys)
    models := fun x hx => h1 x (q.mem_iff.2 hx) }

/-! ### Keys of written objects are distinct -/

mutual
/-- The keys of every object are distinct. -/
def Keys : Json → Prop
  | .str _ => True
  | .num _ => True
  | .bool _ => True
  | .null => True
  | .arr l => KeysItems l
  | .obj m => (m.map (·.1)).Nodup ∧ KeysFields m
/-- Item by item. -/
def KeysItems : List Json → Prop
  | [] => True
  | j :: l => Keys j ∧ KeysItems l
/-- Entry by entry. -/
def KeysFields : List (Str × Json) → Prop
  | [] => True
  | (_, j) :: m => Keys j ∧ KeysFields m
end

mutual
/-- All texts and keys are UTF-8. -/
def Utf8Tree : Json → Prop
  | .str s => IsUtf8 s
  | .num _ => True
  | .bool _ => True
  | .null => True
  | .arr l => Utf8Items l
  | .obj m => Utf8Fields m
/-- Item by item. -/
def Utf8Items : List Json → Prop
  | [] => True
  | j :: l => Utf8Tree j ∧ Utf8Items l
/-- Entry by entry. -/
def Utf8Fields : List (Str × Json) → Prop
  | [] => True
  | (k, j) :: m => (IsUtf8 k ∧ Utf8Tree j) ∧ Utf8Fields m
end

mutual
theorem textOK_of : ∀ (d : Nat) (j : Json), Fits d j → Utf8Tree j → Keys j → TextOK d j
  | _, .str s, _, h, _ => by rw [Utf8Tree] at h; rw [TextOK]; exact h
  | _, .num _, h, _, _ => by simp [Fits] at h
  | _, .bool _, _, _, _ => by simp [TextOK]
  | _, .null, _, _, _ => by simp [TextOK]
  | 0, .arr _, h, _, _ => by simp [Fits] at h
  | 0, .obj _, h, _, _ => by simp [Fits] at h
  | d + 1, .arr l, h1, h2, h3 => by
    rw [Fits] at h1; rw [Utf8Tree] at h2; rw [Keys] at h3; rw [TextOK]
    exact textOKItems_of d l h1 h2 h3
  | d + 1, .obj m, h1, h2, h3 => by
    rw [Fits] at h1; rw [Utf8Tree] at h2; rw [Keys] at h3; rw [TextOK]
    exact ⟨h3.1, textOKFields_of d m h1 h2 h3.2⟩
theorem textOKItems_of : ∀ (d : Nat) (l : List Json), FitsItems d l → Utf8Items l → KeysItems l → TextOKItems d l
  | _, [], _, _, _ => by simp [TextOKItems]
  | d, j :: l, h1, h2, h3 => by
    rw [FitsItems] at h1; rw [Utf8Items] at h2; rw [KeysItems] at h3; rw [TextOKItems]
    exact ⟨textOK_of d j h1.1 h2.1 h3.1, textOKItems_of d l h1.2 h2.2 h3.2⟩
theorem textOKFields_of : ∀ (d : Nat) (m : List (Str × Json)), FitsFields d m → Utf8Fields m → KeysFields m → TextOKFields d m
  | _, [], _, _, _ => by simp [TextOKFields]
  | d, (k, j) :: l, h1, h2, h3 => by
    rw [FitsFields] at h1; rw [Utf8Fields] at h2; rw [KeysFields] at h3; rw [TextOKFields]
    exact ⟨⟨h2.1.1, textOK_of d j h1.1 h2.1.2 h3.1⟩, textOKFields_of d l h1.2 h2.2 h3.2⟩
end

theorem keysFields_iff (m : List (Str × Json)) : KeysFields m ↔ ∀ e ∈ m, Keys e.2 := by
  induction m with
  | nil => simp [KeysFields]
  | cons e m ih => obtain ⟨k, j⟩ := e; simp [KeysFields, ih]

/-- A map with distinct keys whose values have distinct keys. -/
def KeysMap (m : GoMap Json) : Prop := (m.map (·.1)).Nodup ∧ ∀ e ∈ m, Keys e.2

theorem nodup_set {V : Type} {m : GoMap V} (h : (m.map (·.1)).Nodup) (k : Str) (v : V) : ((m.set k v).map (·.1)).Nodup := by
  unfold GoMap.set GoMap.del
  rw [map_cons, nodup_cons]
  refine ⟨?_, h.sublist ((filter_sublist).map _)⟩
  simp

theorem keysMap_set {m : GoMap Json} (h : KeysMap m) (k : Str) {v : Json} (hv : Keys v) : KeysMap (m.set k v) := by
  refine ⟨nodup_set h.1 k v, fun e he => ?_⟩
  unfold GoMap.set GoMap.del at he
  rcases mem_cons.1 he with rfl | he
  · exact hv
  · exact h.2 e (mem_filter.1 he).1

theorem keysMap_attrs (as : List Attr) (m : GoMap Json) (h : KeysMap m) : KeysMap (Json.ofAttrs as m) := by
  induction as generalizing m with
  | nil => exact h
  | cons a as ih =>
    rw [Json.ofAttrs]
    split_ifs
    · exact ih _ h
    · exact ih _ (keysMap_set h _ (by simp [Keys]))

theorem keysItems_alt (l : List AltItem) : KeysItems (l.map Json.ofAltItem) := by
  induction l with
  | nil => simp [KeysItems]
  | cons x l ih =>
    rw [map_cons, KeysItems]
    refine ⟨?_, ih⟩
    unfold Json.ofAltItem
    rw [Keys]
    exact ⟨by simp, by simp [KeysFields, Keys]⟩

mutual
theorem keys_ofNode (r : Registry) : ∀ n : Node, Keys (Json.ofNode r n)
  | .mk _ attrs value nodes => by
    rw [Json.ofNode]
    split_ifs
    · simp [Keys]
    · exact keys_ofChildren r nodes _ (keysMap_attrs attrs [] ⟨by simp, by simp⟩)
theorem keys_ofChildren (r : Registry) : ∀ (ns : List Node) (out : GoMap Json), KeysMap out → Keys (Json.ofChildren r ns out)
  | [], out, h => by rw [Json.ofChildren, Keys, keysFields_iff]; exact h
  | v :: vs, out, h => by
    rw [Json.ofChildren]
    split_ifs
    · exact keys_ofArray r v
    · exact keys_ofAlt r v
    · exact keys_ofChildren r vs _ (keysMap_set h _ (keys_ofNode r v))
theorem keys_ofArray (r : Registry) : ∀ n : Node, Keys (Json.ofArray r n)
  | .mk _ _ _ lis => by rw [Json.ofArray, Keys]; exact keys_ofItems r lis
theorem keys_ofAlt (r : Registry) : ∀ n : Node, Keys (Json.ofAlt r n)
  | .mk _ _ _ lis => by
    rw [Json.ofAlt.eq_def]
    simp only
    split
    · rw [Keys]; exact keys_ofItems r _
    · rw [Keys]; exact keysItems_alt _
theorem keys_ofItems (r : Registry) : ∀ l : List Node, KeysItems (Json.ofItems r l)
  | [] => by rw [Json.ofItems, KeysItems]; trivial
  | n :: ns => by rw [Json.ofItems, KeysItems]; exact ⟨keys_ofNode r n, keys_ofItems r ns⟩
end

theorem keysMap_models (r : Registry) (ws : List Node) (m : GoMap Json) (h : KeysMap m) : KeysMap (JDoc.modelsOf r ws m) := by
  induction ws generalizing m with
  | nil => exact h
  | cons w ws ih =>
    rw [JDoc.modelsOf]
    split_ifs
    · exact ih _ h
    · exact ih _ (keysMap_set h _ (keys_ofNode r w))

theorem nodup_addNamespaces (l : List Namespace) (m : GoMap Str) (h : (m.map (·.1)).Nodup) :
    ((JDoc.addNamespaces l m).map (·.1)).Nodup := by
  induction l generalizing m with
  | nil => exact h
  | cons n l ih =>
    rw [JDoc.addNamespaces]
    split_ifs
    · exact ih _ h
    · exact ih _ (nodup_set h _ _)

theorem nodup_namespacesOf (env : Env) (d : XDoc) (ws : List Node) (m : GoMap Str) (h : (m.map (·.1)).Nodup) :
    ((JDoc.namespacesOf env d ws m).map (·.1)).Nodup := by
  induction ws generalizing m with
  | nil => exact h
  | cons w ws ih => rw [JDoc.namespacesOf]; exact ih _ (nodup_addNamespaces _ _ h)

/-- **C68.** The keys of every object that a document is written as are distinct, so no entry hides another. -/
theorem json_keys_distinct {env : Env} {p : Packet} {jd : JDoc} (h : JDoc.ofDoc env p = some jd) :
    (jd.namespaces.map (·.1)).Nodup ∧ (jd.models.map (·.1)).Nodup ∧ ∀ e ∈ jd.models, Keys e.2 := by
  unfold JDoc.ofDoc at h
  split at h
  · cases h
  · rename_i ws _
    cases h
    have := keysMap_models env.reg ws [] ⟨by simp, by simp⟩
    exact ⟨nodup_namespacesOf env p.doc ws [] (by simp), this.1, this.2⟩

/-! ### Documents -/

/-- The texts of a document are UTF-8, and it is not nested too deep. -/
structure DocUtf8 (jd : JDoc) : Prop where
  about : IsUtf8 jd.about
  toolkit : IsUtf8 jd.toolkit
  ns : ∀ e ∈ jd.namespaces, IsUtf8 e.1 ∧ IsUtf8 e.2
  models : ∀ e ∈ jd.models, IsUtf8 e.1 ∧ Utf8Tree e.2 ∧ Fits (maxDepth - 2) e.2

/-- **C68.** A document written as JSON text is read back from the text, with whatever order of entries it is written and
visited.  What has to hold for the document is said in C53 (`DocOK`, `JRootOK`); what has to hold for the text is that its
strings are UTF-8 and that it is nested at most 10000 deep.  Missing are the documents that C53 leaves out. -/
theorem json_text_document_roundtrip_partial (h : RegHistory) (env : Env) (dv : Version) (S : Str → Prop) (p : Packet)
    (hok : DocOK h env p.doc dv S) (hx : ¬ S "x".toList) (hj : ∀ r ∈ p.doc.roots, JRootOK env.reg r) (num : Str → Option Str) :
    ∃ jd, JDoc.ofDoc env p = some jd ∧ (DocUtf8 jd → ∀ jd1, JDocSame jd jd1 →
      ∃ jd2, readDoc num (printDoc jd1) = some jd2 ∧ ∀ jd3, JDocSame jd2 jd3 → ∃ p', JDoc.toDoc env dv jd3 = .ok p' ∧
      p'.about = p.about ∧ p'.toolkit = (if p.toolkit = [] then Enc.toolkitVersion else p.toolkit) ∧
      (∃ rs, rs ~ withContent p.doc.roots ∧ Forall₂ (RootSame env.reg) rs p'.doc.roots) ∧
      ∀ r ∈ withContent p.doc.roots, ∀ q, Uses r q → S q → ∃ ns, p'.doc.findNsByPrefix env q = some ns ∧ ns.uri = bindOf env p.doc q) := by
  obtain ⟨jd, h1, h2⟩ := json_document_roundtrip_partial h env dv S p hok hx hj
  refine ⟨jd, h1, fun hu jd1 hs => ?_⟩
  obtain ⟨k1, k2, k3⟩ := json_keys_distinct h1
  have hd : DocTextOK jd := {
    about := hu.about
    toolkit := hu.toolkit
    nsKeys := k1
    ns := hu.ns
    modelKeys := k2
    models := fun e he => ⟨(hu.models e he).1, textOK_of _ _ (hu.models e he).2.2 (hu.models e he).2.1 (k3 e he)⟩ }
  exact ⟨jd1, json_members_roundtrip num jd1 (docTextOK_same hd hs), fun jd3 h3 => h2 jd3 (jdocSame_trans hs h3)⟩

/-- What the sample document of C53 is written as. -/
def sampleJd : JDoc := {
  about := "me".toList
  toolkit := "Go XMP SDK 1.0".toList
  namespaces := [("zz".toList, "u:zz".toList), ("plain".toList, "u:plain".toList), ("ex".toList, "u:ex".toList)]
  models := [("zz".toList, .obj [("zz:b".toList, .obj [("plain:c".toList, .str "v".toList)])]),
    ("ex".toList, .obj [("ex:note".toList, .str "n".toList), ("ex:studio".toList, .obj [("ex:name".toList, .str "S".toList)]),
      ("ex:cast".toList, .arr [.obj [("ex:count".toList, .str "3".toList), ("ex:name".toList, .str "A".toList)], .obj [],
        .obj [("ex:count".toList, .str "-1".toList), ("ex:name".toList, .str "B C".toList)]]),
      ("ex:title".toList, .arr [.obj [("value".toList, .str "Hello".toList), ("lang".toList, .str "en".toList), ("isDefault".toList, .bool true)],
        .obj [("value".toList, .str "Hallo".toList), ("lang".toList, .str "de".toList), ("isDefault".toList, .bool false)]]),
      ("ex:extra".toList, .str "1".toList), ("ex:year".toList, .str "1999".toList)])] }

theorem sampleJd_eq : JDoc.ofDoc docEnv sampleDocJ = some sampleJd := by rfl

/-- The sample meets the conditions of the theorem. -/
theorem sampleJd_utf8 : DocUtf8 sampleJd := by
  have u (s : Str) (h : ∀ c ∈ s, c.toNat < 0x80) : IsUtf8 s := ascii_utf8 h
  refine ⟨u _ (by decide), u _ (by decide), ?_, ?_⟩
  · have : ∀ e ∈ sampleJd.namespaces, (∀ c ∈ e.1, c.toNat < 0x80) ∧ ∀ c ∈ e.2, c.toNat < 0x80 := by decide
    exact fun e he => ⟨u _ (this e he).1, u _ (this e he).2⟩
  · intro e he
    simp only [sampleJd, mem_cons, not_mem_nil, or_false] at he
    rcases he with rfl | rfl
    · refine ⟨u _ (by decide), ?_, ?_⟩
      · simp only [Utf8Tree, Utf8Fields, and_true]
        exact ⟨u _ (by decide), u _ (by decide), u _ (by decide)⟩
      · show Fits (9996 + 1 + 1) _
        simp only [Fits, FitsFields, and_true]
    · refine ⟨u _ (by decide), ?_, ?_⟩
      · simp only [Utf8Tree, Utf8Fields, Utf8Items, and_true]
        repeat' apply And.intro
        all_goals first | trivial | (refine ascii_utf8 ?_; decide)
      · show Fits (9995 + 1 + 1 + 1) _
        simp only [Fits, FitsFields, FitsItems, and_true]

end Xmp.Props
