import Verif.Props.DocXmp
import Verif.Props.TypedXmpCases

/-! C46: a concrete document that survives, and what does not survive. -/

namespace Xmp.Props

open GoStr

/-- A document is written, its text parsed and decoded; `none` is an error. -/
def docTrip (env : Env) (dv : Version) (order : Node → List Namespace → List Namespace) (ind : Option (Str × Str)) (p : Packet) : Option Packet :=
  match Enc.encode env order p with
  | none => none
  | some t =>
    match Xml.reads Xml.baseScope (Xml.ofNode ind 0 t) with
    | [t'] =>
      match Dec.decode env dv t' with
      | .ok q => some q
      | _ => none
    | _ => none

/-- C46 as one equation. -/
theorem docTrip_some_partial (h : RegHistory) (env : Env) (dv : Version) (S : Str → Prop) (p : Packet) (hok : DocOK h env p.doc dv S)
    (order : Node → List Namespace → List Namespace) (ho : ∀ w l, (order w l).Perm l) (ind : Option (Str × Str)) (hb : Blank ind)
    (hu : ind.isSome = true → ∀ r ∈ p.doc.roots, UnmixedAll r.node.nodes) :
    ∃ q, docTrip env dv order ind p = some q ∧ q.doc.roots = withContent p.doc.roots := by
  obtain ⟨t, t', q, h1, h2, h3, h4, -⟩ := document_roundtrip_partial h env dv S p hok order ho ind hb hu
  exact ⟨q, by simp [docTrip, h1, h2, h3], h4⟩

/-! ### A concrete document -/

/-- Core namespaces, a namespace with a model and a registered namespace without model. -/
def docReg : RegHistory :=
  [(nsX, []), (nsXML, []), (nsRDF, []), (⟨"ex".toList, "u:ex".toList, some 0⟩, []), (⟨"plain".toList, "u:plain".toList, none⟩, [])]

/-- The model of the namespace `ex`. -/
def movieMdl (v : Val) : Mdl := ⟨[⟨"ex".toList, "u:ex".toList, some 0⟩], ["ex".toList], movieTy, v⟩

/-- The sample environment. -/
def docEnv : Env := { reg := runReg docReg, make := fun _ _ => some (movieMdl movieTy.zero) }

/-- A movie with an attribute and an element that the model does not know. -/
def movieRoot : Root :=
  { node := .mk ⟨[], "ex".toList⟩ [⟨⟨[], "ex:extra".toList⟩, "1".toList⟩] []
      [.mk ⟨[], "ex:note".toList⟩ [⟨⟨[], "xml:lang".toList⟩, "en".toList⟩] "n".toList []]
    model := some (movieMdl movieVal) }

/-- A node of an unregistered namespace with a nested element of another one. -/
def foreignRoot : Root :=
  { node := .mk ⟨[], "zz".toList⟩ [⟨⟨[], "zz:a".toList⟩, "2".toList⟩] []
      [.mk ⟨[], "zz:b".toList⟩ [] [] [.mk ⟨[], "plain:c".toList⟩ [⟨⟨[], "zz:d".toList⟩, "q".toList⟩] "v".toList []]] }

/-- The sample document. -/
def sampleDoc : Packet :=
  { doc := { roots := [movieRoot, foreignRoot], extNs := [("u:zz".toList, ⟨"zz".toList, "u:zz".toList, none⟩)] }
    about := "me".toList, toolkit := "tk".toList }

/-- The prefixes of the sample document. -/
def samplePre (p : Str) : Prop := p = "ex".toList ∨ p = "plain".toList ∨ p = "zz".toList

theorem sampleNs : DocNs docReg docEnv sampleDoc.doc samplePre where
  reg := rfl
  core := by
    intro ns hns
    simp only [List.mem_cons, List.not_mem_nil, or_false] at hns
    rcases hns with rfl | rfl | rfl
    · exact ⟨by decide, by decide, ⟨_, rfl, by decide, by decide⟩⟩
    · exact ⟨by decide, by decide, ⟨_, rfl, by decide, by decide⟩⟩
    · exact ⟨by decide, by decide, ⟨_, rfl, by decide, by decide⟩⟩
  rdf := by decide
  xml := by decide
  plain := by rintro p (rfl | rfl | rfl) <;> decide
  found := by
    rintro p (rfl | rfl | rfl)
    · exact ⟨_, rfl, by decide, by decide, Or.inl ⟨by decide, by decide, ⟨_, rfl, by decide, by decide⟩⟩⟩
    · exact ⟨_, rfl, by decide, by decide, Or.inl ⟨by decide, by decide, ⟨_, rfl, by decide, by decide⟩⟩⟩
    · exact ⟨_, rfl, by decide, by decide, Or.inr (by decide : (runReg docReg).getPrefix "u:zz".toList = [])⟩
  inj := by
    have e1 : sampleDoc.doc.findNsByPrefix docEnv "ex".toList = some ⟨"ex".toList, "u:ex".toList, some 0⟩ := by decide
    have e2 : sampleDoc.doc.findNsByPrefix docEnv "plain".toList = some ⟨"plain".toList, "u:plain".toList, none⟩ := by decide
    have e3 : sampleDoc.doc.findNsByPrefix docEnv "zz".toList = some ⟨"zz".toList, "u:zz".toList, none⟩ := by decide
    rintro p q ns ns' (rfl | rfl | rfl) (rfl | rfl | rfl) h1 h2 e <;> first | rfl | skip
    all_goals
      exfalso
      simp only [e1, e2, e3, Option.some.injEq] at h1 h2
      rw [← h1, ← h2] at e
      revert e
      decide
  markup := by
    intro m hm hS
    have : ∀ m ∈ ["parseType".toList, "Seq".toList, "Bag".toList, "Alt".toList, "li".toList, "lang".toList],
      ¬ (m = "ex".toList ∨ m = "plain".toList ∨ m = "zz".toList) := by decide
    exact this m hm hS

theorem sampleNameS {S : Str → Prop} {p : Str} (loc : Str) (hl : loc ≠ []) (hc : ':' ∉ loc) (hp : S p) : NameS S (p ++ ':' :: loc) :=
  ⟨p, loc, rfl, hc, hl, hp⟩

theorem sampleRootMovie : RootOK docReg docEnv sampleDoc.doc Version.zero samplePre movieRoot where
  space := rfl
  value := rfl
  own := by
    rintro p (rfl | ⟨m, hm, hp⟩)
    · exact Or.inl rfl
    · cases hm
      rw [List.mem_singleton.1 hp]
      exact Or.inl rfl
  known := by
    rintro m p ns - (rfl | ⟨m', hm, hp⟩) hf
    · cases hf
      exact ⟨by decide, by decide, ⟨_, rfl, by decide, by decide⟩⟩
    · cases hm
      rw [List.mem_singleton.1 hp] at hf ⊢
      cases hf
      exact ⟨by decide, by decide, ⟨_, rfl, by decide, by decide⟩⟩
  factory := by
    rintro p ns (rfl | ⟨m', hm, hp⟩) hf
    · cases hf
      rfl
    · cases hm
      rw [List.mem_singleton.1 hp] at hf
      cases hf
      rfl
  head := by
    intro m hm
    cases hm
    exact ⟨_, _, rfl, rfl⟩
  struct := by
    intro m hm
    cases hm
    exact ⟨none, rfl, rfl⟩
  faithful := by
    have := movieFaithful
    rw [movieTy, Faithful] at this
    obtain ⟨vals, e, hf⟩ := this
    unfold movieVal at e
    injection e with e
    subst e
    exact hf
  names := names_of_static (by
    intro f hf
    have hf : f ∈ (match movieTy with | .struct _ infos _ => infos | _ => []) := hf
    simp only [movieTy, List.mem_cons, List.not_mem_nil, or_false] at hf
    rcases hf with rfl | rfl | rfl | rfl
    · exact ⟨sampleNameS (p := "ex".toList) "title".toList (by decide) (by decide) (Or.inl rfl), _, rfl, by decide⟩
    · exact ⟨sampleNameS (p := "ex".toList) "cast".toList (by decide) (by decide) (Or.inl rfl), _, rfl, by decide⟩
    · exact ⟨sampleNameS (p := "ex".toList) "studio".toList (by decide) (by decide) (Or.inl rfl), _, rfl, by decide⟩
    · exact ⟨sampleNameS (p := "ex".toList) "year".toList (by decide) (by decide) (Or.inl rfl), _, rfl, by decide⟩) (by
    have hp : TyNames (NameS samplePre) personTy := by
      simp only [personTy, TyNames, TysNames, List.mem_cons, List.not_mem_nil, or_false, forall_eq_or_imp, forall_eq, and_true]
      exact ⟨sampleNameS (p := "ex".toList) "name".toList (by decide) (by decide) (Or.inl rfl),
        sampleNameS (p := "ex".toList) "count".toList (by decide) (by decide) (Or.inl rfl)⟩
    show TysNames _ [.alt, .slice .unordered personTy, .ptr personTy, .uint 16]
    simp only [TyNames, TysNames, and_true, true_and]
    exact ⟨hp, hp⟩)
  attrs := by
    intro a ha
    rw [List.mem_singleton.1 ha]
    exact ⟨rfl, sampleNameS (p := "ex".toList) "extra".toList (by decide) (by decide) (Or.inl rfl), Or.inl (by decide), by decide, by decide⟩
  attrNames := by decide
  nodes := by
    intro x hx
    rw [List.mem_singleton.1 hx]
    have hn : NameS samplePre "ex:note".toList := sampleNameS (p := "ex".toList) "note".toList (by decide) (by decide) (Or.inl rfl)
    refine ⟨hn, ?_, Or.inl (by decide), by decide, ⟨by decide, trivial⟩, by decide⟩
    intro q hq
    simp only [allNames, allNamesList, List.map_cons, List.map_nil, List.append_nil, List.mem_cons, List.not_mem_nil, or_false] at hq
    rcases hq with rfl | rfl
    · exact ⟨rfl, Or.inl hn⟩
    · refine ⟨rfl, Or.inr ⟨"xml".toList, "lang".toList, by decide, by decide, by decide, Or.inr rfl, ?_⟩⟩
      exact sampleNs.markup _ (by decide)
  nodeNames := by decide

theorem sampleRootForeign : RootOK docReg docEnv sampleDoc.doc Version.zero samplePre foreignRoot where
  space := rfl
  value := rfl
  own := by
    rintro p (rfl | ⟨m, hm, hp⟩)
    · exact Or.inr (Or.inr rfl)
    · cases hm
  known := by
    intro m p ns hm
    cases hm
  factory := by
    rintro p ns (rfl | ⟨m', hm, hp⟩) hf
    · cases hf
    · cases hm
  head := by
    intro m hm
    cases hm
  struct := by
    intro m hm
    cases hm
  faithful := ⟨rfl, rfl⟩
  names := names_of_static (fun f hf => nomatch hf) trivial
  attrs := by
    intro a ha
    rw [List.mem_singleton.1 ha]
    exact ⟨rfl, sampleNameS (p := "zz".toList) "a".toList (by decide) (by decide) (Or.inr (Or.inr rfl)), Or.inl (by decide), by decide, by decide⟩
  attrNames := by decide
  nodes := by
    intro x hx
    rw [List.mem_singleton.1 hx]
    have hn : NameS samplePre "zz:b".toList := sampleNameS (p := "zz".toList) "b".toList (by decide) (by decide) (Or.inr (Or.inr rfl))
    refine ⟨hn, ?_, Or.inl (by decide), by decide, ⟨by decide, ⟨by decide, trivial⟩, trivial⟩, by decide⟩
    intro q hq
    have hq : q ∈ [(⟨[], "zz:b".toList⟩ : QName), ⟨[], "plain:c".toList⟩, ⟨[], "zz:d".toList⟩] := hq
    simp only [List.mem_cons, List.not_mem_nil, or_false] at hq
    rcases hq with rfl | rfl | rfl
    · exact ⟨rfl, Or.inl hn⟩
    · exact ⟨rfl, Or.inl (sampleNameS (p := "plain".toList) "c".toList (by decide) (by decide) (Or.inr (Or.inl rfl)))⟩
    · exact ⟨rfl, Or.inl (sampleNameS (p := "zz".toList) "d".toList (by decide) (by decide) (Or.inr (Or.inr rfl)))⟩
  nodeNames := by decide

theorem sampleDocOK : DocOK docReg docEnv sampleDoc.doc Version.zero samplePre where
  ns := sampleNs
  roots := by
    intro r hr
    simp only [sampleDoc, List.mem_cons, List.not_mem_nil, or_false] at hr
    rcases hr with rfl | rfl
    · exact sampleRootMovie
    · exact sampleRootForeign
  disjoint := by
    simp only [sampleDoc, List.pairwise_cons, List.mem_cons, List.not_mem_nil, or_false, forall_eq, false_implies, implies_true, List.Pairwise.nil, and_true]
    rintro p (rfl | ⟨m, hm, hp⟩) (h | ⟨m', hm', -⟩)
    · exact absurd h (by decide)
    · cases hm'
    · cases hm
      rw [List.mem_singleton.1 hp] at h
      exact absurd h (by decide)
    · cases hm'

/-- The sample document meets the conditions of C46 and both of its nodes have content. -/
example : ∃ q, docTrip docEnv Version.zero (fun _ l => l.reverse) (some ([], "  ".toList)) sampleDoc = some q ∧
    q.doc.roots = [movieRoot, foreignRoot] := by
  obtain ⟨q, h1, h2⟩ := docTrip_some_partial docReg docEnv Version.zero samplePre sampleDoc sampleDocOK (fun _ l => l.reverse)
    (fun _ l => List.reverse_perm l) (some ([], "  ".toList)) ⟨by decide, by decide⟩ (by
      intro _ r hr
      simp only [sampleDoc, List.mem_cons, List.not_mem_nil, or_false] at hr
      rcases hr with rfl | rfl
      · exact ⟨⟨Or.inr rfl, trivial⟩, trivial⟩
      · exact ⟨⟨Or.inl (by decide), ⟨Or.inr rfl, trivial⟩, trivial⟩, trivial⟩)
  refine ⟨q, h1, h2.trans ?_⟩
  show withContent [movieRoot, foreignRoot] = _
  rw [withContent_cons_pos (Or.inl (by decide)), withContent_cons_pos (Or.inl (by decide))]
  rfl

/-! ### What does not survive -/

/-- C46: the toolkit is never read, although xmp/unmarshal.go:87 sets it. -/
theorem toolkit_lost {env : Env} {dv : Version} {t : Node} {p : Packet} (h : Dec.decode env dv t = .ok p) : p.toolkit = [] := by
  unfold Dec.decode at h
  split at h
  · cases h
  · simp only at h
    split at h
    · cases h; rfl
    · cases h
    · cases h

/-- C46: a document without content loses `about`. -/
theorem about_lost (h : RegHistory) (env : Env) (dv : Version) (S : Str → Prop) (p : Packet) (hok : DocOK h env p.doc dv S)
    (order : Node → List Namespace → List Namespace) (ho : ∀ w l, (order w l).Perm l) (hn : ∀ r ∈ p.doc.roots, ¬ HasContent r) :
    ∃ q, docTrip env dv order none p = some q ∧ q.doc.roots = [] ∧ q.about = [] := by
  obtain ⟨t, t', q, h1, h2, h3, h4, h5, -⟩ := document_roundtrip_partial h env dv S p hok order ho none trivial (by intro e; cases e)
  have hw : withContent p.doc.roots = [] := by
    unfold withContent
    rw [List.filter_eq_nil_iff]
    intro r hr
    simpa using hn r hr
  exact ⟨q, by simp [docTrip, h1, h2, h3], h4.trans hw, h5.trans (if_pos hw)⟩

/-- C46: of elements with the same name outside of a model only the last survives, and empty elements and attributes do
not. -/
theorem repeated_element_lost :
    (docTrip docEnv Version.zero (fun _ l => l) none
      { doc := { roots := [⟨.mk ⟨[], "plain".toList⟩ [⟨⟨[], "plain:e".toList⟩, []⟩] []
          [.mk ⟨[], "plain:b".toList⟩ [] "1".toList [], .mk ⟨[], "plain:b".toList⟩ [] "2".toList [], .mk ⟨[], "plain:c".toList⟩ [] [] []], none⟩] } }).map
      (fun q => q.doc.roots.map (·.node)) =
    some [.mk ⟨[], "plain".toList⟩ [] [] [.mk ⟨[], "plain:b".toList⟩ [] "2".toList []]] := rfl

/-! ### Declarations -/

theorem decodeAttribute_bare {env : Env} {d : Dec} (hi : d.int = []) (he : d.ext = []) (dv : Version) (rs : List Root) (a : Attr) :
    Dec.decodeAttribute env d dv rs a = .ok rs ∨ Dec.decodeAttribute env d dv rs a = .err := by
  have hf : ∀ n, d.findNs n = none := by
    intro n
    simp [Dec.findNs, Dec.findByURI, Dec.findByPrefix, hi, he, GoMap.get]
  unfold Dec.decodeAttribute
  simp only [Dec.lookupNode, hf]
  split
  · exact Or.inl rfl
  · exact Or.inr rfl

theorem decodeAttributes_bare {env : Env} {d : Dec} (hi : d.int = []) (he : d.ext = []) (dv : Version) (rs : List Root) :
    ∀ (l : List Attr) (ab : Str), (∃ ab', Dec.decodeAttributes env d dv l (ab, rs) = .ok (ab', rs)) ∨ Dec.decodeAttributes env d dv l (ab, rs) = .err
  | [], ab => Or.inl ⟨ab, rfl⟩
  | a :: l, ab => by
    rw [Dec.decodeAttributes]
    split
    · exact decodeAttributes_bare hi he dv rs l _
    · rcases decodeAttribute_bare hi he (env := env) dv rs a with e | e
      · rw [e]
        exact decodeAttributes_bare hi he dv rs l _
      · rw [e]
        exact Or.inr rfl

theorem decodeNodes_bare {env : Env} {d : Dec} (hi : d.int = []) (he : d.ext = []) (dv : Version) (rs : List Root) (x : Node) (l : List Node) :
    Dec.decodeNodes env d dv (x :: l) rs = .err := by
  have hf : ∀ n, d.findNs n = none := by
    intro n
    simp [Dec.findNs, Dec.findByURI, Dec.findByPrefix, hi, he, GoMap.get]
  rw [Dec.decodeNodes, Dec.decodeNode]
  simp only [Dec.lookupNode, hf]

theorem descriptions_bare {env : Env} {d : Dec} (hi : d.int = []) (he : d.ext = []) (dv : Version) (rs : List Root) :
    ∀ (l : List Node) (ab : Str), (∃ n ∈ l, n.nodes ≠ []) → Dec.descriptions env d dv l (ab, rs) = .err
  | [], _, h => by obtain ⟨n, hn, -⟩ := h; cases hn
  | n :: l, ab, h => by
    rw [Dec.descriptions]
    split
    · rfl
    · rcases decodeAttributes_bare hi he (env := env) dv rs n.attrs ab with ⟨ab', e⟩ | e
      · rw [e]
        simp only
        cases hn : n.nodes with
        | cons x xs => rw [decodeNodes_bare hi he]
        | nil =>
          simp only [Dec.decodeNodes]
          apply descriptions_bare hi he
          obtain ⟨m, hm, hne⟩ := h
          rcases List.mem_cons.1 hm with rfl | hm
          · exact absurd hn hne
          · exact ⟨m, hm, hne⟩
      · rw [e]

/-- C46: documents that declare their namespaces elsewhere, e.g. on `rdf:RDF`, on `x:xmpmeta` or on the elements that
need them, are rejected as soon as they have an element, for every registry. -/
theorem declared_elsewhere_rejected (env : Env) (dv : Version) (t root : Node) (hr : Dec.rdfRoot env.reg t = some root)
    (hd : ∀ n ∈ root.nodes, n.getAttr "xmlns".toList [] = []) (hn : ∃ n ∈ root.nodes, n.nodes ≠ []) : Dec.decode env dv t = .err := by
  have h0 : Dec.declared root.nodes = [] := by
    unfold Dec.declared
    rw [List.flatMap_eq_nil_iff]
    intro n hn
    rw [hd n hn]
    rfl
  unfold Dec.decode
  rw [hr]
  simp only [h0]
  rw [descriptions_bare (d := Dec.declare env.reg []) rfl rfl dv [] root.nodes [] hn]

/-- Such a text: `plain` is declared on `rdf:RDF`; with the declaration on the description it is read. -/
def elsewhere (outer inner : List (Str × Str)) : Xml :=
  .elem "rdf:RDF".toList (("xmlns:rdf".toList, nsRDF.uri) :: outer)
    [.elem "rdf:Description".toList (inner ++ [("rdf:about".toList, [])]) [.elem "plain:b".toList [] [.text "1".toList]]]

/-- The nodes that are read from such a text. -/
def readElsewhere (outer inner : List (Str × Str)) : Option (List Node) :=
  match Xml.read Xml.baseScope (elsewhere outer inner) with
  | [t] => (match Dec.decode docEnv Version.zero t with | .ok p => some (p.doc.roots.map (·.node)) | _ => none)
  | _ => none

example : readElsewhere [("xmlns:plain".toList, "u:plain".toList)] [] = none ∧
    readElsewhere [] [("xmlns:plain".toList, "u:plain".toList)] =
      some [.mk ⟨[], "plain".toList⟩ [] [] [.mk ⟨[], "plain:b".toList⟩ [] "1".toList []]] := ⟨rfl, rfl⟩

end Xmp.Props
