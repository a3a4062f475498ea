import Verif.Props.JsonDoc
import Verif.Props.DocXmpCases
import Verif.Props.JsonTypedCases

/-! C53: a concrete document that survives its JSON form, and what does not survive. -/

namespace Xmp.Props

open GoStr List

/-! ### A sample -/

/-- The movie of `DocXmpCases` with an attribute and an element that the model does not know. -/
def movieRootJ : Root :=
  { node := .mk ⟨[], "ex".toList⟩ [⟨⟨[], "ex:extra".toList⟩, "1".toList⟩] [] [.mk ⟨[], "ex:note".toList⟩ [] "n".toList []]
    model := some (movieMdl movieVal) }

/-- A node of an unregistered namespace with a nested element of another one. -/
def foreignRootJ : Root :=
  { node := .mk ⟨[], "zz".toList⟩ [] [] [.mk ⟨[], "zz:b".toList⟩ [] [] [.mk ⟨[], "plain:c".toList⟩ [] "v".toList []]] }

/-- The sample document. -/
def sampleDocJ : Packet :=
  { doc := { roots := [movieRootJ, foreignRootJ], extNs := [("u:zz".toList, ⟨"zz".toList, "u:zz".toList, none⟩)] }
    about := "me".toList }

theorem sampleNsJ : DocNs docReg docEnv sampleDocJ.doc samplePre where
  reg := sampleNs.reg
  core := sampleNs.core
  rdf := sampleNs.rdf
  xml := sampleNs.xml
  plain := sampleNs.plain
  found := sampleNs.found
  inj := sampleNs.inj
  markup := sampleNs.markup

theorem sampleRootMovieJ : RootOK docReg docEnv sampleDocJ.doc Version.zero samplePre movieRootJ where
  space := rfl
  value := rfl
  own := sampleRootMovie.own
  known := sampleRootMovie.known
  factory := sampleRootMovie.factory
  head := sampleRootMovie.head
  struct := sampleRootMovie.struct
  faithful := sampleRootMovie.faithful
  names := sampleRootMovie.names
  attrs := sampleRootMovie.attrs
  attrNames := sampleRootMovie.attrNames
  nodes := by
    intro x hx
    rw [List.mem_singleton.1 hx]
    have hn : NameS samplePre "ex:note".toList := sampleNameS (p := "ex".toList) "note".toList (by decide) (by decide) (Or.inl rfl)
    refine ⟨hn, ?_, Or.inl (by decide), by decide, ⟨by decide, trivial⟩, by decide⟩
    intro q hq
    have hq : q ∈ [(⟨[], "ex:note".toList⟩ : QName)] := hq
    rw [List.mem_singleton.1 hq]
    exact ⟨rfl, Or.inl hn⟩
  nodeNames := by decide

theorem sampleRootForeignJ : RootOK docReg docEnv sampleDocJ.doc Version.zero samplePre foreignRootJ where
  space := rfl
  value := rfl
  own := sampleRootForeign.own
  known := sampleRootForeign.known
  factory := sampleRootForeign.factory
  head := sampleRootForeign.head
  struct := sampleRootForeign.struct
  faithful := sampleRootForeign.faithful
  names := sampleRootForeign.names
  attrs := by
    intro a ha
    cases ha
  attrNames := by decide
  nodes := by
    intro x hx
    rw [List.mem_singleton.1 hx]
    have hn : NameS samplePre "zz:b".toList := sampleNameS (p := "zz".toList) "b".toList (by decide) (by decide) (Or.inr (Or.inr rfl))
    refine ⟨hn, ?_, Or.inl (by decide), by decide, ⟨by decide, ⟨by decide, trivial⟩, trivial⟩, by decide⟩
    intro q hq
    have hq : q ∈ [(⟨[], "zz:b".toList⟩ : QName), ⟨[], "plain:c".toList⟩] := hq
    simp only [List.mem_cons, List.not_mem_nil, or_false] at hq
    rcases hq with rfl | rfl
    · exact ⟨rfl, Or.inl hn⟩
    · exact ⟨rfl, Or.inl (sampleNameS (p := "plain".toList) "c".toList (by decide) (by decide) (Or.inr (Or.inl rfl)))⟩
  nodeNames := by decide

theorem sampleDocOKJ : DocOK docReg docEnv sampleDocJ.doc Version.zero samplePre where
  ns := sampleNsJ
  roots := by
    intro r hr
    simp only [sampleDocJ, List.mem_cons, List.not_mem_nil, or_false] at hr
    rcases hr with rfl | rfl
    · exact sampleRootMovieJ
    · exact sampleRootForeignJ
  disjoint := by
    simp only [sampleDocJ, List.pairwise_cons, List.mem_cons, List.not_mem_nil, or_false, forall_eq, false_implies, implies_true, List.Pairwise.nil, and_true]
    rintro p (rfl | ⟨m, hm, hp⟩) (h | ⟨m', hm', -⟩)
    · exact absurd h (by decide)
    · cases hm'
    · cases hm
      rw [List.mem_singleton.1 hp] at h
      exact absurd h (by decide)
    · cases hm'

theorem movieJRoot : JRootOK docEnv.reg movieRootJ where
  vals := by
    have := movieJVal
    rw [movieTy, movieVal, JVal] at this
    exact this _ rfl
  solidA := by
    intro i f t v hf ht hv _ ha
    match i with
    | 0 => cases hf; cases ha
    | 1 => cases hf; cases ha
    | 2 => cases hf; cases ha
    | 3 => cases hf; cases ht; cases hv; decide
    | n + 4 => cases hf
  solidN := by
    intro i f t v hf ht hv _ ha x hx
    match i with
    | 0 => cases hf; cases ht; cases hv; cases hx; decide +kernel
    | 1 => cases hf; cases ht; cases hv; cases hx; decide +kernel
    | 2 => cases hf; cases ht; cases hv; cases hx; decide +kernel
    | 3 => cases hf; cases ha
    | n + 4 => cases hf
  shape := by
    refine ⟨[("ex:extra".toList, .text "1".toList), ("ex:note".toList, .text "n".toList)], ?_, ?_, ?_⟩
    · rw [Shape]
      simp only [ShapeFields, Shape, and_true]
      exact ⟨by decide, (sampleJName "extra".toList).1, trivial, (sampleJName "note".toList).1⟩
    · rw [Says]
      refine ⟨rfl, ?_⟩
      rw [SaysFields]
      refine Or.inl ⟨_, [], rfl, rfl, rfl, ?_⟩
      rw [SaysFields]
      refine Or.inr ⟨rfl, _, _, rfl, rfl, ?_, by rw [SaysFields]; exact ⟨rfl, rfl⟩⟩
      rw [Says]
      exact ⟨by decide, rfl, rfl, rfl⟩
    · intro e he
      simp only [List.mem_cons, List.not_mem_nil, or_false] at he
      rcases he with rfl | rfl <;> simp [Full]

theorem foreignJRoot : JRootOK docEnv.reg foreignRootJ where
  vals := by
    show JFields [] [] []
    simp [JFields]
  solidA := by
    intro i f t v hf
    cases hf
  solidN := by
    intro i f t v hf
    cases hf
  shape := by
    refine ⟨[("zz:b".toList, .struct [("plain:c".toList, .text "v".toList)])], ?_, ?_, ?_⟩
    · rw [Shape]
      simp only [ShapeFields, Shape, and_true]
      refine ⟨by decide, ?_, by decide, ?_⟩ <;> exact ⟨by decide, by decide⟩
    · rw [Says]
      refine ⟨rfl, ?_⟩
      rw [SaysFields]
      refine Or.inr ⟨rfl, _, _, rfl, rfl, ?_, by rw [SaysFields]; exact ⟨rfl, rfl⟩⟩
      rw [Says]
      refine ⟨rfl, ?_⟩
      rw [SaysFields]
      refine Or.inr ⟨rfl, _, _, rfl, rfl, ?_, by rw [SaysFields]; exact ⟨rfl, rfl⟩⟩
      rw [Says]
      exact ⟨by decide, rfl, rfl, rfl⟩
    · intro e he
      simp only [List.mem_cons, List.not_mem_nil, or_false] at he
      rw [he]
      simp [Full, FullField]

/-- The sample meets the conditions of C53. -/
example : ∃ jd, JDoc.ofDoc docEnv sampleDocJ = some jd ∧ ∀ jd', JDocSame jd jd' → ∃ p', JDoc.toDoc docEnv Version.zero jd' = .ok p' ∧
    p'.about = "me".toList ∧ p'.toolkit = Enc.toolkitVersion ∧
    ∃ rs, rs ~ [movieRootJ, foreignRootJ] ∧ Forall₂ (RootSame docEnv.reg) rs p'.doc.roots := by
  obtain ⟨jd, h1, h2⟩ := json_document_roundtrip_partial docReg docEnv Version.zero samplePre sampleDocJ sampleDocOKJ
    (by rintro (h | h | h) <;> revert h <;> decide) (by
      intro r hr
      simp only [sampleDocJ, List.mem_cons, List.not_mem_nil, or_false] at hr
      rcases hr with rfl | rfl
      · exact movieJRoot
      · exact foreignJRoot)
  refine ⟨jd, h1, fun jd' hjd => ?_⟩
  obtain ⟨p', h3, h4, h5, ⟨rs, h6, h7⟩, -⟩ := h2 jd' hjd
  refine ⟨p', h3, h4, h5, rs, ?_, h7⟩
  have : withContent sampleDocJ.doc.roots = [movieRootJ, foreignRootJ] := by
    show withContent [movieRootJ, foreignRootJ] = _
    rw [withContent_cons_pos (Or.inl (by decide)), withContent_cons_pos (Or.inr (Or.inl (by decide)))]
    rfl
  rw [← this]
  exact h6

/-! ### What does not survive -/

/-- A document is written as JSON and read back; `none` is an error. -/
def jsonTrip (env : Env) (dv : Version) (p : Packet) : Option Packet :=
  match JDoc.ofDoc env p with
  | none => none
  | some jd =>
    match JDoc.toDoc env dv jd with
    | .ok q => some q
    | _ => none

/-- C53: attributes outside of the model become elements. -/
theorem json_attributes_become_elements : ∃ q, jsonTrip docEnv Version.zero
      { doc := { roots := [⟨.mk ⟨[], "plain".toList⟩ [⟨⟨[], "plain:a".toList⟩, "1".toList⟩] [] [], none⟩] } } = some q ∧
    q.doc.roots = [⟨.mk ⟨[], "plain".toList⟩ [] [] [.mk ⟨[], "plain:a".toList⟩ [] "1".toList []], none⟩] :=
  ⟨_, rfl, rfl⟩

/-- C53: the order of the top-level nodes is not kept; here the entries are visited in the order in which the model
lists them, in Go it is random. -/
theorem json_order_lost : ∃ q, jsonTrip docEnv Version.zero { doc := { roots := [
      ⟨.mk ⟨[], "ex".toList⟩ [⟨⟨[], "ex:a".toList⟩, "1".toList⟩] [] [], some (movieMdl movieTy.zero)⟩,
      ⟨.mk ⟨[], "plain".toList⟩ [⟨⟨[], "plain:a".toList⟩, "1".toList⟩] [] [], none⟩] } } = some q ∧
    q.doc.roots.map (·.node.xmlName.loc) = ["plain".toList, "ex".toList] :=
  ⟨_, rfl, rfl⟩

/-- A model with a pointer to a text. -/
def noteTy : Ty := .struct none [⟨"ex:note".toList, false, false, false, false, .zero, .zero⟩] [.ptr .str]
/-- The environment with this model. -/
def noteEnv : Env :=
  { reg := runReg docReg, make := fun _ _ => some ⟨[⟨"ex".toList, "u:ex".toList, some 0⟩], ["ex".toList], noteTy, noteTy.zero⟩ }
/-- A document with a pointer to an empty text as its only content. -/
def noteDoc : Packet :=
  { doc := { roots := [⟨.mk ⟨[], "ex".toList⟩ [] [] [], some ⟨[⟨"ex".toList, "u:ex".toList, some 0⟩], ["ex".toList], noteTy,
      .struct [.ptr (.str [])]⟩⟩] } }

/-- C53: a namespace with only empty values is left out; a document of which nothing else is left is read as an empty
one.  It survives XMP. -/
theorem json_empty_values_lost : (∃ q, jsonTrip noteEnv Version.zero noteDoc = some q ∧ q.doc.roots = []) ∧
    ∃ q, docTrip noteEnv Version.zero (fun _ l => l) none noteDoc = some q ∧ q.doc.roots = noteDoc.doc.roots :=
  ⟨⟨_, rfl, rfl⟩, _, rfl, rfl⟩

/-- A node under another name. -/
def reName (q : QName) (n : Node) : Node := .mk q n.attrs n.value n.nodes

/-- A result for a node under another name. -/
def resName (q : QName) : Res Node → Res Node
  | .ok n => .ok (reName q n)
  | .err => .err
  | .panic => .panic

theorem addSimple_name (q : QName) (name s : Str) (n : Node) : Json.addSimple name s (reName q n) = reName q (Json.addSimple name s n) := by
  obtain ⟨a, b, c, d⟩ := n
  unfold Json.addSimple
  split <;> rfl

theorem append_name (q : QName) (n x : Node) : (reName q n).appendNode x = reName q (n.appendNode x) := by
  obtain ⟨a, b, c, d⟩ := n
  rfl

mutual
theorem toNode_name (q : QName) : ∀ (j : Json) (k : Str) (n : Node), Json.toNode j k (reName q n) = resName q (Json.toNode j k n)
  | .str s, k, n => by rw [Json.toNode, Json.toNode, addSimple_name]; rfl
  | .num s, k, n => by rw [Json.toNode, Json.toNode, addSimple_name]; rfl
  | .bool b, k, n => by rw [Json.toNode, Json.toNode, addSimple_name]; rfl
  | .null, k, n => by rw [Json.toNode, Json.toNode]; rfl
  | .arr l, k, n => by
    rw [Json.toNode, Json.toNode]
    split
    · rfl
    split
    · cases Json.altNodesAll l with
      | ok lis => simp only [append_name]; rfl
      | err => rfl
      | panic => rfl
    · cases Json.toItems l with
      | ok lis => simp only [append_name]; rfl
      | err => rfl
      | panic => rfl
  | .obj m, k, n => by
    rw [Json.toNode, Json.toNode]
    split
    · exact toFields_name q _ m n
    · cases Json.toFields (Json.isItem m) m (Node.new ⟨[], k⟩) with
      | ok o => simp only [append_name]; rfl
      | err => rfl
      | panic => rfl
theorem toFields_name (q : QName) (item : Bool) : ∀ (m : List (Str × Json)) (n : Node), Json.toFields item m (reName q n) = resName q (Json.toFields item m n)
  | [], n => by rw [Json.toFields, Json.toFields]; rfl
  | (k, v) :: m, n => by
    rw [Json.toFields, Json.toFields, toNode_name q v]
    cases Json.toNode v (if item = true ∧ k = "value".toList then [] else k) n with
    | ok o => exact toFields_name q item m o
    | err => rfl
    | panic => rfl
end

theorem toModel_name (k k' : Str) (j : Json) : Json.toModel k' j = resName ⟨[], k'⟩ (Json.toModel k j) := by
  cases j with
  | obj m => rw [Json.toModel, Json.toModel, ← toFields_name]; rfl
  | null => rfl
  | str s => rfl
  | num s => rfl
  | bool b => rfl
  | arr l => rfl

/-- C53: the names under which the namespaces are stored are not looked at. -/
theorem json_model_names_ignored (env : Env) (dv : Version) (about toolkit : Str) (ns : GoMap Str) (ms ms' : GoMap Json)
    (h : ms.map (·.2) = ms'.map (·.2)) : JDoc.toDoc env dv ⟨about, toolkit, ns, ms⟩ = JDoc.toDoc env dv ⟨about, toolkit, ns, ms'⟩ := by
  have key : ∀ (ms ms' : List (Str × Json)), ms.map (·.2) = ms'.map (·.2) → ∀ (d : Dec),
      (∃ l l', JDoc.nodesOf ms = .ok l ∧ JDoc.nodesOf ms' = .ok l' ∧ ∀ rs, JDoc.decodeTrees env d dv l rs = JDoc.decodeTrees env d dv l' rs) ∨
      JDoc.nodesOf ms = .err ∧ JDoc.nodesOf ms' = .err ∨ JDoc.nodesOf ms = .panic ∧ JDoc.nodesOf ms' = .panic := by
    intro ms
    induction ms with
    | nil =>
      intro ms' h d
      have : ms' = [] := by simpa using h.symm
      subst this
      exact Or.inl ⟨[], [], rfl, rfl, fun _ => rfl⟩
    | cons e ms ih =>
      intro ms' h d
      cases ms' with
      | nil => cases h
      | cons e' ms' =>
        obtain ⟨k, j⟩ := e
        obtain ⟨k', j'⟩ := e'
        rw [map_cons, map_cons, cons.injEq] at h
        obtain ⟨rfl, h⟩ := h
        simp only at h ⊢
        rw [JDoc.nodesOf, JDoc.nodesOf, toModel_name k k' j]
        cases Json.toModel k j with
        | ok n =>
          rcases ih ms' h d with ⟨l, l', h1, h2, h3⟩ | ⟨h1, h2⟩ | ⟨h1, h2⟩
          · left
            refine ⟨n :: l, reName ⟨[], k'⟩ n :: l', ?_, ?_, ?_⟩
            · simp [h1]
            · simp [resName, h2]
            · intro rs
              obtain ⟨a, b, c, e⟩ := n
              rw [JDoc.decodeTrees, JDoc.decodeTrees]
              simp only [reName, Node.attrs, Node.nodes, h3]
          · right; left; simp [resName, h1, h2]
          · right; right; simp [resName, h1, h2]
        | err => right; left; simp [resName]
        | panic => right; right; simp [resName]
  unfold JDoc.toDoc
  simp only
  rcases key ms ms' h (Dec.declare env.reg ns) with ⟨l, l', h1, h2, h3⟩ | ⟨h1, h2⟩ | ⟨h1, h2⟩
  · simp only [h1, h2, h3]
  · simp only [h1, h2]
  · simp only [h1, h2]

example : JDoc.toDoc docEnv Version.zero ⟨[], [], [], [("plain".toList, .obj [("plain:a".toList, .str "1".toList)])]⟩ =
    JDoc.toDoc docEnv Version.zero ⟨[], [], [], [("dc".toList, .obj [("plain:a".toList, .str "1".toList)])]⟩ :=
  json_model_names_ignored _ _ _ _ _ _ _ rfl

end Xmp.Props
