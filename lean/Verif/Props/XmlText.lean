import Verif.Model.XmlText
import Verif.Lemmas.GoStr
import Mathlib.Tactic.Common

/-! C45: node trees and their XML text. -/

namespace Xmp.Props

open GoStr

/-! ### Specification -/

/-- The character data of an element, all of it. -/
def Xml.allText : List Xml → Str
  | [] => []
  | .text s :: xs => s ++ allText xs
  | _ :: xs => allText xs

/-- The number of pieces of character data. -/
def Xml.pieces (c : List Xml) : Nat := (c.filter (fun x => match x with | .text _ => true | _ => false)).length

mutual
/-- Every node and attribute has a plain name. -/
def XmlNamed : Node → Prop
  | .mk n a _ l => n.space = [] ∧ n.loc ≠ [] ∧ (∀ x ∈ a, x.name.space = [] ∧ x.name.loc ≠ []) ∧ XmlNamedAll l
/-- The children. -/
def XmlNamedAll : List Node → Prop
  | [] => True
  | x :: xs => XmlNamed x ∧ XmlNamedAll xs
end

mutual
/-- No node has both a value and children. -/
def Unmixed : Node → Prop
  | .mk _ _ v l => (trimSpace v = [] ∨ l = []) ∧ UnmixedAll l
/-- The children. -/
def UnmixedAll : List Node → Prop
  | [] => True
  | x :: xs => Unmixed x ∧ UnmixedAll xs
end

/-- Prefix and indentation consist of spaces and tabs and the like. -/
def Blank : Option (Str × Str) → Prop
  | none => True
  | some (pre, indent) => (∀ c ∈ pre, c ∈ GoStr.blanks) ∧ ∀ c ∈ indent, c ∈ GoStr.blanks

/-! ### Lemmas -/

theorem trimSpace_all_blank {s : Str} (h : ∀ c ∈ s, c ∈ GoStr.blanks) : trimSpace s = [] := by
  have h1 : trimLeft s = [] := by
    unfold trimLeft
    have := dropRun_blanks (a := s) (s := []) h (by decide) s.length (Nat.le_refl _)
    simpa using this
  unfold trimSpace
  rw [h1]
  rfl

theorem trimSpace_xml_blanks {ind : Option (Str × Str)} (h : Blank ind) (d : Nat) :
    trimSpace (Xml.blanks ind d) = [] := by
  apply trimSpace_all_blank
  cases ind with
  | none => intro c hc; cases hc
  | some p =>
    obtain ⟨pre, indent⟩ := p
    obtain ⟨h1, h2⟩ := h
    intro c hc
    simp only [Xml.blanks, List.cons_append, List.mem_cons, List.mem_append, List.mem_flatten] at hc
    rcases hc with rfl | hc | ⟨l, hl, hc⟩
    · decide
    · exact h1 c hc
    · rw [List.eq_of_mem_replicate hl] at hc
      exact h2 c hc

theorem value_append (a b : List Xml) (v : Str) : Xml.value (a ++ b) v = Xml.value b (Xml.value a v) := by
  induction a generalizing v with
  | nil => rfl
  | cons x a ih => cases x <;> exact ih _

theorem toNodes_append (uri : Str → Str) (a b : List Xml) :
    Xml.toNodes uri (a ++ b) = Xml.toNodes uri a ++ Xml.toNodes uri b := by
  induction a with
  | nil => rfl
  | cons x a ih => rw [List.cons_append, Xml.toNodes, Xml.toNodes, ih, List.append_assoc]

theorem value_chunk (s v : Str) : Xml.value (Xml.chunk s) v = if s = [] then v else trimSpace s := by
  unfold Xml.chunk
  split <;> rfl

theorem toNodes_chunk (uri : Str → Str) (s : Str) : Xml.toNodes uri (Xml.chunk s) = [] := by
  unfold Xml.chunk
  split <;> rfl

theorem toNodes_layout (uri : Str → Str) (ind : Option (Str × Str)) (d : Nat) (l : List Xml) :
    ∀ lead, Xml.toNodes uri (Xml.layout ind d lead l) = Xml.toNodes uri l := by
  induction l with
  | nil => intro lead; exact toNodes_chunk uri _
  | cons x l ih =>
    intro lead
    rw [Xml.layout, toNodes_append, toNodes_chunk, List.nil_append, Xml.toNodes, Xml.toNodes, ih]

/-- No character data among the items. -/
def Elems (l : List Xml) : Prop := ∀ x ∈ l, ∃ n a c, x = Xml.elem n a c

theorem value_layout_none (d : Nat) (l : List Xml) (hl : Elems l) :
    ∀ lead v, Xml.value (Xml.layout none d lead l) v = if lead = [] then v else trimSpace lead := by
  induction l with
  | nil => intro lead v; simp [Xml.layout, Xml.blanks, value_chunk]
  | cons x l ih =>
    intro lead v
    obtain ⟨n, a, c, rfl⟩ := hl x (by simp)
    rw [Xml.layout, value_append, value_chunk, Xml.value, ih (fun y hy => hl y (by simp [hy])), if_pos rfl]
    · simp [Xml.blanks]
    · intro s h; cases h

theorem value_layout_some (p : Str × Str) (hb : Blank (some p)) (d : Nat) (l : List Xml) (hl : Elems l) (hn : l ≠ []) :
    ∀ lead v, Xml.value (Xml.layout (some p) d lead l) v = [] := by
  have key : ∀ l, Elems l → ∀ v, Xml.value (Xml.layout (some p) d [] l) v = [] := by
    intro l hl
    induction l with
    | nil =>
      intro v
      rw [Xml.layout, value_chunk, List.nil_append, if_neg (by simp [Xml.blanks]), trimSpace_xml_blanks hb]
    | cons x l ih =>
      intro v
      obtain ⟨n, a, c, rfl⟩ := hl x (by simp)
      rw [Xml.layout, value_append, Xml.value, ih (fun y hy => hl y (by simp [hy]))]
      intro s h; cases h
  intro lead v
  cases l with
  | nil => exact absurd rfl hn
  | cons x l =>
    obtain ⟨n, a, c, rfl⟩ := hl x (by simp)
    rw [Xml.layout, value_append, Xml.value, key l (fun y hy => hl y (by simp [hy]))]
    intro s h; cases h

theorem elems_ofNode (ind : Option (Str × Str)) (d : Nat) (n : Node) : Elems (Xml.ofNode ind d n) := by
  cases n with
  | mk n a v l =>
    unfold Xml.ofNode
    split
    · intro x hx; cases hx
    · intro x hx
      rw [List.mem_singleton] at hx
      exact ⟨_, _, _, hx⟩

theorem elems_ofNodes (ind : Option (Str × Str)) (d : Nat) (l : List Node) : Elems (Xml.ofNodes ind d l) := by
  induction l with
  | nil => intro x hx; cases hx
  | cons n l ih =>
    intro x hx
    rw [Xml.ofNodes, List.mem_append] at hx
    rcases hx with hx | hx
    · exact elems_ofNode ind d n x hx
    · exact ih x hx

/-- The attributes read are those written. -/
theorem attrs_back (uri : Str → Str) (a : List Attr) (h : ∀ x ∈ a, x.name.space = [] ∧ x.name.loc ≠ []) :
    ((a.filter (fun x => x.name.loc ≠ [])).map (fun x => (x.name.loc, x.value))).map
        (fun x => (⟨reparseName uri ⟨[], x.1⟩, x.2⟩ : Attr)) =
      a.map (fun x => { x with name := reparseName uri x.name }) := by
  rw [List.filter_eq_self.2 (fun x hx => by simpa using (h x hx).2), List.map_map]
  apply List.map_congr_left
  intro x hx
  obtain ⟨⟨sp, lo⟩, val⟩ := x
  have := (h _ hx).1
  simp only at this
  subst this
  rfl

theorem ofNode_eq (ind : Option (Str × Str)) (d : Nat) {n : QName} {a : List Attr} {v : Str} {l : List Node}
    (hn : n.loc ≠ []) :
    Xml.ofNode ind d (.mk n a v l) =
      [.elem n.loc ((a.filter (fun x => x.name.loc ≠ [])).map (fun x => (x.name.loc, x.value)))
        (if (Xml.ofNodes ind (d + 1) l).isEmpty then Xml.chunk v
          else Xml.layout ind d v (Xml.ofNodes ind (d + 1) l))] := by
  rw [Xml.ofNode, if_neg hn]

theorem toNodes_content (uri : Str → Str) (ind : Option (Str × Str)) (d : Nat) (v : Str) (k : List Xml) :
    Xml.toNodes uri (if k.isEmpty then Xml.chunk v else Xml.layout ind d v k) = Xml.toNodes uri k := by
  cases k with
  | nil => exact toNodes_chunk uri v
  | cons x k => exact toNodes_layout uri ind d _ v

/-- The value read is that written, unless indentation replaces it. -/
theorem value_content (ind : Option (Str × Str)) (hb : Blank ind) (d : Nat) (v : Str) (k : List Xml) (hk : Elems k) :
    Xml.value (if k.isEmpty then Xml.chunk v else Xml.layout ind d v k) [] =
      if ind.isSome ∧ k ≠ [] then [] else trimSpace v := by
  have hv : (if v = [] then [] else trimSpace v) = trimSpace v := by
    split
    · rename_i h; subst h; rfl
    · rfl
  cases k with
  | nil => simp only [List.isEmpty_nil, if_true, value_chunk, hv]; simp
  | cons x k =>
    simp only [List.isEmpty_cons, Bool.false_eq_true, if_false]
    cases ind with
    | none => rw [value_layout_none _ _ hk, hv]; simp
    | some p => rw [value_layout_some p hb _ _ hk (by simp)]; simp

theorem ofNodes_nil_iff (ind : Option (Str × Str)) (d : Nat) (l : List Node) (h : XmlNamedAll l) :
    Xml.ofNodes ind d l = [] ↔ l = [] := by
  cases l with
  | nil => simp [Xml.ofNodes]
  | cons x l =>
    obtain ⟨n, a, v, m⟩ := x
    rw [Xml.ofNodes, ofNode_eq _ _ h.1.2.1]
    simp

mutual
theorem xml_back_iff (uri : Str → Str) (ind : Option (Str × Str)) (hb : Blank ind) :
    ∀ (n : Node) (d : Nat), XmlNamed n →
      ((∃ m, Xml.toNodes uri (Xml.ofNode ind d n) = [m]) ∧
        (Xml.toNodes uri (Xml.ofNode ind d n) = [n.reparse uri] ↔ (ind.isSome = true → Unmixed n)))
  | .mk n a v l, d, h => by
    obtain ⟨h1, h2, h3, h4⟩ := h
    rw [ofNode_eq _ _ h2, Xml.toNodes, Xml.toNode, Xml.toNodes, List.append_nil, attrs_back uri a h3,
      toNodes_content, value_content ind hb d v _ (elems_ofNodes _ _ _)]
    have ih := xml_back_all_iff uri ind hb l (d + 1) h4
    refine ⟨⟨_, rfl⟩, ?_⟩
    rw [Node.reparse, List.cons.injEq, Node.mk.injEq]
    have hname : reparseName uri ⟨[], n.loc⟩ = reparseName uri n := by
      obtain ⟨sp, lo⟩ := n
      simp only at h1
      subst h1
      rfl
    have hkid : Xml.ofNodes ind (d + 1) l ≠ [] ↔ l ≠ [] := not_congr (ofNodes_nil_iff ind (d + 1) l h4)
    simp only [hname, true_and, and_true, ih.2, Unmixed, hkid]
    cases ind with
    | none => simp
    | some p =>
      simp only [Option.isSome_some, true_and, forall_const]
      by_cases hl : l = []
      · simp [hl]
      · simp only [hl, ne_eq, not_false_eq_true, if_true, or_false]
        constructor
        · rintro ⟨h, k⟩; exact ⟨h.symm, k⟩
        · rintro ⟨h, k⟩; exact ⟨h.symm, k⟩
theorem xml_back_all_iff (uri : Str → Str) (ind : Option (Str × Str)) (hb : Blank ind) :
    ∀ (l : List Node) (d : Nat), XmlNamedAll l →
      (Xml.toNodes uri (Xml.ofNodes ind d l)).length = l.length ∧
        (Xml.toNodes uri (Xml.ofNodes ind d l) = Node.reparseList uri l ↔ (ind.isSome = true → UnmixedAll l))
  | [], d, _ => by simp [Xml.ofNodes, Xml.toNodes, Node.reparseList, UnmixedAll]
  | x :: l, d, h => by
    obtain ⟨⟨m, hm⟩, h1⟩ := xml_back_iff uri ind hb x d h.1
    obtain ⟨h2, h3⟩ := xml_back_all_iff uri ind hb l d h.2
    rw [hm] at h1
    rw [Xml.ofNodes, toNodes_append, hm, Node.reparseList, UnmixedAll]
    constructor
    · simp [h2]
    · rw [List.singleton_append, List.cons.injEq, h3, ← List.singleton_inj, h1]
      constructor
      · rintro ⟨a, b⟩ c; exact ⟨a c, b c⟩
      · intro a; exact ⟨fun c => (a c).1, fun c => (a c).2⟩
end

/-! ### Theorems -/

/-- **C45** A tree whose nodes have names is read from the XML written without indentation as it was, up to spaces
around values; names are resolved.  This holds for nodes with both a value and children too. -/
theorem xml_roundtrip (uri : Str → Str) (d : Nat) (n : Node) (h : XmlNamed n) :
    Xml.toNodes uri (Xml.ofNode none d n) = [n.reparse uri] :=
  (xml_back_iff uri none trivial n d h).2.2 (fun h => by cases h)

/-- **C45** With indentation the same holds exactly for trees in which no node has both a value and children. -/
theorem xml_roundtrip_indent (uri : Str → Str) (p : Str × Str) (hb : Blank (some p)) (d : Nat) (n : Node)
    (h : XmlNamed n) : Xml.toNodes uri (Xml.ofNode (some p) d n) = [n.reparse uri] ↔ Unmixed n := by
  rw [(xml_back_iff uri (some p) hb n d h).2]
  simp

/-- **C45** With indentation a node with children is read without its value. -/
theorem xml_indent_value_lost (uri : Str → Str) (p : Str × Str) (hb : Blank (some p)) (d : Nat) (n : Node)
    (h : XmlNamed n) (hl : n.nodes ≠ []) :
    ∃ m, Xml.toNodes uri (Xml.ofNode (some p) d n) = [m] ∧ m.value = [] := by
  obtain ⟨q, a, v, l⟩ := n
  obtain ⟨h1, h2, h3, h4⟩ := h
  rw [ofNode_eq _ _ h2, Xml.toNodes, Xml.toNode, Xml.toNodes, List.append_nil]
  refine ⟨_, rfl, ?_⟩
  show Xml.value _ _ = []
  rw [value_content _ hb _ _ _ (elems_ofNodes _ _ _), if_pos]
  exact ⟨rfl, fun h => hl ((ofNodes_nil_iff _ _ _ h4).1 h)⟩

/-- **C45** An element without name is not written, nor are its children. -/
theorem xml_nameless_lost (ind : Option (Str × Str)) (d : Nat) (n : Node) (h : n.xmlName.loc = []) :
    Xml.ofNode ind d n = [] := by
  obtain ⟨q, a, v, l⟩ := n
  rw [Xml.ofNode]
  exact if_pos h

/-- **C45** The text of an element whose character data comes in one piece is that, without surrounding spaces. -/
theorem xml_one_piece (uri : Str → Str) (n : Str) (a : List (Str × Str)) (c : List Xml) (h : Xml.pieces c ≤ 1) :
    ∃ m, Xml.toNode uri (.elem n a c) = [m] ∧ m.value = trimSpace (Xml.allText c) := by
  refine ⟨_, rfl, ?_⟩
  show Xml.value c [] = _
  have none : ∀ (c : List Xml) v, Xml.pieces c = 0 → Xml.value c v = v ∧ Xml.allText c = [] := by
    intro c
    induction c with
    | nil => intro v _; exact ⟨rfl, rfl⟩
    | cons x c ih =>
      intro v h
      cases x with
      | text s => simp [Xml.pieces] at h
      | elem _ _ _ => exact ih v (by simpa [Xml.pieces] using h)
      | other => exact ih v (by simpa [Xml.pieces] using h)
  induction c with
  | nil => rfl
  | cons x c ih =>
    cases x with
    | text s =>
      have h0 : Xml.pieces c = 0 := by simpa [Xml.pieces] using h
      obtain ⟨h1, h2⟩ := none c (trimSpace s) h0
      rw [Xml.value, h1, Xml.allText, h2, List.append_nil]
    | elem _ _ _ => exact ih (by simpa [Xml.pieces] using h)
    | other => exact ih (by simpa [Xml.pieces] using h)

/-- **C45 (violated)** Character data in several pieces, as around a comment, a CDATA section or a child element: only
the last piece is kept. -/
theorem xml_last_piece (uri : Str → Str) (n : Str) (a : List (Str × Str)) (c e : List Xml) (s : Str)
    (h : Xml.pieces e = 0) :
    ∃ m, Xml.toNode uri (.elem n a (c ++ .text s :: e)) = [m] ∧ m.value = trimSpace s := by
  refine ⟨_, rfl, ?_⟩
  show Xml.value (c ++ .text s :: e) [] = _
  rw [value_append, Xml.value]
  generalize trimSpace s = v
  induction e with
  | nil => rfl
  | cons x e ih =>
    cases x with
    | text s => simp [Xml.pieces] at h
    | elem _ _ _ => exact ih (by simpa [Xml.pieces] using h)
    | other => exact ih (by simpa [Xml.pieces] using h)

/-- **C45** Comments, processing instructions and directives are no content by themselves. -/
theorem xml_comment_ignored (uri : Str → Str) (n : Str) (a : List (Str × Str)) (c e : List Xml) :
    Xml.toNode uri (.elem n a (c ++ .other :: e)) = Xml.toNode uri (.elem n a (c ++ e)) := by
  rw [Xml.toNode, Xml.toNode, value_append, value_append, toNodes_append, toNodes_append]
  rfl

/-! ### Cases -/

/-- A title, with a node that has a value and a child. -/
def xmlSample : Node :=
  .mk ⟨[], "rdf:Description".toList⟩ [⟨⟨[], "rdf:about".toList⟩, "x".toList⟩] []
    [.mk ⟨[], "dc:title".toList⟩ [] " A ".toList [],
     .mk ⟨[], "dc:mixed".toList⟩ [] "B".toList [.mk ⟨[], "dc:c".toList⟩ [] "C".toList []]]

/-- Two spaces. -/
def twoSpaces : Option (Str × Str) := some ([], "  ".toList)

theorem xmlNamed_sample : XmlNamed xmlSample := by
  simp [XmlNamed, XmlNamedAll, xmlSample]

example : Blank twoSpaces := by
  constructor
  · intro c hc; cases hc
  · decide

example : Xml.toNodes id (Xml.ofNode none 0 xmlSample) = [xmlSample.reparse id] :=
  xml_roundtrip id 0 xmlSample xmlNamed_sample

example : ¬ Unmixed xmlSample := by
  simp only [Unmixed, UnmixedAll, xmlSample]
  rintro ⟨_, _, ⟨h | h, _⟩, _⟩
  · revert h; decide
  · cases h

/-- `<t>one <!-- --> two</t>` is read as `two`. -/
example : ((Xml.toNode id (.elem "t".toList [] [.text "one ".toList, .other, .text " two".toList])).map Node.value) =
    ["two".toList] := rfl

/-- `<t>a<![CDATA[&]]></t>` is read as `&`. -/
example : ((Xml.toNode id (.elem "t".toList [] [.text "a".toList, .text "&".toList])).map Node.value) =
    ["&".toList] := rfl

end Xmp.Props
