import Verif.Props.JsonTyped
import Verif.Props.DocXmp

/-! C53: trees outside of models in JSON documents. -/

namespace Xmp.Props

open GoStr List

/-! ### Trees with content -/

mutual
/-- A tree with a text somewhere, or with a language. -/
def Full : Tree → Prop
  | .text _ => True
  | .array l => FullAny l
  | .alt l => ∃ lang v, lang ≠ [] ∧ langText l lang = some v
  | .struct fs => FullField fs
/-- Some item has content. -/
def FullAny : List Tree → Prop
  | [] => False
  | t :: ts => Full t ∨ FullAny ts
/-- Some field has content. -/
def FullField : List (Str × Tree) → Prop
  | [] => False
  | (_, t) :: fs => Full t ∨ FullField fs
end

theorem fullAny_iff (l : List Tree) : FullAny l ↔ ∃ t ∈ l, Full t := by
  induction l with
  | nil => simp [FullAny]
  | cons t l ih => rw [FullAny, ih]; simp

theorem fullField_iff (l : List (Str × Tree)) : FullField l ↔ ∃ e ∈ l, Full e.2 := by
  induction l with
  | nil => simp [FullField]
  | cons e l ih => obtain ⟨k, t⟩ := e; rw [FullField, ih]; simp

mutual
theorem full_same : ∀ (t t' : Tree), t.Same t' → Full t → Full t'
  | .text s, t', h, hf => by
    rw [Tree.Same] at h
    subst h
    rw [Full]; trivial
  | .array l, t', h, hf => by
    rw [Tree.Same] at h
    obtain ⟨l', rfl, h⟩ := h
    rw [Full] at hf ⊢
    exact fullAny_same l l' h hf
  | .alt l, t', h, hf => by
    rw [Tree.Same] at h
    obtain ⟨l', rfl, h⟩ := h
    rw [Full] at hf ⊢
    obtain ⟨lang, v, h1, h2⟩ := hf
    exact ⟨lang, v, h1, by rw [h, h2]⟩
  | .struct fs, t', h, hf => by
    rw [Tree.Same] at h
    obtain ⟨fs', fs'', rfl, hp, h⟩ := h
    rw [Full] at hf ⊢
    have := fullField_same fs fs'' h hf
    rw [fullField_iff] at this ⊢
    obtain ⟨e, he, hf⟩ := this
    exact ⟨e, hp.mem_iff.1 he, hf⟩
theorem fullAny_same : ∀ (l l' : List Tree), Tree.SameList l l' → FullAny l → FullAny l'
  | [], l', h, hf => by rw [FullAny] at hf; exact hf.elim
  | t :: ts, l', h, hf => by
    rw [Tree.SameList] at h
    obtain ⟨t', ts', rfl, h1, h2⟩ := h
    rw [FullAny] at hf ⊢
    rcases hf with hf | hf
    · exact Or.inl (full_same t t' h1 hf)
    · exact Or.inr (fullAny_same ts ts' h2 hf)
theorem fullField_same : ∀ (l l' : List (Str × Tree)), Tree.SameFields l l' → FullField l → FullField l'
  | [], l', h, hf => by rw [FullField] at hf; exact hf.elim
  | (k, t) :: ts, l', h, hf => by
    rw [Tree.SameFields] at h
    obtain ⟨t', ts', rfl, h1, h2⟩ := h
    rw [FullField] at hf ⊢
    rcases hf with hf | hf
    · exact Or.inl (full_same t t' h1 hf)
    · exact Or.inr (fullField_same ts ts' h2 hf)
end

theorem isZeroList_iff (l : List Node) : Node.isZeroList l = true ↔ ∀ x ∈ l, x.isZero = true := by
  induction l with
  | nil => simp [Node.isZeroList]
  | cons x l ih => rw [Node.isZeroList, Bool.and_eq_true, ih]; simp

theorem nodeZero_iff (n : Node) : n.isZero = true ↔ n.value = [] ∧ (∀ a ∈ n.attrs, a.value = []) ∧ ∀ x ∈ n.nodes, x.isZero = true := by
  obtain ⟨nm, as, v, l⟩ := n
  rw [Node.isZero, Bool.and_eq_true, Bool.and_eq_true, isZeroList_iff]
  simp [AttrList.isZero, Node.value, Node.attrs, Node.nodes, and_assoc]

theorem forall₂_mem_left {α β : Type} {R : α → β → Prop} {l : List α} {l' : List β} (h : Forall₂ R l l') {a : α} (ha : a ∈ l) :
    ∃ b ∈ l', R a b := by
  induction h with
  | nil => cases ha
  | cons h1 _ ih =>
    rcases mem_cons.1 ha with rfl | ha
    · exact ⟨_, by simp, h1⟩
    · obtain ⟨b, hb, h2⟩ := ih ha
      exact ⟨b, by simp [hb], h2⟩

theorem forall₂_mem_right {α β : Type} {R : α → β → Prop} {l : List α} {l' : List β} (h : Forall₂ R l l') {b : β} (hb : b ∈ l') :
    ∃ a ∈ l, R a b := by
  induction h with
  | nil => cases hb
  | cons h1 _ ih =>
    rcases mem_cons.1 hb with rfl | hb
    · exact ⟨_, by simp, h1⟩
    · obtain ⟨a, ha, h2⟩ := ih hb
      exact ⟨a, by simp [ha], h2⟩

mutual
/-- An element that says something is not empty. -/
theorem full_says (r : Registry) : ∀ (t : Tree) (n : Node), Says r t n → Full t → n.isZero = false
  | .text s, n, h, _ => by
    rw [Says] at h
    rw [Bool.eq_false_iff, ne_eq, nodeZero_iff]
    rintro ⟨h1, -⟩
    exact h.1 (h.2.2.1.symm.trans h1)
  | .array l, n, h, hf => by
    rw [Says] at h
    obtain ⟨a, -, -, h3, -, -, -, h7⟩ := h
    rw [Full] at hf
    obtain ⟨x, hx, hz⟩ := fullAny_says r l a.nodes h7 hf
    rw [Bool.eq_false_iff, ne_eq, nodeZero_iff]
    rintro ⟨-, -, h1⟩
    have := ((nodeZero_iff a).1 (h1 a (by rw [h3]; simp))).2.2 x hx
    rw [hz] at this; cases this
  | .alt l, n, h, hf => by
    rw [Says] at h
    obtain ⟨a, -, -, h3, -, -, -, h7⟩ := h
    rw [Full] at hf
    obtain ⟨lang, v, hl, hv⟩ := hf
    unfold langText at hv
    rw [Option.map_eq_some_iff] at hv
    obtain ⟨p, hp, -⟩ := hv
    have hp1 : p.1 = lang := by simpa using List.find?_some hp
    obtain ⟨x, hx, h8⟩ := forall₂_mem_left h7 (List.mem_of_find?_eq_some hp)
    obtain ⟨-, -, -, at', h9, -, h10⟩ := h8
    rw [Bool.eq_false_iff, ne_eq, nodeZero_iff]
    rintro ⟨-, -, h1⟩
    have h2 := ((nodeZero_iff a).1 (h1 a (by rw [h3]; simp))).2.2 x hx
    have := ((nodeZero_iff x).1 h2).2.1 at' (by rw [h9]; simp)
    exact hl (hp1.symm.trans (h10.symm.trans this))
  | .struct fs, n, h, hf => by
    rw [Says] at h
    rw [Full] at hf
    rw [Bool.eq_false_iff, ne_eq, nodeZero_iff]
    rintro ⟨-, h1, h2⟩
    rcases fullField_says r fs _ _ h.2 hf with ⟨a, ha, hv⟩ | ⟨x, hx, hz⟩
    · exact hv (h1 a (List.mem_of_mem_filter ha))
    · rw [h2 x hx] at hz; cases hz
theorem fullAny_says (r : Registry) : ∀ (l : List Tree) (ns : List Node), SaysItems r l ns → FullAny l → ∃ x ∈ ns, x.isZero = false
  | [], ns, h, hf => by rw [FullAny] at hf; exact hf.elim
  | t :: ts, ns, h, hf => by
    rw [SaysItems] at h
    obtain ⟨n, ns', rfl, -, h1, h2⟩ := h
    rw [FullAny] at hf
    rcases hf with hf | hf
    · exact ⟨n, by simp, full_says r t n h1 hf⟩
    · obtain ⟨x, hx, hz⟩ := fullAny_says r ts ns' h2 hf
      exact ⟨x, by simp [hx], hz⟩
theorem fullField_says (r : Registry) : ∀ (l : List (Str × Tree)) (as : List Attr) (ns : List Node), SaysFields r l as ns → FullField l →
    (∃ a ∈ as, a.value ≠ []) ∨ ∃ x ∈ ns, x.isZero = false
  | [], as, ns, h, hf => by rw [FullField] at hf; exact hf.elim
  | (k, t) :: ts, as, ns, h, hf => by
    rw [SaysFields] at h
    rw [FullField] at hf
    rcases h with ⟨a, as', rfl, -, rfl, h⟩ | ⟨rfl, n, ns', rfl, -, h1, h2⟩
    · rcases hf with hf | hf
      · left
        refine ⟨a, by simp, ?_⟩
        intro e
        rw [attrTree, if_pos e, Full, FullField] at hf
        exact hf
      · rcases fullField_says r ts as' ns h hf with ⟨b, hb, hv⟩ | hx
        · exact Or.inl ⟨b, by simp [hb], hv⟩
        · exact Or.inr hx
    · right
      rcases hf with hf | hf
      · exact ⟨n, by simp, full_says r t n h1 hf⟩
      · rcases fullField_says r ts [] ns' h2 hf with ⟨b, hb, hv⟩ | ⟨x, hx, hz⟩
        · cases hb
        · exact ⟨x, by simp [hx], hz⟩
end

/-! ### Names in nodes made from JSON -/

mutual
/-- The names in nodes made from JSON: with prefix, or those of arrays with the URI of `rdf`. -/
def JNode : Node → Prop
  | .mk n a _ l => (n.space = [] ∨ n.space = Json.nsRdf ∧ n.loc ∈ ["Seq".toList, "Alt".toList, "li".toList]) ∧
      (∀ x ∈ a, x.name.space = []) ∧ JNodes l
/-- The same for a list of nodes. -/
def JNodes : List Node → Prop
  | [] => True
  | x :: xs => JNode x ∧ JNodes xs
end

theorem jnodes_iff (l : List Node) : JNodes l ↔ ∀ x ∈ l, JNode x := by
  induction l with
  | nil => simp [JNodes]
  | cons x l ih => rw [JNodes, ih]; simp

theorem jnode_append {a b : Node} (ha : JNode a) (hb : JNode b) : JNode (a.appendNode b) := by
  obtain ⟨n, as, v, l⟩ := a
  rw [JNode, jnodes_iff] at ha
  show JNode (.mk n as v (l ++ [b]))
  rw [JNode, jnodes_iff]
  refine ⟨ha.1, ha.2.1, ?_⟩
  intro x hx
  rcases mem_append.1 hx with hx | hx
  · exact ha.2.2 x hx
  · rw [mem_singleton] at hx; rw [hx]; exact hb

theorem jnode_setValue {a : Node} (ha : JNode a) (s : Str) : JNode (a.setValue s) := by
  obtain ⟨n, as, v, l⟩ := a
  rw [JNode] at ha
  show JNode (.mk n as s l)
  rw [JNode]
  exact ha

theorem jnode_new (name : Str) (v : Str) : JNode (.mk ⟨[], name⟩ [] v []) := by
  rw [JNode, JNodes]
  exact ⟨Or.inl rfl, by simp, trivial⟩

theorem jnode_li (v : Str) (as : List Attr) (h : ∀ a ∈ as, a.name.space = []) : JNode (Json.li as v) := by
  rw [Json.li, JNode, JNodes]
  exact ⟨Or.inr ⟨rfl, by simp⟩, h, trivial⟩

theorem jnode_simple (name s : Str) {node : Node} (h : JNode node) : JNode (Json.addSimple name s node) := by
  unfold Json.addSimple
  split
  · exact jnode_append h (jnode_new name s)
  · exact jnode_setValue h s

theorem jnode_arr (name : Str) (loc : Str) (hl : loc ∈ ["Seq".toList, "Alt".toList, "li".toList]) {lis : List Node} (h : JNodes lis) {node : Node} (hn : JNode node) :
    JNode (node.appendNode (.mk ⟨[], name⟩ [] [] [.mk ⟨Json.nsRdf, loc⟩ [] [] lis])) := by
  apply jnode_append hn
  rw [JNode, JNodes, JNodes, JNode]
  exact ⟨Or.inl rfl, by simp, ⟨Or.inr ⟨rfl, hl⟩, by simp, h⟩, trivial⟩

theorem jnode_alt (j : Json) (l : List Node) (h : Json.altNodes j = .ok l) : JNodes l := by
  cases j with
  | obj m =>
    rw [Json.altNodes] at h
    split at h
    · cases h
      rw [jnodes_iff]
      intro x hx
      rcases mem_append.1 hx with hx | hx
      · split at hx
        · rw [mem_singleton] at hx; subst hx; exact jnode_li _ _ (by simp)
        · split at hx
          · rw [mem_singleton] at hx; subst hx; exact jnode_li _ _ (by simp)
          · rw [mem_singleton] at hx; subst hx; exact jnode_li _ _ (by simp)
      · split at hx
        · rw [mem_singleton] at hx; subst hx; exact jnode_li _ _ (by simp)
        · cases hx
    · cases h
  | _ => rw [Json.altNodes] at h; · cases h
         all_goals simp

theorem jnode_alts : ∀ (js : List Json) (l : List Node), Json.altNodesAll js = .ok l → JNodes l
  | [], l, h => by rw [Json.altNodesAll] at h; cases h; trivial
  | j :: js, l, h => by
    rw [Json.altNodesAll] at h
    split at h
    · rename_i l1 h1
      split at h
      · rename_i l2 h2
        cases h
        have a1 := jnode_alt j l1 h1
        have a2 := jnode_alts js l2 h2
        rw [jnodes_iff] at a1 a2 ⊢
        intro x hx
        rcases mem_append.1 hx with hx | hx
        · exact a1 x hx
        · exact a2 x hx
      · cases h
      · cases h
    · cases h
    · cases h

mutual
theorem jnode_toNode : ∀ (j : Json) (name : Str) (node n : Node), JNode node → Json.toNode j name node = .ok n → JNode n
  | .str s, name, node, n, h, e => by rw [Json.toNode] at e; cases e; exact jnode_simple _ _ h
  | .num s, name, node, n, h, e => by rw [Json.toNode] at e; cases e; exact jnode_simple _ _ h
  | .bool b, name, node, n, h, e => by rw [Json.toNode] at e; cases e; exact jnode_simple _ _ h
  | .null, name, node, n, h, e => by rw [Json.toNode] at e; cases e; exact h
  | .arr l, name, node, n, h, e => by
    rw [Json.toNode] at e
    split at e
    · cases e; exact h
    · split at e
      · split at e
        · rename_i lis hl
          cases e
          exact jnode_arr _ _ (by simp) (jnode_alts l lis hl) h
        · cases e
        · cases e
      · split at e
        · rename_i lis hl
          cases e
          exact jnode_arr _ _ (by simp) (jnode_items l lis hl) h
        · cases e
        · cases e
  | .obj m, name, node, n, h, e => by
    rw [Json.toNode] at e
    split at e
    · exact jnode_fields _ m node n h e
    · split at e
      · rename_i o ho
        cases e
        exact jnode_append h (jnode_fields _ m _ o (jnode_new name []) ho)
      · cases e
      · cases e
theorem jnode_items : ∀ (l : List Json) (lis : List Node), Json.toItems l = .ok lis → JNodes lis
  | [], lis, e => by rw [Json.toItems] at e; cases e; trivial
  | x :: xs, lis, e => by
    rw [Json.toItems] at e
    split at e
    · rename_i n hn
      split at e
      · rename_i l hl
        cases e
        exact ⟨jnode_toNode x [] _ n (jnode_li _ _ (by simp)) hn, jnode_items xs l hl⟩
      · cases e
      · cases e
    · cases e
    · cases e
theorem jnode_fields : ∀ (item : Bool) (m : List (Str × Json)) (node n : Node), JNode node → Json.toFields item m node = .ok n → JNode n
  | item, [], node, n, h, e => by rw [Json.toFields] at e; cases e; exact h
  | item, (k, v) :: m, node, n, h, e => by
    rw [Json.toFields] at e
    split at e
    · rename_i n' hn
      exact jnode_fields item m n' n (jnode_toNode v _ node n' h hn) e
    · cases e
    · cases e
end

/-- The element that a JSON value adds. -/
theorem jnode_added {j : Json} {name : Str} {n : Node} (h : ∀ node : Node, Json.toNode j name node = .ok (node.appendNode n)) : JNode n := by
  have := jnode_toNode j name (Node.new ⟨[], []⟩) _ (jnode_new [] []) (h _)
  have h2 : JNode (.mk ⟨[], []⟩ [] [] [n]) := this
  rw [JNode, JNodes] at h2
  exact h2.2.2.1

/-! ### Translation -/

/-- A decoder that knows the names of arrays. -/
structure RdfNames (d : Dec) : Prop where
  reg : d.reg.getPrefix Json.nsRdf = "rdf".toList
  names : ∀ loc ∈ ["Seq".toList, "Alt".toList, "li".toList], d.translate ⟨Json.nsRdf, loc⟩ = ⟨[], "rdf:".toList ++ loc⟩

theorem translate_eq (d : Dec) (n : Node) : n.translate d =
    .mk (d.translate n.xmlName) (n.attrs.map (fun x => { x with name := d.translate x.name })) n.value (Node.translateList d n.nodes) := by
  obtain ⟨nm, as, v, l⟩ := n
  rw [Node.translate]; rfl

theorem translateList_map (d : Dec) (l : List Node) : Node.translateList d l = l.map (Node.translate d) := by
  induction l with
  | nil => rfl
  | cons x l ih => rw [Node.translateList, ih]; rfl

mutual
theorem isZero_translate (d : Dec) : ∀ n : Node, (n.translate d).isZero = n.isZero
  | .mk nm as v l => by
    rw [Node.translate, Node.isZero, Node.isZero, isZeroList_translate d l]
    congr 2
    unfold AttrList.isZero
    rw [List.all_map]
    rfl
theorem isZeroList_translate (d : Dec) : ∀ l : List Node, Node.isZeroList (Node.translateList d l) = Node.isZeroList l
  | [] => rfl
  | x :: xs => by rw [Node.translateList, Node.isZeroList, Node.isZeroList, isZero_translate d x, isZeroList_translate d xs]
end

section
variable {d : Dec} (hd : RdfNames d)

theorem jnode_fullName (hd : RdfNames d) {n : Node} (h : JNode n) : (n.translate d).fullName d.reg = n.fullName d.reg := by
  obtain ⟨⟨sp, loc⟩, as, v, l⟩ := n
  rw [JNode] at h
  rw [Node.translate]
  rcases h.1 with h1 | ⟨h1, h2⟩
  · simp only at h1
    subst h1
    rw [translate_fix d _ (Or.inl rfl), fullName_plain, fullName_plain]
  · simp only at h1 h2
    subst h1
    rw [hd.names loc h2, fullName_plain, fullName_rdf d.reg hd.reg]

theorem jnode_attrs {n : Node} (h : JNode n) : (n.translate d).attrs = n.attrs := by
  obtain ⟨nm, as, v, l⟩ := n
  rw [JNode] at h
  rw [Node.translate]
  show as.map _ = as
  conv_rhs => rw [← List.map_id as]
  apply List.map_congr_left
  intro a ha
  rw [translate_fix d _ (Or.inl (h.2.1 a ha))]
  rfl

theorem translate_value (n : Node) : (n.translate d).value = n.value := by
  obtain ⟨nm, as, v, l⟩ := n
  rw [Node.translate]; rfl

theorem translate_nodes (n : Node) : (n.translate d).nodes = n.nodes.map (Node.translate d) := by
  obtain ⟨nm, as, v, l⟩ := n
  rw [Node.translate, translateList_map]; rfl

theorem jnode_child {n x : Node} (h : JNode n) (hx : x ∈ n.nodes) : JNode x := by
  obtain ⟨nm, as, v, l⟩ := n
  rw [JNode, jnodes_iff] at h
  exact h.2.2 x hx

mutual
/-- Translating the names does not change what an element says. -/
theorem says_translate (hd : RdfNames d) : ∀ (t : Tree) (n : Node), JNode n → Says d.reg t n → Says d.reg t (n.translate d)
  | .text s, n, hn, h => by
    rw [Says] at h ⊢
    obtain ⟨h1, h2, h3, h4⟩ := h
    exact ⟨h1, by rw [jnode_attrs hn, h2], by rw [translate_value, h3], by rw [translate_nodes, h4]; rfl⟩
  | .array l, n, hn, h => by
    rw [Says] at h ⊢
    obtain ⟨a, h1, h2, h3, h4, h5, h6, h7⟩ := h
    have ha : JNode a := jnode_child hn (by rw [h3]; simp)
    refine ⟨a.translate d, by rw [jnode_attrs hn, h1], by rw [translate_value, h2], by rw [translate_nodes, h3]; rfl,
      by rw [jnode_attrs ha, h4], by rw [translate_value, h5], ?_, ?_⟩
    · rw [jnode_fullName hd ha]
      refine h6.imp id (And.imp id ?_)
      rw [translate_nodes]
      cases a.nodes with
      | nil => exact id
      | cons x xs =>
        simp only [List.map_cons, FirstNested]
        rw [translate_nodes]
        simp
    · rw [translate_nodes]
      exact saysItems_translate hd l a.nodes (fun x hx => jnode_child ha hx) h7
  | .alt l, n, hn, h => by
    rw [Says] at h ⊢
    obtain ⟨a, h1, h2, h3, h4, h5, h6, h7⟩ := h
    have ha : JNode a := jnode_child hn (by rw [h3]; simp)
    refine ⟨a.translate d, by rw [jnode_attrs hn, h1], by rw [translate_value, h2], by rw [translate_nodes, h3]; rfl,
      by rw [jnode_attrs ha, h4], by rw [translate_value, h5], by rw [jnode_fullName hd ha]; exact h6, ?_⟩
    rw [translate_nodes, forall₂_map_right_iff]
    have : ∀ x ∈ a.nodes, JNode x := fun x hx => jnode_child ha hx
    revert this
    generalize a.nodes = xs at h7
    intro hxs
    induction h7 with
    | nil => exact .nil
    | cons h8 _ ih =>
      refine .cons ?_ (ih (fun x hx => hxs x (by simp [hx])))
      obtain ⟨g1, g2, g3, b, g4, g5, g6⟩ := h8
      have hx := hxs _ (mem_cons_self)
      exact ⟨by rw [jnode_fullName hd hx]; exact g1, by rw [translate_nodes, g2]; rfl, by rw [translate_value, g3], b,
        by rw [jnode_attrs hx, g4], g5, g6⟩
  | .struct fs, n, hn, h => by
    rw [Says] at h ⊢
    rw [translate_value, jnode_attrs hn, translate_nodes]
    exact ⟨h.1, saysFields_translate hd fs _ n.nodes (fun x hx => jnode_child hn hx) h.2⟩
theorem saysItems_translate (hd : RdfNames d) : ∀ (l : List Tree) (ns : List Node), (∀ x ∈ ns, JNode x) → SaysItems d.reg l ns →
    SaysItems d.reg l (ns.map (Node.translate d))
  | [], ns, hn, h => by rw [SaysItems] at h ⊢; rw [h]; rfl
  | t :: ts, ns, hn, h => by
    rw [SaysItems] at h ⊢
    obtain ⟨n, ns', rfl, h1, h2, h3⟩ := h
    have hx := hn n (by simp)
    exact ⟨_, _, rfl, by rw [jnode_fullName hd hx]; exact h1, says_translate hd t n hx h2,
      saysItems_translate hd ts ns' (fun x hx => hn x (by simp [hx])) h3⟩
theorem saysFields_translate (hd : RdfNames d) : ∀ (l : List (Str × Tree)) (as : List Attr) (ns : List Node), (∀ x ∈ ns, JNode x) →
    SaysFields d.reg l as ns → SaysFields d.reg l as (ns.map (Node.translate d))
  | [], as, ns, hn, h => by rw [SaysFields] at h ⊢; rw [h.2]; exact ⟨h.1, rfl⟩
  | (k, t) :: ts, as, ns, hn, h => by
    rw [SaysFields] at h ⊢
    rcases h with ⟨a, as', rfl, h1, h2, h3⟩ | ⟨rfl, n, ns', rfl, h1, h2, h3⟩
    · exact Or.inl ⟨a, as', rfl, h1, h2, saysFields_translate hd ts as' ns hn h3⟩
    · right
      have hx := hn n (by simp)
      exact ⟨rfl, _, _, rfl, by rw [jnode_fullName hd hx]; exact h1, says_translate hd t n hx h2,
        saysFields_translate hd ts [] ns' (fun x hx => hn x (by simp [hx])) h3⟩
end

end

end Xmp.Props
