import Verif.Model.Ext
import Verif.Props.Translate
import Verif.Props.TypedXmp
import Verif.Lemmas.Path
import Mathlib.Data.List.Forall2

/-! C63: extensions survive being written and read back; what is lost, and what grows with every cycle. -/

namespace Xmp.Props

open GoStr Ext

/-! ### Extensions with names -/

/-- An extension as it is kept: a name, attributes and children. -/
abbrev extOf (name : Str) (attrs : List Attr) (nodes : List Node) : Node := .mk ⟨[], name⟩ attrs [] nodes

theorem namedItem_eq (v : Node) : namedItem v = extOf v.xmlName.loc (rdfResourceAttr :: v.attrs) v.nodes := rfl

theorem namedReadItem_eq (d : Dec) (v : Node) :
    namedReadItem d v = extOf (d.translate v.xmlName).loc (v.translate d).attrs (v.translate d).nodes := by
  cases v; simp [namedReadItem, Node.new, Node.setNodes, Node.setAttrs, Node.attrs, Node.nodes, Node.translate, Node.xmlName]

theorem namedWrite_nodes (xs : List Node) (node : Node)
    (h : (node.nodes.map (·.xmlName.loc) ++ xs.map (·.xmlName.loc)).Nodup) :
    namedWrite xs node = node.setNodes (node.nodes ++ xs.map namedItem) := by
  induction xs generalizing node with
  | nil => cases node; simp [namedWrite, Node.setNodes, Node.nodes]
  | cons x xs ih =>
    have h1 : NodeList.addNode (namedItem x) node.nodes = node.nodes ++ [namedItem x] := by
      apply addNode_fresh
      intro y hy e
      have := (List.nodup_append.1 h).2.2 _ (List.mem_map_of_mem hy) x.xmlName.loc (by simp)
      exact this e
    have h2 : (node.addNode (namedItem x)).nodes = node.nodes ++ [namedItem x] := by
      rw [← h1]; cases node; rfl
    have h3 : namedWrite (x :: xs) node = namedWrite xs (node.addNode (namedItem x)) := rfl
    have e : (namedItem x).xmlName.loc = x.xmlName.loc := rfl
    rw [h3, ih, h2]
    · cases node; simp [Node.addNode, Node.setNodes, Node.nodes]
    · rw [h2]
      simp only [List.map_append, List.map_cons, List.map_nil, List.append_assoc, List.singleton_append, e]
      simpa using h

/-- **C63.** Extensions with different names are written in their order, one element each with the attribute
`rdf:parseType="Resource"`, the attributes and the children of the extension, behind the elements that are already there. -/
theorem named_write (xs : List Node) (node : Node)
    (h : (node.nodes.map (·.xmlName.loc) ++ xs.map (·.xmlName.loc)).Nodup) :
    (namedWrite xs node).nodes
      = node.nodes ++ xs.map (fun v => extOf v.xmlName.loc (⟨⟨[], "rdf:parseType".toList⟩, "Resource".toList⟩ :: v.attrs) v.nodes) ∧
    (namedWrite xs node).attrs = node.attrs ∧ (namedWrite xs node).value = node.value ∧
    (namedWrite xs node).xmlName = node.xmlName := by
  rw [namedWrite_nodes xs node h]
  cases node
  exact ⟨rfl, rfl, rfl, rfl⟩

example : (namedWrite [extOf "A".toList [] [], extOf "B".toList [] []] (Node.new ⟨[], "iXML:extension".toList⟩)).nodes.length = 2 := by
  rw [(named_write _ _ (by decide)).1]; rfl

/-- **C63.** Reading adds one extension for each element, behind the extensions that are already there: its name,
attributes and children with all names translated to prefixes. -/
theorem named_read (d : Dec) (node : Node) (out : List Node) :
    namedRead d node out = out ++ node.nodes.map (fun v =>
      extOf (d.translate v.xmlName).loc (v.attrs.map (fun a => ⟨d.translate a.name, a.value⟩)) (v.nodes.map (·.translate d))) := by
  unfold namedRead
  congr 1
  apply List.map_congr_left
  intro v _
  rw [namedReadItem_eq]
  cases v with
  | mk n a w l =>
    have : ∀ l, Node.translateList d l = l.map (·.translate d) := by
      intro l
      induction l with
      | nil => rfl
      | cons x xs ih => rw [Node.translateList, ih]; rfl
    simp [Node.translate, Node.attrs, Node.nodes, Node.xmlName, this]

/-- **C63.** Extensions with different names and only known or plain names inside are read back in their order with
all names and children; each has the additional attribute `rdf:parseType="Resource"`, and no text of its own. -/
theorem named_roundtrip (d : Dec) (xs : List Node) (name : QName)
    (hn : (xs.map (·.xmlName.loc)).Nodup) (ha : ∀ v ∈ xs, v.translate d = v) (hs : ∀ v ∈ xs, v.xmlName.space = []) :
    namedRead d (namedWrite xs (Node.new name)) []
      = xs.map (fun v => extOf v.xmlName.loc (⟨⟨[], "rdf:parseType".toList⟩, "Resource".toList⟩ :: v.attrs) v.nodes) := by
  unfold namedRead
  rw [(named_write xs (Node.new name) (by simpa [Node.new, Node.nodes] using hn)).1]
  simp only [Node.new, Node.nodes, List.nil_append, List.map_map]
  apply List.map_congr_left
  intro v hv
  have h1 := ha v hv
  have h2 := hs v hv
  cases v with
  | mk n a w l =>
    obtain ⟨sp, lc⟩ := n
    simp only [Node.xmlName] at h2
    subst h2
    simp only [Node.translate, Node.mk.injEq] at h1
    simp only [Function.comp, namedReadItem_eq, Node.xmlName, Node.translate, Node.attrs, Node.nodes, List.map_cons, h1.2.1,
      h1.2.2.2]
    simp [Dec.translate]

example : namedRead ⟨⟨[], [], []⟩, [], []⟩ (namedWrite [extOf "A".toList [] [Node.new ⟨[], "X".toList⟩]] (Node.new ⟨[], "e".toList⟩)) []
    = [extOf "A".toList [rdfResourceAttr] [Node.new ⟨[], "X".toList⟩]] := by
  rw [named_roundtrip _ _ _ (by decide) (by intro v hv; simp at hv; subst hv; rfl) (by intro v hv; simp at hv; subst hv; rfl)]
  rfl

/-- `k` times written and read. -/
def namedCycle (d : Dec) (name : QName) : Nat → List Node → List Node
  | 0, xs => xs
  | k + 1, xs => namedRead d (namedWrite (namedCycle d name k xs) (Node.new name)) []

theorem namedCycle_eq (d : Dec) (name : QName) (k : Nat) (xs : List Node)
    (hn : (xs.map (·.xmlName.loc)).Nodup) (ha : ∀ v ∈ xs, v.translate d = v) (hs : ∀ v ∈ xs, v.xmlName.space = []) :
    namedCycle d name (k + 1) xs
      = xs.map (fun v => extOf v.xmlName.loc (List.replicate (k + 1) rdfResourceAttr ++ v.attrs) v.nodes) := by
  induction k with
  | zero => exact named_roundtrip d xs name hn ha hs
  | succ k ih =>
    rw [namedCycle, ih, named_roundtrip]
    · rw [List.map_map]
      apply List.map_congr_left
      intro v hv
      simp only [Function.comp, extOf, Node.xmlName, Node.attrs, Node.nodes, List.replicate_succ, List.cons_append]
      rfl
    · rw [List.map_map]; exact hn
    · intro v hv
      obtain ⟨w, hw, rfl⟩ := List.mem_map.1 hv
      have h1 := ha w hw
      cases w with
      | mk n a x l =>
        simp only [Node.translate, Node.mk.injEq] at h1
        have hq : d.translate rdfResourceAttr.name = rdfResourceAttr.name := by simp [Dec.translate, rdfResourceAttr]
        simp only [extOf, Node.translate, Node.attrs, Node.nodes, Node.xmlName, List.map_append, List.map_replicate, h1.2.1, h1.2.2.2, hq]
        simp [Dec.translate]
    · intro v hv
      obtain ⟨w, hw, rfl⟩ := List.mem_map.1 hv
      rfl

/-- **C63, finding.** Every time a document with such extensions is written and read, each extension gets one more
attribute `rdf:parseType`: after `k` times there are `k` of them in front of the others. -/
theorem named_attr_grows (d : Dec) (name : QName) (k : Nat) (xs : List Node)
    (hn : (xs.map (·.xmlName.loc)).Nodup) (ha : ∀ v ∈ xs, v.translate d = v) (hs : ∀ v ∈ xs, v.xmlName.space = []) :
    (namedCycle d name k xs).map (·.attrs)
      = xs.map (fun v => List.replicate k ⟨⟨[], "rdf:parseType".toList⟩, "Resource".toList⟩ ++ v.attrs) := by
  cases k with
  | zero => simp [namedCycle]
  | succ k =>
    rw [namedCycle_eq d name k xs hn ha hs, List.map_map]
    rfl

/-- **C63, finding.** An extension that was read once is written with two attributes of the same name: the second
document is not well-formed XML. -/
theorem named_second_write_malformed (d : Dec) (name : QName) (v : Node)
    (ha : v.translate d = v) (hs : v.xmlName.space = []) :
    ∀ w ∈ namedRead d (namedWrite [v] (Node.new name)) [], ∀ x ∈ (namedWrite [w] (Node.new name)).nodes,
      ¬ (x.attrs.map (·.name)).Nodup := by
  rw [named_roundtrip d [v] name (by simp) (by simpa using ha) (by simpa using hs)]
  intro w hw x hx
  simp only [List.map_cons, List.map_nil, List.mem_singleton] at hw
  subst hw
  rw [(named_write _ _ (by simp [Node.new, Node.nodes])).1] at hx
  simp only [Node.new, Node.nodes, List.nil_append, List.map_cons, List.map_nil, List.mem_singleton] at hx
  subst hx
  simp [Node.attrs]

theorem addNode_last (pre post : List Node) (y z : Node) (h : ∀ x ∈ pre, x.xmlName.loc ≠ z.xmlName.loc)
    (hy : y.xmlName.loc = z.xmlName.loc) : NodeList.addNode z (pre ++ y :: post) = pre ++ z :: post := by
  induction pre with
  | nil => simp [NodeList.addNode, hy]
  | cons x xs ih =>
    have hx := h x (by simp)
    simp only [List.cons_append, NodeList.addNode, hx, if_false]
    rw [ih (fun w hw => h w (by simp [hw]))]

/-- **C63, finding.** Of two extensions with the same name only the second one is written, in the place of the first. -/
theorem named_same_name_lost (pre post : List Node) (v w node : Node) (hvw : v.xmlName.loc = w.xmlName.loc)
    (hn : (node.nodes.map (·.xmlName.loc) ++ (pre ++ v :: post).map (·.xmlName.loc)).Nodup) :
    namedWrite (pre ++ v :: (post ++ [w])) node = namedWrite (pre ++ w :: post) node := by
  have hn2 : (node.nodes.map (·.xmlName.loc) ++ (pre ++ w :: post).map (·.xmlName.loc)).Nodup := by
    simpa [hvw] using hn
  have h1 : namedWrite (pre ++ v :: (post ++ [w])) node = (namedWrite (pre ++ v :: post) node).addNode (namedItem w) := by
    unfold namedWrite
    rw [show pre ++ v :: (post ++ [w]) = (pre ++ v :: post) ++ [w] by simp, List.foldl_append]
    rfl
  rw [h1, namedWrite_nodes _ _ hn, namedWrite_nodes _ _ hn2]
  have h2 : NodeList.addNode (namedItem w) (node.nodes ++ (pre ++ v :: post).map namedItem)
      = node.nodes ++ (pre ++ w :: post).map namedItem := by
    have := addNode_last (node.nodes ++ pre.map namedItem) (post.map namedItem) (namedItem v) (namedItem w)
      (by
        intro x hx e
        have e : x.xmlName.loc = w.xmlName.loc := e
        rw [← hvw] at e
        rcases List.mem_append.1 hx with hx | hx
        · exact (List.nodup_append.1 hn).2.2 _ (List.mem_map_of_mem hx) v.xmlName.loc (by simp) e
        · obtain ⟨y, hy, rfl⟩ := List.mem_map.1 hx
          have e : y.xmlName.loc = v.xmlName.loc := e
          have h3 := (List.nodup_append.1 hn).2.1
          rw [List.map_append, List.map_cons] at h3
          exact (List.nodup_append.1 h3).2.2 _ (List.mem_map_of_mem hy) v.xmlName.loc (by simp) e)
      hvw
    simpa using this
  rw [← h2]
  cases node; rfl

example : (namedWrite [extOf "A".toList [] [Node.new ⟨[], "X".toList⟩], extOf "A".toList [] []] (Node.new ⟨[], "e".toList⟩))
    = namedWrite [extOf "A".toList [] []] (Node.new ⟨[], "e".toList⟩) :=
  named_same_name_lost [] [] _ _ _ rfl (by decide)

/-- **C63, finding.** The text of an element below the extension list is lost when it is read, and the text of an
extension when it is written. -/
theorem named_text_lost (d : Dec) (n : QName) (a : List Attr) (v w : Str) (l : List Node) (node : Node) (out : List Node) :
    namedReadItem d (.mk n a v l) = namedReadItem d (.mk n a w l) ∧
    (∀ x ∈ namedRead d node [], x.value = []) ∧
    namedWrite (out ++ [.mk n a v l]) node = namedWrite (out ++ [.mk n a w l]) node := by
  refine ⟨rfl, ?_, ?_⟩
  · intro x hx
    simp only [namedRead, List.nil_append, List.mem_map] at hx
    obtain ⟨y, -, rfl⟩ := hx
    rw [namedReadItem_eq]
    rfl
  · unfold namedWrite
    rw [List.foldl_append, List.foldl_append]
    rfl

/-- **C63.** Extensions are found by name: after writing and reading, looking up the name of an extension gives the
element with its children. -/
theorem named_find (d : Dec) (xs : List Node) (name : QName) (v : Node) (hv : v ∈ xs)
    (hn : (xs.map (·.name)).Nodup) (ha : ∀ v ∈ xs, v.translate d = v) (hs : ∀ v ∈ xs, v.xmlName.space = []) :
    ∃ x, namedFind (namedRead d (namedWrite xs (Node.new name)) []) v.name = some x ∧ x.nodes = v.nodes ∧
      ∀ a ∈ v.attrs, a ∈ x.attrs := by
  have hn2 : (xs.map (·.xmlName.loc)).Nodup := by
    have : xs.map (·.name) = (xs.map (·.xmlName.loc)).map stripPrefix := by rw [List.map_map]; rfl
    rw [this] at hn
    exact List.Nodup.of_map _ hn
  rw [named_roundtrip d xs name hn2 ha hs]
  refine ⟨extOf v.xmlName.loc (rdfResourceAttr :: v.attrs) v.nodes, ?_, rfl, fun a h => List.mem_cons_of_mem _ h⟩
  clear hn2 ha hs
  induction xs with
  | nil => cases hv
  | cons x xs ih =>
    simp only [List.map_cons, List.nodup_cons] at hn
    unfold namedFind
    rw [List.map_cons, List.find?_cons]
    rcases List.mem_cons.1 hv with rfl | hv
    · simp [extOf, Node.name, Node.xmlName, rdfResourceAttr]
    · have hne : ¬ x.name = v.name := fun e => hn.1 (e ▸ List.mem_map_of_mem (f := (·.name)) hv)
      have : decide ((extOf x.xmlName.loc (⟨⟨[], "rdf:parseType".toList⟩, "Resource".toList⟩ :: x.attrs) x.nodes).name = v.name) = false := by
        exact decide_eq_false hne
      rw [this]
      exact ih hv hn.2

/-! ### Extensions with properties of other namespaces -/

/-- The node `r` keeps the properties `cs` of the prefix `p`, for which there is no model: the decoder knows the prefix,
the properties have different names and are not empty. -/
structure Keeps (env : Env) (d : Dec) (p : Str) (r : Root) (cs : List Node) : Prop where
  model : r.model = none
  node : r.node = .mk ⟨[], p⟩ [] [] (cs.map (·.translate d))
  plain : ':' ∉ p
  some_ : cs ≠ []
  known : ∀ c ∈ cs, ∃ ns, d.findNs c.xmlName = some ns ∧ ns.name = p ∧ env.newModel ns = none
  full : ∀ c ∈ cs, (c.translate d).isZero = false
  prop : ∀ c ∈ cs, c.fullName d.reg ≠ "rdf:Description".toList
  names : (cs.map (fun c => (c.translate d).xmlName.loc)).Nodup

section
variable {env : Env} {d : Dec} {dv : Version}

theorem findIdx_last (p : Str) (rs : List Root) (r : Root) (h : ∀ x ∈ rs, XDoc.rootMatches p x = false)
    (hr : XDoc.rootMatches p r = true) : (rs ++ [r]).findIdx? (XDoc.rootMatches p) = some rs.length := by
  induction rs with
  | nil => simp [List.findIdx?_cons, hr]
  | cons x xs ih =>
    have hx := h x (by simp)
    rw [List.cons_append, List.findIdx?_cons, hx, ih (fun y hy => h y (by simp [hy]))]
    simp

theorem rootMatches_wrap (p q : Str) (hp : ':' ∉ p) (a : List Attr) (v : Str) (l : List Node) :
    XDoc.rootMatches q ⟨.mk ⟨[], p⟩ a v l, none⟩ = decide (p = q) := by
  simp [XDoc.rootMatches, Node.name, Node.xmlName, stripPrefix_none hp]

theorem modify_at_last {α : Type} (l : List α) (x : α) (f : α → α) : (l ++ [x]).modify l.length f = l ++ [f x] := by
  induction l with
  | nil => rfl
  | cons y ys ih => simp [List.modify_succ_cons, ih]

theorem decodeNode_more {p : Str} {ns : Namespace} {rs : List Root} {c : Node} {l : List Node} (hp : ':' ∉ p)
    (hrs : ∀ x ∈ rs, XDoc.rootMatches p x = false) (hns : d.findNs c.xmlName = some ns) (hnp : ns.name = p)
    (hz : (c.translate d).isZero = false) (hl : ∀ x ∈ l, x.xmlName.loc ≠ (c.translate d).xmlName.loc) :
    Dec.decodeNode env d dv (rs ++ [⟨.mk ⟨[], p⟩ [] [] l, none⟩]) c = .ok (rs ++ [⟨.mk ⟨[], p⟩ [] [] (l ++ [c.translate d]), none⟩]) := by
  have h1 : Dec.lookupNode env d (rs ++ [⟨.mk ⟨[], p⟩ [] [] l, none⟩]) c.xmlName
      = some (rs.length, rs ++ [⟨.mk ⟨[], p⟩ [] [] l, none⟩]) := by
    unfold Dec.lookupNode
    rw [hns]
    simp only [hnp]
    rw [findIdx_last p rs _ hrs (by rw [rootMatches_wrap p p hp]; simp)]
  unfold Dec.decodeNode
  rw [h1]
  simp only [List.getElem?_concat_length, Option.bind_some, hz, modify_at_last, Node.addNode, Node.setNodes, Node.nodes,
    addNode_fresh _ l hl]
  simp

theorem decodeNode_first {p : Str} {ns : Namespace} {rs : List Root} {c : Node} 
    (hrs : ∀ x ∈ rs, XDoc.rootMatches p x = false) (hns : d.findNs c.xmlName = some ns) (hnp : ns.name = p)
    (hm : env.newModel ns = none) (hz : (c.translate d).isZero = false) :
    Dec.decodeNode env d dv rs c = .ok (rs ++ [⟨.mk ⟨[], p⟩ [] [] [c.translate d], none⟩]) := by
  have h0 : rs.findIdx? (XDoc.rootMatches p) = none := by
    rw [List.findIdx?_eq_none_iff]; intro x hx; rw [hrs x hx]
  have h1 : Dec.lookupNode env d rs c.xmlName = some (rs.length, rs ++ [⟨.mk ⟨[], p⟩ [] [] [], none⟩]) := by
    unfold Dec.lookupNode
    rw [hns]
    simp only [hnp, h0, hm]
    rfl
  unfold Dec.decodeNode
  rw [h1]
  simp only [List.getElem?_concat_length, Option.bind_some, hz, modify_at_last, Node.addNode, Node.setNodes, Node.nodes]
  simp [NodeList.addNode]

theorem extNodes_rest {p : Str} {rs : List Root} (hp : ':' ∉ p) (hrs : ∀ x ∈ rs, XDoc.rootMatches p x = false)
    (rest : List Node) : ∀ (cs : List Node) (l : List Node),
    (∀ c ∈ cs, ∃ ns, d.findNs c.xmlName = some ns ∧ ns.name = p ∧ env.newModel ns = none) →
    (∀ c ∈ cs, (c.translate d).isZero = false) → (∀ c ∈ cs, c.fullName d.reg ≠ "rdf:Description".toList) →
    (l.map (·.xmlName.loc) ++ cs.map (fun c => (c.translate d).xmlName.loc)).Nodup →
    extNodes env d dv (cs ++ rest) (rs ++ [⟨.mk ⟨[], p⟩ [] [] l, none⟩])
      = extNodes env d dv rest (rs ++ [⟨.mk ⟨[], p⟩ [] [] (l ++ cs.map (·.translate d)), none⟩])
  | [], l, _, _, _, _ => by simp
  | c :: cs, l, h1, h2, h3, h4 => by
    obtain ⟨ns, hns, hnp, -⟩ := h1 c (by simp)
    have hl : ∀ x ∈ l, x.xmlName.loc ≠ (c.translate d).xmlName.loc := fun x hx e =>
      (List.nodup_append.1 h4).2.2 _ (List.mem_map_of_mem (f := (·.xmlName.loc)) hx) _ (by simp) e
    rw [List.cons_append, extNodes, if_neg (h3 c (by simp)),
      decodeNode_more hp hrs hns hnp (h2 c (by simp)) hl]
    simp only
    rw [extNodes_rest hp hrs rest cs (l ++ [c.translate d]) (fun x hx => h1 x (by simp [hx])) (fun x hx => h2 x (by simp [hx]))
      (fun x hx => h3 x (by simp [hx])) (by simpa using h4)]
    simp

theorem extNodes_group {p : Str} {rs : List Root} {r : Root} {cs : List Node} (h : Keeps env d p r cs)
    (hrs : ∀ x ∈ rs, XDoc.rootMatches p x = false) (rest : List Node) :
    extNodes env d dv (cs ++ rest) rs = extNodes env d dv rest (rs ++ [r]) := by
  cases cs with
  | nil => exact absurd rfl h.some_
  | cons c cs =>
    obtain ⟨ns, hns, hnp, hm⟩ := h.known c (by simp)
    have hn := h.names
    rw [List.cons_append, extNodes, if_neg (h.prop c (by simp)), decodeNode_first hrs hns hnp hm (h.full c (by simp))]
    simp only
    rw [extNodes_rest h.plain hrs rest cs [c.translate d] (fun x hx => h.known x (by simp [hx]))
      (fun x hx => h.full x (by simp [hx])) (fun x hx => h.prop x (by simp [hx])) (by simpa using hn)]
    have : r = ⟨.mk ⟨[], p⟩ [] [] ([c.translate d] ++ cs.map (·.translate d)), none⟩ := by
      have h1 := h.model
      have h2 := h.node
      cases r
      simp only at h1 h2
      rw [h1, h2]
      simp
    rw [← this]

/-- The nodes of an extension, with their prefixes and the properties they are read from. -/
def KeepsAll (env : Env) (d : Dec) (ps : List Str) (rs : List Root) (css : List (List Node)) : Prop :=
  ps.Nodup ∧ ps.length = rs.length ∧ ps.length = css.length ∧
    ∀ (i : Nat) p r cs, ps[i]? = some p → rs[i]? = some r → css[i]? = some cs → Keeps env d p r cs

theorem keepsAll_cons {p : Str} {ps : List Str} {r : Root} {rs : List Root} {cs : List Node} {css : List (List Node)}
    (h : KeepsAll env d (p :: ps) (r :: rs) (cs :: css)) : Keeps env d p r cs ∧ p ∉ ps ∧ KeepsAll env d ps rs css := by
  obtain ⟨h1, h2, h3, h4⟩ := h
  refine ⟨h4 0 p r cs rfl rfl rfl, (List.nodup_cons.1 h1).1, (List.nodup_cons.1 h1).2, by simpa using h2, by simpa using h3, ?_⟩
  intro i q s t hq hs ht
  exact h4 (i + 1) q s t (by simpa using hq) (by simpa using hs) (by simpa using ht)

theorem keeps_matches {p q : Str} {r : Root} {cs : List Node} (h : Keeps env d p r cs) (hq : p ≠ q) :
    XDoc.rootMatches q r = false := by
  have h1 := h.model
  have h2 := h.node
  cases r
  simp only at h1 h2
  subst h1 h2
  rw [rootMatches_wrap p q h.plain]
  simp [hq]

theorem extNodes_all : ∀ (ps : List Str) (rs : List Root) (css : List (List Node)) (acc : List Root),
    KeepsAll env d ps rs css → (∀ x ∈ acc, ∀ p ∈ ps, XDoc.rootMatches p x = false) →
    extNodes env d dv css.flatten acc = .ok (acc ++ rs)
  | [], [], [], acc, _, _ => by simp [extNodes]
  | p :: ps, r :: rs, cs :: css, acc, h, ha => by
    obtain ⟨hk, hp, hr⟩ := keepsAll_cons h
    rw [List.flatten_cons, extNodes_group hk (fun x hx => ha x hx p (by simp))]
    rw [extNodes_all ps rs css (acc ++ [r]) hr]
    · simp
    · intro x hx q hq
      rcases List.mem_append.1 hx with hx | hx
      · exact ha x hx q (by simp [hq])
      · simp only [List.mem_singleton] at hx
        subst hx
        exact keeps_matches hk (fun e => hp (e ▸ hq))
  | [], _ :: _, _, _, h, _ => by simp [KeepsAll] at h
  | [], [], _ :: _, _, h, _ => by simp [KeepsAll] at h
  | _ :: _, [], _, _, h, _ => by simp [KeepsAll] at h
  | _ :: _, _ :: _, [], _, h, _ => by simp [KeepsAll] at h

theorem extAttrs_skipped : ∀ (as : List Attr) (rs : List Root), (∀ a ∈ as, skipName (d.translate a.name) = true) →
    extAttrs env d dv as rs = .ok rs
  | [], _, _ => rfl
  | a :: as, rs, h => by
    have h1 : Dec.decodeAttribute env d dv rs a = .ok rs := by
      unfold Dec.decodeAttribute
      simp [h a (by simp)]
    rw [extAttrs, h1]
    exact extAttrs_skipped as rs (fun x hx => h x (by simp [hx]))

/-- **C63.** Properties of other namespaces inside of an extension are read into one node for each prefix, in the order
of the document; attributes of the element that only describe its form are ignored. -/
theorem ext_read (ps : List Str) (rs : List Root) (css : List (List Node)) (h : KeepsAll env d ps rs css)
    (name : QName) (as : List Attr) (v : Str) (ha : ∀ a ∈ as, skipName (d.translate a.name) = true) :
    extRead env d dv (.mk name as v css.flatten) [] = .ok rs := by
  rw [extRead, extAttrs_skipped as [] ha]
  simp only
  rw [extNodes_all ps rs css [] h (by simp)]
  simp

theorem extWrite_nil_nodes : ∀ (rs : List Root) (node : Node), (∀ r ∈ rs, r.model = none) →
    extWrite [] rs node = some (node.setNodes (node.nodes ++ (rs.map (·.node.nodes)).flatten))
  | [], node, _ => by cases node; simp [extWrite, Node.setNodes, Node.nodes]
  | r :: rs, node, h => by
    have h1 : extWriteItem [] node r = some (node.setNodes (node.nodes ++ r.node.nodes)) := by
      simp [extWriteItem, h r (by simp)]
    have h2 : extWrite [] (r :: rs) node = extWrite [] rs (node.setNodes (node.nodes ++ r.node.nodes)) := by
      simp [extWrite, h1]
    rw [h2, extWrite_nil_nodes rs _ (fun x hx => h x (by simp [hx]))]
    cases node
    simp [Node.setNodes, Node.nodes]

/-- **C63.** An extension without models is written as the properties of its nodes, in their order, behind the children
that are already there. -/
theorem ext_write (rs : List Root) (node : Node) (h : ∀ r ∈ rs, r.model = none) :
    ∃ out, extWrite [] rs node = some out ∧ out.nodes = node.nodes ++ (rs.map (·.node.nodes)).flatten ∧
      out.attrs = node.attrs ∧ out.value = node.value ∧ out.xmlName = node.xmlName := by
  rw [extWrite_nil_nodes rs node h]
  cases node
  exact ⟨_, rfl, rfl, rfl, rfl, rfl⟩

theorem keepsAll_model : ∀ (ps : List Str) (rs : List Root) (css : List (List Node)), KeepsAll env d ps rs css →
    (∀ r ∈ rs, r.model = none) ∧ rs.map (·.node.nodes) = css.map (fun cs => cs.map (·.translate d))
  | [], [], [], _ => by simp
  | p :: ps, r :: rs, cs :: css, h => by
    obtain ⟨hk, -, hr⟩ := keepsAll_cons h
    obtain ⟨h1, h2⟩ := keepsAll_model ps rs css hr
    refine ⟨by simp [hk.model]; exact h1, ?_⟩
    rw [List.map_cons, List.map_cons, h2, hk.node]
    rfl
  | [], _ :: _, _, h => by simp [KeepsAll] at h
  | [], [], _ :: _, h => by simp [KeepsAll] at h
  | _ :: _, [], _, h => by simp [KeepsAll] at h
  | _ :: _, _ :: _, [], h => by simp [KeepsAll] at h

theorem map_fix (d : Dec) : ∀ cs : List Node, (∀ c ∈ cs, c.translate d = c) → cs.map (·.translate d) = cs
  | [], _ => rfl
  | c :: cs, h => by rw [List.map_cons, h c (by simp), map_fix d cs (fun x hx => h x (by simp [hx]))]

/-- **C63.** An extension that keeps properties of namespaces without models is the same after it was written and read:
the same prefixes in the same order with the same properties. -/
theorem ext_roundtrip (ps : List Str) (rs : List Root) (css : List (List Node)) (h : KeepsAll env d ps rs css)
    (hf : ∀ cs ∈ css, ∀ c ∈ cs, c.translate d = c) (name : QName) :
    ∃ out, extWrite [] rs (Node.new name) = some out ∧ extRead env d dv out [] = .ok rs := by
  obtain ⟨h1, h2⟩ := keepsAll_model ps rs css h
  refine ⟨.mk name [] [] css.flatten, ?_, ext_read ps rs css h name [] [] (by simp)⟩
  rw [extWrite_nil_nodes rs _ h1, h2]
  have : css.map (fun cs => cs.map (·.translate d)) = css := by
    clear h h1 h2
    induction css with
    | nil => rfl
    | cons cs css ih =>
      rw [List.map_cons, map_fix d cs (hf cs (by simp)), ih (fun x hx => hf x (by simp [hx]))]
  rw [this]
  simp [Node.new, Node.setNodes, Node.nodes]

/-- **C63, finding.** Attributes and texts that the nodes of an extension keep are not written. -/
theorem ext_attrs_dropped (rs ss : List Root) (node : Node)
    (h : rs.map (fun r => (r.model, r.node.nodes)) = ss.map (fun r => (r.model, r.node.nodes))) :
    extWrite [] rs node = extWrite [] ss node := by
  induction rs generalizing ss node with
  | nil =>
    cases ss with
    | nil => rfl
    | cons s ss => simp at h
  | cons r rs ih =>
    cases ss with
    | nil => simp at h
    | cons s ss =>
      simp only [List.map_cons, List.cons.injEq, Prod.mk.injEq] at h
      obtain ⟨⟨h1, h2⟩, h3⟩ := h
      have h4 : extWriteItem [] node r = extWriteItem [] node s := by
        unfold extWriteItem
        rw [h1, h2]
        simp
      simp only [extWrite, List.foldlM_cons, h4]
      cases extWriteItem [] node s with
      | none => rfl
      | some n => exact ih ss n h3

/-- **C63, finding.** A property of a namespace without model that is given as an attribute of an extension is read,
and lost when the extension is written. -/
theorem ext_attribute_lost (name : QName) (a : Attr) (ns : Namespace) (node : Node)
    (hs : skipName (d.translate a.name) = false) (hns : d.findNs (d.translate a.name) = some ns)
    (hm : env.newModel ns = none) (hv : a.value ≠ []) :
    extRead env d dv (.mk name [a] [] []) [] = .ok [⟨.mk ⟨[], ns.name⟩ [⟨d.translate a.name, a.value⟩] [] [], none⟩] ∧
    extWrite [] [⟨.mk ⟨[], ns.name⟩ [⟨d.translate a.name, a.value⟩] [] [], none⟩] node = some node := by
  constructor
  · have h1 : Dec.lookupNode env d [] (d.translate a.name) = some (0, [⟨.mk ⟨[], ns.name⟩ [] [] [], none⟩]) := by
      unfold Dec.lookupNode
      rw [hns]
      simp only [List.findIdx?_nil, hm]
      rfl
    have h2 : Dec.decodeAttribute env d dv [] a = .ok [⟨.mk ⟨[], ns.name⟩ [⟨d.translate a.name, a.value⟩] [] [], none⟩] := by
      unfold Dec.decodeAttribute
      simp only [hs, h1]
      simp [hv, Node.addAttr, Node.setAttrs, Node.attrs, AttrList.addAttr, List.modify]
    rw [extRead, extAttrs, h2]
    rfl
  · cases node
    simp [extWrite, extWriteItem, Node.setNodes, Node.nodes]

/-- **C63.** A property whose prefix is not known to the decoder is kept as it is and written again unchanged if the
extension has a name of its own; without a name only its children are written: the property itself is lost. -/
theorem ext_unknown (name : QName) (c : Node) (loc : Str) (node : Node) (hd : c.fullName d.reg ≠ "rdf:Description".toList)
    (hns : d.findNs c.xmlName = none) :
    extRead env d dv (.mk name [] [] [c]) [] = .ok [⟨c, none⟩] ∧
    extWrite loc [⟨c, none⟩] node = some (node.setNodes (node.nodes ++ if loc = [] then c.nodes else [c])) := by
  constructor
  · have h1 : Dec.lookupNode env d [] c.xmlName = none := by
      unfold Dec.lookupNode
      rw [hns]
    have h2 : Dec.decodeNode env d dv [] c = .err := by
      unfold Dec.decodeNode
      rw [h1]
    rw [extRead, extAttrs]
    simp only
    rw [extNodes, if_neg hd, h2]
    simp only [extRaw, h1]
    rw [extNodes]
    rfl
  · by_cases h : loc = [] <;> simp [extWrite, extWriteItem, h]

/-- **C63, finding.** An attribute of a prefix that the decoder does not know makes reading the whole extension fail,
whatever else it contains, although an element of such a prefix is kept. -/
theorem ext_unknown_attribute_fails (name : QName) (pre post : List Attr) (a : Attr) (v : Str) (l : List Node) (rs : List Root)
    (hp : ∀ x ∈ pre, skipName (d.translate x.name) = true) (hs : skipName (d.translate a.name) = false)
    (hns : d.findNs (d.translate a.name) = none) :
    extRead env d dv (.mk name (pre ++ a :: post) v l) rs = .err := by
  have h1 : Dec.decodeAttribute env d dv rs a = .err := by
    unfold Dec.decodeAttribute Dec.lookupNode
    simp [hs, hns]
  have h2 : extAttrs env d dv (pre ++ a :: post) rs = .err := by
    clear l v name
    induction pre with
    | nil => rw [List.nil_append, extAttrs, h1]
    | cons x xs ih =>
      have h3 : Dec.decodeAttribute env d dv rs x = .ok rs := by
        unfold Dec.decodeAttribute
        simp [hp x (by simp)]
      rw [List.cons_append, extAttrs, h3]
      exact ih (fun y hy => hp y (by simp [hy]))
  rw [extRead, h2]

/-- **C63.** Looking up a prefix in an extension finds the node with its properties. -/
theorem ext_find (ps : List Str) (rs : List Root) (css : List (List Node)) (h : KeepsAll env d ps rs css) (i : Nat) (p : Str)
    (hp : ps[i]? = some p) : extFind rs p = some i := by
  unfold extFind
  induction i generalizing ps rs css with
  | zero =>
    match ps, rs, css, h with
    | q :: ps, r :: rs, cs :: css, h =>
      obtain ⟨hk, -, -⟩ := keepsAll_cons h
      simp at hp
      subst hp
      have h1 := hk.model
      have h2 := hk.node
      cases r
      simp only at h1 h2
      subst h1 h2
      simp [List.findIdx?_cons, rootMatches_wrap q q hk.plain]
    | q :: ps, [], _, h => simp [KeepsAll] at h
    | q :: ps, _ :: _, [], h => simp [KeepsAll] at h
  | succ i ih =>
    match ps, rs, css, h with
    | q :: ps, r :: rs, cs :: css, h =>
      obtain ⟨hk, hq, hr⟩ := keepsAll_cons h
      simp at hp
      have hne : q ≠ p := fun e => hq (e ▸ List.mem_of_getElem? hp)
      rw [List.findIdx?_cons, keeps_matches hk hne, ih ps rs css hr hp]
      simp
    | q :: ps, [], _, h => simp [KeepsAll] at h
    | q :: ps, _ :: _, [], h => simp [KeepsAll] at h

/-! ### Bags of extensions -/

/-- **C63.** A bag of extensions (`xmpMM:Pantry`) is the same after it was written and read, if it has at least one
extension and each of them keeps properties of namespaces without models. -/
theorem bag_roundtrip (xs : List (List Root)) (hx : xs ≠ [])
    (h : ∀ rs ∈ xs, ∃ ps css, KeepsAll env d ps rs css ∧ ∀ cs ∈ css, ∀ c ∈ cs, c.translate d = c) (name : QName) :
    ∃ out, bagWrite xs (Node.new name) = some out ∧ bagRead env d dv out [] = some xs := by
  have h1 : ∃ lis, xs.mapM bagItem = some lis ∧
      lis.mapM (fun n => if n.fullName d.reg ≠ "rdf:li".toList then none else resOption (extRead env d dv n [])) = some xs := by
    clear hx
    induction xs with
    | nil => exact ⟨[], rfl, rfl⟩
    | cons rs xs ih =>
      obtain ⟨lis, hl1, hl2⟩ := ih (fun x hx => h x (by simp [hx]))
      obtain ⟨ps, css, hk, hf⟩ := h rs (by simp)
      obtain ⟨out, ho1, ho2⟩ := ext_roundtrip (dv := dv) ps rs css hk hf rdfDescription
      have hout : out.xmlName = rdfDescription := by
        obtain ⟨o, e1, -, -, -, e2⟩ := ext_write rs (Node.new rdfDescription) (keepsAll_model ps rs css hk).1
        rw [ho1] at e1
        cases e1
        exact e2
      refine ⟨(Node.new ⟨[], "rdf:li".toList⟩).setNodes [out] :: lis, ?_, ?_⟩
      · simp [bagItem, ho1, hl1]
      · have hfull : out.fullName d.reg = "rdf:Description".toList := by
          simp [Node.fullName, hout, rdfDescription]
        have e : extRead env d dv ((Node.new ⟨[], "rdf:li".toList⟩).setNodes [out]) [] = .ok rs := by
          simp [Node.new, Node.setNodes, extRead, extAttrs, extNodes, hfull, ho2]
        rw [List.mapM_cons, hl2]
        have e2 : ((Node.new ⟨[], "rdf:li".toList⟩).setNodes [out]).fullName d.reg = "rdf:li".toList := by
          simp [Node.new, Node.setNodes, Node.fullName, Node.xmlName]
        rw [e2, e]
        rfl
  obtain ⟨lis, hl1, hl2⟩ := h1
  have hlen : ¬ xs.length = 0 := by simpa using hx
  refine ⟨(Node.new name).setNodes [(Node.new ⟨[], "rdf:Bag".toList⟩).setNodes lis], ?_, ?_⟩
  · simp [bagWrite, hx, hl1, Node.new, Node.nodes]
  · unfold bagRead unmarshalArray
    have : arrayItems ((Node.new name).setNodes [(Node.new ⟨[], "rdf:Bag".toList⟩).setNodes lis]) = some lis := by
      simp only [arrayItems, Node.new, Node.setNodes, Node.nodes]
      rw [if_pos]
      simp [Node.name, Node.xmlName]
      right; left; decide
    rw [this]
    simp only [hl2]
    rfl

/-- **C63.** A bag without extensions writes nothing, and an element without a bag can not be read as one. -/
theorem bag_empty (name : QName) (out : List (List Root)) :
    bagWrite [] (Node.new name) = some (Node.new name) ∧ bagRead env d dv (Node.new name) out = none := by
  exact ⟨rfl, rfl⟩

end

/-! ### A concrete case -/

/-- A decoder that knows the foreign prefixes `foo` and `bar`. -/
def extDec : Dec := ⟨⟨[], [], []⟩, [], [("urn:f".toList, ⟨"foo".toList, "urn:f".toList, none⟩), ("urn:b".toList, ⟨"bar".toList, "urn:b".toList, none⟩)]⟩
/-- No models. -/
def extEnv : Env := ⟨⟨[], [], []⟩, fun _ _ => none⟩

/-- A property with a text. -/
def extLeaf (n v : String) : Node := .mk ⟨[], n.toList⟩ [] v.toList []

theorem ext_case : KeepsAll extEnv extDec ["foo".toList, "bar".toList]
    [⟨.mk ⟨[], "foo".toList⟩ [] [] [extLeaf "foo:a" "1", extLeaf "foo:b" "2"], none⟩, ⟨.mk ⟨[], "bar".toList⟩ [] [] [extLeaf "bar:a" "3"], none⟩]
    [[extLeaf "foo:a" "1", extLeaf "foo:b" "2"], [extLeaf "bar:a" "3"]] := by
  refine ⟨by decide, rfl, rfl, ?_⟩
  intro i p r cs h1 h2 h3
  match i with
  | 0 =>
    cases h1; cases h2; cases h3
    refine ⟨rfl, rfl, by decide, by simp, ?_, ?_, ?_, by decide +kernel⟩
    · intro c hc
      refine ⟨⟨"foo".toList, "urn:f".toList, none⟩, ?_, rfl, rfl⟩
      simp only [List.mem_cons, List.not_mem_nil, or_false] at hc
      rcases hc with rfl | rfl <;> decide +kernel
    · intro c hc
      simp only [List.mem_cons, List.not_mem_nil, or_false] at hc
      rcases hc with rfl | rfl <;> decide +kernel
    · intro c hc
      simp only [List.mem_cons, List.not_mem_nil, or_false] at hc
      rcases hc with rfl | rfl <;> decide +kernel
  | 1 =>
    cases h1; cases h2; cases h3
    refine ⟨rfl, rfl, by decide, by simp, ?_, ?_, ?_, by decide +kernel⟩
    · intro c hc
      refine ⟨⟨"bar".toList, "urn:b".toList, none⟩, ?_, rfl, rfl⟩
      simp only [List.mem_cons, List.not_mem_nil, or_false] at hc
      rcases hc with rfl; decide +kernel
    · intro c hc
      simp only [List.mem_cons, List.not_mem_nil, or_false] at hc
      rcases hc with rfl; decide +kernel
    · intro c hc
      simp only [List.mem_cons, List.not_mem_nil, or_false] at hc
      rcases hc with rfl; decide +kernel
  | i + 2 => simp at h1

example : ∃ out, extWrite [] [⟨.mk ⟨[], "foo".toList⟩ [] [] [extLeaf "foo:a" "1", extLeaf "foo:b" "2"], none⟩,
      ⟨.mk ⟨[], "bar".toList⟩ [] [] [extLeaf "bar:a" "3"], none⟩] (Node.new ⟨[], "x:y".toList⟩) = some out ∧
    extRead extEnv extDec ⟨0, 0, 0⟩ out [] = .ok [⟨.mk ⟨[], "foo".toList⟩ [] [] [extLeaf "foo:a" "1", extLeaf "foo:b" "2"], none⟩,
      ⟨.mk ⟨[], "bar".toList⟩ [] [] [extLeaf "bar:a" "3"], none⟩] := by
  refine ext_roundtrip _ _ _ ext_case ?_ _
  intro cs hcs c hc
  simp only [List.mem_cons, List.not_mem_nil, or_false] at hcs
  rcases hcs with rfl | rfl <;> simp only [List.mem_cons, List.not_mem_nil, or_false] at hc
  · rcases hc with rfl | rfl <;> rfl
  · subst hc
    rfl

/-- The attribute `foo:c`. -/
def extAttr (n v : String) : Attr := ⟨⟨[], n.toList⟩, v.toList⟩

example : extRead extEnv extDec ⟨0, 0, 0⟩ (.mk ⟨[], "x:y".toList⟩ [extAttr "foo:c" "9"] [] []) []
    = .ok [⟨.mk ⟨[], "foo".toList⟩ [extAttr "foo:c" "9"] [] [], none⟩] :=
  (ext_attribute_lost _ _ ⟨"foo".toList, "urn:f".toList, none⟩ (Node.new ⟨[], []⟩) (by decide +kernel) (by decide +kernel) rfl (by decide)).1

example : extRead extEnv extDec ⟨0, 0, 0⟩ (.mk ⟨[], "x:y".toList⟩ [rdfResourceAttr, extAttr "rdf:about" "x"] [] [extLeaf "foo:a" "1"]) [] = .err :=
  ext_unknown_attribute_fails _ [rdfResourceAttr] [] _ _ _ _ (by intro x hx; simp at hx; subst hx; decide +kernel)
    (by decide +kernel) (by decide +kernel)

example : extRead extEnv extDec ⟨0, 0, 0⟩ (.mk ⟨[], "x:y".toList⟩ [] [] [extLeaf "baz:a" "1"]) [] = .ok [⟨extLeaf "baz:a" "1", none⟩] :=
  (ext_unknown _ _ [] (Node.new ⟨[], []⟩) (by decide +kernel) (by decide +kernel)).1

end Xmp.Props
