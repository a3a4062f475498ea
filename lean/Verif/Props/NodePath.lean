import Verif.Model.NodePath
import Verif.Lemmas.Path
import Verif.Props.Path
import Verif.Props.Node
import Mathlib.Tactic.Common

/-! C22: reading a path of a generic node tree after setting it. -/

namespace Xmp.Props

open GoStr SyncFlags

/-! ### Helper lemmas -/

theorem count_join (l : List Str) (h : ∀ s ∈ l, '/' ∉ s) : (join ['/'] l).count '/' = l.length - 1 := by
  cases l with
  | nil => simp [join]
  | cons a t =>
    have := length_split '/' (join ['/'] (a :: t))
    rw [split_join (by simp) h] at this
    simp only [List.length_cons] at *
    omega

theorem len_new_le (p : Str) (l : List Str) (hp : ':' ∉ p) (h : ∀ s ∈ l, '/' ∉ s) :
    (Path.new p l).len ≤ l.length := by
  unfold Path.len
  rw [Path.new_eq, indexChar_append hp]
  have hd : (p ++ ':' :: join ['/'] l).drop (p.length + 1) = join ['/'] l := by
    rw [List.drop_append]; simp
  simp only [hd]
  cases l with
  | nil => simp [join, trimPrefix, hasPrefix]
  | cons a t =>
    have hc := count_join (a :: t) h
    split
    · unfold countChar trimPrefix
      split
      · have := List.Sublist.count_le '/' (List.drop_sublist 1 (join ['/'] (a :: t)))
        simp only [List.length_cons, List.length_nil, Nat.zero_add] at *
        omega
      · simp only [List.length_cons] at *; omega
    · simp

theorem colon_not_mem_getPrefix {n : Str} (h : hasNsPrefix n = true) : ':' ∉ getPrefix n := by
  unfold hasNsPrefix at h
  unfold getPrefix
  cases hi : indexChar ':' n with
  | none => rw [hi] at h; simp at h
  | some i =>
    obtain ⟨a, b, rfl, ha, rfl⟩ := indexChar_some hi
    simpa using ha

theorem colon_not_mem_namespacePrefix (x : Path) : ':' ∉ x.namespacePrefix := by
  unfold Path.namespacePrefix
  cases hi : indexChar ':' x with
  | none => exact indexChar_none.1 hi
  | some i =>
    obtain ⟨a, b, rfl, ha, rfl⟩ := indexChar_some hi
    simpa using ha

theorem slash_not_mem_fields (x : Path) : ∀ s ∈ x.fields, '/' ∉ s := by
  unfold Path.fields
  split
  · dsimp only
    split
    · exact split_no_sep_mem _ _
    · simp
  · simp

/-- Popping a segment makes a path shorter. -/
theorem len_popFront (p : Path) (h : 0 < p.len) : p.popFront.2.len < p.len := by
  rw [len_eq_length_fields p] at h ⊢
  have hs := slash_not_mem_fields p
  unfold Path.popFront
  cases hf : p.fields with
  | nil => rw [hf] at h; simp at h
  | cons a t =>
    rw [hf] at hs
    simp only
    split
    · rename_i hp
      have := len_new_le (getPrefix a) t (colon_not_mem_getPrefix hp) (fun s hs' => hs s (by simp [hs']))
      simp only [List.length_cons]; omega
    · have := len_new_le p.namespacePrefix t (colon_not_mem_namespacePrefix p) (fun s hs' => hs s (by simp [hs']))
      simp only [List.length_cons]; omega

theorem popFront_of_len_zero (p : Path) (h : p.len = 0) : p.popFront = ([], p) := by
  rw [len_eq_length_fields] at h
  unfold Path.popFront
  rw [List.length_eq_zero_iff.1 h]

theorem parse_nil : parsePathSegment [] = ([], -1, []) := by decide

theorem find_replaceFirst (q : Node → Bool) (x : Node) (l : List Node) (hx : q x = true)
    (h : (l.find? q).isSome) : (replaceFirst q x l).find? q = some x := by
  induction l with
  | nil => simp at h
  | cons y ys ih =>
    unfold replaceFirst
    by_cases hy : q y = true
    · simp [hy, hx]
    · simp only [hy, Bool.false_eq_true, if_false]
      rw [List.find?_cons_of_neg (by simpa using hy)] at h ⊢
      exact ih h

theorem find_replaceFirst_other (q q' : Node → Bool) (x : Node) (l : List Node) (hx : q' x = false)
    (hd : ∀ v, q v = true → q' v = false) : (replaceFirst q x l).find? q' = l.find? q' := by
  induction l with
  | nil => rfl
  | cons y ys ih =>
    unfold replaceFirst
    by_cases hy : q y = true
    · simp only [hy, if_true]
      rw [List.find?_cons_of_neg (by simp [hx]), List.find?_cons_of_neg (by simp [hd y hy])]
    · simp only [hy, Bool.false_eq_true, if_false, List.find?_cons, ih]

theorem find_addNode (k : Str) (x : Node) (l : List Node) (hx : x.name = k)
    (h : NodeList.findNodeByName l k = none) : NodeList.findNodeByName (NodeList.addNode x l) k = some x := by
  unfold NodeList.findNodeByName at *
  induction l with
  | nil => simp [NodeList.addNode, hx]
  | cons y ys ih =>
    unfold NodeList.addNode
    by_cases hy : y.name = k
    · simp [hy] at h
    · have hloc : ¬ y.xmlName.loc = x.xmlName.loc := by
        intro e; apply hy; rw [← hx]; unfold Node.name; rw [e]
      rw [List.find?_cons_of_neg (by simpa using hy)] at h
      rw [if_neg hloc, List.find?_cons_of_neg (by simpa using hy)]
      exact ih h

theorem find_addNode_other (k : Str) (x : Node) (l : List Node) (hx : x.name ≠ k) :
    NodeList.findNodeByName (NodeList.addNode x l) k = NodeList.findNodeByName l k := by
  unfold NodeList.findNodeByName at *
  induction l with
  | nil => simp [NodeList.addNode, hx]
  | cons y ys ih =>
    unfold NodeList.addNode
    by_cases hloc : y.xmlName.loc = x.xmlName.loc
    · have hy : ¬ y.name = k := by
        intro e; apply hx; rw [← e]; unfold Node.name; rw [hloc]
      rw [if_pos hloc, List.find?_cons_of_neg (by simpa using hx), List.find?_cons_of_neg (by simpa using hy)]
    · rw [if_neg hloc, List.find?_cons, List.find?_cons, ih]

@[simp] theorem nodes_setNodes (n : Node) (l : List Node) : (n.setNodes l).nodes = l := by cases n; rfl
@[simp] theorem attrs_setNodes (n : Node) (l : List Node) : (n.setNodes l).attrs = n.attrs := by cases n; rfl
@[simp] theorem value_setNodes (n : Node) (l : List Node) : (n.setNodes l).value = n.value := by cases n; rfl
@[simp] theorem xmlName_setNodes (n : Node) (l : List Node) : (n.setNodes l).xmlName = n.xmlName := by cases n; rfl
@[simp] theorem nodes_setValue (n : Node) (v : Str) : (n.setValue v).nodes = n.nodes := by cases n; rfl
@[simp] theorem attrs_setValue (n : Node) (v : Str) : (n.setValue v).attrs = n.attrs := by cases n; rfl
@[simp] theorem value_setValue (n : Node) (v : Str) : (n.setValue v).value = v := by cases n; rfl
@[simp] theorem xmlName_setValue (n : Node) (v : Str) : (n.setValue v).xmlName = n.xmlName := by cases n; rfl
@[simp] theorem nodes_addNode' (n x : Node) : (n.addNode x).nodes = NodeList.addNode x n.nodes := by cases n; rfl
@[simp] theorem attrs_addNode' (n x : Node) : (n.addNode x).attrs = n.attrs := by cases n; rfl
@[simp] theorem value_addNode' (n x : Node) : (n.addNode x).value = n.value := by cases n; rfl
@[simp] theorem xmlName_addNode' (n x : Node) : (n.addNode x).xmlName = n.xmlName := by cases n; rfl
@[simp] theorem nodes_appendNode' (n x : Node) : (n.appendNode x).nodes = n.nodes ++ [x] := by cases n; rfl
@[simp] theorem xmlName_appendNode' (n x : Node) : (n.appendNode x).xmlName = n.xmlName := by cases n; rfl

theorem xmlName_setArray (value : Str) (flags : SyncFlags) (recur : Node → Node × Bool) (plen : Nat) (idx : Int)
    (node : Node) : (setArray value flags recur plen idx node).1.xmlName = node.xmlName := by
  unfold setArray
  simp only
  repeat' split
  all_goals first | rfl | simp | (split <;> simp)

theorem xmlName_setAlt (value : Str) (flags : SyncFlags) (lang : Str) (node : Node) :
    (setAlt value flags lang node).1.xmlName = node.xmlName := by
  unfold setAlt
  simp only
  repeat' split
  all_goals simp

theorem xmlName_setChild (r : Registry) (value : Str) (flags : SyncFlags) (recur : Node → Node × Bool)
    (plen : Nat) (idx : Int) (lang : Str) (node : Node) (hr : ∀ x, (recur x).1.xmlName = x.xmlName) :
    (setChild r value flags recur plen idx lang node).1.xmlName = node.xmlName := by
  unfold setChild
  split
  · exact xmlName_setArray ..
  split
  · exact xmlName_setAlt ..
  split
  · exact hr node
  split
  · simp
  split
  · simp
  · rfl

theorem xmlName_setPathF (r : Registry) (value : Str) (flags : SyncFlags) (f : Nat) (n : Node) (p : Path) :
    (Node.setPathF r value flags f n p).1.xmlName = n.xmlName := by
  cases f with
  | zero => rfl
  | succ f =>
    unfold Node.setPathF
    simp only
    repeat' split
    all_goals simp

theorem attrs_setPathF (r : Registry) (value : Str) (flags : SyncFlags) (f : Nat) (n : Node) (p : Path) :
    (Node.setPathF r value flags f n p).1.attrs = n.attrs := by
  cases f with
  | zero => rfl
  | succ f =>
    unfold Node.setPathF
    simp only
    repeat' split
    all_goals simp

/-! ### The paths for which the property holds -/

/-- The child a segment addresses: the existing one or the one that is created. -/
def target (n : Node) (name : Str) (rest : Path) : Node :=
  (NodeList.findNodeByName n.nodes name).getD (Node.new ⟨[], rest.namespacePrefix ++ [':'] ++ name⟩)

/-- The first child of a property node is the array that an update uses. -/
def ArrayFirst (c : Node) : Prop :=
  c.nodes = [] ∨ ∃ a l, c.nodes = a :: l ∧ (a.name = "Seq".toList ∨
    (a.name = "Bag".toList ∧ ∀ x ∈ l, x.name ≠ "Seq".toList))

/-- The elements of the first child. -/
def elems (c : Node) : List Node :=
  match c.nodes with
  | [] => []
  | a :: _ => a.nodes

/-- Specification of the node trees on which a path can be set to `value` with `flags` and read back:
each segment has a name; no attribute of that name is in the way of a replacement; a plain segment
addresses no array; an indexed segment addresses the first child of a property; a language segment
addresses an alternative in which the language has no other value (when appending) or exists (when
replacing). -/
inductive Fits (r : Registry) (value : Str) (flags : SyncFlags) : Node → Path → Prop where
  | done (n : Node) (p : Path) (h : p.len = 0) : Fits r value flags n p
  | field (n : Node) (p : Path) (name : Str) (h : 0 < p.len) (hs : parsePathSegment p.popFront.1 = (name, -1, []))
      (hn : name ≠ []) (hc : ':' ∉ name) (ha : has flags REPLACE = true → n.getAttr [] name = [])
      (harr : (target n name p.popFront.2).isArray r = false)
      (hrest : Fits r value flags (target n name p.popFront.2) p.popFront.2) : Fits r value flags n p
  | elem (n : Node) (p : Path) (name : Str) (i : Nat) (h : 0 < p.len)
      (hs : parsePathSegment p.popFront.1 = (name, (i : Int), []))
      (hn : name ≠ []) (hc : ':' ∉ name) (ha : has flags REPLACE = true → n.getAttr [] name = [])
      (harr : ArrayFirst (target n name p.popFront.2))
      (hrest : Fits r value flags ((elems (target n name p.popFront.2))[i]?.getD liNode) p.popFront.2) :
      Fits r value flags n p
  | lang (n : Node) (p : Path) (name lang : Str) (h : 0 < p.len)
      (hs : parsePathSegment p.popFront.1 = (name, -1, lang)) (hl : lang ≠ [])
      (hn : name ≠ []) (hc : ':' ∉ name) (ha : has flags REPLACE = true → n.getAttr [] name = [])
      (harr : (target n name p.popFront.2).nodes = [] ∨
        ∃ a l, (target n name p.popFront.2).nodes = a :: l ∧ a.name = "Alt".toList)
      (happ : has flags UNIQUE = true ∨ has flags APPEND = true →
        ∀ v, (elems (target n name p.popFront.2)).find? (hasLang lang) = some v → v.value = value)
      (hrep : has flags UNIQUE = false → has flags APPEND = false →
        ∃ v ∈ elems (target n name p.popFront.2), hasLang lang v = true) : Fits r value flags n p

/-! ### C22 -/

theorem getAttr_of_attrs {a b : Node} (h : a.attrs = b.attrs) (ns name : Str) : a.getAttr ns name = b.getAttr ns name := by
  unfold Node.getAttr; rw [h]

/-- What a successful update does at a named segment. -/
theorem setPathF_step {r : Registry} {value : Str} {flags : SyncFlags} {f : Nat} {n : Node} {p : Path}
    {name : Str} {idx : Int} {lang : Str} (hv : value ≠ [])
    (hs : parsePathSegment p.popFront.1 = (name, idx, lang)) (hi : -1 ≤ idx) (hn : name ≠ []) (hc : ':' ∉ name)
    (ha : has flags REPLACE = true → n.getAttr [] name = [])
    (hok : (Node.setPathF r value flags (f + 1) n p).2 = true) :
    NodeList.findNodeByName (Node.setPathF r value flags (f + 1) n p).1.nodes name =
      some (setChild r value flags (fun x => Node.setPathF r value flags f x p.popFront.2) p.popFront.2.len idx lang
        (target n name p.popFront.2)).1 ∧
    (setChild r value flags (fun x => Node.setPathF r value flags f x p.popFront.2) p.popFront.2.len idx lang
        (target n name p.popFront.2)).2 = true := by
  have hxn : ∀ node, (setChild r value flags (fun x => Node.setPathF r value flags f x p.popFront.2)
      p.popFront.2.len idx lang node).1.xmlName = node.xmlName :=
    fun node => xmlName_setChild _ _ _ _ _ _ _ _ (fun x => xmlName_setPathF _ _ _ _ _ _)
  have hattr : ¬ (n.getAttr [] (stripPrefix name) ≠ [] ∧
      ((has flags REPLACE ∧ value ≠ []) ∨ (has flags DELETE ∧ value = []))) := by
    rw [stripPrefix_none hc]
    rintro ⟨h1, h2 | h2⟩
    · exact h1 (ha h2.1)
    · exact hv h2.2
  rw [Node.setPathF.eq_2] at hok ⊢
  simp only [hs] at hok ⊢
  rw [if_neg (by omega), if_neg (by simp [hn]), if_neg hattr, stripPrefix_none hc] at hok ⊢
  unfold target
  cases hf : NodeList.findNodeByName n.nodes name with
  | some c =>
    simp only [hf] at hok ⊢
    refine ⟨?_, hok⟩
    simp only [nodes_setNodes, Option.getD_some]
    unfold NodeList.findNodeByName at hf ⊢
    have hcn : c.name = name := by simpa using List.find?_some hf
    rw [find_replaceFirst]
    · unfold Node.name
      rw [hxn]
      simpa [Node.name] using hcn
    · rw [hf]; rfl
  | none =>
    simp only [hf] at hok ⊢
    by_cases hcr : has flags CREATE = true ∧ value ≠ []
    · rw [if_pos hcr] at hok ⊢
      have hloc : (if name ≠ [] ∧ hasNsPrefix name = false then p.popFront.2.namespacePrefix ++ [':'] ++ name else name) =
          p.popFront.2.namespacePrefix ++ [':'] ++ name := by
        rw [if_pos ⟨hn, hasNsPrefix_none hc⟩]
      rw [hloc] at hok ⊢
      refine ⟨?_, hok⟩
      simp only [nodes_addNode', Option.getD_none]
      refine find_addNode name _ _ ?_ hf
      unfold Node.name
      rw [hxn]
      show stripPrefix (p.popFront.2.namespacePrefix ++ [':'] ++ name) = name
      rw [List.append_assoc]
      exact stripPrefix_append (colon_not_mem_namespacePrefix _)
    · rw [if_neg hcr] at hok
      simp at hok

theorem setArrayEnd_read {arr arr' : Node} {i : Nat} {value : Str} {flags : SyncFlags} (hv : value ≠ [])
    (h : setArrayEnd arr (i : Int) value flags = .keep arr') :
    ∃ li, arr'.nodes[i]? = some li ∧ li.value = value := by
  unfold setArrayEnd at h
  have h1 : ¬ ((i : Int) = -1) := by omega
  have h2 : (i : Int) > -1 := by omega
  simp only [h1, and_false, if_false, h2, and_true, hv, ne_eq, not_false_eq_true] at h
  split at h
  · injection h with h
    subst h
    simp only [nodes_setNodes, Int.toNat_natCast, List.getElem?_modify, if_true]
    have hlt : i < (extendTo i arr.nodes).length := by
      unfold extendTo; simp only [List.length_append, List.length_replicate]; omega
    rw [List.getElem?_eq_getElem hlt]
    exact ⟨_, rfl, by simp⟩
  · simp at h

theorem setArrayEnd_ne_drop {arr : Node} {i : Int} {value : Str} {flags : SyncFlags} (hv : value ≠ []) :
    setArrayEnd arr i value flags ≠ .drop := by
  unfold setArrayEnd
  simp only [hv, false_and, and_false, if_false]
  repeat' split
  all_goals (intro h; cases h)

/-- What a successful update does to the array element of a property. -/
theorem setArray_read {value : Str} {flags : SyncFlags} {recur : Node → Node × Bool} {plen i : Nat} {c : Node}
    (hv : value ≠ []) (harr : ArrayFirst c)
    (hok : (setArray value flags recur plen (i : Int) c).2 = true) :
    ∃ a l li, (setArray value flags recur plen (i : Int) c).1.nodes = a :: l ∧ a.nodes[i]? = some li ∧
      (plen = 0 → li.value = value) ∧
      (0 < plen → li = (recur ((elems c)[i]?.getD liNode)).1 ∧ (recur ((elems c)[i]?.getD liNode)).2 = true) := by
  -- the array is the first child, or is created
  have hput : ∀ key, key = (if (NodeList.findNodeByName c.nodes "Seq".toList).isSome then "Seq".toList else "Bag".toList) →
      (NodeList.findNodeByName c.nodes key = none ∧ c.nodes = []) ∨
      ∃ a l, c.nodes = a :: l ∧ NodeList.findNodeByName c.nodes key = some a ∧ a.name = key := by
    intro key hkey
    rcases harr with h | ⟨a, l, h, ha⟩
    · left; simp [h, NodeList.findNodeByName]
    · right
      refine ⟨a, l, h, ?_⟩
      rcases ha with ha | ⟨ha, hl⟩
      · have : key = "Seq".toList := by
          rw [hkey, h]; unfold NodeList.findNodeByName; rw [List.find?_cons_of_pos (by simpa using ha)]; rfl
        subst this
        refine ⟨?_, ha⟩
        rw [h]; unfold NodeList.findNodeByName; rw [List.find?_cons_of_pos (by simpa using ha)]
      · have : key = "Bag".toList := by
          rw [hkey, h]; unfold NodeList.findNodeByName
          rw [List.find?_cons_of_neg (by simp [ha])]
          rw [List.find?_eq_none.2 (by simpa using hl)]
          rfl
        subst this
        refine ⟨?_, ha⟩
        rw [h]; unfold NodeList.findNodeByName; rw [List.find?_cons_of_pos (by simpa using ha)]
  unfold setArray at hok ⊢
  simp only at hok ⊢
  generalize hk : (if (NodeList.findNodeByName c.nodes "Seq".toList).isSome then "Seq".toList else "Bag".toList) = key at *
  have hcase := hput key rfl
  -- elements before the update
  have helems : ((NodeList.findNodeByName c.nodes key).getD (Node.new ⟨[], "rdf:Seq".toList⟩)).nodes = elems c := by
    rcases hcase with ⟨h1, h2⟩ | ⟨a, l, h1, h2, _⟩
    · rw [h1]; unfold elems; rw [h2]; rfl
    · rw [h2]; unfold elems; rw [h1]; rfl
  -- what putting the array back does
  have hputs : ∀ x : Node, ∃ l, (if (NodeList.findNodeByName c.nodes key).isSome then
      c.setNodes (replaceFirst (fun v => v.name = key) x c.nodes) else c.addNode x).nodes = x :: l := by
    intro x
    rcases hcase with ⟨h1, h2⟩ | ⟨a, l, h1, h2, h3⟩
    · refine ⟨[], ?_⟩
      rw [h1]
      simp [h2, NodeList.addNode]
    · refine ⟨l, ?_⟩
      rw [h2]
      simp [h1, replaceFirst, h3]
  generalize hfound : NodeList.findNodeByName c.nodes key = found at *
  by_cases hcr : found.isSome = false ∧ has flags CREATE = false
  · rw [if_pos hcr] at hok; simp at hok
  · rw [if_neg hcr] at hok ⊢
    by_cases hpl : plen > 0
    · rw [if_pos hpl] at hok ⊢
      have hneg : ¬ ((i : Int) < 0) := by omega
      simp only [hneg, if_false, Int.toNat_natCast, helems] at hok ⊢
      by_cases hext : (elems c).length ≤ i ∧ has flags (CREATE ||| APPEND) = false ∧ value ≠ []
      · rw [if_pos hext] at hok; simp at hok
      · rw [if_neg hext] at hok ⊢
        have hlt : i < (extendTo i (elems c)).length := by
          unfold extendTo; simp only [List.length_append, List.length_replicate]; omega
        have hget : (extendTo i (elems c))[i]? = some ((elems c)[i]?.getD liNode) := by
          unfold extendTo
          by_cases hl : i < (elems c).length
          · rw [List.getElem?_append_left hl, List.getElem?_eq_getElem hl]; rfl
          · rw [List.getElem?_append_right (by omega), List.getElem?_eq_none (by omega : (elems c).length ≤ i)]
            rw [List.getElem?_replicate]
            simp only [Option.getD_none]
            rw [if_pos (by omega)]
        rw [hget] at hok ⊢
        simp only at hok ⊢
        obtain ⟨l, hl⟩ := hputs ((found.getD (Node.new ⟨[], "rdf:Seq".toList⟩)).setNodes
          ((extendTo i (elems c)).set i (recur ((elems c)[i]?.getD liNode)).1))
        refine ⟨_, l, (recur ((elems c)[i]?.getD liNode)).1, hl, ?_, fun h => absurd h (by omega), fun _ => ⟨rfl, hok⟩⟩
        rw [nodes_setNodes, List.getElem?_set_self hlt]
    · rw [if_neg hpl] at hok ⊢
      cases he : setArrayEnd (found.getD (Node.new ⟨[], "rdf:Seq".toList⟩)) (i : Int) value flags with
      | keep a =>
        simp only
        obtain ⟨l, hl⟩ := hputs a
        obtain ⟨li, h1, h2⟩ := setArrayEnd_read hv he
        exact ⟨a, l, li, hl, h1, fun _ => h2, fun h => absurd h hpl⟩
      | drop =>
        exact absurd he (setArrayEnd_ne_drop hv)
      | fail => rw [he] at hok; simp at hok

theorem getAttr_lang (lang value : Str) :
    hasLang lang ((liNode.addStringAttr "xml:lang".toList lang).setValue value) = true := by
  simp [hasLang, Node.getAttr, liNode, Node.new, Node.addStringAttr, Node.addAttr, Node.setValue, Node.setAttrs,
    Node.attrs, AttrList.addAttr, stripPrefix, indexChar]

theorem hasLang_setValue (lang : Str) (v : Node) (value : Str) : hasLang lang (v.setValue value) = hasLang lang v := by
  unfold hasLang
  rw [getAttr_of_attrs (attrs_setValue v value)]

theorem find_append_none {q : Node → Bool} {l : List Node} {x : Node} (h : l.find? q = none) (hx : q x = true) :
    (l ++ [x]).find? q = some x := by
  rw [List.find?_append, h]; simp [hx]

/-- What a successful update does to the language alternative of a property. -/
theorem setAlt_read {value : Str} {flags : SyncFlags} {lang : Str} {c : Node} (hv : value ≠ [])
    (harr : c.nodes = [] ∨ ∃ a l, c.nodes = a :: l ∧ a.name = "Alt".toList)
    (happ : has flags UNIQUE = true ∨ has flags APPEND = true →
      ∀ v, (elems c).find? (hasLang lang) = some v → v.value = value)
    (hrep : has flags UNIQUE = false → has flags APPEND = false → ∃ v ∈ elems c, hasLang lang v = true)
    (hok : (setAlt value flags lang c).2 = true) :
    ∃ a l v, (setAlt value flags lang c).1.nodes = a :: l ∧ a.nodes.find? (hasLang lang) = some v ∧
      v.value = value := by
  -- the entry list after the update
  have hend : ∀ arr : Node, arr.nodes = elems c → (setAltEnd arr lang value flags).2 = true →
      ∃ v, (setAltEnd arr lang value flags).1.nodes.find? (hasLang lang) = some v ∧ v.value = value := by
    intro arr hel hok
    unfold setAltEnd at hok ⊢
    simp only [hv, ne_eq, not_false_eq_true, and_true, and_false, if_false] at hok ⊢
    by_cases hu : has flags UNIQUE = true
    · rw [if_pos hu] at hok ⊢
      by_cases hany : (arr.nodes.any (fun v => hasLang lang v && decide (v.value = value))) = true
      · rw [if_pos hany]
        simp only
        obtain ⟨v, hv1, hv2⟩ := List.any_eq_true.1 hany
        cases hf : arr.nodes.find? (hasLang lang) with
        | none =>
          exfalso
          have := List.find?_eq_none.1 hf v hv1
          simp only [Bool.and_eq_true] at hv2
          exact this hv2.1
        | some w => exact ⟨w, rfl, happ (Or.inl hu) w (hel ▸ hf)⟩
      · rw [if_neg hany]
        simp only [nodes_appendNode']
        cases hf : arr.nodes.find? (hasLang lang) with
        | none => exact ⟨_, find_append_none hf (getAttr_lang lang value), by simp⟩
        | some w =>
          refine ⟨w, ?_, happ (Or.inl hu) w (hel ▸ hf)⟩
          rw [List.find?_append, hf]; rfl
    · rw [if_neg hu] at hok ⊢
      by_cases hap : has flags APPEND = true
      · rw [if_pos hap]
        simp only [nodes_appendNode']
        cases hf : arr.nodes.find? (hasLang lang) with
        | none => exact ⟨_, find_append_none hf (getAttr_lang lang value), by simp⟩
        | some w =>
          refine ⟨w, ?_, happ (Or.inr hap) w (hel ▸ hf)⟩
          rw [List.find?_append, hf]; rfl
      · rw [if_neg hap] at hok ⊢
        obtain ⟨w, hw1, hw2⟩ := hrep (by simpa using hu) (by simpa using hap)
        rw [← hel] at hw1
        by_cases hr : has flags (REPLACE ||| CREATE) = true
        · rw [if_pos hr] at hok ⊢
          cases hf : arr.nodes.find? (hasLang lang) with
          | none =>
            exfalso
            exact List.find?_eq_none.1 hf w hw1 hw2
          | some x =>
            simp only [nodes_setNodes]
            refine ⟨x.setValue value, ?_, by simp⟩
            apply find_replaceFirst
            · rw [hasLang_setValue]; exact List.find?_some hf
            · rw [hf]; rfl
        · rw [if_neg hr] at hok; simp at hok
  unfold setAlt at hok ⊢
  rcases harr with h | ⟨a, l, h, ha⟩
  · have hf : NodeList.findNodeByName c.nodes "Alt".toList = none := by rw [h]; rfl
    simp only [hf] at hok ⊢
    by_cases hcr : has flags (CREATE ||| APPEND) = false
    · rw [if_pos hcr] at hok; simp at hok
    · rw [if_neg hcr] at hok ⊢
      obtain ⟨v, h1, h2⟩ := hend (Node.new ⟨[], "rdf:Alt".toList⟩) (by unfold elems; rw [h]; rfl) hok
      refine ⟨_, [], v, ?_, h1, h2⟩
      simp [h, NodeList.addNode]
  · have hf : NodeList.findNodeByName c.nodes "Alt".toList = some a := by
      rw [h]; unfold NodeList.findNodeByName; rw [List.find?_cons_of_pos (by simpa using ha)]
    simp only [hf] at hok ⊢
    obtain ⟨v, h1, h2⟩ := hend a (by unfold elems; rw [h]) hok
    refine ⟨_, l, v, ?_, h1, h2⟩
    simp [h, replaceFirst, ha]

theorem getPathF_step {g : Nat} {n c : Node} {p : Path} {name : Str} {idx : Int} {lang : Str}
    (hs : parsePathSegment p.popFront.1 = (name, idx, lang)) (hi : -1 ≤ idx) (hn : name ≠ []) (hc : ':' ∉ name)
    (hf : NodeList.findNodeByName n.nodes name = some c) :
    Node.getPathF (g + 1) n p =
      (if idx > -1 then
        match c.nodes with
        | [] => some []
        | arr :: _ =>
          match arr.nodes[idx.toNat]? with
          | none => some []
          | some li => Node.getPathF g li p.popFront.2
      else if lang ≠ [] then
        match c.nodes with
        | [] => some []
        | arr :: _ =>
          match arr.nodes.find? (hasLang lang) with
          | some v => some v.value
          | none => some []
      else Node.getPathF g c p.popFront.2) := by
  conv_lhs => unfold Node.getPathF
  simp only [hs]
  rw [if_neg (by omega), if_neg (by simp [hn]), stripPrefix_none hc]
  simp only [hf]
  rfl

theorem get_setPathF (r : Registry) (value : Str) (flags : SyncFlags) (hv : value ≠ []) (n : Node) (p : Path)
    (hfit : Fits r value flags n p) : ∀ f g, p.len < f → p.len < g →
    (Node.setPathF r value flags f n p).2 = true →
    Node.getPathF g (Node.setPathF r value flags f n p).1 p = some value := by
  induction hfit with
  | done n p h =>
    intro f g hf hg hok
    obtain ⟨f, rfl⟩ : ∃ k, f = k + 1 := ⟨f - 1, by omega⟩
    obtain ⟨g, rfl⟩ : ∃ k, g = k + 1 := ⟨g - 1, by omega⟩
    unfold Node.setPathF Node.getPathF
    simp [popFront_of_len_zero p h, parse_nil, h]
  | field n p name h hs hn hc ha harr hrest ih =>
    intro f g hf hg hok
    obtain ⟨f, rfl⟩ : ∃ k, f = k + 1 := ⟨f - 1, by omega⟩
    obtain ⟨g, rfl⟩ : ∃ k, g = k + 1 := ⟨g - 1, by omega⟩
    have hlen := len_popFront p h
    obtain ⟨h1, h2⟩ := setPathF_step hv hs (by omega) hn hc ha hok
    rw [getPathF_step hs (by omega) hn hc h1]
    simp only [gt_iff_lt, Int.lt_irrefl, if_false, ne_eq, not_true_eq_false]
    generalize hc' : target n name p.popFront.2 = c at *
    generalize hp' : p.popFront.2 = q at *
    unfold setChild at h2 ⊢
    simp only [gt_iff_lt, Int.lt_irrefl, harr, Bool.false_eq_true, false_and, or_self, if_false, ne_eq,
      not_true_eq_false] at h2 ⊢
    by_cases hq : q.len > 0
    · rw [if_pos hq] at h2 ⊢
      exact ih f g (by omega) (by omega) h2
    · rw [if_neg hq] at h2 ⊢
      have hq0 : q.len = 0 := by omega
      obtain ⟨g, rfl⟩ : ∃ k, g = k + 1 := ⟨g - 1, by omega⟩
      by_cases hr : has flags (REPLACE ||| CREATE) = true ∧ value ≠ []
      · rw [if_pos hr]
        unfold Node.getPathF
        simp [popFront_of_len_zero q hq0, parse_nil, hq0]
      · rw [if_neg hr, if_neg (by simp [hv])] at h2; simp at h2
  | elem n p name i h hs hn hc ha harr hrest ih =>
    intro f g hf hg hok
    obtain ⟨f, rfl⟩ : ∃ k, f = k + 1 := ⟨f - 1, by omega⟩
    obtain ⟨g, rfl⟩ : ∃ k, g = k + 1 := ⟨g - 1, by omega⟩
    have hlen := len_popFront p h
    obtain ⟨h1, h2⟩ := setPathF_step hv hs (by omega) hn hc ha hok
    rw [getPathF_step hs (by omega) hn hc h1]
    have hi : (i : Int) > -1 := by omega
    simp only [hi, if_true, Int.toNat_natCast]
    unfold setChild at h2 ⊢
    simp only [hi, true_or, if_true] at h2 ⊢
    obtain ⟨a, l, li, e1, e2, e3, e4⟩ := setArray_read hv harr h2
    rw [e1]
    simp only
    rw [e2]
    simp only
    by_cases hq : 0 < p.popFront.2.len
    · obtain ⟨e5, e6⟩ := e4 hq
      rw [e5]
      exact ih f g (by omega) (by omega) e6
    · have hq0 : p.popFront.2.len = 0 := by omega
      obtain ⟨g, rfl⟩ : ∃ k, g = k + 1 := ⟨g - 1, by omega⟩
      unfold Node.getPathF
      simp [popFront_of_len_zero _ hq0, parse_nil, hq0, e3 hq0]
  | lang n p name lang h hs hl hn hc ha harr happ hrep =>
    intro f g hf hg hok
    obtain ⟨f, rfl⟩ : ∃ k, f = k + 1 := ⟨f - 1, by omega⟩
    obtain ⟨g, rfl⟩ : ∃ k, g = k + 1 := ⟨g - 1, by omega⟩
    obtain ⟨h1, h2⟩ := setPathF_step hv hs (by omega) hn hc ha hok
    rw [getPathF_step hs (by omega) hn hc h1]
    unfold setChild at h2 ⊢
    simp only [gt_iff_lt, Int.lt_irrefl, hl, and_false, or_self, if_false, ne_eq, not_false_eq_true, if_true] at h2 ⊢
    obtain ⟨a, l, v, e1, e2, e3⟩ := setAlt_read hv harr happ hrep h2
    rw [e1]
    simp only
    rw [e2, ← e3]

/-- C22: after a path was set successfully to a non-empty value, reading it returns the value. -/
theorem get_setPath_partial (r : Registry) (n : Node) (p : Path) (value : Str) (flags : SyncFlags)
    (hv : value ≠ []) (hfit : Fits r value flags n p) (hok : (n.setPath r p value flags).2 = true) :
    (n.setPath r p value flags).1.getPath p = some value :=
  get_setPathF r value flags hv n p hfit _ _ (Nat.lt_succ_self _) (Nat.lt_succ_self _) hok

/-- A small tree: a title with two languages, a list of creators, a nested structure and an attribute. -/
def sampleTree : Node :=
  .mk ⟨[], "rdf:Description".toList⟩ [⟨⟨[], "dc:source".toList⟩, "s".toList⟩] []
    [.mk ⟨[], "dc:title".toList⟩ [] []
      [.mk ⟨[], "rdf:Alt".toList⟩ [] []
        [.mk ⟨[], "rdf:li".toList⟩ [⟨⟨[], "xml:lang".toList⟩, "en".toList⟩] "house".toList [],
         .mk ⟨[], "rdf:li".toList⟩ [⟨⟨[], "xml:lang".toList⟩, "de".toList⟩] "Haus".toList []]],
     .mk ⟨[], "dc:creator".toList⟩ [] []
      [.mk ⟨[], "rdf:Seq".toList⟩ [] [] [.mk ⟨[], "rdf:li".toList⟩ [] "me".toList []]],
     .mk ⟨[], "dc:pos".toList⟩ [] [] [.mk ⟨[], "dc:x".toList⟩ [] "1".toList []]]

example : Fits {} "2".toList DEFAULT sampleTree "dc:pos/x".toList ∧
    (sampleTree.setPath {} "dc:pos/x".toList "2".toList DEFAULT).2 = true := by
  refine ⟨.field _ _ "pos".toList (by decide) (by decide) (by decide) (by decide) (by decide) (by decide)
    (.field _ _ "x".toList (by decide) (by decide) (by decide) (by decide) (by decide) (by decide)
      (.done _ _ (by decide))), by decide⟩

example : Fits {} "you".toList DEFAULT sampleTree "dc:creator[3]".toList ∧
    (sampleTree.setPath {} "dc:creator[3]".toList "you".toList DEFAULT).2 = true := by
  refine ⟨.elem _ _ "creator".toList 3 (by decide) (by decide) (by decide) (by decide) (by decide) ?_
      (.done _ _ (by decide)), by decide⟩
  exact Or.inr ⟨_, _, rfl, Or.inl (by decide)⟩

example : Fits {} "maison".toList DEFAULT sampleTree "dc:title[fr]".toList ∧
    (sampleTree.setPath {} "dc:title[fr]".toList "maison".toList DEFAULT).2 = true := by
  refine ⟨.lang _ _ "title".toList "fr".toList (by decide) (by decide) (by decide) (by decide) (by decide) (by decide)
    ?_ ?_ ?_, by decide⟩
  · exact Or.inr ⟨_, _, rfl, by decide⟩
  · intro _ v hv
    have : (elems (target sampleTree "title".toList (Path.popFront "dc:title[fr]".toList).2)).find? (hasLang "fr".toList) = none := by
      rw [← Option.isNone_iff_eq_none]; decide
    rw [this] at hv; cases hv
  · intro h; exact absurd h (by decide)

theorem getPathF_congr {g : Nat} {n n' : Node} {q : Path} {name : Str} {idx : Int} {lang : Str}
    (hs : parsePathSegment q.popFront.1 = (name, idx, lang)) (hn : name ≠ [])
    (hf : NodeList.findNodeByName n'.nodes (stripPrefix name) = NodeList.findNodeByName n.nodes (stripPrefix name))
    (ha : n'.attrs = n.attrs) : Node.getPathF g n' q = Node.getPathF g n q := by
  cases g with
  | zero => rfl
  | succ g =>
    rw [Node.getPathF.eq_2, Node.getPathF.eq_2]
    simp only [hs]
    have h1 : ¬ (name = [] ∧ idx = -1 ∧ lang = []) := by simp [hn]
    rw [if_neg h1, if_neg h1, hf, getAttr_of_attrs ha]

/-- C22: setting a path leaves every path with another first name as it is, whatever the flags and
whether or not the update succeeds. -/
theorem setPath_frame (r : Registry) (n : Node) (p q : Path) (value : Str) (flags : SyncFlags)
    {name name' : Str} {idx idx' : Int} {lang lang' : Str}
    (hp : parsePathSegment p.popFront.1 = (name, idx, lang)) (hn : name ≠ []) (hc : ':' ∉ name)
    (hq : parsePathSegment q.popFront.1 = (name', idx', lang')) (hn' : name' ≠ [])
    (hne : stripPrefix name' ≠ name) :
    (n.setPath r p value flags).1.getPath q = n.getPath q := by
  unfold Node.getPath Node.setPath
  refine getPathF_congr hq hn' ?_ (attrs_setPathF _ _ _ _ _ _)
  rw [Node.setPathF.eq_2]
  simp only [hp]
  have hxn : ∀ node, (setChild r value flags (fun x => Node.setPathF r value flags p.len x p.popFront.2)
      p.popFront.2.len idx lang node).1.xmlName = node.xmlName :=
    fun node => xmlName_setChild _ _ _ _ _ _ _ _ (fun x => xmlName_setPathF _ _ _ _ _ _)
  split
  · rfl
  rw [if_neg (by simp [hn])]
  split
  · rfl
  rw [stripPrefix_none hc]
  split
  · rename_i node hf
    unfold NodeList.findNodeByName at hf ⊢
    have hcn : node.name = name := by simpa using List.find?_some hf
    simp only [nodes_setNodes]
    apply find_replaceFirst_other
    · unfold Node.name
      rw [hxn]
      have : stripPrefix node.xmlName.loc = name := hcn
      rw [this]
      simp [Ne.symm hne]
    · intro v hv
      simp only [decide_eq_true_eq] at hv
      rw [hv]; simp [Ne.symm hne]
  · split
    · rw [if_pos ⟨hn, hasNsPrefix_none hc⟩]
      simp only [nodes_addNode']
      apply find_addNode_other
      unfold Node.name
      rw [hxn]
      show stripPrefix (p.popFront.2.namespacePrefix ++ [':'] ++ name) ≠ _
      rw [List.append_assoc]
      have := stripPrefix_append (b := name) (colon_not_mem_namespacePrefix p.popFront.2)
      rw [List.singleton_append, this]
      exact Ne.symm hne
    · rfl

example : (sampleTree.setPath {} "dc:pos/x".toList "2".toList DEFAULT).1.getPath "dc:title[de]".toList =
    some "Haus".toList := by decide

/-- C22: setting a path changes neither the value nor the attributes nor the name of the node it starts
from, when the first segment has a name. -/
theorem setPath_root (r : Registry) (n : Node) (p : Path) (value : Str) (flags : SyncFlags)
    {name : Str} {idx : Int} {lang : Str} (hp : parsePathSegment p.popFront.1 = (name, idx, lang)) (hn : name ≠ []) :
    (n.setPath r p value flags).1.value = n.value ∧ (n.setPath r p value flags).1.attrs = n.attrs ∧
    (n.setPath r p value flags).1.xmlName = n.xmlName := by
  refine ⟨?_, attrs_setPathF _ _ _ _ _ _, xmlName_setPathF _ _ _ _ _ _⟩
  unfold Node.setPath
  rw [Node.setPathF.eq_2]
  simp only [hp]
  rw [if_neg (by simp [hn] : ¬ (name = [] ∧ idx = -1 ∧ lang = []))]
  repeat' split
  all_goals simp

example : parsePathSegment (Path.popFront "dc:pos/x".toList).1 = ("pos".toList, -1, []) := by decide

/-! ### Why the conditions are needed -/

/-- Setting a path that is held by an attribute reports success without any effect. -/
theorem setPath_attribute_lost :
    (sampleTree.setPath {} "dc:source".toList "t".toList DEFAULT).2 = true ∧
    (sampleTree.setPath {} "dc:source".toList "t".toList DEFAULT).1.getPath "dc:source".toList = some "s".toList := by
  decide

/-- With the default flags, changing the text of a language that exists appends a second entry for the
language; reading still returns the first. -/
theorem setPath_language_appended :
    (sampleTree.setPath {} "dc:title[en]".toList "building".toList DEFAULT).2 = true ∧
    (sampleTree.setPath {} "dc:title[en]".toList "building".toList DEFAULT).1.getPath "dc:title[en]".toList =
      some "house".toList := by decide

/-- With create and replace, setting a language that does not exist reports success without any effect. -/
theorem setPath_language_missing :
    (sampleTree.setPath {} "dc:title[fr]".toList "maison".toList (CREATE ||| REPLACE)).2 = true ∧
    (sampleTree.setPath {} "dc:title[fr]".toList "maison".toList (CREATE ||| REPLACE)).1.getPath "dc:title[fr]".toList =
      some [] := by decide

/-- Setting an array without index changes its elements, while reading the same path does not look at
them. -/
theorem setPath_array_unread :
    (sampleTree.setPath {} "dc:creator".toList "you".toList DEFAULT).2 = true ∧
    (sampleTree.setPath {} "dc:creator".toList "you".toList DEFAULT).1.getPath "dc:creator".toList = some [] ∧
    (sampleTree.setPath {} "dc:creator".toList "you".toList DEFAULT).1.getPath "dc:creator[1]".toList =
      some "you".toList := by decide

/-- Setting an index below an alternative creates a second, ordered array behind it; reading looks at
the first. -/
theorem setPath_index_below_alternative :
    (sampleTree.setPath {} "dc:title[0]".toList "x".toList DEFAULT).2 = true ∧
    (sampleTree.setPath {} "dc:title[0]".toList "x".toList DEFAULT).1.getPath "dc:title[0]".toList =
      some "house".toList := by decide

/-- An empty first segment is ignored when reading, but makes an update a silent no-operation. -/
theorem setPath_empty_segment :
    (sampleTree.setPath {} "dc://pos/x".toList "2".toList DEFAULT).2 = true ∧
    (sampleTree.setPath {} "dc://pos/x".toList "2".toList DEFAULT).1.getPath "dc:/pos/x".toList = some "1".toList := by
  decide

/-- So the property as stated does not hold for all trees, paths and values. -/
theorem get_setPath_not_always :
    ¬ ∀ (r : Registry) (n : Node) (p : Path) (value : Str) (flags : SyncFlags), value ≠ [] →
      (n.setPath r p value flags).2 = true → (n.setPath r p value flags).1.getPath p = some value := by
  intro h
  have := h {} sampleTree "dc:source".toList "t".toList DEFAULT (by decide) setPath_attribute_lost.1
  rw [setPath_attribute_lost.2] at this
  exact absurd this (by decide)

end Xmp.Props
