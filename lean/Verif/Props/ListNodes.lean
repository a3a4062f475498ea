import Verif.Props.ListPaths
import Verif.Props.NodePath

/-! C47: the path listing of generic nodes (`Node.ListPaths`) against their texts and against reading (`Node.GetPath`). -/

namespace Xmp.Props

open GoStr

/-! ### Specification -/

/-- A numbered array node. -/
def IsSeq (c : Node) : Prop := c.xmlName = ⟨[], "rdf:Seq".toList⟩ ∨ c.xmlName = ⟨[], "rdf:Bag".toList⟩

/-- A node of alternatives. -/
def IsAlt (c : Node) : Prop := c.xmlName = ⟨[], "rdf:Alt".toList⟩

/-- `NBelow pre v suf segs s`: the node `v` holds the text `s` behind its name followed by `suf` and the further segments
`segs`.  The texts of array items (`rdf:li` with a value) do not count, only what is inside of them. -/
inductive NBelow (pre : Str) : Node → Str → List Str → Str → Prop
  | value {v} (h : v.value ≠ []) : NBelow pre v [] [] v.value
  | attr {v a} (h : a ∈ v.attrs) (hs : skipName a.name = false) : NBelow pre v [] [shownName pre a.name.loc] a.value
  | kid {v w suf segs s} (h : w ∈ v.nodes) (hs : skipName w.xmlName = false) (h1 : ¬ IsSeq w) (h2 : ¬ IsAlt w)
      (hb : NBelow pre w suf segs s) : NBelow pre v [] ((shownName pre w.xmlName.loc ++ suf) :: segs) s
  | elem {v c} {i : Nat} {li w suf segs s} (h : c ∈ v.nodes) (hc : IsSeq c) (hi : c.nodes[i]? = some li) (hw : w ∈ li.nodes)
      (hb : NBelow pre w suf segs s) :
      NBelow pre v (['['] ++ itoa i ++ [']']) ((shownName pre w.xmlName.loc ++ suf) :: segs) s
  | lang {v c li} (h : c ∈ v.nodes) (hc : IsAlt c) (hi : li ∈ c.nodes) :
      NBelow pre v (['['] ++ liLang li ++ [']']) [] li.value

/-- A name that can be part of a path. -/
def NodeNameOk (q : QName) : Prop := q.space = [] ∧ getPrefix q.loc ≠ [] ∧ FieldNameOk q.loc

/-- The attributes of a node can be told from each other and from the child nodes. -/
def AttrsOk (n : Node) : Prop :=
  (∀ a ∈ n.attrs, skipName a.name = false → getPrefix a.name.loc ≠ [] ∧ FieldNameOk a.name.loc) ∧
  (n.attrs.map (fun a => stripPrefix a.name.loc)).Nodup ∧
  ∀ a ∈ n.attrs, skipName a.name = false → stripPrefix a.name.loc ∉ n.nodes.map Node.name

/-- `NodeOk b n`: the names below `n` can be part of a path and those of the children of a node differ; array nodes are
only children; items of alternatives have a language, and different ones; items of numbered arrays are no arrays
(`b = true` excludes nodes that hold an array). -/
inductive NodeOk : Bool → Node → Prop
  | node {b n} (hn : ∀ w ∈ n.nodes, NodeNameOk w.xmlName ∧ ¬ IsSeq w ∧ ¬ IsAlt w) (hd : (n.nodes.map Node.name).Nodup)
      (ha : AttrsOk n) (hk : ∀ w ∈ n.nodes, NodeOk false w) : NodeOk b n
  | seq {n c} (hc : n.nodes = [c]) (hs : IsSeq c) (ha : AttrsOk n) (hl : c.nodes.length < 2 ^ 63)
      (hk : ∀ li ∈ c.nodes, NodeOk true li) : NodeOk false n
  | alt {n c} (hc : n.nodes = [c]) (hs : IsAlt c) (ha : AttrsOk n)
      (hl : ∀ li ∈ c.nodes, li.getAttr [] "lang".toList ≠ [] ∧ liLang li ≠ [] ∧ ':' ∉ liLang li ∧ '/' ∉ liLang li ∧
        atoi (liLang li) = none)
      (hd : (c.nodes.map liLang).Nodup) : NodeOk false n

/-- `NRoot pre n segs s`: the top-level node `n` holds the text `s` at the segments `segs`. -/
def NRoot (pre : Str) (n : Node) (segs : List Str) (s : Str) : Prop := NBelow pre n [] segs s

/-! ### Listing: helper lemmas -/

theorem fullName_space {r : Registry} {n : Node} (h : n.xmlName.space = []) : n.fullName r = n.xmlName.loc := by
  unfold Node.fullName; rw [if_neg]; simp [h]

theorem shown_eq {pre n : Str} (h : getPrefix n ≠ []) :
    shownName pre n = if getPrefix n ≠ pre then n else stripPrefix n := by
  unfold shownName
  rcases split_at_first_colon n with hh | hh
  · rw [hh.2.2.1, hh.2.2.2]; simp
  · have := hh.2.2.2 h
    simp [this]

theorem nodeListName_ok {r : Registry} {pre : Str} (hp : ':' ∉ pre) {l : List Str} {w : Node} (h : NodeNameOk w.xmlName) :
    nodeListName r (Path.new pre l) w = shownName pre w.xmlName.loc := by
  unfold nodeListName Node.namespace_
  rw [Path.namespacePrefix_new l hp, if_pos h.1, shown_eq h.2.1, fullName_space h.1]
  rfl

theorem attrListName_ok {pre : Str} (hp : ':' ∉ pre) {l : List Str} {a : Attr} (h : getPrefix a.name.loc ≠ []) :
    attrListName (Path.new pre l) a = shownName pre a.name.loc := by
  unfold attrListName shownName
  rw [Path.namespacePrefix_new l hp]
  rcases split_at_first_colon a.name.loc with hh | hh
  · rw [hh.2.2.1, hh.2.2.2]; simp
  · have := hh.2.2.2 h
    simp only [this, true_and]
    by_cases he : getPrefix a.name.loc = pre <;> simp [he]

theorem not_arr {r : Registry} {w : Node} (h : NodeNameOk w.xmlName) (h1 : ¬ IsSeq w) (h2 : ¬ IsAlt w) :
    ¬ (w.fullName r = "rdf:Seq".toList ∨ w.fullName r = "rdf:Bag".toList) ∧ ¬ w.fullName r = "rdf:Alt".toList := by
  rw [fullName_space h.1]
  have e : w.xmlName = ⟨[], w.xmlName.loc⟩ := by
    rw [← h.1]
  constructor
  · rintro (h' | h')
    · exact h1 (Or.inl (by rw [e, h']))
    · exact h1 (Or.inr (by rw [e, h']))
  · intro h'
    exact h2 (by unfold IsAlt; rw [e, h'])

theorem mem_listKids {r : Registry} {sort : PathValueList → PathValueList} {skip : Bool} {ctx base : Path} {kids : List Node}
    {e : PathValue} :
    e ∈ Node.listKids r sort skip kids ctx base ↔
      ∃ w ∈ kids, (skip && skipName w.xmlName) = false ∧ e ∈ w.listPaths r sort (base.push [nodeListName r ctx w]) := by
  induction kids with
  | nil => simp [Node.listKids]
  | cons x xs ih =>
    rw [Node.listKids, List.mem_append, ih]
    constructor
    · rintro (h | ⟨w, h1, h2⟩)
      · split at h
        · simp at h
        · rename_i hs
          exact ⟨x, List.mem_cons_self, by simpa using hs, h⟩
      · exact ⟨w, List.mem_cons_of_mem _ h1, h2⟩
    · rintro ⟨w, h1, h2, h3⟩
      rcases List.mem_cons.1 h1 with rfl | h1
      · left; rw [if_neg (by simp [h2])]; exact h3
      · exact Or.inr ⟨w, h1, h2, h3⟩

theorem mem_listLis {r : Registry} {sort : PathValueList → PathValueList} {path : Path} {lis : List Node}
    {e : PathValue} (i : Nat) :
    e ∈ Node.listLis r sort i lis path ↔
      ∃ (k : Nat) (li : Node), lis[k]? = some li ∧
        e ∈ Node.listKids r sort false li.nodes path (path.pop.2.appendIndex ((i + k : Nat) : Int)) := by
  induction lis generalizing i with
  | nil => simp [Node.listLis]
  | cons x xs ih =>
    obtain ⟨n, a, v, kids⟩ := x
    rw [Node.listLis, List.mem_append, ih]
    constructor
    · rintro (h | ⟨k, li, h1, h2⟩)
      · exact ⟨0, _, rfl, h⟩
      · refine ⟨k + 1, li, by simpa using h1, ?_⟩
        rw [show i + (k + 1) = i + 1 + k by omega]; exact h2
    · rintro ⟨k, li, h1, h2⟩
      cases k with
      | zero =>
        simp only [List.getElem?_cons_zero, Option.some.injEq] at h1
        subst h1
        exact Or.inl h2
      | succ k =>
        refine Or.inr ⟨k, li, by simpa using h1, ?_⟩
        rw [show i + 1 + k = i + (k + 1) by omega]; exact h2

/-- `V v`: exactly the texts of `v` are listed, below every path. -/
def ListsExactly (r : Registry) (sort : PathValueList → PathValueList) (v : Node) : Prop :=
  ∀ (pre : Str) (l : List Str) (n : Str) (e : PathValue), ':' ∉ pre → (∀ s ∈ l, s ≠ [] ∧ '/' ∉ s) → n ≠ [] → '/' ∉ n →
    ']' ∉ n → (e ∈ v.listPaths r sort (Path.new pre (l ++ [n])) ↔
      ∃ suf segs s, NBelow pre v suf segs s ∧ e = { path := Path.new pre (l ++ (n ++ suf) :: segs), value := s })

theorem listPaths_plain {r : Registry} {sort : PathValueList → PathValueList} (hsort : ∀ l, (sort l).Perm l) {v : Node}
    (h1 : ¬ (v.fullName r = "rdf:Seq".toList ∨ v.fullName r = "rdf:Bag".toList)) (h2 : ¬ v.fullName r = "rdf:Alt".toList)
    (path : Path) (e : PathValue) :
    e ∈ v.listPaths r sort path ↔
      (∃ a ∈ v.attrs, skipName a.name = false ∧ e = { path := path.push [attrListName path a], value := a.value }) ∨
      (∃ w ∈ v.nodes, skipName w.xmlName = false ∧ e ∈ w.listPaths r sort (path.push [nodeListName r path w])) ∨
      (v.value ≠ [] ∧ e = { path := path, value := v.value }) := by
  obtain ⟨n, a, x, l⟩ := v
  rw [Node.listPaths]
  rw [if_neg h1, if_neg h2, (hsort _).mem_iff]
  simp only [List.mem_append, List.mem_map, List.mem_filter, mem_listKids, Bool.true_and, Node.attrs, Node.nodes, Node.value]
  constructor
  · rintro ((⟨b, ⟨hb, hs⟩, rfl⟩ | h) | h)
    · exact Or.inl ⟨b, hb, by simpa using hs, rfl⟩
    · exact Or.inr (Or.inl h)
    · split at h
      · rename_i hx
        exact Or.inr (Or.inr ⟨hx, by simpa using h⟩)
      · simp at h
  · rintro (⟨b, hb, hs, rfl⟩ | h | ⟨hx, rfl⟩)
    · exact Or.inl (Or.inl ⟨b, ⟨hb, by simpa using hs⟩, rfl⟩)
    · exact Or.inl (Or.inr h)
    · right; rw [if_pos hx]; simp

theorem segs_snoc {l : List Str} {n : Str} (hl : ∀ s ∈ l, s ≠ [] ∧ '/' ∉ s) (hn : n ≠ []) (hn' : '/' ∉ n) :
    ∀ s ∈ l ++ [n], s ≠ [] ∧ '/' ∉ s := by
  intro s hs
  rcases List.mem_append.1 hs with hs | hs
  · exact hl s hs
  · rw [List.mem_singleton] at hs; subst hs; exact ⟨hn, hn'⟩

theorem not_skip_arr {c : Node} (h : IsSeq c ∨ IsAlt c) : skipName c.xmlName = false := by
  rcases h with (h | h) | h <;> rw [h] <;> decide +kernel

theorem arr_listName {r : Registry} {path : Path} {c : Node} (h : IsSeq c ∨ IsAlt c) :
    ∃ n, nodeListName r path c = n ∧ n ≠ [] ∧ '/' ∉ n := by
  refine ⟨_, rfl, ?_⟩
  unfold nodeListName
  have hs : c.xmlName.space = [] := by rcases h with (h | h) | h <;> rw [h]
  rw [fullName_space hs]
  unfold Node.name
  rcases h with (h | h) | h <;> rw [h] <;> (split <;> decide +kernel)

theorem pop_new {pre : Str} {l : List Str} {n : Str} (hp : ':' ∉ pre) (hl : ∀ s ∈ l ++ [n], s ≠ [] ∧ '/' ∉ s) :
    (Path.new pre (l ++ [n])).pop.2 = Path.new pre l := by
  unfold Path.pop
  obtain ⟨h1, h2, -⟩ := path_fields_new pre _ hp (segsOk_of hl)
  rw [h1, h2]
  simp

theorem seq_list {r : Registry} {sort : PathValueList → PathValueList} (hsort : ∀ l, (sort l).Perm l) {c : Node}
    (hc : IsSeq c) (path : Path) (e : PathValue) :
    e ∈ c.listPaths r sort path ↔ ∃ (k : Nat) (li : Node), c.nodes[k]? = some li ∧
        ∃ w ∈ li.nodes, e ∈ w.listPaths r sort ((path.pop.2.appendIndex (k : Int)).push [nodeListName r path w]) := by
  have hs : c.xmlName.space = [] := by rcases hc with h | h <;> rw [h]
  have hf : c.fullName r = "rdf:Seq".toList ∨ c.fullName r = "rdf:Bag".toList := by
    rw [fullName_space hs]
    rcases hc with h | h <;> rw [h] <;> simp
  obtain ⟨n, a, x, l⟩ := c
  rw [Node.listPaths]
  rw [if_pos hf, (hsort _).mem_iff, mem_listLis]
  simp only [mem_listKids, Nat.zero_add, Bool.false_and, true_and, Node.nodes]

theorem alt_list {r : Registry} {sort : PathValueList → PathValueList} (hsort : ∀ l, (sort l).Perm l) {c : Node}
    (hc : IsAlt c) (path : Path) (e : PathValue) :
    e ∈ c.listPaths r sort path ↔ ∃ li ∈ c.nodes, e = { path := path.pop.2.appendIndexString (liLang li), value := li.value } := by
  have hs : c.xmlName.space = [] := by rw [hc]
  have hf : c.fullName r = "rdf:Alt".toList := by
    rw [fullName_space hs, hc]
  obtain ⟨n, a, x, l⟩ := c
  rw [Node.listPaths]
  rw [if_neg, if_pos hf, (hsort _).mem_iff]
  · simp only [List.mem_map, Node.nodes]
    constructor
    · rintro ⟨li, h, rfl⟩; exact ⟨li, h, rfl⟩
    · rintro ⟨li, h, rfl⟩; exact ⟨li, h, rfl⟩
  · rw [hf]; decide +kernel

/-- The listing of a node that is no array node itself, given the listings of what is below. -/
theorem lists_of_parts {r : Registry} {sort : PathValueList → PathValueList} (hsort : ∀ l, (sort l).Perm l) {v : Node}
    (h1 : ¬ (v.fullName r = "rdf:Seq".toList ∨ v.fullName r = "rdf:Bag".toList)) (h2 : ¬ v.fullName r = "rdf:Alt".toList)
    (ha : AttrsOk v)
    (hk : ∀ w ∈ v.nodes, (¬ IsSeq w ∧ ¬ IsAlt w ∧ NodeNameOk w.xmlName ∧ ListsExactly r sort w) ∨
      (IsSeq w ∧ ∀ li ∈ w.nodes, ∀ u ∈ li.nodes, NodeNameOk u.xmlName ∧ ListsExactly r sort u) ∨ IsAlt w) :
    ListsExactly r sort v := by
  intro pre l n e hp hl hn hn' hb
  have hl1 := segs_snoc hl hn hn'
  rw [listPaths_plain hsort h1 h2]
  constructor
  · rintro (⟨a, ham, hs, rfl⟩ | ⟨w, hw, hs, he⟩ | ⟨hx, rfl⟩)
    · refine ⟨[], _, _, .attr ham hs, ?_⟩
      rw [attrListName_ok hp (ha.1 a ham hs).1, push_new hp hl1]
      simp
    · rcases hk w hw with ⟨k1, k2, k3, k4⟩ | ⟨k1, k2⟩ | k1
      · rw [nodeListName_ok hp k3, push_new hp hl1] at he
        obtain ⟨o1, o2, o3, o4⟩ := shownName_ok (pre := pre) k3.2.2
        obtain ⟨suf, segs, s, hb', rfl⟩ := (k4 pre (l ++ [n]) _ e hp hl1 o1 o2 o4).1 he
        exact ⟨[], _, s, .kid hw hs k1 k2 hb', by simp⟩
      · obtain ⟨m, hm, m1, m2⟩ := arr_listName (r := r) (path := Path.new pre (l ++ [n])) (Or.inl k1 : IsSeq w ∨ IsAlt w)
        rw [hm, push_new hp hl1, seq_list hsort k1] at he
        obtain ⟨k, li, hli, u, hu, he⟩ := he
        obtain ⟨u1, u2⟩ := k2 li (List.mem_of_getElem? hli) u hu
        have hl2 := segs_snoc hl1 m1 m2
        rw [pop_new hp hl2, appendIndex_new hn hb, nodeListName_ok hp u1] at he
        have hl3 : ∀ s ∈ l ++ [n ++ (['['] ++ itoa (k : Int) ++ [']'])], s ≠ [] ∧ '/' ∉ s := by
          refine segs_snoc hl (by simp) ?_
          have := itoa_not_mem (c := '/') (by decide) (by decide) (k : Int)
          simp [hn', this]
        rw [push_new hp hl3] at he
        obtain ⟨o1, o2, o3, o4⟩ := shownName_ok (pre := pre) u1.2.2
        obtain ⟨suf, segs, s, hb', rfl⟩ := (u2 pre _ _ e hp hl3 o1 o2 o4).1 he
        exact ⟨_, _, s, .elem hw k1 hli hu hb', by simp⟩
      · obtain ⟨m, hm, m1, m2⟩ := arr_listName (r := r) (path := Path.new pre (l ++ [n])) (Or.inr k1 : IsSeq w ∨ IsAlt w)
        rw [hm, push_new hp hl1, alt_list hsort k1] at he
        obtain ⟨li, hli, rfl⟩ := he
        rw [pop_new hp (segs_snoc hl1 m1 m2), appendIndexString_new hn hb]
        exact ⟨_, [], _, .lang hw k1 hli, by simp⟩
    · exact ⟨[], [], _, .value hx, by simp⟩
  · rintro ⟨suf, segs, s, hb', rfl⟩
    cases hb' with
    | value hx => exact Or.inr (Or.inr ⟨hx, by simp⟩)
    | @attr _ a ham hs =>
      refine Or.inl ⟨a, ham, hs, ?_⟩
      rw [attrListName_ok hp (ha.1 a ham hs).1, push_new hp hl1]
      simp
    | @kid _ w suf segs _ hw hs k1 k2 hb' =>
      refine Or.inr (Or.inl ⟨w, hw, hs, ?_⟩)
      rcases hk w hw with ⟨-, -, k3, k4⟩ | ⟨k1', -⟩ | k2'
      · rw [nodeListName_ok hp k3, push_new hp hl1]
        obtain ⟨o1, o2, o3, o4⟩ := shownName_ok (pre := pre) k3.2.2
        exact (k4 pre (l ++ [n]) _ _ hp hl1 o1 o2 o4).2 ⟨suf, segs, s, hb', by simp⟩
      · exact absurd k1' k1
      · exact absurd k2' k2
    | @elem _ c i li u suf segs _ hw k1 hli hu hb' =>
      refine Or.inr (Or.inl ⟨c, hw, not_skip_arr (Or.inl k1), ?_⟩)
      obtain ⟨m, hm, m1, m2⟩ := arr_listName (r := r) (path := Path.new pre (l ++ [n])) (Or.inl k1 : IsSeq c ∨ IsAlt c)
      rw [hm, push_new hp hl1, seq_list hsort k1]
      refine ⟨i, li, hli, u, hu, ?_⟩
      have hu12 : NodeNameOk u.xmlName ∧ ListsExactly r sort u := by
        rcases hk c hw with ⟨k1', -⟩ | ⟨-, k2⟩ | k2'
        · exact absurd k1 k1'
        · exact k2 li (List.mem_of_getElem? hli) u hu
        · exfalso
          unfold IsAlt at k2'
          rcases k1 with k1 | k1 <;> rw [k1] at k2' <;> revert k2' <;> decide +kernel
      obtain ⟨u1, u2⟩ := hu12
      rw [pop_new hp (segs_snoc hl1 m1 m2), appendIndex_new hn hb, nodeListName_ok hp u1]
      have hl3 : ∀ s ∈ l ++ [n ++ (['['] ++ itoa (i : Int) ++ [']'])], s ≠ [] ∧ '/' ∉ s := by
        refine segs_snoc hl (by simp) ?_
        have := itoa_not_mem (c := '/') (by decide) (by decide) (i : Int)
        simp [hn', this]
      rw [push_new hp hl3]
      obtain ⟨o1, o2, o3, o4⟩ := shownName_ok (pre := pre) u1.2.2
      exact (u2 pre _ _ _ hp hl3 o1 o2 o4).2 ⟨suf, segs, s, hb', by simp⟩
    | @lang _ c li hw k1 hli =>
      refine Or.inr (Or.inl ⟨c, hw, not_skip_arr (Or.inr k1), ?_⟩)
      obtain ⟨m, hm, m1, m2⟩ := arr_listName (r := r) (path := Path.new pre (l ++ [n])) (Or.inr k1 : IsSeq c ∨ IsAlt c)
      rw [hm, push_new hp hl1, alt_list hsort k1]
      refine ⟨li, hli, ?_⟩
      rw [pop_new hp (segs_snoc hl1 m1 m2), appendIndexString_new hn hb]

theorem attrsOk_of {b : Bool} {n : Node} (h : NodeOk b n) : AttrsOk n := by
  cases h <;> assumption

theorem lists_of_ok {r : Registry} {sort : PathValueList → PathValueList} (hsort : ∀ l, (sort l).Perm l) {b : Bool}
    {v : Node} (h : NodeOk b v) :
    (NodeNameOk v.xmlName → ¬ IsSeq v → ¬ IsAlt v → ListsExactly r sort v) ∧
    (b = true → ∀ w ∈ v.nodes, NodeNameOk w.xmlName ∧ ListsExactly r sort w) := by
  induction h with
  | @node b n hn hd ha hk ih =>
    have hkids : ∀ w ∈ n.nodes, NodeNameOk w.xmlName ∧ ListsExactly r sort w := by
      intro w hw
      obtain ⟨n1, n2, n3⟩ := hn w hw
      exact ⟨n1, (ih w hw).1 n1 n2 n3⟩
    refine ⟨?_, fun _ => hkids⟩
    intro h1 h2 h3
    obtain ⟨a1, a2⟩ := not_arr (r := r) h1 h2 h3
    refine lists_of_parts hsort a1 a2 ha ?_
    intro w hw
    exact Or.inl ⟨(hn w hw).2.1, (hn w hw).2.2, hkids w hw⟩
  | @seq n c hc hs ha hl hk ih =>
    refine ⟨?_, by simp⟩
    intro h1 h2 h3
    obtain ⟨a1, a2⟩ := not_arr (r := r) h1 h2 h3
    refine lists_of_parts hsort a1 a2 ha ?_
    intro w hw
    rw [hc, List.mem_singleton] at hw
    subst hw
    exact Or.inr (Or.inl ⟨hs, fun li hli u hu => (ih li hli).2 rfl u hu⟩)
  | @alt n c hc hs ha hl hd =>
    refine ⟨?_, by simp⟩
    intro h1 h2 h3
    obtain ⟨a1, a2⟩ := not_arr (r := r) h1 h2 h3
    refine lists_of_parts hsort a1 a2 ha ?_
    intro w hw
    rw [hc, List.mem_singleton] at hw
    subst hw
    exact Or.inr (Or.inr hs)

/-- Exactly the texts of a top-level node are listed. -/
theorem lists_root {r : Registry} {sort : PathValueList → PathValueList} (hsort : ∀ l, (sort l).Perm l) {n : Node}
    (h : NodeOk true n) (h1 : ¬ (n.fullName r = "rdf:Seq".toList ∨ n.fullName r = "rdf:Bag".toList))
    (h2 : ¬ n.fullName r = "rdf:Alt".toList) {pre : Str} (hp : ':' ∉ pre) (e : PathValue) :
    e ∈ n.listPaths r sort (Path.new pre []) ↔
      ∃ segs s, NRoot pre n segs s ∧ e = { path := Path.new pre segs, value := s } := by
  rw [listPaths_plain hsort h1 h2]
  have ha := attrsOk_of h
  have hkids := (lists_of_ok (r := r) hsort h).2 rfl
  have harr : ∀ w ∈ n.nodes, ¬ IsSeq w ∧ ¬ IsAlt w := by
    cases h with
    | node hn => exact fun w hw => (hn w hw).2
  constructor
  · rintro (⟨a, ham, hs, rfl⟩ | ⟨w, hw, hs, he⟩ | ⟨hx, rfl⟩)
    · refine ⟨_, _, .attr ham hs, ?_⟩
      rw [attrListName_ok hp (ha.1 a ham hs).1, push_new hp (by simp)]
      simp
    · obtain ⟨k3, k4⟩ := hkids w hw
      rw [nodeListName_ok hp k3, push_new hp (by simp)] at he
      obtain ⟨o1, o2, o3, o4⟩ := shownName_ok (pre := pre) k3.2.2
      obtain ⟨suf, segs, s, hb', rfl⟩ := (k4 pre [] _ e hp (by simp) o1 o2 o4).1 he
      exact ⟨_, s, .kid hw hs (harr w hw).1 (harr w hw).2 hb', by simp⟩
    · exact ⟨[], _, .value hx, by simp⟩
  · rintro ⟨segs, s, hb', rfl⟩
    unfold NRoot at hb'
    generalize hsuf : ([] : Str) = suf at hb'
    cases hb' with
    | value hx => exact Or.inr (Or.inr ⟨hx, rfl⟩)
    | @attr _ a ham hs =>
      refine Or.inl ⟨a, ham, hs, ?_⟩
      rw [attrListName_ok hp (ha.1 a ham hs).1, push_new hp (by simp)]
      simp
    | @kid _ w suf segs _ hw hs k1 k2 hb' =>
      refine Or.inr (Or.inl ⟨w, hw, hs, ?_⟩)
      obtain ⟨k3, k4⟩ := hkids w hw
      rw [nodeListName_ok hp k3, push_new hp (by simp)]
      obtain ⟨o1, o2, o3, o4⟩ := shownName_ok (pre := pre) k3.2.2
      exact (k4 pre [] _ _ hp (by simp) o1 o2 o4).2 ⟨suf, segs, s, hb', by simp⟩
    | elem h => simp at hsuf
    | lang h => simp at hsuf

/-! ### Reading: helper lemmas -/

theorem find_by_name {l : List Node} (h : (l.map Node.name).Nodup) {w : Node} (hw : w ∈ l) :
    NodeList.findNodeByName l w.name = some w := by
  unfold NodeList.findNodeByName
  induction l with
  | nil => simp at hw
  | cons y ys ih =>
    simp only [List.map_cons, List.nodup_cons] at h
    rcases List.mem_cons.1 hw with rfl | hw
    · simp
    · rw [List.find?_cons_of_neg, ih h.2 hw]
      simp only [decide_eq_true_eq]
      intro hh
      exact h.1 (List.mem_map.2 ⟨w, hw, hh.symm⟩)

theorem find_none {l : List Node} {k : Str} (h : k ∉ l.map Node.name) : NodeList.findNodeByName l k = none := by
  unfold NodeList.findNodeByName
  rw [List.find?_eq_none]
  intro x hx
  simp only [decide_eq_true_eq]
  intro hh
  exact h (List.mem_map.2 ⟨x, hx, hh⟩)

theorem getAttr_one {n : Node} (h : (n.attrs.map (fun a => stripPrefix a.name.loc)).Nodup) {a : Attr} (ha : a ∈ n.attrs)
    (hne : stripPrefix a.name.loc ≠ []) : ∃ l, n.getAttr [] (stripPrefix a.name.loc) = a :: l := by
  unfold Node.getAttr
  simp only [ne_eq, not_true, decide_false, Bool.false_and, Bool.not_false, Bool.true_and, hne, not_false_eq_true,
    decide_true]
  generalize n.attrs = as at *
  induction as with
  | nil => simp at ha
  | cons y ys ih =>
    simp only [List.map_cons, List.nodup_cons] at h
    rcases List.mem_cons.1 ha with rfl | ha
    · exact ⟨_, by rw [List.filter_cons_of_pos (by simp)]⟩
    · obtain ⟨l, hl⟩ := ih h.2 ha
      refine ⟨l, ?_⟩
      rw [List.filter_cons_of_neg, hl]
      simp only [decide_eq_true_eq, Bool.not_eq_true', decide_eq_false_iff_not, not_not]
      intro hh
      exact h.1 (List.mem_map.2 ⟨a, ha, hh.symm⟩)

/-- What the rest of a path gives at a node, behind its name with an index or language. -/
def nodeGet (fuel : Nat) (node : Node) (idx : Int) (lang : Str) (path : Path) : Option Str :=
  if idx > -1 then
    match node.nodes with
    | [] => some []
    | arr :: _ =>
      match arr.nodes[idx.toNat]? with
      | none => some []
      | some li => Node.getPathF fuel li path
  else if lang ≠ [] then
    match node.nodes with
    | [] => some []
    | arr :: _ =>
      match arr.nodes.find? (hasLang lang) with
      | some v => some v.value
      | none => some []
  else Node.getPathF fuel node path

/-- What reading needs to know of a text below a node. -/
def NReadsAt (v : Node) (suf : Str) (segs : List Str) (s : Str) : Prop :=
  ':' ∉ suf ∧ '/' ∉ suf ∧ (∀ x ∈ segs, x ≠ [] ∧ '/' ∉ x) ∧
  ∃ idx lang, (∀ n, FieldName n → parsePathSegment (n ++ suf) = (n, idx, lang)) ∧ -1 ≤ idx ∧
    ∀ fuel q, segs.length < fuel → ':' ∉ q → nodeGet fuel v idx lang (Path.new q segs) = some s

theorem node_step {n w : Node} {pre suf : Str} {segs : List Str} {s : Str} (hn : NodeNameOk w.xmlName)
    (hf : NodeList.findNodeByName n.nodes w.name = some w) (h : NReadsAt w suf segs s) {fuel : Nat}
    (hfuel : segs.length + 1 < fuel) {q : Str} (hq : ':' ∉ q) :
    Node.getPathF fuel n (Path.new q ((shownName pre w.xmlName.loc ++ suf) :: segs)) = some s := by
  obtain ⟨r1, r2, r3, idx, lang, r4, r5, r6⟩ := h
  obtain ⟨q', hq', hpop⟩ := popFront_shown (pre := pre) hq hn.2.2 r2 r1 r3
  obtain ⟨g, rfl⟩ : ∃ g, fuel = g + 1 := ⟨fuel - 1, by omega⟩
  have hfn : FieldName (stripPrefix w.xmlName.loc) := ⟨hn.2.2.1, stripPrefix_sub hn.2.2.2.2.2.1⟩
  rw [Node.getPathF]
  simp only [hpop, r4 _ hfn]
  rw [if_neg (by omega), if_neg (by simp [hn.2.2.1]), stripPrefix_none hn.2.2.2.1]
  have hf' : NodeList.findNodeByName n.nodes (stripPrefix w.xmlName.loc) = some w := hf
  rw [hf']
  exact r6 g q' (by omega) hq'

theorem empty_path_reads (v : Node) {fuel : Nat} (h : 0 < fuel) {q : Str} (hq : ':' ∉ q) :
    Node.getPathF fuel v (Path.new q []) = some v.value := by
  obtain ⟨g, rfl⟩ : ∃ g, fuel = g + 1 := ⟨fuel - 1, by omega⟩
  have hlen := len_new (pre := q) (l := []) hq (by simp)
  rw [Node.getPathF, popFront_of_len_zero _ hlen, parse_nil]
  simp [hlen]

theorem node_attr_reads {v : Node} (ha : AttrsOk v) {a : Attr} (ham : a ∈ v.attrs) (hs : skipName a.name = false) {fuel : Nat}
    (h : 0 < fuel) {q pre : Str} (hq : ':' ∉ q) :
    Node.getPathF fuel v (Path.new q [shownName pre a.name.loc]) = some a.value := by
  obtain ⟨g, rfl⟩ : ∃ g, fuel = g + 1 := ⟨fuel - 1, by omega⟩
  have hn := (ha.1 a ham hs).2
  obtain ⟨q', hq', hpop⟩ := popFront_shown (pre := pre) (suf := []) (segs := []) hq hn (by simp) (by simp) (by simp)
  simp only [List.append_nil] at hpop
  rw [Node.getPathF]
  simp only [hpop, segment_plain _ (stripPrefix_sub hn.2.2.2.1)]
  rw [if_neg (by decide), if_neg (by simp [hn.1]), stripPrefix_none hn.2.1, find_none (ha.2.2 a ham hs)]
  obtain ⟨l, hl⟩ := getAttr_one ha.2.1 ham hn.1
  simp only [hl]

theorem hasLang_liLang {li : Node} (h : li.getAttr [] "lang".toList ≠ []) (lang : Str) :
    hasLang lang li = decide (liLang li = lang) := by
  unfold hasLang liLang
  cases hg : li.getAttr [] "lang".toList with
  | nil => exact absurd hg h
  | cons a l => rfl

theorem find_lang {l : List Node} (h1 : ∀ li ∈ l, li.getAttr [] "lang".toList ≠ []) (h : (l.map liLang).Nodup) {li : Node}
    (hm : li ∈ l) : l.find? (hasLang (liLang li)) = some li := by
  induction l with
  | nil => simp at hm
  | cons y ys ih =>
    simp only [List.map_cons, List.nodup_cons] at h
    rcases List.mem_cons.1 hm with rfl | hm
    · rw [List.find?_cons_of_pos]
      rw [hasLang_liLang (h1 li List.mem_cons_self)]; simp
    · rw [List.find?_cons_of_neg, ih (fun x hx => h1 x (List.mem_cons_of_mem _ hx)) h.2 hm]
      rw [hasLang_liLang (h1 y List.mem_cons_self)]
      simp only [decide_eq_true_eq]
      intro hh
      exact h.1 (List.mem_map.2 ⟨li, hm, hh.symm⟩)

theorem nodeGet_plain (fuel : Nat) (v : Node) (p : Path) : nodeGet fuel v (-1) [] p = Node.getPathF fuel v p := by
  unfold nodeGet; rw [if_neg (by decide), if_neg (by simp)]

theorem plain_suffix : ∀ n : Str, FieldName n → parsePathSegment (n ++ []) = (n, -1, []) := by
  intro n hn
  rw [List.append_nil]; exact segment_plain n hn.2

theorem nreads_below {pre : Str} {v : Node} {suf : Str} {segs : List Str} {s : Str} (h : NBelow pre v suf segs s) :
    ∀ b, NodeOk b v → NReadsAt v suf segs s := by
  induction h with
  | @value v hx =>
    intro b hok
    refine ⟨by simp, by simp, by simp, -1, [], plain_suffix, by decide, ?_⟩
    intro fuel q hfu hq
    rw [nodeGet_plain]
    exact empty_path_reads v (by omega) hq
  | @attr v a ham hs =>
    intro b hok
    have ha := attrsOk_of hok
    obtain ⟨o1, o2, o3, o4⟩ := shownName_ok (pre := pre) (ha.1 a ham hs).2
    refine ⟨by simp, by simp, by simpa using ⟨o1, o2⟩, -1, [], plain_suffix, by decide, ?_⟩
    intro fuel q hfu hq
    rw [nodeGet_plain]
    exact node_attr_reads ha ham hs (by omega) hq
  | @kid v w suf segs s hw hs k1 k2 hb ih =>
    intro b hok
    cases hok with
    | node hn hd ha hk =>
      have hr := ih false (hk w hw)
      obtain ⟨n1, n2, n3⟩ := hn w hw
      obtain ⟨o1, o2, o3, o4⟩ := shownName_ok (pre := pre) n1.2.2
      refine ⟨by simp, by simp, ?_, -1, [], plain_suffix, by decide, ?_⟩
      · intro y hy
        rcases List.mem_cons.1 hy with rfl | hy
        · exact ⟨by simp [o1], by simp [o2, hr.2.1]⟩
        · exact hr.2.2.1 y hy
      · intro fuel q hfu hq
        rw [nodeGet_plain]
        exact node_step n1 (find_by_name hd hw) hr (by simpa using hfu) hq
    | seq hc hs' =>
      rw [hc, List.mem_singleton] at hw
      subst hw
      exact absurd hs' k1
    | alt hc hs' =>
      rw [hc, List.mem_singleton] at hw
      subst hw
      exact absurd hs' k2
  | @elem v c i li w suf segs s hc' hs hi hw hb ih =>
    intro b hok
    cases hok with
    | node hn hd ha hk => exact absurd hs (hn c hc').2.1
    | @seq _ c' hc hs' ha hl hk =>
      rw [hc, List.mem_singleton] at hc'
      subst hc'
      have hli := hk li (List.mem_of_getElem? hi)
      cases hli with
      | node hn hd ha' hk' =>
        have hr := ih false (hk' w hw)
        obtain ⟨n1, n2, n3⟩ := hn w hw
        obtain ⟨o1, o2, o3, o4⟩ := shownName_ok (pre := pre) n1.2.2
        have hilt := (List.getElem?_eq_some_iff.mp hi).1
        refine ⟨?_, ?_, ?_, i, [], ?_, by omega, ?_⟩
        · have := itoa_not_mem (c := ':') (by decide) (by decide) (i : Int)
          simp [this]
        · have := itoa_not_mem (c := '/') (by decide) (by decide) (i : Int)
          simp [this]
        · intro y hy
          rcases List.mem_cons.1 hy with rfl | hy
          · exact ⟨by simp [o1], by simp [o2, hr.2.1]⟩
          · exact hr.2.2.1 y hy
        · intro n hn
          have := segment_index_roundtrip n i hn (inI64_nat (by omega))
          simpa using this
        · intro fuel q hfu hq
          unfold nodeGet
          rw [if_pos (by omega), hc]
          simp only [Int.toNat_natCast, hi]
          exact node_step n1 (find_by_name hd hw) hr (by simpa using hfu) hq
    | @alt _ c' hc hs' =>
      rw [hc, List.mem_singleton] at hc'
      subst hc'
      exfalso
      unfold IsAlt at hs'
      rcases hs with k1 | k1 <;> rw [k1] at hs' <;> revert hs' <;> decide +kernel
  | @lang v c li hc' hs hi =>
    intro b hok
    cases hok with
    | node hn hd ha hk => exact absurd hs (hn c hc').2.2
    | @seq _ c' hc hs' ha hl hk =>
      rw [hc, List.mem_singleton] at hc'
      subst hc'
      exfalso
      unfold IsAlt at hs
      rcases hs' with k1 | k1 <;> rw [k1] at hs <;> revert hs <;> decide +kernel
    | @alt _ c' hc hs' ha hl hd =>
      rw [hc, List.mem_singleton] at hc'
      subst hc'
      obtain ⟨l1, l2, l3, l4, l5⟩ := hl li hi
      refine ⟨by simp [l3], by simp [l4], by simp, -1, liLang li, ?_, by decide, ?_⟩
      · intro n hn
        have := segment_lang_roundtrip n (liLang li) hn l2 l5
        simpa using this
      · intro fuel q hfu hq
        unfold nodeGet
        rw [if_neg (by decide), if_pos l2, hc]
        simp only [find_lang (fun x hx => (hl x hx).1) hd hi]

end Xmp.Props
