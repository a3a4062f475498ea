import Verif.Props.DocEncode
import Verif.Props.XmlText

/-! C46: how the written document is parsed. -/

namespace Xmp.Props

open GoStr

/-! ### Namespaces of a tree -/

theorem removeDups_covers {l : List Namespace} {ns : Namespace} (h : ns ∈ l) :
    ∃ ns' ∈ NamespaceList.removeDups l, ns'.uri = ns.uri := by
  cases hf : l.find? (fun v => decide (v.uri = ns.uri)) with
  | none =>
    rw [List.find?_eq_none] at hf
    exact absurd (by simp) (hf ns h)
  | some ns' =>
    have e : ns'.uri = ns.uri := by simpa using List.find?_some hf
    refine ⟨ns', ((removeDups_spec l).2.2 ns').2 ?_, e⟩
    rw [e]
    exact hf

mutual
theorem ns_sound (env : Env) (d : XDoc) : ∀ (n : Node), (∀ q ∈ allNames n, q.space = []) → ∀ ns ∈ Enc.namespaces env d n,
    ns ≠ nsRDF ∧ ns ≠ nsXML ∧ ∃ q ∈ allNames n, d.findNsByPrefix env (getPrefix q.loc) = some ns
  | .mk n a v l, hs, ns, h => by
    rw [Enc.namespaces] at h
    have h := (removeDups_spec _).2.1.subset h
    rw [List.mem_append, List.mem_filter, List.mem_filterMap] at h
    rcases h with h | ⟨⟨p, hp, hf⟩, hne⟩
    · obtain ⟨h1, h2, q, hq, h3⟩ := ns_sound_all env d l (fun q hq => hs q (by simp [allNames, hq])) ns h
      exact ⟨h1, h2, q, by simp [allNames, hq], h3⟩
    · have hne : ns ≠ nsRDF ∧ ns ≠ nsXML := by simpa using hne
      refine ⟨hne.1, hne.2, ?_⟩
      have hn : n.space = [] := hs n (by simp [allNames])
      simp only [Enc.prefixes, hn, if_true, List.mem_cons, List.mem_map] at hp
      rcases hp with rfl | ⟨x, hx, rfl⟩
      · exact ⟨n, by simp [allNames], hf⟩
      · refine ⟨x.name, ?_, hf⟩
        simp only [allNames, List.cons_append, List.mem_cons, List.mem_append, List.mem_map]
        exact Or.inr (Or.inl ⟨x, hx, rfl⟩)
theorem ns_sound_all (env : Env) (d : XDoc) : ∀ (l : List Node), (∀ q ∈ allNamesList l, q.space = []) →
    ∀ ns ∈ Enc.namespacesAll env d l,
    ns ≠ nsRDF ∧ ns ≠ nsXML ∧ ∃ q ∈ allNamesList l, d.findNsByPrefix env (getPrefix q.loc) = some ns
  | [], _, ns, h => by simp [Enc.namespacesAll] at h
  | x :: xs, hs, ns, h => by
    rw [Enc.namespacesAll, List.mem_append] at h
    rcases h with h | h
    · obtain ⟨h1, h2, q, hq, h3⟩ := ns_sound env d x (fun q hq => hs q (by simp [allNamesList, hq])) ns h
      exact ⟨h1, h2, q, by simp [allNamesList, hq], h3⟩
    · obtain ⟨h1, h2, q, hq, h3⟩ := ns_sound_all env d xs (fun q hq => hs q (by simp [allNamesList, hq])) ns h
      exact ⟨h1, h2, q, by simp [allNamesList, hq], h3⟩
end

mutual
theorem ns_complete (env : Env) (d : XDoc) : ∀ (n : Node), (∀ q ∈ allNames n, q.space = []) → ∀ q ∈ allNames n, ∀ ns,
    d.findNsByPrefix env (getPrefix q.loc) = some ns → ns ≠ nsRDF → ns ≠ nsXML → ∃ ns' ∈ Enc.namespaces env d n, ns'.uri = ns.uri
  | .mk n a v l, hs, q, hq, ns, hf, h1, h2 => by
    rw [Enc.namespaces]
    simp only [allNames, List.cons_append, List.mem_cons, List.mem_append, List.mem_map] at hq
    have hn : n.space = [] := hs n (by simp [allNames])
    have key : ∀ p ∈ Enc.prefixes n a, d.findNsByPrefix env p = some ns →
        ns ∈ Enc.namespacesAll env d l ++ ((Enc.prefixes n a).filterMap (d.findNsByPrefix env)).filter
          (fun ns => decide (ns ≠ nsRDF ∧ ns ≠ nsXML)) := by
      intro p hp hf
      rw [List.mem_append, List.mem_filter, List.mem_filterMap]
      exact Or.inr ⟨⟨p, hp, hf⟩, by simp [h1, h2]⟩
    rcases hq with rfl | ⟨x, hx, rfl⟩ | hq
    · exact removeDups_covers (key _ (by simp [Enc.prefixes, hn]) hf)
    · exact removeDups_covers (key _ (by simp only [Enc.prefixes, List.mem_cons, List.mem_map]; exact Or.inr ⟨x, hx, rfl⟩) hf)
    · obtain ⟨ns', h3, h4⟩ := ns_complete_all env d l (fun q hq => hs q (by simp [allNames, hq])) q hq ns hf h1 h2
      obtain ⟨ns'', h5, h6⟩ := removeDups_covers (l := Enc.namespacesAll env d l ++
        ((Enc.prefixes n a).filterMap (d.findNsByPrefix env)).filter (fun ns => decide (ns ≠ nsRDF ∧ ns ≠ nsXML)))
        (List.mem_append_left _ h3)
      exact ⟨ns'', h5, h6.trans h4⟩
theorem ns_complete_all (env : Env) (d : XDoc) : ∀ (l : List Node), (∀ q ∈ allNamesList l, q.space = []) → ∀ q ∈ allNamesList l,
    ∀ ns, d.findNsByPrefix env (getPrefix q.loc) = some ns → ns ≠ nsRDF → ns ≠ nsXML →
    ∃ ns' ∈ Enc.namespacesAll env d l, ns'.uri = ns.uri
  | [], _, q, hq, _, _, _, _ => by simp [allNamesList] at hq
  | x :: xs, hs, q, hq, ns, hf, h1, h2 => by
    rw [allNamesList, List.mem_append] at hq
    rw [Enc.namespacesAll]
    rcases hq with hq | hq
    · obtain ⟨ns', h3, h4⟩ := ns_complete env d x (fun q hq => hs q (by simp [allNamesList, hq])) q hq ns hf h1 h2
      exact ⟨ns', List.mem_append_left _ h3, h4⟩
    · obtain ⟨ns', h3, h4⟩ := ns_complete_all env d xs (fun q hq => hs q (by simp [allNamesList, hq])) q hq ns hf h1 h2
      exact ⟨ns', List.mem_append_right _ h3, h4⟩
end

/-! ### Reading with declarations -/

theorem reads_append (uri : Str → Str) (a b : List Xml) : Xml.reads uri (a ++ b) = Xml.reads uri a ++ Xml.reads uri b := by
  induction a with
  | nil => rfl
  | cons x a ih => rw [List.cons_append, Xml.reads, Xml.reads, ih, List.append_assoc]

theorem reads_chunk (uri : Str → Str) (s : Str) : Xml.reads uri (Xml.chunk s) = [] := by
  unfold Xml.chunk
  split <;> rfl

theorem reads_layout (uri : Str → Str) (ind : Option (Str × Str)) (d : Nat) (l : List Xml) :
    ∀ lead, Xml.reads uri (Xml.layout ind d lead l) = Xml.reads uri l := by
  induction l with
  | nil => intro lead; exact reads_chunk uri _
  | cons x l ih =>
    intro lead
    rw [Xml.layout, reads_append, reads_chunk, List.nil_append, Xml.reads, Xml.reads, ih]

theorem reads_content (uri : Str → Str) (ind : Option (Str × Str)) (d : Nat) (v : Str) (k : List Xml) :
    Xml.reads uri (if k.isEmpty then Xml.chunk v else Xml.layout ind d v k) = Xml.reads uri k := by
  cases k with
  | nil => exact reads_chunk uri v
  | cons x k => exact reads_layout uri ind d _ v

/-- The attributes of an element as written. -/
def rawAttrs (a : List Attr) : List (Str × Str) := a.map (fun x => (x.name.loc, x.value))

/-- An element, its attributes and children are read in the scope of its own declarations. -/
theorem reads_node (uri : Str → Str) (ind : Option (Str × Str)) (hb : Blank ind) (dep : Nat) {n : QName} {a : List Attr} {v : Str}
    {l : List Node} (h : XmlNamed (.mk n a v l)) (hm : ind.isSome = true → trimSpace v = [] ∨ l = []) :
    Xml.reads uri (Xml.ofNode ind dep (.mk n a v l)) =
      [.mk (reparseName (Xml.scope (rawAttrs a) uri) n)
        (a.map (fun x => { x with name := reparseName (Xml.scope (rawAttrs a) uri) x.name })) (trimSpace v)
        (Xml.reads (Xml.scope (rawAttrs a) uri) (Xml.ofNodes ind (dep + 1) l))] := by
  obtain ⟨h1, h2, h3, h4⟩ := h
  have hraw : (a.filter (fun x => x.name.loc ≠ [])).map (fun x => (x.name.loc, x.value)) = rawAttrs a := by
    rw [List.filter_eq_self.2 (fun x hx => by simpa using (h3 x hx).2)]
    rfl
  rw [ofNode_eq _ _ h2, Xml.reads, Xml.read, Xml.reads, List.append_nil, reads_content,
    value_content ind hb dep v _ (elems_ofNodes _ _ _), attrs_back _ a h3, hraw]
  have hname : ∀ u, reparseName u ⟨[], n.loc⟩ = reparseName u n := by
    intro u
    obtain ⟨sp, lo⟩ := n
    simp only at h1
    subst h1
    rfl
  rw [hname]
  have hv : (if ind.isSome = true ∧ Xml.ofNodes ind (dep + 1) l ≠ [] then [] else trimSpace v) = trimSpace v := by
    split
    · rename_i hc
      rcases hm hc.1 with e | e
      · exact e.symm
      · subst e
        exact absurd rfl hc.2
    · rfl
  rw [hv]

theorem hasPrefix_xmlns (s : Str) : hasPrefix s "xmlns:".toList = true ↔ ∃ p, s = "xmlns:".toList ++ p := by
  unfold hasPrefix
  rw [List.isPrefixOf_iff_prefix]
  exact ⟨fun ⟨t, h⟩ => ⟨t, h.symm⟩, fun ⟨t, h⟩ => ⟨t, h.symm⟩⟩

/-- What a declaration does to a prefix. -/
theorem declare_eq (x : Str × Str) (uri : Str → Str) (p : Str) :
    Xml.declare x uri p = if x.1 = "xmlns:".toList ++ p ∧ p ≠ "xml".toList ∧ p ≠ "xmlns".toList then x.2 else uri p := by
  unfold Xml.declare
  by_cases h : hasPrefix x.1 "xmlns:".toList = true
  · rw [if_pos h]
    obtain ⟨q, hq⟩ := (hasPrefix_xmlns x.1).1 h
    rw [hq]
    have : ("xmlns:".toList ++ q).drop 6 = q := by simp
    rw [this]
    have e : ("xmlns:".toList ++ q = "xmlns:".toList ++ p) ↔ p = q := by
      rw [List.append_cancel_left_eq]
      exact eq_comm
    by_cases hpq : p = q ∧ p ≠ "xml".toList ∧ p ≠ "xmlns".toList
    · rw [if_pos hpq, if_pos ⟨e.2 hpq.1, hpq.2⟩]
    · rw [if_neg hpq, if_neg (fun hc => hpq ⟨e.1 hc.1, hc.2⟩)]
  · rw [if_neg h, if_neg]
    rintro ⟨hc, -⟩
    exact h ((hasPrefix_xmlns x.1).2 ⟨p, hc⟩)

theorem scope_fixed (a : List (Str × Str)) : ∀ (uri : Str → Str) (p : Str), (p = "xml".toList ∨ p = "xmlns".toList) →
    Xml.scope a uri p = uri p := by
  induction a with
  | nil => intro uri p _; rfl
  | cons x a ih =>
    intro uri p hp
    rw [Xml.scope, List.foldl_cons]
    show Xml.scope a (Xml.declare x uri) p = _
    rw [ih _ p hp, declare_eq, if_neg]
    rintro ⟨-, h1, h2⟩
    rcases hp with h | h
    · exact h1 h
    · exact h2 h

/-- A prefix has one meaning: given before or declared, and never declared otherwise. -/
theorem scope_const (a : List (Str × Str)) : ∀ (uri : Str → Str) (p u : Str), p ≠ "xml".toList → p ≠ "xmlns".toList →
    (∀ x ∈ a, x.1 = "xmlns:".toList ++ p → x.2 = u) → (uri p = u ∨ ∃ x ∈ a, x.1 = "xmlns:".toList ++ p) →
    Xml.scope a uri p = u := by
  induction a with
  | nil =>
    intro uri p u _ _ _ h
    rcases h with h | ⟨x, hx, _⟩
    · exact h
    · cases hx
  | cons x a ih =>
    intro uri p u h1 h2 h3 h4
    show Xml.scope a (Xml.declare x uri) p = u
    apply ih _ p u h1 h2 (fun y hy => h3 y (by simp [hy]))
    rw [declare_eq]
    by_cases hx : x.1 = "xmlns:".toList ++ p
    · left
      rw [if_pos ⟨hx, h1, h2⟩]
      exact h3 x (by simp) hx
    · rw [if_neg (fun hc => hx hc.1)]
      rcases h4 with h4 | ⟨y, hy, hyp⟩
      · exact Or.inl h4
      · rcases List.mem_cons.1 hy with rfl | hy
        · exact absurd hyp hx
        · exact Or.inr ⟨y, hy, hyp⟩

theorem scope_none (a : List (Str × Str)) (uri : Str → Str) (h : ∀ x ∈ a, ∀ p, x.1 ≠ "xmlns:".toList ++ p) : Xml.scope a uri = uri := by
  induction a generalizing uri with
  | nil => rfl
  | cons x a ih =>
    show Xml.scope a (Xml.declare x uri) = uri
    have : Xml.declare x uri = uri := by
      funext p
      rw [declare_eq, if_neg (fun hc => h x (by simp) p hc.1)]
    rw [this]
    exact ih uri (fun y hy => h y (by simp [hy]))

/-- A name that declares no prefix. -/
def NotDecl (q : QName) : Prop := ∀ p, q.loc ≠ "xmlns:".toList ++ p

mutual
/-- Trees without declarations. -/
theorem reads_plain (ind : Option (Str × Str)) (hb : Blank ind) : ∀ (n : Node) (dep : Nat) (uri : Str → Str), XmlNamed n →
    (∀ q ∈ allNames n, NotDecl q) → (ind.isSome = true → Unmixed n) → Xml.reads uri (Xml.ofNode ind dep n) = [n.reparse uri]
  | .mk n a v l, dep, uri, h, hd, hm => by
    rw [reads_node uri ind hb dep h (fun hi => ((hm hi) : _ ∧ _).1)]
    have hs : Xml.scope (rawAttrs a) uri = uri := by
      apply scope_none
      intro x hx p
      obtain ⟨y, hy, rfl⟩ := List.mem_map.1 hx
      refine hd y.name ?_ p
      simp only [allNames, List.cons_append, List.mem_cons, List.mem_append, List.mem_map]
      exact Or.inr (Or.inl ⟨y, hy, rfl⟩)
    rw [hs, reads_plain_all ind hb l (dep + 1) uri h.2.2.2 (fun q hq => hd q (by simp [allNames, hq])) (fun hi => ((hm hi) : _ ∧ _).2),
      Node.reparse]
theorem reads_plain_all (ind : Option (Str × Str)) (hb : Blank ind) : ∀ (l : List Node) (dep : Nat) (uri : Str → Str), XmlNamedAll l →
    (∀ q ∈ allNamesList l, NotDecl q) → (ind.isSome = true → UnmixedAll l) →
    Xml.reads uri (Xml.ofNodes ind dep l) = Node.reparseList uri l
  | [], dep, uri, _, _, _ => by simp [Xml.ofNodes, Xml.reads, Node.reparseList]
  | x :: l, dep, uri, h, hd, hm => by
    rw [Xml.ofNodes, reads_append,
      reads_plain ind hb x dep uri h.1 (fun q hq => hd q (by simp [allNamesList, hq])) (fun hi => ((hm hi) : _ ∧ _).1),
      reads_plain_all ind hb l dep uri h.2 (fun q hq => hd q (by simp [allNamesList, hq])) (fun hi => ((hm hi) : _ ∧ _).2),
      Node.reparseList]
    rfl
end

mutual
/-- Only the binding of the names in a tree matters. -/
theorem reparse_congr (u w : Str → Str) : ∀ n : Node, (∀ q ∈ allNames n, reparseName u q = reparseName w q) → n.reparse u = n.reparse w
  | .mk n a v l, h => by
    rw [Node.reparse, Node.reparse, h n (by simp [allNames]), reparseList_congr u w l (fun q hq => h q (by simp [allNames, hq]))]
    congr 1
    apply List.map_congr_left
    intro x hx
    rw [h x.name]
    simp only [allNames, List.cons_append, List.mem_cons, List.mem_append, List.mem_map]
    exact Or.inr (Or.inl ⟨x, hx, rfl⟩)
theorem reparseList_congr (u w : Str → Str) : ∀ l : List Node, (∀ q ∈ allNamesList l, reparseName u q = reparseName w q) →
    Node.reparseList u l = Node.reparseList w l
  | [], _ => rfl
  | x :: xs, h => by
    rw [Node.reparseList, Node.reparseList, reparse_congr u w x (fun q hq => h q (by simp [allNamesList, hq])),
      reparseList_congr u w xs (fun q hq => h q (by simp [allNamesList, hq]))]
end

end Xmp.Props
