import Verif.Model.Node
import Verif.Lemmas.Path
import Mathlib.Tactic.Common
import Mathlib.Data.List.Nodup

/-! C20: generic node trees keep names unique. -/

namespace Xmp.Props

open GoStr

/-! ### Insert-or-replace lists -/

/-- Replace the first entry with the same key, else append. -/
def upsert {α : Type} (key : α → Str) (mrg : α → α → α) (a : α) : List α → List α
  | [] => [a]
  | x :: xs => if key x = key a then mrg a x :: xs else x :: upsert key mrg a xs

theorem upsert_keys {α : Type} (key : α → Str) (mrg : α → α → α) (a : α) (l : List α)
    (hk : ∀ x, key x = key a → key (mrg a x) = key a) :
    (upsert key mrg a l).map key = if key a ∈ l.map key then l.map key else l.map key ++ [key a] := by
  induction l with
  | nil => simp [upsert]
  | cons x xs ih =>
    unfold upsert
    by_cases h : key x = key a
    · simp [h, hk x h]
    · rw [if_neg h, List.map_cons, ih]
      have h' : ¬ key a = key x := fun e => h e.symm
      by_cases hm : key a ∈ xs.map key
      · simp only [hm, if_true, List.map_cons, List.mem_cons, or_true]
      · simp only [hm, if_false, List.map_cons, List.mem_cons, h', or_self, List.cons_append]

theorem upsert_find {α β : Type} (key : α → Str) (mrg : α → α → α) (val : α → β) (a : α) (l : List α)
    (hk : ∀ x, key x = key a → key (mrg a x) = key a) (hv : ∀ x, val (mrg a x) = val a) (k : Str) :
    ((upsert key mrg a l).find? (fun x => key x = k)).map val =
      if k = key a then some (val a) else (l.find? (fun x => key x = k)).map val := by
  induction l with
  | nil =>
    by_cases h : key a = k
    · simp [upsert, h]
    · simp [upsert, h, Ne.symm h]
  | cons x xs ih =>
    unfold upsert
    by_cases h : key x = key a
    · rw [if_pos h]
      by_cases h' : k = key a
      · simp [List.find?_cons, hk x h, h', hv]
      · have h2 : ¬ key a = k := fun e => h' e.symm
        simp [List.find?_cons, hk x h, h', h2, h]
    · rw [if_neg h, List.find?_cons, List.find?_cons]
      by_cases hx : key x = k
      · have : ¬ k = key a := by rw [← hx]; exact h
        simp [hx, this]
      · simp only [hx, decide_false]
        exact ih

theorem upsert_nodup {α : Type} (key : α → Str) (mrg : α → α → α) (a : α) (l : List α)
    (hk : ∀ x, key x = key a → key (mrg a x) = key a) (h : (l.map key).Nodup) :
    ((upsert key mrg a l).map key).Nodup := by
  rw [upsert_keys key mrg a l hk]
  split
  · exact h
  · rename_i hn
    rw [List.nodup_append]
    refine ⟨h, by simp, ?_⟩
    intro x hx y hy e
    simp at hy
    subst hy
    subst e
    exact hn hx

theorem addNode_eq_upsert (n : Node) (l : List Node) :
    NodeList.addNode n l = upsert (fun x : Node => x.xmlName.loc) (fun a _ => a) n l := by
  induction l with
  | nil => rfl
  | cons x xs ih => simp only [NodeList.addNode, upsert, ih]

theorem addAttr_eq_upsert (a : Attr) (l : List Attr) :
    AttrList.addAttr a l =
      upsert (fun x : Attr => x.name.loc) (fun a x => { x with value := a.value }) a l := by
  induction l with
  | nil => rfl
  | cons x xs ih => simp only [AttrList.addAttr, upsert, ih]

/-! ### C20 -/

/-- Additions to a node. -/
inductive NodeOp where
  | node (x : Node)
  | attr (a : Attr)

/-- Run one addition. -/
def NodeOp.run (n : Node) : NodeOp → Node
  | .node x => n.addNode x
  | .attr a => n.addAttr a

/-- The children added by a history. -/
def addedNodes (ops : List NodeOp) : List Node := ops.filterMap (fun | .node x => some x | _ => none)

/-- The attributes added by a history. -/
def addedAttrs (ops : List NodeOp) : List Attr := ops.filterMap (fun | .attr a => some a | _ => none)

/-- Specification: the entry a history leaves for key `k`, over what was there before: the last one. -/
def latest {α : Type} (key : α → Str) (before added : List α) (k : Str) : Option α :=
  match added.reverse.find? (fun x => key x = k) with
  | some x => some x
  | none => before.find? (fun x => key x = k)

/-- Specification: the keys in the order of their first appearance. -/
def firsts : List Str → List Str → List Str
  | acc, [] => acc
  | acc, k :: ks => if k ∈ acc then firsts acc ks else firsts (acc ++ [k]) ks

theorem nodeOps_split (n : Node) (ops : List NodeOp) :
    (ops.foldl NodeOp.run n).nodes = (addedNodes ops).foldl (fun l x => NodeList.addNode x l) n.nodes ∧
    (ops.foldl NodeOp.run n).attrs = (addedAttrs ops).foldl (fun l a => AttrList.addAttr a l) n.attrs ∧
    (ops.foldl NodeOp.run n).xmlName = n.xmlName ∧ (ops.foldl NodeOp.run n).value = n.value := by
  induction ops generalizing n with
  | nil => exact ⟨rfl, rfl, rfl, rfl⟩
  | cons op ops ih =>
    rw [List.foldl_cons]
    obtain ⟨h1, h2, h3, h4⟩ := ih (op.run n)
    cases op with
    | node x =>
      refine ⟨?_, ?_, ?_, ?_⟩
      · rw [h1]; cases n; rfl
      · rw [h2]; cases n; rfl
      · rw [h3]; cases n; rfl
      · rw [h4]; cases n; rfl
    | attr a =>
      refine ⟨?_, ?_, ?_, ?_⟩
      · rw [h1]; cases n; rfl
      · rw [h2]; cases n; rfl
      · rw [h3]; cases n; rfl
      · rw [h4]; cases n; rfl

theorem foldl_upsert {α β : Type} (key : α → Str) (mrg : α → α → α) (val : α → β)
    (hk : ∀ a x, key x = key a → key (mrg a x) = key a) (hv : ∀ a x, val (mrg a x) = val a)
    (before added : List α) (hnd : (before.map key).Nodup) :
    ((added.foldl (fun l x => upsert key mrg x l) before).map key).Nodup ∧
    (added.foldl (fun l x => upsert key mrg x l) before).map key = firsts (before.map key) (added.map key) ∧
    ∀ k, ((added.foldl (fun l x => upsert key mrg x l) before).find? (fun x => key x = k)).map val =
      (latest key before added k).map val := by
  induction added generalizing before with
  | nil => exact ⟨hnd, rfl, fun k => rfl⟩
  | cons a as ih =>
    obtain ⟨h1, h2, h3⟩ := ih (upsert key mrg a before) (upsert_nodup key mrg a before (hk a) hnd)
    rw [List.foldl_cons]
    refine ⟨h1, ?_, ?_⟩
    · rw [h2, upsert_keys key mrg a before (hk a), List.map_cons, firsts]
      split <;> rfl
    · intro k
      rw [h3]
      unfold latest
      rw [List.reverse_cons, List.find?_append]
      cases hf : as.reverse.find? (fun x => decide (key x = k)) with
      | some y => rfl
      | none =>
        simp only [Option.none_or]
        rw [upsert_find key mrg val a before (hk a) (hv a)]
        by_cases hka : k = key a
        · simp [hka]
        · have : ¬ key a = k := fun e => hka e.symm
          simp [hka, this]

/-- C20: starting from a node whose children have distinct names, any history of additions leaves the
names distinct, in the order of their first appearance, and under each name the child added last. -/
theorem nodes_history (n : Node) (hn : (n.nodes.map (fun x => x.xmlName.loc)).Nodup) (ops : List NodeOp) :
    ((ops.foldl NodeOp.run n).nodes.map (fun x => x.xmlName.loc)).Nodup ∧
    (ops.foldl NodeOp.run n).nodes.map (fun x => x.xmlName.loc) =
      firsts (n.nodes.map (fun x => x.xmlName.loc)) ((addedNodes ops).map (fun x => x.xmlName.loc)) ∧
    ∀ k, (ops.foldl NodeOp.run n).nodes.find? (fun x => x.xmlName.loc = k) =
      latest (fun x : Node => x.xmlName.loc) n.nodes (addedNodes ops) k := by
  rw [(nodeOps_split n ops).1]
  have he : (fun (l : List Node) (x : Node) => NodeList.addNode x l) =
      fun l x => upsert (fun x : Node => x.xmlName.loc) (fun a _ => a) x l := by
    funext l x; exact addNode_eq_upsert x l
  rw [he]
  have := foldl_upsert (fun x : Node => x.xmlName.loc) (fun a _ => a) id (fun a x _ => rfl) (fun a x => rfl)
    n.nodes (addedNodes ops) hn
  simpa using this

example : (([NodeOp.node (Node.mk ⟨[], "a:x".toList⟩ [] "1".toList []), .node (Node.mk ⟨[], "a:y".toList⟩ [] "2".toList []),
      .node (Node.mk ⟨[], "a:x".toList⟩ [] "3".toList [])].foldl NodeOp.run (Node.new ⟨[], "r".toList⟩)).nodes.map
      (fun x => (x.xmlName.loc, x.value))) = [("a:x".toList, "3".toList), ("a:y".toList, "2".toList)] := by decide

/-- C20: the same for attributes; under each name is the value added last. -/
theorem attrs_history (n : Node) (hn : (n.attrs.map (fun x => x.name.loc)).Nodup) (ops : List NodeOp) :
    ((ops.foldl NodeOp.run n).attrs.map (fun x => x.name.loc)).Nodup ∧
    (ops.foldl NodeOp.run n).attrs.map (fun x => x.name.loc) =
      firsts (n.attrs.map (fun x => x.name.loc)) ((addedAttrs ops).map (fun x => x.name.loc)) ∧
    ∀ k, ((ops.foldl NodeOp.run n).attrs.find? (fun x => x.name.loc = k)).map (·.value) =
      (latest (fun x : Attr => x.name.loc) n.attrs (addedAttrs ops) k).map (·.value) := by
  rw [(nodeOps_split n ops).2.1]
  have he : (fun (l : List Attr) (x : Attr) => AttrList.addAttr x l) =
      fun l x => upsert (fun x : Attr => x.name.loc) (fun a x => { x with value := a.value }) x l := by
    funext l x; exact addAttr_eq_upsert x l
  rw [he]
  exact foldl_upsert (fun x : Attr => x.name.loc) (fun a x => { x with value := a.value }) (·.value)
    (fun a x h => h) (fun a x => rfl) n.attrs (addedAttrs ops) hn

example : ([NodeOp.attr ⟨⟨[], "a:x".toList⟩, "1".toList⟩, .attr ⟨⟨[], "a:x".toList⟩, "2".toList⟩].foldl NodeOp.run
      (Node.new ⟨[], "r".toList⟩)).attrs = [⟨⟨[], "a:x".toList⟩, "2".toList⟩] := by decide

/-- Names as used in a document: no two different names with the same local part. -/
def LocalsAgree (names : List Str) : Prop := ∀ a ∈ names, ∀ b ∈ names, stripPrefix a = stripPrefix b → a = b

/-- C20: when no two different names share their local part, looking up a local name returns the child
added last under it. -/
theorem find_after_history (n : Node) (hn : (n.nodes.map (fun x => x.xmlName.loc)).Nodup) (ops : List NodeOp)
    (full : Str)
    (hag : LocalsAgree (full :: (n.nodes ++ addedNodes ops).map (fun x => x.xmlName.loc))) :
    NodeList.findNodeByName (ops.foldl NodeOp.run n).nodes (stripPrefix full) =
      latest (fun x : Node => x.xmlName.loc) n.nodes (addedNodes ops) full := by
  obtain ⟨_, h2, h3⟩ := nodes_history n hn ops
  rw [← h3]
  unfold NodeList.findNodeByName
  have hf : ∀ (ks acc : List Str) k, k ∈ firsts acc ks → k ∈ acc ∨ k ∈ ks := by
    intro ks
    induction ks with
    | nil => intro acc k hk; exact Or.inl hk
    | cons x xs ih =>
      intro acc k hk
      rw [firsts] at hk
      split at hk
      · rcases ih _ _ hk with h | h
        · exact Or.inl h
        · exact Or.inr (by simp [h])
      · rcases ih _ _ hk with h | h
        · rcases List.mem_append.1 h with h | h
          · exact Or.inl h
          · simp at h; exact Or.inr (by simp [h])
        · exact Or.inr (by simp [h])
  have hmem : ∀ x ∈ (ops.foldl NodeOp.run n).nodes,
      x.xmlName.loc ∈ (n.nodes ++ addedNodes ops).map (fun x => x.xmlName.loc) := by
    intro x hx
    have : x.xmlName.loc ∈ (ops.foldl NodeOp.run n).nodes.map (fun x => x.xmlName.loc) :=
      List.mem_map.2 ⟨x, hx, rfl⟩
    rw [h2] at this
    rw [List.map_append, List.mem_append]
    exact hf _ _ _ this
  generalize (ops.foldl NodeOp.run n).nodes = l at hmem
  induction l with
  | nil => rfl
  | cons x xs ih =>
    rw [List.find?_cons, List.find?_cons]
    have hiff : decide (x.name = stripPrefix full) = decide (x.xmlName.loc = full) := by
      rw [decide_eq_decide]
      constructor
      · intro h
        exact hag _ (List.mem_cons.2 (Or.inr (hmem x (by simp)))) full (by simp) h
      · intro h
        unfold Node.name
        rw [h]
    rw [hiff, ih (fun y hy => hmem y (by simp [hy]))]

example : LocalsAgree ["dc:title".toList, "dc:creator".toList] := by unfold LocalsAgree; decide

/-- Without that restriction lookups by local name can return another child than the one added last:
lookups ignore the prefix. -/
theorem find_ignores_prefix :
    (NodeList.findNodeByName ([NodeOp.node (Node.mk ⟨[], "a:x".toList⟩ [] "1".toList []),
      .node (Node.mk ⟨[], "b:x".toList⟩ [] "2".toList [])].foldl NodeOp.run (Node.new ⟨[], "r".toList⟩)).nodes
      (stripPrefix "b:x".toList)).map Node.value = some "1".toList := by decide

/-- C20 for attributes: `GetAttr` returns exactly the attribute with the value added last. -/
theorem getAttr_after_history (n : Node) (hn : (n.attrs.map (fun x => x.name.loc)).Nodup) (ops : List NodeOp)
    (full : Str) (hne : stripPrefix full ≠ [])
    (hag : LocalsAgree (full :: (n.attrs ++ addedAttrs ops).map (fun x => x.name.loc))) :
    ((ops.foldl NodeOp.run n).getAttr [] (stripPrefix full)).map (·.value) =
      ((latest (fun x : Attr => x.name.loc) n.attrs (addedAttrs ops) full).map (·.value)).toList := by
  obtain ⟨h1, h2, h3⟩ := attrs_history n hn ops
  rw [← h3]
  unfold Node.getAttr
  have hf : ∀ (ks acc : List Str) k, k ∈ firsts acc ks → k ∈ acc ∨ k ∈ ks := by
    intro ks
    induction ks with
    | nil => intro acc k hk; exact Or.inl hk
    | cons x xs ih =>
      intro acc k hk
      rw [firsts] at hk
      split at hk
      · rcases ih _ _ hk with h | h
        · exact Or.inl h
        · exact Or.inr (by simp [h])
      · rcases ih _ _ hk with h | h
        · rcases List.mem_append.1 h with h | h
          · exact Or.inl h
          · simp at h; exact Or.inr (by simp [h])
        · exact Or.inr (by simp [h])
  have hmem : ∀ x ∈ (ops.foldl NodeOp.run n).attrs,
      x.name.loc ∈ (n.attrs ++ addedAttrs ops).map (fun x => x.name.loc) := by
    intro x hx
    have : x.name.loc ∈ (ops.foldl NodeOp.run n).attrs.map (fun x => x.name.loc) :=
      List.mem_map.2 ⟨x, hx, rfl⟩
    rw [h2] at this
    rw [List.map_append, List.mem_append]
    exact hf _ _ _ this
  generalize (ops.foldl NodeOp.run n).attrs = l at hmem h1
  clear h2 h3
  have hfilter : l.filter (fun v => !(decide (([] : Str) ≠ []) && decide (v.name.space ≠ [])) &&
      !(decide (stripPrefix full ≠ []) && decide (stripPrefix v.name.loc ≠ stripPrefix full))) =
      l.filter (fun v => decide (v.name.loc = full)) := by
    apply List.filter_congr
    intro v hv
    have hiff : (stripPrefix v.name.loc = stripPrefix full) ↔ v.name.loc = full := by
      constructor
      · intro h
        exact hag _ (List.mem_cons.2 (Or.inr (hmem v hv))) full (by simp) h
      · intro h; rw [h]
    by_cases hx : v.name.loc = full
    · simp [hx]
    · have : ¬ stripPrefix v.name.loc = stripPrefix full := fun h => hx (hiff.1 h)
      simp [hx, this, hne]
  rw [hfilter]
  clear hfilter hmem
  induction l with
  | nil => rfl
  | cons x xs ih =>
    have hnd := List.nodup_cons.1 (by simpa using h1 : (x.name.loc :: xs.map (fun x => x.name.loc)).Nodup)
    by_cases hx : x.name.loc = full
    · have : xs.filter (fun v => decide (v.name.loc = full)) = [] := by
        rw [List.filter_eq_nil_iff]
        intro y hy hyf
        simp only [decide_eq_true_eq] at hyf
        apply hnd.1
        rw [hx, ← hyf]
        exact List.mem_map.2 ⟨y, hy, rfl⟩
      simp [hx, this]
    · simp only [List.filter_cons, List.find?_cons, hx, decide_false]
      simpa using ih hnd.2

example : (([NodeOp.attr ⟨⟨[], "a:x".toList⟩, "1".toList⟩, .attr ⟨⟨[], "a:x".toList⟩, "2".toList⟩].foldl NodeOp.run
      (Node.new ⟨[], "r".toList⟩)).getAttr [] "x".toList).map (·.value) = ["2".toList] := by decide

end Xmp.Props
