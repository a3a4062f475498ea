import Verif.Model.Pool
import Mathlib.Tactic.Common
import Mathlib.Data.List.Nodup

/-! C21: the node pool never hands out a node that is in use. -/

namespace Xmp.Props

open Heap

/-! ### Programs over the pool -/

/-- The heap together with the nodes the program currently holds. -/
structure PoolState where
  heap : Heap
  used : List Nat

/-- A step of a program that respects ownership: obtain a node, change a node it holds, or give up a
node it holds.  Each step is one channel operation or touches held nodes only, so the steps of several
goroutines can be interleaved freely. -/
inductive PoolStep : PoolState → PoolState → Prop where
  | new (s : PoolState) (name : QName) :
      PoolStep s ⟨(newNode s.heap name).2, (newNode s.heap name).1 :: s.used⟩
  | write (s : PoolState) (i : Nat) (o : NodeObj) (h : i ∈ s.used) : PoolStep s ⟨s.heap.write i o, s.used⟩
  | release (s : PoolState) (i : Nat) (h : i ∈ s.used) : PoolStep s ⟨release s.heap i, s.used.erase i⟩

/-- States a program can reach, starting with an empty pool of the given capacity. -/
inductive PoolReach (cap : Nat) : PoolState → Prop where
  | start : PoolReach cap ⟨{ cap := cap }, []⟩
  | step {s t : PoolState} : PoolReach cap s → PoolStep s t → PoolReach cap t

/-- The invariant. -/
structure PoolInv (cap : Nat) (h : Heap) (used : List Nat) : Prop where
  nodup : used.Nodup
  poolNodup : h.pool.Nodup
  disjoint : ∀ i ∈ used, i ∉ h.pool
  usedLt : ∀ i ∈ used, i < h.next
  poolLt : ∀ i ∈ h.pool, i < h.next
  blank : ∀ i ∈ h.pool, h.obj i = {}
  capEq : h.cap = cap
  bounded : h.pool.length ≤ cap
  allocs : h.allocs = h.next
  balance : h.allocs = used.length + h.pool.length + h.frees
  traffic : h.returns = h.pool.length + h.hits

theorem PoolInv.newNode {cap : Nat} {h : Heap} {used : List Nat} (inv : PoolInv cap h used) (name : QName) :
    PoolInv cap (newNode h name).2 ((newNode h name).1 :: used) ∧
    (Heap.newNode h name).1 ∉ used ∧
    (Heap.newNode h name).2.obj (Heap.newNode h name).1 = { name := name } ∧
    ∀ i, i ≠ (Heap.newNode h name).1 → (Heap.newNode h name).2.obj i = h.obj i := by
  unfold Heap.newNode
  cases hp : h.pool with
  | nil =>
    refine ⟨⟨?_, ?_, ?_, ?_, ?_, ?_, ?_, ?_, ?_, ?_, ?_⟩, ?_, ?_, ?_⟩
    · refine List.nodup_cons.2 ⟨fun hm => ?_, inv.nodup⟩
      exact absurd (inv.usedLt _ hm) (Nat.lt_irrefl _)
    · simp [Heap.write, hp]
    · intro i _; simp [Heap.write, hp]
    · intro i hi
      simp only [Heap.write]
      rcases List.mem_cons.1 hi with h1 | h1
      · simp only at h1; omega
      · have := inv.usedLt i h1; omega
    · intro i; simp [Heap.write, hp]
    · intro i; simp [Heap.write, hp]
    · simp [Heap.write, inv.capEq]
    · simp [Heap.write, hp]
    · simp [Heap.write, inv.allocs]
    · have := inv.balance
      simp only [Heap.write, List.length_cons, hp, List.length_nil] at *
      omega
    · have := inv.traffic
      simp only [Heap.write, hp, List.length_nil] at *
      omega
    · intro hm; exact absurd (inv.usedLt _ hm) (Nat.lt_irrefl _)
    · simp [Heap.write]
    · intro i hi; simp only at hi; simp [Heap.write, hi]
  | cons i rest =>
    have hmem : i ∈ h.pool := by rw [hp]; simp
    have hnd := inv.poolNodup
    rw [hp] at hnd
    have hnd' := List.nodup_cons.1 hnd
    refine ⟨⟨?_, ?_, ?_, ?_, ?_, ?_, ?_, ?_, ?_, ?_, ?_⟩, ?_, ?_, ?_⟩
    · exact List.nodup_cons.2 ⟨fun hm => inv.disjoint _ hm hmem, inv.nodup⟩
    · exact hnd'.2
    · intro j hj
      rcases List.mem_cons.1 hj with h1 | h1
      · simp only at h1; subst h1; exact hnd'.1
      · intro hr
        exact inv.disjoint j h1 (by rw [hp]; exact List.mem_cons_of_mem _ hr)
    · intro j hj
      rcases List.mem_cons.1 hj with h1 | h1
      · simp only at h1; subst h1; exact inv.poolLt _ hmem
      · exact inv.usedLt j h1
    · intro j hj; exact inv.poolLt j (by rw [hp]; exact List.mem_cons_of_mem _ hj)
    · intro j hj
      have hne : j ≠ i := fun e => hnd'.1 (e ▸ hj)
      simp only [Heap.write, hne, if_false]
      exact inv.blank j (by rw [hp]; exact List.mem_cons_of_mem _ hj)
    · exact inv.capEq
    · have := inv.bounded
      simp only [Heap.write, hp, List.length_cons] at *
      omega
    · exact inv.allocs
    · have := inv.balance
      simp only [Heap.write, hp, List.length_cons] at *
      omega
    · have := inv.traffic
      simp only [Heap.write, hp, List.length_cons] at *
      omega
    · intro hm; exact inv.disjoint _ hm hmem
    · simp [Heap.write]
    · intro j hj; simp only at hj; simp [Heap.write, hj]

theorem PoolInv.write {cap : Nat} {h : Heap} {used : List Nat} (inv : PoolInv cap h used) {i : Nat}
    (hi : i ∈ used) (o : NodeObj) : PoolInv cap (h.write i o) used where
  nodup := inv.nodup
  poolNodup := inv.poolNodup
  disjoint := inv.disjoint
  usedLt := inv.usedLt
  poolLt := inv.poolLt
  blank := by
    intro j hj
    have hne : j ≠ i := fun e => inv.disjoint i hi (e ▸ hj)
    simp only [Heap.write, hne, if_false]
    exact inv.blank j hj
  capEq := inv.capEq
  bounded := inv.bounded
  allocs := inv.allocs
  balance := inv.balance
  traffic := inv.traffic

theorem obj_release (h : Heap) (i j : Nat) : (release h i).obj j = if j = i then {} else h.obj j := by
  unfold Heap.release
  simp only
  split <;> rfl

theorem PoolInv.release {cap : Nat} {h : Heap} {used : List Nat} (inv : PoolInv cap h used) {i : Nat}
    (hi : i ∈ used) : PoolInv cap (release h i) (used.erase i) := by
  have hlen : (used.erase i).length + 1 = used.length := by
    have := List.length_erase_of_mem hi
    have hpos : 0 < used.length := List.length_pos_of_mem hi
    omega
  have hobj := obj_release h i
  by_cases hc : h.pool.length < h.cap
  · have e : Heap.release h i = { h.write i {} with pool := h.pool ++ [i], returns := h.returns + 1 } := by
      unfold Heap.release
      simp only
      rw [if_pos (by exact hc)]
      rfl
    rw [e]
    refine ⟨inv.nodup.erase i, ?_, ?_, ?_, ?_, ?_, ?_, ?_, ?_, ?_, ?_⟩
    · rw [List.nodup_append]
      refine ⟨inv.poolNodup, by simp, ?_⟩
      intro a ha b hb hab
      simp at hb
      exact inv.disjoint _ hi (hb ▸ hab ▸ ha)
    · intro j hj hjp
      have := (List.Nodup.mem_erase_iff inv.nodup).1 hj
      simp only [List.mem_append, List.mem_singleton] at hjp
      rcases hjp with h1 | h1
      · exact inv.disjoint j this.2 h1
      · exact this.1 h1
    · intro j hj
      exact inv.usedLt j ((List.Nodup.mem_erase_iff inv.nodup).1 hj).2
    · intro j hj
      simp only [List.mem_append, List.mem_singleton] at hj
      rcases hj with h1 | h1
      · exact inv.poolLt j h1
      · subst h1; exact inv.usedLt _ hi
    · intro j hj
      simp only [List.mem_append, List.mem_singleton] at hj
      by_cases hji : j = i
      · simp [Heap.write, hji]
      · simp only [Heap.write, hji, if_false]
        rcases hj with h1 | h1
        · exact inv.blank j h1
        · exact absurd h1 hji
    · exact inv.capEq
    · have := inv.capEq
      simp only [List.length_append, List.length_singleton]
      omega
    · exact inv.allocs
    · have := inv.balance
      simp only [Heap.write, List.length_append, List.length_singleton] at *
      omega
    · have := inv.traffic
      simp only [Heap.write, List.length_append, List.length_singleton] at *
      omega
  · have e : Heap.release h i = { h.write i {} with frees := h.frees + 1 } := by
      unfold Heap.release
      simp only
      rw [if_neg (by exact hc)]
      rfl
    rw [e]
    refine ⟨inv.nodup.erase i, inv.poolNodup, ?_, ?_, inv.poolLt, ?_, inv.capEq, inv.bounded, inv.allocs, ?_, inv.traffic⟩
    · intro j hj
      exact inv.disjoint j ((List.Nodup.mem_erase_iff inv.nodup).1 hj).2
    · intro j hj
      exact inv.usedLt j ((List.Nodup.mem_erase_iff inv.nodup).1 hj).2
    · intro j hj
      have hne : j ≠ i := fun e => inv.disjoint i hi (e ▸ hj)
      simp only [Heap.write, hne, if_false]
      exact inv.blank j hj
    · have := inv.balance
      simp only [Heap.write] at *
      omega

theorem pool_inv {cap : Nat} {s : PoolState} (h : PoolReach cap s) : PoolInv cap s.heap s.used := by
  induction h with
  | start =>
    refine ⟨?_, ?_, ?_, ?_, ?_, ?_, rfl, ?_, rfl, rfl, rfl⟩ <;> simp
  | step _ st ih =>
    cases st with
    | new name => exact (ih.newNode name).1
    | write i o hi => exact ih.write hi o
    | release i hi => exact ih.release hi

/-! ### C21 -/

/-- C21: in every state a program respecting ownership can reach, `NewNode` returns a node that nobody
holds and that is blank apart from its name, and every other node keeps its contents. -/
theorem newNode_fresh {cap : Nat} {s : PoolState} (h : PoolReach cap s) (name : QName) :
    (newNode s.heap name).1 ∉ s.used ∧
    (newNode s.heap name).2.obj (newNode s.heap name).1 =
      { name := name, attrs := [], model := none, value := [], nodes := [] } ∧
    ∀ i ∈ s.used, (newNode s.heap name).2.obj i = s.heap.obj i := by
  obtain ⟨_, h1, h2, h3⟩ := (pool_inv h).newNode name
  refine ⟨h1, h2, ?_⟩
  intro i hi
  exact h3 i (fun e => h1 (e ▸ hi))

/-- C21: the nodes held by a program are all different, none of them waits in the pool, the pool holds
no node twice, never more than its capacity, and only blank nodes. -/
theorem pool_sound {cap : Nat} {s : PoolState} (h : PoolReach cap s) :
    s.used.Nodup ∧ s.heap.pool.Nodup ∧ (∀ i ∈ s.used, i ∉ s.heap.pool) ∧ s.heap.pool.length ≤ cap ∧
    ∀ i ∈ s.heap.pool, s.heap.obj i = { name := ⟨[], []⟩, attrs := [], model := none, value := [], nodes := [] } :=
  let i := pool_inv h
  ⟨i.nodup, i.poolNodup, i.disjoint, i.bounded, i.blank⟩

/-- C21: the statistics add up: every node ever allocated is held, pooled or left to the garbage
collector, and the pool holds what was returned and not taken again. -/
theorem pool_counters {cap : Nat} {s : PoolState} (h : PoolReach cap s) :
    s.heap.allocs = s.used.length + s.heap.pool.length + s.heap.frees ∧
    s.heap.returns = s.heap.pool.length + s.heap.hits :=
  let i := pool_inv h
  ⟨i.balance, i.traffic⟩

/-- A program that obtains two nodes, gives one up and obtains it again. -/
theorem pool_example : ∃ s, PoolReach 5000 s ∧ s.used = [0, 1] ∧ s.heap.hits = 1 ∧ s.heap.allocs = 2 := by
  have r0 : PoolReach 5000 _ := .start
  have r1 := r0.step (.new _ ⟨[], "a".toList⟩)
  have r2 := r1.step (.new _ ⟨[], "b".toList⟩)
  have r3 := r2.step (.release _ 0 (by simp [Heap.newNode]))
  have r4 := r3.step (.new _ ⟨[], "c".toList⟩)
  exact ⟨_, r4, rfl, rfl, rfl⟩

/-! ### Closing trees -/

/-- The shape of a node tree: identities of the nodes. -/
inductive IdTree where
  | mk (id : Nat) (kids : List IdTree)

/-- The root. -/
def IdTree.root : IdTree → Nat
  | .mk i _ => i

mutual
/-- All nodes, children before their parent. -/
def IdTree.post : IdTree → List Nat
  | .mk i ks => IdTree.postL ks ++ [i]
/-- All nodes of a forest. -/
def IdTree.postL : List IdTree → List Nat
  | [] => []
  | t :: ts => t.post ++ IdTree.postL ts
end

mutual
/-- The nodes in memory form this tree. -/
def Represents (h : Heap) : IdTree → Prop
  | .mk i ks => (h.obj i).nodes = ks.map IdTree.root ∧ RepresentsL h ks
/-- The nodes in memory form these trees. -/
def RepresentsL (h : Heap) : List IdTree → Prop
  | [] => True
  | t :: ts => Represents h t ∧ RepresentsL h ts
end

mutual
/-- Number of levels. -/
def IdTree.height : IdTree → Nat
  | .mk _ ks => IdTree.heightL ks + 1
/-- Number of levels of a forest. -/
def IdTree.heightL : List IdTree → Nat
  | [] => 0
  | t :: ts => max t.height (IdTree.heightL ts)
end

mutual
theorem represents_congr (h h' : Heap) (t : IdTree) (he : ∀ i ∈ t.post, h'.obj i = h.obj i)
    (hr : Represents h t) : Represents h' t := by
  cases t with
  | mk i ks =>
    simp only [IdTree.post, List.mem_append, List.mem_singleton] at he
    simp only [Represents] at hr ⊢
    refine ⟨by rw [he i (Or.inr rfl)]; exact hr.1, representsL_congr h h' ks (fun j hj => he j (Or.inl hj)) hr.2⟩
theorem representsL_congr (h h' : Heap) (ts : List IdTree) (he : ∀ i ∈ IdTree.postL ts, h'.obj i = h.obj i)
    (hr : RepresentsL h ts) : RepresentsL h' ts := by
  cases ts with
  | nil => simp [RepresentsL]
  | cons t ts =>
    simp only [IdTree.postL, List.mem_append] at he
    simp only [RepresentsL] at hr ⊢
    exact ⟨represents_congr h h' t (fun j hj => he j (Or.inl hj)) hr.1,
      representsL_congr h h' ts (fun j hj => he j (Or.inr hj)) hr.2⟩
end

theorem obj_foldl_release (l : List Nat) (h : Heap) (j : Nat) :
    (l.foldl release h).obj j = if j ∈ l then {} else h.obj j := by
  induction l generalizing h with
  | nil => simp
  | cons x xs ih =>
    rw [List.foldl_cons, ih, obj_release]
    by_cases hj : j ∈ xs
    · simp [hj]
    · by_cases hx : j = x
      · simp [hx]
      · simp [hj, hx]

mutual
theorem close_eq (f : Nat) (h : Heap) (t : IdTree) (hr : Represents h t) (hn : t.post.Nodup)
    (hf : t.height ≤ f) : close f h t.root = t.post.foldl release h := by
  cases t with
  | mk i ks =>
    cases f with
    | zero => simp [IdTree.height] at hf
    | succ f =>
      simp only [IdTree.height] at hf
      simp only [Represents] at hr
      simp only [IdTree.post] at hn
      simp only [IdTree.root, close, IdTree.post, List.foldl_append, List.foldl_cons, List.foldl_nil, hr.1]
      rw [closeL_eq f h ks hr.2 (List.nodup_append.1 hn).1 (by omega)]
theorem closeL_eq (f : Nat) (h : Heap) (ts : List IdTree) (hr : RepresentsL h ts)
    (hn : (IdTree.postL ts).Nodup) (hf : IdTree.heightL ts ≤ f) :
    (ts.map IdTree.root).foldl (close f) h = (IdTree.postL ts).foldl release h := by
  cases ts with
  | nil => rfl
  | cons t ts =>
    simp only [IdTree.heightL] at hf
    simp only [RepresentsL] at hr
    simp only [IdTree.postL] at hn
    have hnd := List.nodup_append.1 hn
    simp only [List.map_cons, List.foldl_cons, IdTree.postL, List.foldl_append]
    rw [close_eq f h t hr.1 hnd.1 (by omega)]
    refine closeL_eq f _ ts (representsL_congr h _ ts ?_ hr.2) hnd.2.1 (by omega)
    intro j hj
    rw [obj_foldl_release]
    have : j ∉ t.post := fun hm => hnd.2.2 j hm j hj rfl
    simp [this]
end

theorem foldl_release_reach {cap : Nat} (l : List Nat) (s : PoolState) (h : PoolReach cap s) (hn : l.Nodup)
    (hu : ∀ i ∈ l, i ∈ s.used) : PoolReach cap ⟨l.foldl release s.heap, l.foldl List.erase s.used⟩ := by
  induction l generalizing s with
  | nil => exact h
  | cons x xs ih =>
    have hnd := List.nodup_cons.1 hn
    refine ih ⟨release s.heap x, s.used.erase x⟩ (h.step (.release s x (hu x (by simp)))) hnd.2 ?_
    intro i hi
    have hne : i ≠ x := fun e => hnd.1 (e ▸ hi)
    exact (List.mem_erase_of_ne hne).2 (hu i (List.mem_cons_of_mem _ hi))

/-- C21: closing a tree of held nodes, each occurring once in it, is the same as giving up its nodes one
by one, children first: the result is again a reachable state, in which the nodes of the tree are blank
and no longer held, and all other nodes are as before. -/
theorem close_tree {cap : Nat} {s : PoolState} (h : PoolReach cap s) (t : IdTree)
    (hr : Represents s.heap t) (hn : t.post.Nodup) (hu : ∀ i ∈ t.post, i ∈ s.used)
    (f : Nat) (hf : t.height ≤ f) :
    PoolReach cap ⟨close f s.heap t.root, t.post.foldl List.erase s.used⟩ ∧
    (∀ i ∈ t.post, (close f s.heap t.root).obj i = {}) ∧
    (∀ i, i ∉ t.post → (close f s.heap t.root).obj i = s.heap.obj i) ∧
    (∀ i, i ∈ t.post.foldl List.erase s.used ↔ i ∈ s.used ∧ i ∉ t.post) := by
  rw [close_eq f s.heap t hr hn hf]
  refine ⟨foldl_release_reach _ s h hn hu, ?_, ?_, ?_⟩
  · intro i hi; rw [obj_foldl_release]; simp [hi]
  · intro i hi; rw [obj_foldl_release]; simp [hi]
  · have hnd := (pool_inv h).nodup
    generalize s.used = u at hnd
    generalize t.post = l
    intro i
    clear hr hn hu hf h
    induction l generalizing u with
    | nil => simp
    | cons x xs ih =>
      rw [List.foldl_cons, ih _ (hnd.erase x), List.Nodup.mem_erase_iff hnd]
      simp only [List.mem_cons, not_or]
      tauto

/-- A tree of two nodes in a reachable state. -/
theorem close_example : ∃ s, PoolReach 5000 s ∧ Represents s.heap (.mk 0 [.mk 1 []]) ∧ s.used = [1, 0] ∧
    (IdTree.mk 0 [.mk 1 []]).post = [1, 0] := by
  have r0 : PoolReach 5000 _ := .start
  have r1 := r0.step (.new _ ⟨[], "a".toList⟩)
  have r2 := r1.step (.new _ ⟨[], "b".toList⟩)
  have r3 := r2.step (.write _ 0 { name := ⟨[], "a".toList⟩, nodes := [1] } (by simp [Heap.newNode]))
  refine ⟨_, r3, ?_, rfl, rfl⟩
  simp [Represents, RepresentsL, Heap.newNode, Heap.write, IdTree.root]

/-- Ownership matters: after closing one node twice, the pool hands the same node out twice. -/
theorem double_close_shares (a b : QName) :
    let h1 := (newNode {} a).2
    let h3 := release (release h1 0) 0
    (newNode h3 a).1 = (newNode (newNode h3 a).2 b).1 := by
  simp [newNode, release, Heap.write]

/-! ### Copying trees -/

/-- The contents of a node tree. -/
inductive Content where
  | mk (name : QName) (attrs : List Attr) (model : Option Nat) (value : Str) (kids : List Content)

mutual
/-- The contents of the nodes forming a tree. -/
def content (h : Heap) : IdTree → Content
  | .mk i ks => .mk (h.obj i).name (h.obj i).attrs (h.obj i).model (h.obj i).value (contentL h ks)
/-- The contents of the nodes forming a forest. -/
def contentL (h : Heap) : List IdTree → List Content
  | [] => []
  | t :: ts => content h t :: contentL h ts
end

mutual
/-- Steps needed to walk a tree. -/
def IdTree.size : IdTree → Nat
  | .mk _ ks => IdTree.sizeL ks + 1
/-- Steps needed to walk a forest. -/
def IdTree.sizeL : List IdTree → Nat
  | [] => 1
  | t :: ts => t.size + IdTree.sizeL ts + 1
end

mutual
theorem content_congr (h h' : Heap) (t : IdTree) (he : ∀ i ∈ t.post, h'.obj i = h.obj i) :
    content h' t = content h t := by
  cases t with
  | mk i ks =>
    simp only [IdTree.post, List.mem_append, List.mem_singleton] at he
    simp only [content, he i (Or.inr rfl), contentL_congr h h' ks (fun j hj => he j (Or.inl hj))]
theorem contentL_congr (h h' : Heap) (ts : List IdTree) (he : ∀ i ∈ IdTree.postL ts, h'.obj i = h.obj i) :
    contentL h' ts = contentL h ts := by
  cases ts with
  | nil => rfl
  | cons t ts =>
    simp only [IdTree.postL, List.mem_append] at he
    simp only [contentL, content_congr h h' t (fun j hj => he j (Or.inl hj)),
      contentL_congr h h' ts (fun j hj => he j (Or.inr hj))]
end

/-- What copying achieves: new nodes, all different and not held before, form an equal tree, and all
held nodes keep their contents. -/
structure Copied (cap : Nat) (h h' : Heap) (used new : List Nat) : Prop where
  inv : PoolInv cap h' (new ++ used)
  same : ∀ i ∈ used, h'.obj i = h.obj i

mutual
theorem copyNode_spec (cap f : Nat) (h : Heap) (used : List Nat) (inv : PoolInv cap h used) (t : IdTree)
    (hr : Represents h t) (hu : ∀ i ∈ t.post, i ∈ used) (hf : t.size ≤ f) :
    ∃ t' : IdTree, (copyNode f h t.root).1 = t'.root ∧ Represents (copyNode f h t.root).2 t' ∧
      content (copyNode f h t.root).2 t' = content h t ∧
      Copied cap h (copyNode f h t.root).2 used t'.post := by
  cases t with
  | mk x ks =>
    cases f with
    | zero => simp [IdTree.size] at hf
    | succ f =>
      simp only [IdTree.size] at hf
      simp only [IdTree.post, List.mem_append, List.mem_singleton] at hu
      simp only [Represents] at hr
      obtain ⟨inv1, hfresh, hobj, hoth⟩ := inv.newNode (h.obj x).name
      simp only [IdTree.root, copyNode]
      generalize hnn : Heap.newNode h (h.obj x).name = r at *
      obtain ⟨n, h0⟩ := r
      simp only at *
      have hxn : x ≠ n := fun e => hfresh (e ▸ hu x (Or.inr rfl))
      have hox : h0.obj x = h.obj x := hoth x hxn
      -- the new node is filled in
      generalize hh1 : h0.write n { h0.obj n with value := (h0.obj x).value, model := (h0.obj x).model, attrs := (h0.obj x).attrs } = h1
      have inv2 : PoolInv cap h1 (n :: used) := by rw [← hh1]; exact inv1.write (by simp) _
      have ho1 : ∀ i, i ≠ n → h1.obj i = h.obj i := by
        intro i hi; rw [← hh1]; simp only [Heap.write, hi, if_false]; exact hoth i hi
      have hn1 : h1.obj n = { name := (h.obj x).name, attrs := (h.obj x).attrs, model := (h.obj x).model, value := (h.obj x).value, nodes := [] } := by
        rw [← hh1]; simp only [Heap.write, if_true, hobj, hox]
      have hkeep : ∀ i ∈ used, h1.obj i = h.obj i := fun i hi => ho1 i (fun e => hfresh (e ▸ hi))
      have hrk : RepresentsL h1 ks := representsL_congr h h1 ks (fun i hi => hkeep i (hu i (Or.inl hi))) hr.2
      have hnx : (h1.obj x).nodes = ks.map IdTree.root := by rw [hkeep x (hu x (Or.inr rfl))]; exact hr.1
      obtain ⟨ts', e1, e2, e3, e4⟩ := copyNodes_spec cap f h1 (n :: used) inv2 ks hrk
        (fun i hi => List.mem_cons_of_mem _ (hu i (Or.inl hi))) (by omega)
      rw [hnx]
      generalize hcl : copyNodes f h1 (ks.map IdTree.root) = l at *
      obtain ⟨ids, h2⟩ := l
      simp only at *
      subst e1
      have hnd := e4.inv.nodup
      have hnts : n ∉ IdTree.postL ts' := by
        intro hm
        exact (List.nodup_append.1 hnd).2.2 n hm n (by simp) rfl
      have hperm : (IdTree.postL ts' ++ [n] ++ used) = IdTree.postL ts' ++ n :: used := by simp
      have hsame : ∀ i, i ≠ n → (h2.write n { h2.obj n with nodes := ts'.map IdTree.root }).obj i = h2.obj i := by
        intro i hi; simp [Heap.write, hi]
      refine ⟨.mk n ts', rfl, ?_, ?_, ⟨?_, ?_⟩⟩
      · simp only [Represents]
        refine ⟨by simp [Heap.write], ?_⟩
        exact representsL_congr h2 _ ts' (fun i hi => hsame i (fun e => hnts (e ▸ hi))) e2
      · simp only [content]
        rw [contentL_congr h2 _ ts' (fun i hi => hsame i (fun e => hnts (e ▸ hi))), e3,
          contentL_congr h h1 ks (fun i hi => hkeep i (hu i (Or.inl hi)))]
        simp only [Heap.write, if_true, e4.same n (by simp), hn1]
      · simp only [IdTree.post, hperm]
        exact e4.inv.write (by simp) _
      · intro i hi
        have hin : i ≠ n := fun e => hfresh (e ▸ hi)
        rw [hsame i hin, e4.same i (List.mem_cons_of_mem _ hi)]
        exact hkeep i hi
theorem copyNodes_spec (cap f : Nat) (h : Heap) (used : List Nat) (inv : PoolInv cap h used) (ts : List IdTree)
    (hr : RepresentsL h ts) (hu : ∀ i ∈ IdTree.postL ts, i ∈ used) (hf : IdTree.sizeL ts ≤ f) :
    ∃ ts' : List IdTree, (copyNodes f h (ts.map IdTree.root)).1 = ts'.map IdTree.root ∧
      RepresentsL (copyNodes f h (ts.map IdTree.root)).2 ts' ∧
      contentL (copyNodes f h (ts.map IdTree.root)).2 ts' = contentL h ts ∧
      Copied cap h (copyNodes f h (ts.map IdTree.root)).2 used (IdTree.postL ts') := by
  cases ts with
  | nil =>
    cases f with
    | zero => simp [IdTree.sizeL] at hf
    | succ f =>
      refine ⟨[], rfl, ?_, rfl, ⟨inv, fun i _ => rfl⟩⟩
      simp [RepresentsL]
  | cons t ts =>
    cases f with
    | zero => simp [IdTree.sizeL] at hf
    | succ f =>
      simp only [IdTree.sizeL] at hf
      simp only [RepresentsL] at hr
      simp only [IdTree.postL, List.mem_append] at hu
      simp only [List.map_cons, copyNodes]
      obtain ⟨t', a1, a2, a3, a4⟩ := copyNode_spec cap f h used inv t hr.1 (fun i hi => hu i (Or.inl hi)) (by omega)
      generalize copyNode f h t.root = r at *
      obtain ⟨n, h1⟩ := r
      simp only at *
      obtain ⟨ts', b1, b2, b3, b4⟩ := copyNodes_spec cap f h1 (t'.post ++ used) a4.inv ts
        (representsL_congr h h1 ts (fun i hi => a4.same i (hu i (Or.inr hi))) hr.2)
        (fun i hi => List.mem_append.2 (Or.inr (hu i (Or.inr hi)))) (by omega)
      generalize copyNodes f h1 (ts.map IdTree.root) = rs at *
      obtain ⟨ids, h2⟩ := rs
      simp only at *
      have hsame : ∀ i ∈ t'.post, h2.obj i = h1.obj i := fun i hi => b4.same i (List.mem_append.2 (Or.inl hi))
      refine ⟨t' :: ts', by simp [a1, b1], ?_, ?_, ⟨?_, ?_⟩⟩
      · simp only [RepresentsL]
        exact ⟨represents_congr h1 h2 t' hsame a2, b2⟩
      · simp only [contentL]
        rw [content_congr h1 h2 t' hsame, a3, b3,
          contentL_congr h h1 ts (fun i hi => a4.same i (hu i (Or.inr hi)))]
      · simp only [IdTree.postL]
        have hp : (IdTree.postL ts' ++ (t'.post ++ used)).Perm (t'.post ++ IdTree.postL ts' ++ used) := by
          rw [← List.append_assoc]
          exact List.Perm.append_right _ List.perm_append_comm
        have i := b4.inv
        exact ⟨hp.nodup_iff.1 i.nodup, i.poolNodup, fun j hj => i.disjoint j (hp.mem_iff.2 hj),
          fun j hj => i.usedLt j (hp.mem_iff.2 hj), i.poolLt, i.blank, i.capEq, i.bounded, i.allocs,
          by rw [i.balance, hp.length_eq], i.traffic⟩
      · intro i hi
        rw [b4.same i (List.mem_append.2 (Or.inr hi)), a4.same i hi]
end

/-- C21: copying a tree of held nodes yields a tree with equal contents made of nodes nobody held
before, each occurring once in it; the original and all other held nodes are as before. -/
theorem copyNode_deep {cap : Nat} {s : PoolState} (h : PoolReach cap s) (t : IdTree)
    (hr : Represents s.heap t) (hu : ∀ i ∈ t.post, i ∈ s.used) (f : Nat) (hf : t.size ≤ f) :
    ∃ t' : IdTree, (copyNode f s.heap t.root).1 = t'.root ∧ Represents (copyNode f s.heap t.root).2 t' ∧
      content (copyNode f s.heap t.root).2 t' = content s.heap t ∧
      t'.post.Nodup ∧ (∀ i ∈ t'.post, i ∉ s.used) ∧
      (∀ i ∈ s.used, (copyNode f s.heap t.root).2.obj i = s.heap.obj i) ∧
      PoolInv cap (copyNode f s.heap t.root).2 (t'.post ++ s.used) := by
  obtain ⟨t', h1, h2, h3, h4⟩ := copyNode_spec cap f s.heap s.used (pool_inv h) t hr hu hf
  refine ⟨t', h1, h2, h3, (List.nodup_append.1 h4.inv.nodup).1, ?_, h4.same, h4.inv⟩
  intro i hi hiu
  exact (List.nodup_append.1 h4.inv.nodup).2.2 i hi i hiu rfl

end Xmp.Props
