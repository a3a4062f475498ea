import Verif.Props.TypedNames
import Verif.Props.XmlText

/-! No written node has both a value and children. -/

namespace Xmp.Props

open GoStr

theorem unmixedAll_iff : ∀ {l : List Node}, UnmixedAll l ↔ ∀ x ∈ l, Unmixed x
  | [] => by simp [UnmixedAll]
  | x :: xs => by rw [UnmixedAll, List.forall_mem_cons, unmixedAll_iff]

/-- A node with children only. -/
def BareVal (n : Node) : Prop := n.value = [] ∧ ∀ x ∈ n.nodes, Unmixed x

theorem unmixed_of_bare {n : Node} (h : BareVal n) : Unmixed n := by
  obtain ⟨nm, a, v, l⟩ := n
  rw [Unmixed]
  have hv : v = [] := h.1
  subst hv
  exact ⟨Or.inl rfl, unmixedAll_iff.2 h.2⟩

theorem bare_new (n : QName) : BareVal (Node.new n) := ⟨rfl, by simp [Node.new, Node.nodes]⟩

theorem unmixed_leaf {n : Node} (h : n.nodes = []) : Unmixed n := by
  obtain ⟨nm, a, v, l⟩ := n
  have : l = [] := h
  subst this
  exact ⟨Or.inr rfl, trivial⟩

theorem bare_addAttr {n : Node} (h : BareVal n) (a : Attr) : BareVal (n.addAttr a) := by cases n; exact h

theorem bare_addNode {n x : Node} (h : BareVal n) (hx : Unmixed x) : BareVal (n.addNode x) := by
  obtain ⟨nm, as, v, l⟩ := n
  refine ⟨h.1, ?_⟩
  intro y hy
  rcases mem_addNode hy with rfl | hy
  · exact hx
  · exact h.2 y hy

theorem bare_setNodes {n : Node} (h : BareVal n) {l : List Node} (hl : ∀ x ∈ l, Unmixed x) : BareVal (n.setNodes l) := by
  cases n; exact ⟨h.1, hl⟩

theorem leaf_setValue {n : Node} (h : n.nodes = []) (s : Str) : (n.setValue s).nodes = [] := by cases n; exact h

theorem leaf_addAttr {n : Node} (h : n.nodes = []) (a : Attr) : (n.addAttr a).nodes = [] := by cases n; exact h

theorem unmixed_altItem {len : Nat} {ai : AltItem} {l : List Node} (h : marshalAltItem len ai = some l) : ∀ x ∈ l, Unmixed x := by
  have h1 : ∀ n : Node, n.nodes = [] → ∀ s t, ((n.addStringAttr "xml:lang".toList s).setValue t).nodes = [] :=
    fun n hn s t => leaf_setValue (leaf_addAttr hn _) t
  have h0 : liNode.nodes = [] := rfl
  have h2 : (if (ai.isDefault || len == 1) = true then (liNode.addStringAttr "xml:lang".toList "x-default".toList).setValue ai.value
      else liNode).nodes = [] := by
    split
    · exact h1 _ h0 _ _
    · rfl
  unfold marshalAltItem at h
  simp only at h
  split at h
  · cases h
    intro x hx
    rw [List.mem_singleton] at hx
    subst hx
    exact unmixed_leaf h2
  · split at h
    · cases h
      intro x hx
      simp only [List.mem_cons, List.not_mem_nil, or_false] at hx
      rcases hx with rfl | rfl
      · exact unmixed_leaf h2
      · exact unmixed_leaf (h1 _ h0 _ _)
    · split at h
      · cases h
        intro x hx
        rw [List.mem_singleton] at hx
        subst hx
        exact unmixed_leaf (h1 _ h2 _ _)
      · cases h

theorem unmixed_simple {v : Val} {n m : Node} (hn : n.nodes = []) (h : (marshalSimple v).map n.setValue = some m) : Unmixed m := by
  cases hs : marshalSimple v with
  | none => rw [hs] at h; cases h
  | some s =>
    rw [hs] at h
    cases h
    exact unmixed_leaf (leaf_setValue hn s)

theorem bare_attrs : ∀ (fs : List FieldInfo) (ts : List Ty) (vs : List Val) (n m : Node), BareVal n →
    marshalAttrs fs ts vs n = some m → BareVal m := by
  intro fs
  induction fs with
  | nil => intro ts vs n m hn h; rw [marshalAttrs] at h; cases h; exact hn; simp
  | cons f fs ih =>
    intro ts vs n m hn h
    cases ts with
    | nil => rw [marshalAttrs] at h; cases h; exact hn; simp
    | cons t ts =>
      cases vs with
      | nil => rw [marshalAttrs] at h; cases h; exact hn; simp
      | cons v vs =>
        rw [marshalAttrs] at h
        split at h
        · cases ha : marshalAttr f t v n with
          | none => rw [ha] at h; cases h
          | some n' =>
            rw [ha] at h
            have hk : BareVal n' := by
              unfold marshalAttr at ha
              split at ha
              · cases ha
              · cases ha; exact hn
              · cases ha; exact bare_addAttr hn _
            exact ih ts vs n' m hk h
        · exact ih ts vs n m hn h

mutual
theorem marshal_unmixed : ∀ (t : Ty) (v : Val) (n m : Node), n.value = [] → n.nodes = [] → marshalValue t v n = some m → Unmixed m
  | .int _, v, n, m, _, hn, h => unmixed_simple hn (by rw [marshalValue] at h; exact h)
  | .uint _, v, n, m, _, hn, h => unmixed_simple hn (by rw [marshalValue] at h; exact h)
  | .bool, v, n, m, _, hn, h => unmixed_simple hn (by rw [marshalValue] at h; exact h)
  | .str, v, n, m, _, hn, h => unmixed_simple hn (by rw [marshalValue] at h; exact h)
  | .bytes, v, n, m, _, hn, h => unmixed_simple hn (by rw [marshalValue] at h; exact h)
  | .text c, v, n, m, _, hn, h => by
    unfold marshalValue at h
    split at h
    · split at h
      · cases h
      · cases h; exact unmixed_leaf hn
      · cases h; exact unmixed_leaf (leaf_setValue hn _)
    · cases h
  | .alt, v, n, m, hv, hn, h => by
    unfold marshalValue at h
    split at h
    · rename_i a
      unfold AltString.marshalXMP at h
      split at h
      · cases h; exact unmixed_leaf hn
      · cases hi : a.mapM (marshalAltItem a.length) with
        | none => rw [hi] at h; cases h
        | some l =>
          rw [hi] at h
          simp only [Option.map_some, Option.some.injEq] at h
          subst h
          refine unmixed_of_bare (bare_addNode ⟨hv, by simp [hn]⟩ (unmixed_of_bare (bare_setNodes (bare_new _) ?_)))
          intro x hx
          obtain ⟨ys, hy, hx⟩ := List.mem_flatten.1 hx
          obtain ⟨ai, -, e⟩ := mapM_mem hi ys hy
          exact unmixed_altItem e x hx
    · cases h
  | .ptr t, v, n, m, hv, hn, h => by
    unfold marshalValue at h
    split at h
    · exact marshal_unmixed t _ n m hv hn h
    · cases h; exact unmixed_leaf hn
  | .slice typ t, v, n, m, hv, hn, h => by
    unfold marshalValue at h
    split at h
    · rename_i items _
      unfold marshalArray at h
      split at h
      · cases h; exact unmixed_leaf hn
      · cases hi : items.mapM (fun v => marshalValue t v liNode) with
        | none => rw [hi] at h; cases h
        | some lis =>
          rw [hi] at h
          simp only [Option.map_some, Option.some.injEq] at h
          subst h
          refine unmixed_of_bare (bare_addNode ⟨hv, by simp [hn]⟩ (unmixed_of_bare (bare_setNodes (bare_new _) ?_)))
          intro x hx
          obtain ⟨v, -, e⟩ := mapM_mem hi x hx
          exact marshal_unmixed t v liNode x rfl rfl e
    · cases h
  | .struct z infos tys, v, n, m, hv, hn, h => by
    unfold marshalValue at h
    split at h
    · rename_i vals
      cases ha : marshalAttrs infos tys vals n with
      | none => rw [ha] at h; cases h
      | some n1 =>
        have hn1 := bare_attrs infos tys vals n n1 ⟨hv, by simp [hn]⟩ ha
        rw [ha] at h
        simp only at h
        cases hf : marshalFields tys infos vals n1 with
        | none => rw [hf] at h; cases h
        | some r =>
          obtain ⟨n2, hv⟩ := r
          have hn2 := fields_bare tys infos vals n1 n2 hv hn1 hf
          rw [hf] at h
          simp only [Option.some.injEq] at h
          subst h
          split
          · exact unmixed_of_bare (bare_addAttr hn2 _)
          · exact unmixed_of_bare hn2
    · cases h
theorem fields_bare : ∀ (ts : List Ty) (fs : List FieldInfo) (vs : List Val) (n m : Node) (b : Bool),
    BareVal n → marshalFields ts fs vs n = some (m, b) → BareVal m
  | [], fs, vs, n, m, b, hn, h => by rw [marshalFields] at h; cases h; exact hn; simp
  | t :: ts, [], vs, n, m, b, hn, h => by rw [marshalFields] at h; cases h; exact hn; simp
  | t :: ts, f :: fs, [], n, m, b, hn, h => by rw [marshalFields] at h; cases h; exact hn; simp
  | t :: ts, f :: fs, v :: vs, n, m, b, hn, h => by
    rw [marshalFields] at h
    split at h
    · cases hx : marshalValue t v (Node.new ⟨[], f.name⟩) with
      | none => rw [hx] at h; cases h
      | some x =>
        rw [hx] at h
        simp only at h
        cases hr : marshalFields ts fs vs (n.addNode x) with
        | none => rw [hr] at h; cases h
        | some r =>
          obtain ⟨m', b'⟩ := r
          rw [hr] at h
          cases h
          exact fields_bare ts fs vs _ m b' (bare_addNode hn (marshal_unmixed t v _ x rfl rfl hx)) hr
    · exact fields_bare ts fs vs n m b hn h
end

end Xmp.Props
