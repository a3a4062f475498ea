import Verif.Props.TypedXmp

/-! The names in written trees. -/

namespace Xmp.Props

open GoStr

/-- All names in a tree meet a condition. -/
def NamesP (P : QName → Prop) (n : Node) : Prop := ∀ q ∈ allNames n, P q

theorem namesP_mk {P : QName → Prop} {n : QName} {a : List Attr} {v : Str} {l : List Node} :
    NamesP P (.mk n a v l) ↔ P n ∧ (∀ x ∈ a, P x.name) ∧ ∀ x ∈ l, NamesP P x := by
  have hl : (∀ q ∈ allNamesList l, P q) ↔ ∀ x ∈ l, NamesP P x := by
    induction l with
    | nil => simp [allNamesList]
    | cons x l ih =>
      rw [allNamesList, List.forall_mem_cons, ← ih]
      simp only [List.mem_append, NamesP]
      constructor
      · intro h; exact ⟨fun q hq => h q (Or.inl hq), fun q hq => h q (Or.inr hq)⟩
      · rintro ⟨h1, h2⟩ q (hq | hq)
        · exact h1 q hq
        · exact h2 q hq
  rw [← hl]
  unfold NamesP
  simp only [allNames, List.cons_append, List.mem_cons, List.mem_append, List.mem_map, forall_eq_or_imp]
  constructor
  · rintro ⟨h1, h2⟩
    exact ⟨h1, fun x hx => h2 _ (Or.inl ⟨x, hx, rfl⟩), fun q hq => h2 q (Or.inr hq)⟩
  · rintro ⟨h1, h2, h3⟩
    refine ⟨h1, ?_⟩
    rintro q (⟨x, hx, rfl⟩ | hq)
    · exact h2 x hx
    · exact h3 q hq

/-- All names inside of a tree meet a condition. -/
def InnerP (P : QName → Prop) (n : Node) : Prop := (∀ x ∈ n.attrs, P x.name) ∧ ∀ x ∈ n.nodes, NamesP P x

theorem namesP_iff {P : QName → Prop} {n : Node} : NamesP P n ↔ P n.xmlName ∧ InnerP P n := by
  cases n
  exact namesP_mk

theorem innerP_iff {P : QName → Prop} {n : Node} : InnerP P n ↔ ∀ q ∈ innerNames n, P q := by
  have := namesP_mk (P := fun q => q = n.xmlName ∨ P q) (n := n.xmlName) (a := n.attrs) (v := []) (l := n.nodes)
  have hl : ∀ l : List Node, (∀ q ∈ allNamesList l, P q) ↔ ∀ x ∈ l, NamesP P x := by
    intro l
    induction l with
    | nil => simp [allNamesList]
    | cons x l ih =>
      rw [allNamesList, List.forall_mem_cons, ← ih]
      simp only [List.mem_append, NamesP]
      constructor
      · intro h; exact ⟨fun q hq => h q (Or.inl hq), fun q hq => h q (Or.inr hq)⟩
      · rintro ⟨h1, h2⟩ q (hq | hq)
        · exact h1 q hq
        · exact h2 q hq
  unfold InnerP
  rw [← hl]
  simp only [innerNames, List.mem_append, List.mem_map]
  constructor
  · rintro ⟨h1, h2⟩ q (⟨x, hx, rfl⟩ | hq)
    · exact h1 x hx
    · exact h2 q hq
  · intro h
    exact ⟨fun x hx => h _ (Or.inl ⟨x, hx, rfl⟩), fun q hq => h q (Or.inr hq)⟩

/-- A node that keeps its name and whose inner names meet a condition. -/
def KeepsP (P : QName → Prop) (n m : Node) : Prop := m.xmlName = n.xmlName ∧ InnerP P m

theorem namesP_new {P : QName → Prop} {n : QName} (h : P n) : NamesP P (Node.new n) := by
  rw [Node.new, namesP_mk]
  exact ⟨h, by simp, by simp⟩

theorem innerP_new {P : QName → Prop} (n : QName) : InnerP P (Node.new n) := ⟨by simp [Node.new, Node.attrs], by simp [Node.new, Node.nodes]⟩

theorem keepsP_setValue {P : QName → Prop} {n : Node} (h : InnerP P n) (s : Str) : KeepsP P n (n.setValue s) := by
  cases n; exact ⟨rfl, h⟩

theorem mem_addAttr {a : Attr} {l : List Attr} {x : Attr} (h : x ∈ AttrList.addAttr a l) :
    x.name = a.name ∨ ∃ y ∈ l, x.name = y.name := by
  induction l with
  | nil =>
    rw [AttrList.addAttr, List.mem_singleton] at h
    exact Or.inl (by rw [h])
  | cons y l ih =>
    rw [AttrList.addAttr] at h
    split at h
    · rcases List.mem_cons.1 h with rfl | h
      · exact Or.inr ⟨y, by simp, rfl⟩
      · exact Or.inr ⟨x, by simp [h], rfl⟩
    · rcases List.mem_cons.1 h with rfl | h
      · exact Or.inr ⟨x, by simp, rfl⟩
      · rcases ih h with h | ⟨z, hz, h⟩
        · exact Or.inl h
        · exact Or.inr ⟨z, by simp [hz], h⟩

theorem keepsP_addAttr {P : QName → Prop} {n : Node} (h : InnerP P n) {a : Attr} (ha : P a.name) : KeepsP P n (n.addAttr a) := by
  obtain ⟨nm, as, v, l⟩ := n
  refine ⟨rfl, ?_, h.2⟩
  intro x hx
  rcases mem_addAttr hx with e | ⟨y, hy, e⟩
  · rw [e]; exact ha
  · rw [e]; exact h.1 y hy

theorem mem_addNode {n : Node} {l : List Node} {x : Node} (h : x ∈ NodeList.addNode n l) : x = n ∨ x ∈ l := by
  induction l with
  | nil =>
    rw [NodeList.addNode, List.mem_singleton] at h
    exact Or.inl h
  | cons y l ih =>
    rw [NodeList.addNode] at h
    split at h
    · rcases List.mem_cons.1 h with rfl | h
      · exact Or.inl rfl
      · exact Or.inr (by simp [h])
    · rcases List.mem_cons.1 h with rfl | h
      · exact Or.inr (by simp)
      · rcases ih h with h | h
        · exact Or.inl h
        · exact Or.inr (by simp [h])

theorem keepsP_addNode {P : QName → Prop} {n x : Node} (h : InnerP P n) (hx : NamesP P x) : KeepsP P n (n.addNode x) := by
  obtain ⟨nm, as, v, l⟩ := n
  refine ⟨rfl, h.1, ?_⟩
  intro y hy
  rcases mem_addNode hy with rfl | hy
  · exact hx
  · exact h.2 y hy

theorem namesP_setNodes {P : QName → Prop} {n : Node} (h : NamesP P n) {l : List Node} (hl : ∀ x ∈ l, NamesP P x) :
    NamesP P (n.setNodes l) := by
  obtain ⟨nm, as, v, l'⟩ := n
  rw [namesP_mk] at h
  rw [Node.setNodes, namesP_mk]
  exact ⟨h.1, h.2.1, hl⟩

theorem keepsP_refl {P : QName → Prop} {n : Node} (h : InnerP P n) : KeepsP P n n := ⟨rfl, h⟩

theorem keepsP_names {P : QName → Prop} {n m : Node} (h : KeepsP P n m) (hn : P n.xmlName) : NamesP P m :=
  namesP_iff.2 ⟨by rw [h.1]; exact hn, h.2⟩

/-- The names of the markup meet a condition. -/
def MarkupP (P : QName → Prop) : Prop := ∀ m ∈ markupNames, P ⟨[], m⟩

theorem namesP_li {P : QName → Prop} (hm : MarkupP P) : NamesP P liNode := namesP_new (hm _ (by simp [markupNames]))

theorem mapM_mem {α β : Type} {f : α → Option β} : ∀ {l : List α} {r : List β}, l.mapM f = some r →
    ∀ y ∈ r, ∃ x ∈ l, f x = some y := by
  intro l
  induction l with
  | nil =>
    intro r h y hy
    simp only [List.mapM_nil, Option.pure_def, Option.some.injEq] at h
    subst h
    cases hy
  | cons a l ih =>
    intro r h y hy
    rw [List.mapM_cons] at h
    cases ha : f a with
    | none => rw [ha] at h; cases h
    | some b =>
      cases hl : l.mapM f with
      | none => rw [ha, hl] at h; cases h
      | some bs =>
        rw [ha, hl] at h
        simp only [Option.pure_def, Option.bind_eq_bind, Option.bind_some, Option.some.injEq] at h
        subst h
        rcases List.mem_cons.1 hy with rfl | hy
        · exact ⟨a, by simp, ha⟩
        · obtain ⟨x, hx, e⟩ := ih hl y hy
          exact ⟨x, by simp [hx], e⟩

theorem namesP_altItem {P : QName → Prop} (hm : MarkupP P) {len : Nat} {ai : AltItem} {l : List Node}
    (h : marshalAltItem len ai = some l) : ∀ x ∈ l, NamesP P x := by
  have hl : P (QName.mk [] "xml:lang".toList) := hm _ (by simp [markupNames])
  have h1 : ∀ n : Node, NamesP P n → ∀ s t, NamesP P ((n.addStringAttr "xml:lang".toList s).setValue t) := by
    intro n hn s t
    have h1 := keepsP_addAttr (a := ⟨⟨[], "xml:lang".toList⟩, s⟩) (namesP_iff.1 hn).2 hl
    have h2 := keepsP_setValue h1.2 t
    exact keepsP_names h2 (by rw [h1.1]; exact (namesP_iff.1 hn).1)
  have h2 : NamesP P (if (ai.isDefault || len == 1) = true then (liNode.addStringAttr "xml:lang".toList "x-default".toList).setValue ai.value
      else liNode) := by
    split
    · exact h1 _ (namesP_li hm) _ _
    · exact namesP_li hm
  unfold marshalAltItem at h
  simp only at h
  split at h
  · cases h
    intro x hx
    rw [List.mem_singleton] at hx
    subst hx
    exact h2
  · split at h
    · cases h
      intro x hx
      simp only [List.mem_cons, List.not_mem_nil, or_false] at hx
      rcases hx with rfl | rfl
      · exact h2
      · exact h1 _ (namesP_li hm) _ _
    · split at h
      · cases h
        intro x hx
        rw [List.mem_singleton] at hx
        subst hx
        exact h1 _ h2 _ _
      · cases h

theorem namesP_alt {P : QName → Prop} (hm : MarkupP P) {a : AltString} {n m : Node} (hn : InnerP P n)
    (h : a.marshalXMP n = some m) : KeepsP P n m := by
  unfold AltString.marshalXMP at h
  split at h
  · cases h; exact keepsP_refl hn
  · cases hi : a.mapM (marshalAltItem a.length) with
    | none => rw [hi] at h; cases h
    | some l =>
      rw [hi] at h
      simp only [Option.map_some, Option.some.injEq] at h
      subst h
      refine keepsP_addNode hn (namesP_setNodes (namesP_new (hm _ (by decide))) ?_)
      intro x hx
      obtain ⟨ys, hy, hx⟩ := List.mem_flatten.1 hx
      obtain ⟨ai, -, e⟩ := mapM_mem hi ys hy
      exact namesP_altItem hm e x hx

theorem namesP_simple {P : QName → Prop} {v : Val} {n m : Node} (hn : InnerP P n)
    (h : (marshalSimple v).map n.setValue = some m) : KeepsP P n m := by
  cases hs : marshalSimple v with
  | none => rw [hs] at h; cases h
  | some s =>
    rw [hs] at h
    cases h
    exact keepsP_setValue hn s

theorem namesP_attrs {P : QName → Prop} : ∀ (fs : List FieldInfo) (ts : List Ty) (vs : List Val) (n m : Node),
    (∀ f ∈ fs, P ⟨[], f.name⟩) → InnerP P n → marshalAttrs fs ts vs n = some m → KeepsP P n m := by
  intro fs
  induction fs with
  | nil => intro ts vs n m _ hn h; rw [marshalAttrs] at h; cases h; exact keepsP_refl hn; simp
  | cons f fs ih =>
    intro ts vs n m hP hn h
    cases ts with
    | nil => rw [marshalAttrs] at h; cases h; exact keepsP_refl hn; simp
    | cons t ts =>
      cases vs with
      | nil => rw [marshalAttrs] at h; cases h; exact keepsP_refl hn; simp
      | cons v vs =>
        rw [marshalAttrs] at h
        have hP' : ∀ f ∈ fs, P ⟨[], f.name⟩ := fun g hg => hP g (by simp [hg])
        split at h
        · cases ha : marshalAttr f t v n with
          | none => rw [ha] at h; cases h
          | some n' =>
            rw [ha] at h
            have hk : KeepsP P n n' := by
              unfold marshalAttr at ha
              split at ha
              · cases ha
              · cases ha; exact keepsP_refl hn
              · cases ha; exact keepsP_addAttr hn (hP f (by simp))
            have := ih ts vs n' m hP' hk.2 h
            exact ⟨this.1.trans hk.1, this.2⟩
        · exact ih ts vs n m hP' hn h

mutual
/-- The names in the tree of a written value: those of the node, of the fields, and markup. -/
theorem marshal_inner {P : QName → Prop} (hm : MarkupP P) : ∀ (t : Ty) (v : Val) (n m : Node),
    TyNames (fun nm => P ⟨[], nm⟩) t → InnerP P n → marshalValue t v n = some m → KeepsP P n m
  | .int _, v, n, m, _, hn, h => namesP_simple hn (by rw [marshalValue] at h; exact h)
  | .uint _, v, n, m, _, hn, h => namesP_simple hn (by rw [marshalValue] at h; exact h)
  | .bool, v, n, m, _, hn, h => namesP_simple hn (by rw [marshalValue] at h; exact h)
  | .str, v, n, m, _, hn, h => namesP_simple hn (by rw [marshalValue] at h; exact h)
  | .bytes, v, n, m, _, hn, h => namesP_simple hn (by rw [marshalValue] at h; exact h)
  | .text c, v, n, m, _, hn, h => by
    unfold marshalValue at h
    split at h
    · split at h
      · cases h
      · cases h; exact keepsP_refl hn
      · cases h; exact keepsP_setValue hn _
    · cases h
  | .alt, v, n, m, _, hn, h => by
    unfold marshalValue at h
    split at h
    · exact namesP_alt hm hn h
    · cases h
  | .ptr t, v, n, m, ht, hn, h => by
    rw [TyNames] at ht
    unfold marshalValue at h
    split at h
    · exact marshal_inner hm t _ n m ht hn h
    · cases h; exact keepsP_refl hn
  | .slice typ t, v, n, m, ht, hn, h => by
    rw [TyNames] at ht
    unfold marshalValue at h
    split at h
    · rename_i items _
      unfold marshalArray at h
      split at h
      · cases h; exact keepsP_refl hn
      · cases hi : items.mapM (fun v => marshalValue t v liNode) with
        | none => rw [hi] at h; cases h
        | some lis =>
          rw [hi] at h
          simp only [Option.map_some, Option.some.injEq] at h
          subst h
          refine keepsP_addNode hn (namesP_setNodes (namesP_new (hm _ (by cases typ <;> decide))) ?_)
          intro x hx
          obtain ⟨v, -, e⟩ := mapM_mem hi x hx
          exact keepsP_names (marshal_inner hm t v liNode x ht (namesP_iff.1 (namesP_li hm)).2 e) (namesP_iff.1 (namesP_li hm)).1
    · cases h
  | .struct z infos tys, v, n, m, ht, hn, h => by
    rw [TyNames] at ht
    unfold marshalValue at h
    split at h
    · rename_i vals
      cases ha : marshalAttrs infos tys vals n with
      | none => rw [ha] at h; cases h
      | some n1 =>
        have hn1 := namesP_attrs infos tys vals n n1 ht.1 hn ha
        rw [ha] at h
        simp only at h
        cases hf : marshalFields tys infos vals n1 with
        | none => rw [hf] at h; cases h
        | some r =>
          obtain ⟨n2, hv⟩ := r
          have hn2 := fields_names hm tys infos vals n1 n2 hv ht.2 ht.1 hn1.2 hf
          rw [hf] at h
          simp only [Option.some.injEq] at h
          subst h
          split
          · have := keepsP_addAttr (a := rdfResourceAttr) hn2.2 (hm _ (by decide))
            exact ⟨this.1.trans (hn2.1.trans hn1.1), this.2⟩
          · exact ⟨hn2.1.trans hn1.1, hn2.2⟩
    · cases h
theorem fields_names {P : QName → Prop} (hm : MarkupP P) : ∀ (ts : List Ty) (fs : List FieldInfo) (vs : List Val) (n m : Node) (b : Bool),
    TysNames (fun nm => P ⟨[], nm⟩) ts → (∀ f ∈ fs, P ⟨[], f.name⟩) → InnerP P n → marshalFields ts fs vs n = some (m, b) → KeepsP P n m
  | [], fs, vs, n, m, b, _, _, hn, h => by rw [marshalFields] at h; cases h; exact keepsP_refl hn; simp
  | t :: ts, [], vs, n, m, b, _, _, hn, h => by rw [marshalFields] at h; cases h; exact keepsP_refl hn; simp
  | t :: ts, f :: fs, [], n, m, b, _, _, hn, h => by rw [marshalFields] at h; cases h; exact keepsP_refl hn; simp
  | t :: ts, f :: fs, v :: vs, n, m, b, ht, hf, hn, h => by
    rw [TysNames] at ht
    rw [marshalFields] at h
    have hf' : ∀ f ∈ fs, P ⟨[], f.name⟩ := fun g hg => hf g (by simp [hg])
    split at h
    · cases hx : marshalValue t v (Node.new ⟨[], f.name⟩) with
      | none => rw [hx] at h; cases h
      | some x =>
        have hxn := keepsP_names (marshal_inner hm t v _ x ht.1 (innerP_new _) hx) (hf f (by simp))
        rw [hx] at h
        simp only at h
        cases hr : marshalFields ts fs vs (n.addNode x) with
        | none => rw [hr] at h; cases h
        | some r =>
          obtain ⟨m', b'⟩ := r
          rw [hr] at h
          cases h
          have hk := keepsP_addNode hn hxn
          have := fields_names hm ts fs vs _ m b' ht.2 hf' hk.2 hr
          exact ⟨this.1.trans hk.1, this.2⟩
    · exact fields_names hm ts fs vs n m b ht.2 hf' hn h
end

end Xmp.Props
