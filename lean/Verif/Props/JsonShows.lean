import Verif.Props.DocJsonText
import Verif.Props.ShippedBytes

/-! C75: which values are not empty in JSON, and which survive it, by the value only. -/

namespace Xmp.Props

open GoStr Shipped List

/-! ### Specification -/

/-- A value that leaves a trace: a text, an item of an alternative, an element of an array that leaves a trace, a field of a
struct that is written as an element or as an attribute with a text. -/
def Shows : Ty → Val → Prop
  | .ptr t, v => ∃ x, v = .ptr x ∧ Shows t x
  | .text c, v => ∃ k s, v = .opq k ∧ c.enc k = some (some s) ∧ s ≠ []
  | .alt, v => ∃ a, v = .alt a ∧ a ≠ []
  | .slice _ t, v => ∃ l e, v = .slice l e ∧ ∃ x ∈ l, Shows t x
  | .struct _ infos tys, v => ∃ vals, v = .struct vals ∧ ∃ (i : Nat) (f : FieldInfo) (t : Ty) (x : Val), infos[i]? = some f ∧ tys[i]? = some t ∧
      vals[i]? = some x ∧ fieldWritten f t x = true ∧ (f.attr = true → ∃ s, attrText t x = some (some s) ∧ s ≠ [])
  | .str, v => ∃ s, v = .str s ∧ s ≠ []
  | .bytes, v => ∃ s, v = .bytes s ∧ s ≠ []
  | .int _, v => ∃ i, v = .int i
  | .uint _, v => ∃ i, v = .int i
  | .bool, v => ∃ b, v = .bool b

mutual
/-- What JSON asks of a value: texts are read without removing blanks around them, alternatives as in C16 and C52, and the first
element of an array that is an alternative has a field written as an element. -/
def JsonVal : Ty → Val → Prop
  | .text c, v => ∀ k, v = .opq k → ∀ o, c.enc k = some o → c.dec 0 (o.getD []) = some k
  | .alt, v => ∀ a, v = .alt a → JAlt a
  | .slice typ t, v => ∀ l sp, v = .slice l sp → (typ = .alternative → ∀ x ∈ l.head?, HasElem t x) ∧ ∀ x ∈ l, JsonVal t x
  | .ptr t, v => ∀ x, v = .ptr x → JsonVal t x
  | .struct _ infos tys, v => ∀ vals, v = .struct vals → JsonVals tys infos vals
  | _, _ => True
/-- The fields that are written as elements. -/
def JsonVals : List Ty → List FieldInfo → List Val → Prop
  | t :: ts, f :: fs, v :: vs => (fieldWritten f t v = true → f.attr = false → JsonVal t v) ∧ JsonVals ts fs vs
  | _, _, _ => True
end

mutual
/-- No array inside of the type has arrays or alternatives as elements. -/
def FlatTy : Ty → Prop
  | .slice _ t => ItemTy t ∧ FlatTy t
  | .ptr t => FlatTy t
  | .struct _ _ tys => FlatTys tys
  | _ => True
/-- The same for a list of types. -/
def FlatTys : List Ty → Prop
  | [] => True
  | t :: ts => FlatTy t ∧ FlatTys ts
end

mutual
theorem jval_of : ∀ (t : Ty) (v : Val), FlatTy t → JsonVal t v → JVal t v
  | .text c, v, _, h => by rw [JsonVal] at h; rw [JVal]; exact h
  | .alt, v, _, h => by rw [JsonVal] at h; rw [JVal]; exact h
  | .slice typ t, v, hf, h => by
    rw [FlatTy] at hf
    rw [JsonVal] at h
    rw [JVal]
    exact ⟨hf.1, fun l sp e => ⟨(h l sp e).1, fun x hx => jval_of t x hf.2 ((h l sp e).2 x hx)⟩⟩
  | .ptr t, v, hf, h => by
    rw [FlatTy] at hf
    rw [JsonVal] at h
    rw [JVal]
    exact fun x e => jval_of t x hf (h x e)
  | .struct z infos tys, v, hf, h => by
    rw [FlatTy] at hf
    rw [JsonVal] at h
    rw [JVal]
    exact fun vals e => jfields_of tys infos vals hf (h vals e)
  | .int _, _, _, _ => by simp [JVal]
  | .uint _, _, _, _ => by simp [JVal]
  | .bool, _, _, _ => by simp [JVal]
  | .str, _, _, _ => by simp [JVal]
  | .bytes, _, _, _ => by simp [JVal]
theorem jfields_of : ∀ (ts : List Ty) (fs : List FieldInfo) (vs : List Val), FlatTys ts → JsonVals ts fs vs → JFields ts fs vs
  | t :: ts, f :: fs, v :: vs, hf, h => by
    rw [FlatTys] at hf
    rw [JsonVals] at h
    rw [JFields]
    exact ⟨fun a b => jval_of t v hf.1 (h.1 a b), jfields_of ts fs vs hf.2 h.2⟩
  | [], _, _, _, _ => by simp [JFields]
  | _ :: _, [], _, _, _ => by simp [JFields]
  | _ :: _, _ :: _, [], _, _ => by simp [JFields]
end

/-! ### What is written is not empty -/

theorem emptyNode_iff (x : Node) : x.isZero = true ↔ x.value = [] ∧ (∀ a ∈ x.attrs, a.value = []) ∧ ∀ y ∈ x.nodes, y.isZero = true := by
  obtain ⟨n, a, v, l⟩ := x
  have : ∀ l : List Node, Node.isZeroList l = true ↔ ∀ y ∈ l, y.isZero = true := by
    intro l
    induction l with
    | nil => simp [Node.isZeroList]
    | cons x l ih => rw [Node.isZeroList, Bool.and_eq_true, ih, forall_mem_cons]
  rw [Node.isZero, Bool.and_eq_true, Bool.and_eq_true, decide_eq_true_eq, this, AttrList.isZero, all_eq_true]
  simp only [decide_eq_true_eq]
  exact ⟨fun h => ⟨h.1.1, h.1.2, h.2⟩, fun h => ⟨⟨h.1, h.2.1⟩, h.2.2⟩⟩

theorem full_value {x : Node} (h : x.value ≠ []) : x.isZero = false := by
  rw [← Bool.not_eq_true, emptyNode_iff]; exact fun e => h e.1

theorem full_attr {x : Node} {a : Attr} (ha : a ∈ x.attrs) (h : a.value ≠ []) : x.isZero = false := by
  rw [← Bool.not_eq_true, emptyNode_iff]; exact fun e => h (e.2.1 a ha)

theorem full_node {x y : Node} (hy : y ∈ x.nodes) (h : y.isZero = false) : x.isZero = false := by
  rw [← Bool.not_eq_true, emptyNode_iff]; exact fun e => by rw [e.2.2 y hy] at h; cases h

theorem addNode_has (y : Node) : ∀ l : List Node, y ∈ NodeList.addNode y l
  | [] => by simp [NodeList.addNode]
  | x :: l => by
    rw [NodeList.addNode]
    split
    · simp
    · exact mem_cons_of_mem _ (addNode_has y l)

theorem full_addNode {x y : Node} (h : y.isZero = false) : (x.addNode y).isZero = false := by
  obtain ⟨n, a, v, l⟩ := x
  exact full_node (show y ∈ NodeList.addNode y l from addNode_has y l) h

theorem addAttr_has (a : Attr) : ∀ l : List Attr, ∃ b ∈ AttrList.addAttr a l, b.name.loc = a.name.loc ∧ b.value = a.value
  | [] => ⟨a, by simp [AttrList.addAttr], rfl, rfl⟩
  | x :: l => by
    rw [AttrList.addAttr]
    split
    · rename_i h
      exact ⟨_, mem_cons_self, h, rfl⟩
    · obtain ⟨b, h1, h2⟩ := addAttr_has a l
      exact ⟨b, mem_cons_of_mem _ h1, h2⟩

theorem addAttr_keeps {a b : Attr} (h : b.name.loc ≠ a.name.loc) : ∀ {l : List Attr}, b ∈ l → b ∈ AttrList.addAttr a l
  | x :: l, hb => by
    rw [AttrList.addAttr]
    split
    · rename_i hx
      rcases mem_cons.1 hb with rfl | hb
      · exact absurd hx h
      · exact mem_cons_of_mem _ hb
    · rcases mem_cons.1 hb with rfl | hb
      · exact mem_cons_self
      · exact mem_cons_of_mem _ (addAttr_keeps h hb)

theorem full_addAttr {x : Node} {a : Attr} (h : a.value ≠ []) : (x.addAttr a).isZero = false := by
  obtain ⟨n, as, v, l⟩ := x
  obtain ⟨b, h1, -, h2⟩ := addAttr_has a as
  exact full_attr (a := b) (show b ∈ AttrList.addAttr a as from h1) (by rw [h2]; exact h)

theorem full_setValue {x : Node} {s : Str} (h : s ≠ []) : (x.setValue s).isZero = false := by
  obtain ⟨n, as, v, l⟩ := x
  exact full_value (show s ≠ [] from h)

theorem mapM_image {α β : Type} {f : α → Option β} : ∀ {l : List α} {l' : List β}, l.mapM f = some l' → ∀ x ∈ l, ∃ y ∈ l', f x = some y
  | [], _, _, x, hx => by cases hx
  | a :: l, l', h, x, hx => by
    rw [mapM_cons] at h
    cases h1 : f a with
    | none => simp [h1] at h
    | some b =>
      cases h2 : l.mapM f with
      | none => simp [h1, h2] at h
      | some l'' =>
        simp [h1, h2] at h
        subst h
        rcases mem_cons.1 hx with rfl | hx
        · exact ⟨b, mem_cons_self, h1⟩
        · obtain ⟨y, hy, e⟩ := mapM_image h2 x hx
          exact ⟨y, mem_cons_of_mem _ hy, e⟩

theorem altItem_full {n : Nat} {i : AltItem} {l : List Node} (h : marshalAltItem n i = some l) : ∃ x ∈ l, x.isZero = false := by
  have e1 : ∀ (y : Node) (s v : Str), s ≠ [] → ((y.addStringAttr "xml:lang".toList s).setValue v).isZero = false := by
    intro y s v hs
    obtain ⟨nm, as, w, l⟩ := y
    obtain ⟨b, h1, -, h2⟩ := addAttr_has ⟨⟨[], "xml:lang".toList⟩, s⟩ as
    exact full_attr (a := b) (show b ∈ AttrList.addAttr ⟨⟨[], "xml:lang".toList⟩, s⟩ as from h1) (by rw [h2]; exact hs)
  unfold marshalAltItem at h
  simp only at h
  split at h
  · rename_i hc
    cases h
    rw [Bool.and_eq_true] at hc
    rw [if_pos hc.1]
    exact ⟨_, mem_cons_self, e1 _ _ _ (by decide)⟩
  · split at h
    · rename_i hc
      cases h
      rw [Bool.and_eq_true, decide_eq_true_eq] at hc
      exact ⟨_, mem_cons_of_mem _ mem_cons_self, e1 _ _ _ hc.2⟩
    · split at h
      · rename_i hl
        cases h
        exact ⟨_, mem_cons_self, e1 _ _ _ hl⟩
      · cases h

theorem attrs_mem : ∀ {fs : List FieldInfo} {ts : List Ty} {vs : List Val} {x y : Node}, marshalAttrs fs ts vs x = some y →
    ∀ b ∈ x.attrs, b.name.loc ∉ fs.map (·.name) → b ∈ y.attrs
  | f :: fs, t :: ts, v :: vs, x, y, h, b, hb, hn => by
    rw [map_cons, mem_cons, not_or] at hn
    rw [marshalAttrs] at h
    split at h
    · split at h
      · cases h
      · rename_i z hz
        refine attrs_mem h b ?_ hn.2
        unfold marshalAttr at hz
        split at hz
        · cases hz
        · cases hz; exact hb
        · rename_i s _
          cases hz
          obtain ⟨nm, as, w, l⟩ := x
          exact addAttr_keeps (a := ⟨⟨[], f.name⟩, s⟩) hn.1 hb
    · exact attrs_mem h b hb hn.2
  | [], _, _, x, y, h, b, hb, _ => by simp [marshalAttrs] at h; exact h ▸ hb
  | _ :: _, [], _, x, y, h, b, hb, _ => by simp [marshalAttrs] at h; exact h ▸ hb
  | _ :: _, _ :: _, [], x, y, h, b, hb, _ => by simp [marshalAttrs] at h; exact h ▸ hb

theorem attrs_full : ∀ {fs : List FieldInfo} {ts : List Ty} {vs : List Val} {x y : Node}, (fs.map (·.name)).Nodup → marshalAttrs fs ts vs x = some y →
    ∀ (i : Nat) (f : FieldInfo) (t : Ty) (v : Val) (s : Str), fs[i]? = some f → ts[i]? = some t → vs[i]? = some v → fieldWritten f t v = true → f.attr = true →
      attrText t v = some (some s) → s ≠ [] → ∃ b ∈ y.attrs, b.value ≠ []
  | f :: fs, t :: ts, v :: vs, x, y, hn, h, i, g, u, w, s, h1, h2, h3, h4, h5, h6, h7 => by
    rw [map_cons, nodup_cons] at hn
    rw [marshalAttrs] at h
    cases i with
    | zero =>
      simp only [getElem?_cons_zero, Option.some.injEq] at h1 h2 h3
      subst h1; subst h2; subst h3
      rw [h4, h5, Bool.and_self, if_pos rfl] at h
      unfold marshalAttr at h
      rw [h6] at h
      simp only at h
      obtain ⟨nm, as, w, l⟩ := x
      obtain ⟨b, hb, hb1, hb2⟩ := addAttr_has ⟨⟨[], f.name⟩, s⟩ as
      refine ⟨b, attrs_mem h b hb (by rw [hb1]; exact hn.1), by rw [hb2]; exact h7⟩
    | succ i =>
      simp only [getElem?_cons_succ] at h1 h2 h3
      split at h
      · split at h
        · cases h
        · exact attrs_full hn.2 h i g u w s h1 h2 h3 h4 h5 h6 h7
      · exact attrs_full hn.2 h i g u w s h1 h2 h3 h4 h5 h6 h7
  | [], _, _, x, y, _, h, i, g, u, w, s, h1, _, _, _, _, _, _ => by simp at h1
  | _ :: _, [], _, x, y, _, h, i, g, u, w, s, _, h2, _, _, _, _, _ => by simp at h2
  | _ :: _, _ :: _, [], x, y, _, h, i, g, u, w, s, _, _, h3, _, _, _, _ => by simp at h3

theorem addNode_attrs (x y : Node) : (x.addNode y).attrs = x.attrs := by cases x; rfl

theorem fields_attrs : ∀ (ts : List Ty) (fs : List FieldInfo) (vs : List Val) (x y : Node) (b : Bool), marshalFields ts fs vs x = some (y, b) →
    y.attrs = x.attrs ∧ y.xmlName = x.xmlName ∧
      ∀ (i : Nat) (f : FieldInfo) (t : Ty) (v : Val), fs[i]? = some f → ts[i]? = some t → vs[i]? = some v → fieldWritten f t v = true → f.attr = false → b = true
  | t :: ts, f :: fs, v :: vs, x, y, b, h => by
    rw [marshalFields] at h
    split at h
    · split at h
      · cases h
      · split at h
        · cases h
        · rename_i w c hc
          cases h
          have := fields_attrs ts fs vs _ _ c hc
          exact ⟨this.1.trans (addNode_attrs _ _), this.2.1.trans (qname_addNode _ _), fun _ _ _ _ _ _ _ _ _ => rfl⟩
    · rename_i hc
      have := fields_attrs ts fs vs _ _ b h
      refine ⟨this.1, this.2.1, ?_⟩
      intro i g u w h1 h2 h3 h4 h5
      cases i with
      | zero =>
        simp only [getElem?_cons_zero, Option.some.injEq] at h1 h2 h3
        subst h1; subst h2; subst h3
        rw [h4, h5] at hc
        exact absurd rfl hc
      | succ i => exact this.2.2 i g u w h1 h2 h3 h4 h5
  | [], _, _, x, y, b, h => by simp [marshalFields] at h; exact ⟨by rw [h.1], by rw [h.1], by intro i f t v h1 h2; simp at h2⟩
  | _ :: _, [], _, x, y, b, h => by simp [marshalFields] at h; exact ⟨by rw [h.1], by rw [h.1], by intro i f t v h1; simp at h1⟩
  | _ :: _, _ :: _, [], x, y, b, h => by simp [marshalFields] at h; exact ⟨by rw [h.1], by rw [h.1], by intro i f t v h1 h2 h3; simp at h3⟩

theorem attrs_qname : ∀ {fs : List FieldInfo} {ts : List Ty} {vs : List Val} {x y : Node}, marshalAttrs fs ts vs x = some y → y.xmlName = x.xmlName
  | f :: fs, t :: ts, v :: vs, x, y, h => by
    rw [marshalAttrs] at h
    split at h
    · split at h
      · cases h
      · rename_i z hz
        refine (attrs_qname h).trans ?_
        unfold marshalAttr at hz
        split at hz
        · cases hz
        · cases hz; rfl
        · cases hz; exact qname_addAttr _ _
    · exact attrs_qname h
  | [], _, _, x, y, h => by simp [marshalAttrs] at h; rw [h]
  | _ :: _, [], _, x, y, h => by simp [marshalAttrs] at h; rw [h]
  | _ :: _, _ :: _, [], x, y, h => by simp [marshalAttrs] at h; rw [h]

/-- A value that leaves a trace is written as an element that is not empty. -/
theorem shows_full : ∀ (t : Ty) (v : Val) (x y : Node), DistinctTy t → Shows t v → x.xmlName ≠ rdfDescription → marshalValue t v x = some y → y.isZero = false
  | .ptr t, v, x, y, hd, hs, hx, h => by
    rw [DistinctTy] at hd
    rw [Shows] at hs
    obtain ⟨w, rfl, hs⟩ := hs
    exact shows_full t w x y hd.2 hs hx (by simpa [marshalValue] using h)
  | .text c, v, x, y, hd, hs, hx, h => by
    rw [Shows] at hs
    obtain ⟨k, s, rfl, h1, h2⟩ := hs
    rw [marshalValue, h1] at h
    cases h
    exact full_setValue h2
  | .alt, v, x, y, hd, hs, hx, h => by
    rw [Shows] at hs
    obtain ⟨a, rfl, ha⟩ := hs
    rw [marshalValue] at h
    unfold AltString.marshalXMP at h
    split at h
    · rename_i h0
      exact absurd (length_eq_zero_iff.1 h0) ha
    · rw [Option.map_eq_some_iff] at h
      obtain ⟨lis, h1, rfl⟩ := h
      refine full_addNode ?_
      obtain ⟨i, a', rfl⟩ : ∃ i a', a = i :: a' := by cases a with | nil => exact absurd rfl ha | cons i a' => exact ⟨i, a', rfl⟩
      obtain ⟨l, hl, e⟩ := mapM_image h1 i mem_cons_self
      obtain ⟨z, hz, hz0⟩ := altItem_full e
      exact full_node (show z ∈ lis.flatten from mem_flatten.2 ⟨l, hl, hz⟩) hz0
  | .slice typ t, v, x, y, hd, hs, hx, h => by
    rw [DistinctTy] at hd
    rw [Shows] at hs
    obtain ⟨l, e, rfl, w, hw, hs⟩ := hs
    rw [marshalValue] at h
    unfold marshalArray at h
    split at h
    · rename_i h0
      rw [length_eq_zero_iff.1 h0] at hw
      cases hw
    · rw [Option.map_eq_some_iff] at h
      obtain ⟨lis, h1, rfl⟩ := h
      obtain ⟨z, hz, e⟩ := mapM_image h1 w hw
      have := shows_full t w liNode z hd hs (by decide) e
      exact full_addNode (full_node (show z ∈ lis from hz) this)
  | .struct zz infos tys, v, x, y, hd, hs, hx, h => by
    rw [DistinctTy] at hd
    rw [Shows] at hs
    obtain ⟨vals, rfl, i, f, t, w, h1, h2, h3, h4, h5⟩ := hs
    rw [marshalValue] at h
    split at h
    · cases h
    · rename_i a ha
      have hname : a.xmlName = x.xmlName := attrs_qname ha
      split at h
      · cases h
      · rename_i b hf hb
        cases h
        obtain ⟨k1, k2, k3⟩ := fields_attrs tys infos vals a b hf hb
        cases hat : f.attr with
        | true =>
          obtain ⟨s, h6, h7⟩ := h5 hat
          obtain ⟨c, hc, hc'⟩ := attrs_full hd.1 ha i f t w s h1 h2 h3 h4 hat h6 h7
          split
          · exact full_addAttr (by decide)
          · exact full_attr (by rw [k1]; exact hc) hc'
        | false =>
          rw [k3 i f t w h1 h2 h3 h4 hat, if_pos (by
            rw [Bool.true_and, decide_eq_true_eq, k2, hname]; exact hx)]
          exact full_addAttr (by decide)
  | .int _, v, x, y, _, hs, _, h => by
    rw [Shows] at hs
    obtain ⟨i, rfl⟩ := hs
    simp only [marshalValue, marshalSimple, Option.map_some, Option.some.injEq] at h
    exact h ▸ full_setValue (itoa_ne_nil i)
  | .uint _, v, x, y, _, hs, _, h => by
    rw [Shows] at hs
    obtain ⟨i, rfl⟩ := hs
    simp only [marshalValue, marshalSimple, Option.map_some, Option.some.injEq] at h
    exact h ▸ full_setValue (itoa_ne_nil i)
  | .bool, v, x, y, _, hs, _, h => by
    rw [Shows] at hs
    obtain ⟨i, rfl⟩ := hs
    simp only [marshalValue, marshalSimple, Option.map_some, Option.some.injEq] at h
    exact h ▸ full_setValue (by cases i <;> decide)
  | .str, v, x, y, _, hs, _, h => by
    rw [Shows] at hs
    obtain ⟨s, rfl, hs⟩ := hs
    simp only [marshalValue, marshalSimple, Option.map_some, Option.some.injEq] at h
    exact h ▸ full_setValue hs
  | .bytes, v, x, y, _, hs, _, h => by
    rw [Shows] at hs
    obtain ⟨s, rfl, hs⟩ := hs
    simp only [marshalValue, marshalSimple, Option.map_some, Option.some.injEq] at h
    exact h ▸ full_setValue hs

end Xmp.Props
