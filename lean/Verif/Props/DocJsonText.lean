import Verif.Props.DocBytes
import Verif.Props.JsonTextDoc

/-! C75: which documents are written as JSON with texts of UTF-8 and not too deep.  C68 asks for this of what is written; here
it is traced back to the document. -/

namespace Xmp.Props

open GoStr Utf8 JsonText List

/-! ### Specification -/

/-- A string or a list of bytes is UTF-8. -/
def BareUtf8 (v : Val) : Prop := ∀ s, v = .str s ∨ v = .bytes s → IsUtf8 s

mutual
/-- The texts in a value are UTF-8: strings, bytes, the texts that types write with methods of their own, the values and
languages of alternatives, and those of elements and of fields that are written. -/
def Utf8Val : Ty → Val → Prop
  | .text c, v => BareUtf8 v ∧ ∀ k s, v = .opq k → c.enc k = some (some s) → IsUtf8 s
  | .alt, v => BareUtf8 v ∧ ∀ a, v = .alt a → ∀ i ∈ a, IsUtf8 i.value ∧ IsUtf8 i.lang
  | .slice _ t, v => BareUtf8 v ∧ ∀ l e, v = .slice l e → ∀ x ∈ l, Utf8Val t x
  | .ptr t, v => BareUtf8 v ∧ ∀ x, v = .ptr x → Utf8Val t x
  | .struct _ infos tys, v => BareUtf8 v ∧ ∀ vals, v = .struct vals → Utf8Vals tys infos vals
  | .int _, v => BareUtf8 v
  | .uint _, v => BareUtf8 v
  | .bool, v => BareUtf8 v
  | .str, v => BareUtf8 v
  | .bytes, v => BareUtf8 v
/-- The same for the fields of a struct that are written. -/
def Utf8Vals : List Ty → List FieldInfo → List Val → Prop
  | t :: ts, f :: fs, v :: vs => (fieldWritten f t v = true → Utf8Val t v) ∧ Utf8Vals ts fs vs
  | _, _, _ => True
end

mutual
/-- How deep elements are nested in an element of a type: an array and its items are two, the fields of a struct one. -/
def tyDepth : Ty → Nat
  | .alt => 2
  | .slice _ t => tyDepth t + 2
  | .ptr t => tyDepth t
  | .struct _ _ tys => tysDepth tys + 1
  | _ => 0
/-- The largest depth in a list of types. -/
def tysDepth : List Ty → Nat
  | [] => 0
  | t :: ts => max (tyDepth t) (tysDepth ts)
end

mutual
/-- Names and texts inside of a node are UTF-8, and elements are nested in it at most so deep. -/
def Slim (r : Registry) (d : Nat) : Node → Prop
  | .mk _ a v l => IsUtf8 v ∧ (∀ x ∈ a, IsUtf8 x.name.loc ∧ IsUtf8 x.value) ∧ SlimAll r d l
/-- The same for a list of child elements. -/
def SlimAll (r : Registry) (d : Nat) : List Node → Prop
  | [] => True
  | x :: l => (d ≠ 0 ∧ IsUtf8 (x.fullName r) ∧ Slim r (d - 1) x) ∧ SlimAll r d l
end

/-- A document with texts of UTF-8, in which elements are nested at most so deep: in the namespaces that it can use, in the
values and field names of the models, in the attributes and elements outside of models, and in the description of the resource
and of the tool. -/
structure Utf8Packet (d : Nat) (env : Env) (p : Packet) : Prop where
  about : IsUtf8 p.about
  toolkit : IsUtf8 p.toolkit
  spaces : ∀ q ns, p.doc.findNsByPrefix env q = some ns → IsUtf8 ns.name ∧ IsUtf8 ns.uri ∧ ':' ∉ ns.name
  outside : ∀ r ∈ p.doc.roots, IsUtf8 r.node.namespace_ ∧ (∀ a ∈ r.node.attrs, IsUtf8 a.name.loc ∧ IsUtf8 a.value) ∧
    SlimAll env.reg d r.node.nodes
  models : ∀ r ∈ p.doc.roots, ∀ m, r.model = some m → ∀ z infos tys vals, m.ty = .struct z infos tys → m.val = .struct vals →
    Utf8Vals tys infos vals ∧
    ∀ (i : Nat) f t v, infos[i]? = some f → tys[i]? = some t → vals[i]? = some v → fieldWritten f t v = true →
      IsUtf8 f.name ∧ TyNames IsUtf8 t ∧ tyDepth t < d

/-! ### Small facts -/

theorem lit8 (s : String) (h : ∀ c ∈ s.toList, c.toNat < 0x80) : IsUtf8 s.toList := ascii_utf8 h

theorem nil8 : IsUtf8 [] := ascii_utf8 (by simp)

theorem utf8_itoa (i : Int) : IsUtf8 (itoa i) := by
  refine ascii_utf8 (fun c hc => ?_)
  by_cases h1 : isDigit c = true
  · rw [isDigit, Bool.and_eq_true, decide_eq_true_eq, decide_eq_true_eq] at h1
    omega
  · by_cases h2 : c = '-'
    · subst h2; decide
    · exact absurd hc (itoa_not_mem (by simpa using h1) h2 i)

theorem simple_text8 {v : Val} (h : BareUtf8 v) {s : Str} (hs : marshalSimple v = some s) : IsUtf8 s := by
  cases v with
  | int i => simp only [marshalSimple, Option.some.injEq] at hs; exact hs ▸ utf8_itoa i
  | bool b => simp only [marshalSimple, Option.some.injEq] at hs; subst hs; cases b <;> exact ascii_utf8 (by decide)
  | str t => simp only [marshalSimple, Option.some.injEq] at hs; exact hs ▸ h t (Or.inl rfl)
  | bytes t => simp only [marshalSimple, Option.some.injEq] at hs; exact hs ▸ h t (Or.inr rfl)
  | _ => simp [marshalSimple] at hs

theorem xmlVal_bare8 : ∀ {t : Ty} {v : Val}, Utf8Val t v → BareUtf8 v
  | .text _, _, h => by rw [Utf8Val] at h; exact h.1
  | .alt, _, h => by rw [Utf8Val] at h; exact h.1
  | .slice _ _, _, h => by rw [Utf8Val] at h; exact h.1
  | .ptr _, _, h => by rw [Utf8Val] at h; exact h.1
  | .struct _ _ _, _, h => by rw [Utf8Val] at h; exact h.1
  | .int _, _, h => by rw [Utf8Val] at h; exact h
  | .uint _, _, h => by rw [Utf8Val] at h; exact h
  | .bool, _, h => by rw [Utf8Val] at h; exact h
  | .str, _, h => by rw [Utf8Val] at h; exact h
  | .bytes, _, h => by rw [Utf8Val] at h; exact h

theorem leaf_text8 {t : Ty} {v : Val} (h : Utf8Val t v) {s : Str} (hs : leafText t v = some (some s)) : IsUtf8 s := by
  unfold leafText at hs
  split at hs
  · rename_i c n
    rw [Utf8Val] at h
    exact h.2 n s rfl hs
  · rw [Option.map_eq_some_iff] at hs
    obtain ⟨s', h1, h2⟩ := hs
    cases h2
    exact simple_text8 (xmlVal_bare8 h) h1

theorem attr_text8 {t : Ty} {v : Val} (h : Utf8Val t v) {s : Str} (hs : attrText t v = some (some s)) : IsUtf8 s := by
  unfold attrText at hs
  split at hs
  · rename_i t v
    rw [Utf8Val] at h
    exact leaf_text8 (h.2 v rfl) hs
  · cases hs
  · exact leaf_text8 h hs

/-! ### Trees -/

variable {r : Registry}

theorem slimAll_iff {d : Nat} : ∀ {l : List Node}, SlimAll r d l ↔ ∀ y ∈ l, d ≠ 0 ∧ IsUtf8 (y.fullName r) ∧ Slim r (d - 1) y
  | [] => by simp [SlimAll]
  | x :: l => by rw [SlimAll, slimAll_iff, forall_mem_cons]

theorem slim_new (d : Nat) (n : QName) : Slim r d (Node.new n) := by
  refine ⟨nil8, ?_, trivial⟩
  intro a ha; cases ha

theorem slim_setValue {d : Nat} {x : Node} (h : Slim r d x) {s : Str} (hs : IsUtf8 s) : Slim r d (x.setValue s) := by
  obtain ⟨n, a, v, l⟩ := x
  exact ⟨hs, h.2⟩

theorem slim_addAttr {d : Nat} {x : Node} (h : Slim r d x) {a : Attr} (ha : IsUtf8 a.name.loc ∧ IsUtf8 a.value) : Slim r d (x.addAttr a) := by
  obtain ⟨n, as, v, l⟩ := x
  refine ⟨h.1, ?_, h.2.2⟩
  have key : ∀ as : List Attr, (∀ b ∈ as, IsUtf8 b.name.loc ∧ IsUtf8 b.value) →
      ∀ b ∈ AttrList.addAttr a as, IsUtf8 b.name.loc ∧ IsUtf8 b.value := by
    intro as
    induction as with
    | nil => intro _ b hb; rw [AttrList.addAttr, mem_singleton] at hb; exact hb ▸ ha
    | cons c as ih =>
      intro hall b hb
      rw [AttrList.addAttr] at hb
      split at hb
      · rcases mem_cons.1 hb with rfl | hb
        · exact ⟨(hall c (by simp)).1, ha.2⟩
        · exact hall b (mem_cons_of_mem _ hb)
      · rcases mem_cons.1 hb with rfl | hb
        · exact hall b (by simp)
        · exact ih (fun d hd => hall d (mem_cons_of_mem _ hd)) b hb
  exact key as h.2.1

theorem slim_addNode {d : Nat} {x y : Node} (h : Slim r (d + 1) x) (hn : IsUtf8 (y.fullName r)) (hy : Slim r d y) : Slim r (d + 1) (x.addNode y) := by
  obtain ⟨n, as, v, l⟩ := x
  refine ⟨h.1, h.2.1, slimAll_iff.2 ?_⟩
  exact addNode_mem (P := fun y => d + 1 ≠ 0 ∧ IsUtf8 (y.fullName r) ∧ Slim r (d + 1 - 1) y) ⟨by omega, hn, hy⟩ (slimAll_iff.1 h.2.2)

theorem slim_setNodes {d : Nat} {x : Node} (h : Slim r d x) {l : List Node} (hl : SlimAll r d l) : Slim r d (x.setNodes l) := by
  obtain ⟨n, as, v, k⟩ := x
  exact ⟨h.1, h.2.1, hl⟩

theorem fullName_bare {y : Node} {s : Str} (h : y.xmlName = ⟨[], s⟩) : y.fullName r = s := by
  simp [Node.fullName, h]

/-! ### What is written -/

/-- A step of the encoder keeps the name of a node and texts and depth inside of it. -/
def KeepsSlim (r : Registry) (d : Nat) (x y : Node) : Prop := y.xmlName = x.xmlName ∧ (Slim r d x → Slim r d y)

theorem slim_attr {d : Nat} {f : FieldInfo} {t : Ty} {v : Val} {x y : Node} (hn : IsUtf8 f.name) (hv : Utf8Val t v)
    (h : marshalAttr f t v x = some y) : KeepsSlim r d x y := by
  unfold marshalAttr at h
  split at h
  · cases h
  · cases h; exact ⟨rfl, id⟩
  · rename_i s hs
    cases h
    exact ⟨qname_addAttr _ _, fun hi => slim_addAttr hi ⟨hn, attr_text8 hv hs⟩⟩

theorem slim_attrs {d : Nat} : ∀ {fs : List FieldInfo} {ts : List Ty} {vs : List Val} {x y : Node}, (∀ f ∈ fs, IsUtf8 f.name) →
    Utf8Vals ts fs vs → marshalAttrs fs ts vs x = some y → KeepsSlim r d x y
  | f :: fs, t :: ts, v :: vs, x, y, hn, hv, h => by
    rw [Utf8Vals] at hv
    rw [marshalAttrs] at h
    split at h
    · rename_i hw
      rw [Bool.and_eq_true] at hw
      split at h
      · cases h
      · rename_i z hz
        have h1 := slim_attr (r := r) (d := d) (hn f (by simp)) (hv.1 hw.2) hz
        have h2 := slim_attrs (d := d) (fun g hg => hn g (mem_cons_of_mem _ hg)) hv.2 h
        exact ⟨h2.1.trans h1.1, fun hi => h2.2 (h1.2 hi)⟩
    · exact slim_attrs (fun g hg => hn g (mem_cons_of_mem _ hg)) hv.2 h
  | [], _, _, x, y, _, _, h => by simp [marshalAttrs] at h; exact h ▸ ⟨rfl, id⟩
  | _ :: _, [], _, x, y, _, _, h => by simp [marshalAttrs] at h; exact h ▸ ⟨rfl, id⟩
  | _ :: _, _ :: _, [], x, y, _, _, h => by simp [marshalAttrs] at h; exact h ▸ ⟨rfl, id⟩

theorem array_utf8 : ∀ typ : ArrayType, IsUtf8 ("rdf:".toList ++ typ.toStr)
  | .ordered => ascii_utf8 (by decide)
  | .unordered => ascii_utf8 (by decide)
  | .alternative => ascii_utf8 (by decide)

theorem slim_array {α : Type} {d : Nat} {enc : ElemEnc α} {typ : ArrayType} {items : List α} {x y : Node}
    (he : ∀ v ∈ items, ∀ z, enc v liNode = some z → KeepsSlim r d liNode z) (h : marshalArray enc typ items x = some y) : KeepsSlim r (d + 2) x y := by
  unfold marshalArray at h
  split at h
  · cases h; exact ⟨rfl, id⟩
  · rw [Option.map_eq_some_iff] at h
    obtain ⟨lis, h1, rfl⟩ := h
    refine ⟨qname_addNode _ _, fun hi => slim_addNode hi ?_ (slim_setNodes (slim_new _ _) (slimAll_iff.2 ?_))⟩
    · rw [fullName_bare (s := "rdf:".toList ++ typ.toStr) (by rw [qname_setNodes]; rfl)]
      exact array_utf8 typ
    · intro z hz
      obtain ⟨v, hv, e⟩ := mapM_mem h1 z hz
      have := he v hv z e
      exact ⟨by omega, by rw [fullName_bare this.1]; exact lit8 "rdf:li" (by decide), this.2 (slim_new _ _)⟩

theorem slim_altItem {d n : Nat} {i : AltItem} (h : IsUtf8 i.value ∧ IsUtf8 i.lang) {l : List Node} (hl : marshalAltItem n i = some l) :
    SlimAll r (d + 1) l := by
  have e0 : Slim r d liNode := slim_new _ _
  have e1 : ∀ y : Node, Slim r d y → ∀ s, IsUtf8 s → Slim r d (y.addStringAttr "xml:lang".toList s) :=
    fun y hy s hs => slim_addAttr hy ⟨lit8 "xml:lang" (by decide), hs⟩
  have nm : ∀ (y : Node) s, y.xmlName = liNode.xmlName → (y.addStringAttr "xml:lang".toList s).xmlName = liNode.xmlName :=
    fun y s hy => (qname_addAttr _ _).trans hy
  have fin : ∀ y : Node, y.xmlName = liNode.xmlName → Slim r d y → d + 1 ≠ 0 ∧ IsUtf8 (y.fullName r) ∧ Slim r (d + 1 - 1) y :=
    fun y h1 h2 => ⟨by omega, by rw [fullName_bare h1]; exact lit8 "rdf:li" (by decide), h2⟩
  have hd : IsUtf8 "x-default".toList := lit8 "x-default" (by decide)
  have d1 : Slim r d ((liNode.addStringAttr "xml:lang".toList "x-default".toList).setValue i.value) :=
    slim_setValue (e1 _ e0 _ hd) h.1
  have n1 : ((liNode.addStringAttr "xml:lang".toList "x-default".toList).setValue i.value).xmlName = liNode.xmlName :=
    (qname_setValue _ _).trans (nm _ _ rfl)
  rw [slimAll_iff]
  unfold marshalAltItem at hl
  simp only at hl
  generalize hel : (if (i.isDefault || n == 1) = true then (liNode.addStringAttr "xml:lang".toList "x-default".toList).setValue i.value else liNode) = el at hl
  have hel' : Slim r d el ∧ el.xmlName = liNode.xmlName := by
    rw [← hel]
    split
    · exact ⟨d1, n1⟩
    · exact ⟨e0, rfl⟩
  split at hl
  · cases hl
    intro x hx
    rw [mem_singleton.1 hx]
    exact fin _ hel'.2 hel'.1
  · split at hl
    · cases hl
      intro x hx
      rcases mem_cons.1 hx with rfl | hx
      · exact fin _ hel'.2 hel'.1
      · rw [mem_singleton.1 hx]
        exact fin _ ((qname_setValue _ _).trans (nm _ _ rfl)) (slim_setValue (e1 _ e0 _ h.2) h.1)
    · split at hl
      · cases hl
        intro x hx
        rw [mem_singleton.1 hx]
        exact fin _ ((qname_setValue _ _).trans (nm _ _ hel'.2)) (slim_setValue (e1 _ hel'.1 _ h.2) h.1)
      · cases hl

theorem slim_alt {d : Nat} {a : AltString} (ha : ∀ i ∈ a, IsUtf8 i.value ∧ IsUtf8 i.lang) {x y : Node} (h : a.marshalXMP x = some y) :
    KeepsSlim r (d + 2) x y := by
  unfold AltString.marshalXMP at h
  split at h
  · cases h; exact ⟨rfl, id⟩
  · rw [Option.map_eq_some_iff] at h
    obtain ⟨lis, h1, rfl⟩ := h
    refine ⟨qname_addNode _ _, fun hi => slim_addNode hi ?_ (slim_setNodes (slim_new _ _) (slimAll_iff.2 ?_))⟩
    · rw [fullName_bare (s := "rdf:".toList ++ ArrayType.alternative.toStr) (by rw [qname_setNodes]; rfl)]
      exact array_utf8 .alternative
    intro z hz
    obtain ⟨l, hl, hz⟩ := mem_flatten.1 hz
    obtain ⟨i, hi', e⟩ := mapM_mem h1 l hl
    exact slimAll_iff.1 (slim_altItem (ha i hi') e) z hz

theorem slim_simple {d : Nat} {v : Val} (hb : BareUtf8 v) {x y : Node} (h : (marshalSimple v).map x.setValue = some y) : KeepsSlim r d x y := by
  rw [Option.map_eq_some_iff] at h
  obtain ⟨s, h1, rfl⟩ := h
  exact ⟨qname_setValue _ _, fun hi => slim_setValue hi (simple_text8 hb h1)⟩

mutual
theorem slim_value : ∀ (t : Ty) (v : Val) (d : Nat) (x y : Node), TyNames IsUtf8 t → tyDepth t ≤ d → Utf8Val t v → marshalValue t v x = some y → KeepsSlim r d x y
  | .ptr t, v, d, x, y, hn, hd, hv, h => by
    rw [Utf8Val] at hv
    rw [TyNames] at hn
    rw [tyDepth] at hd
    cases v with
    | ptr w => exact slim_value t w d x y hn hd (hv.2 w rfl) (by simpa [marshalValue] using h)
    | _ => simp [marshalValue] at h; exact h ▸ ⟨rfl, id⟩
  | .text c, v, d, x, y, hn, hd, hv, h => by
    rw [Utf8Val] at hv
    cases v with
    | opq k =>
      rw [marshalValue] at h
      split at h
      · cases h
      · cases h; exact ⟨rfl, id⟩
      · rename_i s hs
        cases h
        exact ⟨qname_setValue _ _, fun hi => slim_setValue hi (hv.2 k s rfl hs)⟩
    | _ => simp [marshalValue] at h
  | .alt, v, d, x, y, hn, hd, hv, h => by
    rw [Utf8Val] at hv
    rw [tyDepth] at hd
    cases v with
    | alt a =>
      have := slim_alt (r := r) (d := d - 2) (hv.2 a rfl) (by simpa [marshalValue] using h)
      rwa [show d - 2 + 2 = d by omega] at this
    | _ => simp [marshalValue] at h
  | .slice typ t, v, d, x, y, hn, hd, hv, h => by
    rw [Utf8Val] at hv
    rw [TyNames] at hn
    rw [tyDepth] at hd
    cases v with
    | slice items e =>
      rw [marshalValue] at h
      have := slim_array (r := r) (d := d - 2) (fun w hw z hz => slim_value t w _ _ z hn (by omega) (hv.2 items e rfl w hw) hz) h
      rwa [show d - 2 + 2 = d by omega] at this
    | _ => simp [marshalValue] at h
  | .struct z infos tys, v, d, x, y, hn, hd, hv, h => by
    rw [Utf8Val] at hv
    rw [TyNames] at hn
    rw [tyDepth] at hd
    cases v with
    | struct vals =>
      have hf := hv.2 vals rfl
      rw [marshalValue] at h
      split at h
      · cases h
      · rename_i a ha
        have h1 := slim_attrs (r := r) (d := d) hn.1 hf ha
        split at h
        · cases h
        · rename_i b hf' hb
          cases h
          obtain ⟨e, rfl⟩ : ∃ e, d = e + 1 := ⟨d - 1, by omega⟩
          have h2 := slim_fields tys infos vals e a b hf' hn.2 hn.1 (by omega) hf hb
          have h3 : KeepsSlim r (e + 1) x b := ⟨h2.1.trans h1.1, fun hi => h2.2 (h1.2 hi)⟩
          split
          · refine ⟨(qname_addAttr _ _).trans h3.1, fun hi => slim_addAttr (h3.2 hi) ⟨ascii_utf8 (by decide), ascii_utf8 (by decide)⟩⟩
          · exact h3
    | _ => simp [marshalValue] at h
  | .int _, v, d, x, y, _, _, hv, h => by rw [Utf8Val] at hv; rw [marshalValue] at h; exact slim_simple hv h
  | .uint _, v, d, x, y, _, _, hv, h => by rw [Utf8Val] at hv; rw [marshalValue] at h; exact slim_simple hv h
  | .bool, v, d, x, y, _, _, hv, h => by rw [Utf8Val] at hv; rw [marshalValue] at h; exact slim_simple hv h
  | .str, v, d, x, y, _, _, hv, h => by rw [Utf8Val] at hv; rw [marshalValue] at h; exact slim_simple hv h
  | .bytes, v, d, x, y, _, _, hv, h => by rw [Utf8Val] at hv; rw [marshalValue] at h; exact slim_simple hv h
theorem slim_fields : ∀ (ts : List Ty) (fs : List FieldInfo) (vs : List Val) (d : Nat) (x y : Node) (b : Bool), TysNames IsUtf8 ts →
    (∀ f ∈ fs, IsUtf8 f.name) → tysDepth ts ≤ d → Utf8Vals ts fs vs → marshalFields ts fs vs x = some (y, b) → KeepsSlim r (d + 1) x y
  | t :: ts, f :: fs, v :: vs, d, x, y, b, hn, hf, hd, hv, h => by
    rw [Utf8Vals] at hv
    rw [TysNames] at hn
    rw [tysDepth] at hd
    have hf' : ∀ g ∈ fs, IsUtf8 g.name := fun g hg => hf g (mem_cons_of_mem _ hg)
    rw [marshalFields] at h
    split at h
    · rename_i hw
      rw [Bool.and_eq_true] at hw
      split at h
      · cases h
      · rename_i z hz
        have h1 := slim_value t v d _ z hn.1 (by omega) (hv.1 hw.2) hz
        split at h
        · cases h
        · rename_i w c hc
          cases h
          have h2 := slim_fields ts fs vs d _ _ c hn.2 hf' (by omega) hv.2 hc
          refine ⟨h2.1.trans (qname_addNode _ _), fun hi => h2.2 (slim_addNode hi ?_ (h1.2 (slim_new _ _)))⟩
          rw [fullName_bare h1.1]
          exact hf f (by simp)
    · exact slim_fields ts fs vs d x y b hn.2 hf' (by omega) hv.2 h
  | [], _, _, d, x, y, b, _, _, _, _, h => by simp [marshalFields] at h; exact h.1 ▸ ⟨rfl, id⟩
  | _ :: _, [], _, d, x, y, b, _, _, _, _, h => by simp [marshalFields] at h; exact h.1 ▸ ⟨rfl, id⟩
  | _ :: _, _ :: _, [], d, x, y, b, _, _, _, _, h => by simp [marshalFields] at h; exact h.1 ▸ ⟨rfl, id⟩
end

/-! ### Documents -/

/-- A wrapper node. -/
def Wraps (r : Registry) (d : Nat) (w : Node) : Prop := IsUtf8 w.namespace_ ∧ Slim r d w

theorem wraps_same {d : Nat} {x y : Node} (h : KeepsSlim r d x y) (hw : Wraps r d x) : Wraps r d y := by
  refine ⟨?_, h.2 hw.2⟩
  have := hw.1
  unfold Node.namespace_ at this ⊢
  rwa [h.1]

theorem inWrapper_wraps {d : Nat} {ns : Namespace} (hns : IsUtf8 ns.name ∧ ':' ∉ ns.name) {f : Node → Option Node}
    (hf : ∀ x y, f x = some y → KeepsSlim r d x y)
    {ws ws' : List Node} (hw : ∀ w ∈ ws, Wraps r d w) (h : Enc.inWrapper ns f ws = some ws') : ∀ w ∈ ws', Wraps r d w := by
  unfold Enc.inWrapper at h
  split at h
  · split at h
    · rename_i i _ w hi
      rw [Option.map_eq_some_iff] at h
      obtain ⟨y, h1, rfl⟩ := h
      intro z hz
      rcases mem_or_eq_of_mem_set hz with hz | rfl
      · exact hw z hz
      · exact wraps_same (hf w z h1) (hw w (mem_of_getElem? hi))
    · cases h
  · rw [Option.map_eq_some_iff] at h
    obtain ⟨y, h1, rfl⟩ := h
    refine addNode_mem (wraps_same (hf _ y h1) ⟨?_, slim_new _ _⟩) hw
    show IsUtf8 (getPrefix ns.name)
    rw [getPrefix_none hns.2]
    exact hns.1

variable {d : Nat} {env : Env} {p : Packet}

theorem findNs_plain (hp : Utf8Packet d env p) {f : FieldInfo} {ns : Namespace} (h : Enc.findNs env p.doc ⟨[], f.name⟩ = some ns) :
    IsUtf8 ns.name ∧ ':' ∉ ns.name := by
  simp only [Enc.findNs, ne_eq, not_true_eq_false, if_false] at h
  have := hp.spaces _ _ h
  exact ⟨this.1, this.2.2⟩

theorem encAttrs_wraps (hp : Utf8Packet d env p) : ∀ (fs : List FieldInfo) (ts : List Ty) (vs : List Val) (ws ws' : List Node),
    Utf8Vals ts fs vs →
    (∀ (i : Nat) f t v, fs[i]? = some f → ts[i]? = some t → vs[i]? = some v → fieldWritten f t v = true → IsUtf8 f.name) →
    (∀ w ∈ ws, Wraps env.reg d w) → Enc.attrs env p.doc fs ts vs ws = some ws' → ∀ w ∈ ws', Wraps env.reg d w
  | f :: fs, t :: ts, v :: vs, ws, ws', hv, hn, hw, h => by
    rw [Utf8Vals] at hv
    have hn' : ∀ (i : Nat) g s u, fs[i]? = some g → ts[i]? = some s → vs[i]? = some u → fieldWritten g s u = true → IsUtf8 g.name :=
      fun i g s u h1 h2 h3 => hn (i + 1) g s u (by simpa using h1) (by simpa using h2) (by simpa using h3)
    rw [Enc.attrs] at h
    split at h
    · rename_i hwr
      rw [Bool.and_eq_true] at hwr
      split at h
      · cases h
      · rename_i ns hns
        split at h
        · cases h
        · rename_i ws1 h1
          refine encAttrs_wraps hp fs ts vs ws1 ws' hv.2 hn' (inWrapper_wraps (findNs_plain hp hns) ?_ hw h1) h
          intro x y hxy
          exact slim_attr (hn 0 f t v rfl rfl rfl hwr.2) (hv.1 hwr.2) hxy
    · exact encAttrs_wraps hp fs ts vs ws ws' hv.2 hn' hw h
  | [], _, _, ws, ws', _, _, hw, h => by simp [Enc.attrs] at h; exact h ▸ hw
  | _ :: _, [], _, ws, ws', _, _, hw, h => by simp [Enc.attrs] at h; exact h ▸ hw
  | _ :: _, _ :: _, [], ws, ws', _, _, hw, h => by simp [Enc.attrs] at h; exact h ▸ hw

theorem encFields_wraps (hp : Utf8Packet d env p) : ∀ (fs : List FieldInfo) (ts : List Ty) (vs : List Val) (ws ws' : List Node),
    Utf8Vals ts fs vs →
    (∀ (i : Nat) f t v, fs[i]? = some f → ts[i]? = some t → vs[i]? = some v → fieldWritten f t v = true →
      IsUtf8 f.name ∧ TyNames IsUtf8 t ∧ tyDepth t < d) →
    (∀ w ∈ ws, Wraps env.reg d w) → Enc.fields env p.doc fs ts vs ws = some ws' → ∀ w ∈ ws', Wraps env.reg d w
  | f :: fs, t :: ts, v :: vs, ws, ws', hv, hn, hw, h => by
    rw [Utf8Vals] at hv
    have hn' : ∀ (i : Nat) g s u, fs[i]? = some g → ts[i]? = some s → vs[i]? = some u → fieldWritten g s u = true →
        IsUtf8 g.name ∧ TyNames IsUtf8 s ∧ tyDepth s < d :=
      fun i g s u h1 h2 h3 => hn (i + 1) g s u (by simpa using h1) (by simpa using h2) (by simpa using h3)
    rw [Enc.fields] at h
    split at h
    · rename_i hwr
      rw [Bool.and_eq_true] at hwr
      split at h
      · cases h
      · rename_i ns hns
        split at h
        · cases h
        · rename_i ws1 h1
          refine encFields_wraps hp fs ts vs ws1 ws' hv.2 hn' (inWrapper_wraps (findNs_plain hp hns) ?_ hw h1) h
          intro x y hxy
          rw [Option.map_eq_some_iff] at hxy
          obtain ⟨z, hz, rfl⟩ := hxy
          obtain ⟨h2, h3, h4⟩ := hn 0 f t v rfl rfl rfl hwr.2
          obtain ⟨e, rfl⟩ : ∃ e, d = e + 1 := ⟨d - 1, by omega⟩
          have hk := slim_value (r := env.reg) t v e _ z h3 (by omega) (hv.1 hwr.2) hz
          exact ⟨qname_addNode _ _, fun hi => slim_addNode hi (by rw [fullName_bare hk.1]; exact h2) (hk.2 (slim_new _ _))⟩
    · exact encFields_wraps hp fs ts vs ws ws' hv.2 hn' hw h
  | [], _, _, ws, ws', _, _, hw, h => by simp [Enc.fields] at h; exact h ▸ hw
  | _ :: _, [], _, ws, ws', _, _, hw, h => by simp [Enc.fields] at h; exact h ▸ hw
  | _ :: _, _ :: _, [], ws, ws', _, _, hw, h => by simp [Enc.fields] at h; exact h ▸ hw

theorem external_wraps {n : Node} (hn : IsUtf8 n.namespace_ ∧ (∀ a ∈ n.attrs, IsUtf8 a.name.loc ∧ IsUtf8 a.value) ∧ SlimAll env.reg d n.nodes)
    {ws ws' : List Node} (hw : ∀ w ∈ ws, Wraps env.reg d w)
    (h : Enc.external env p.doc n ws = some ws') : ∀ w ∈ ws', Wraps env.reg d w := by
  unfold Enc.external at h
  split at h
  · cases h
  · split at h
    · rename_i i _
      cases h
      intro w hm
      rw [mem_iff_getElem?] at hm
      obtain ⟨j, hj⟩ := hm
      rw [getElem?_modify] at hj
      split at hj
      · rw [Option.map_eq_map, Option.map_eq_some_iff] at hj
        obtain ⟨x, hx, rfl⟩ := hj
        have hx := hw x (mem_of_getElem? hx)
        obtain ⟨m, as, v, k⟩ := x
        refine ⟨hx.1, hx.2.1, ?_, slimAll_iff.2 ?_⟩
        · intro a hm
          rcases mem_append.1 hm with hm | hm
          · exact hx.2.2.1 a hm
          · exact hn.2.1 a hm
        · intro y hm
          rcases mem_append.1 hm with hm | hm
          · exact slimAll_iff.1 hx.2.2.2 y hm
          · exact slimAll_iff.1 hn.2.2 y hm
      · rw [Option.map_eq_map, Option.map_id'] at hj
        exact hw w (mem_of_getElem? hj)
    · cases h
      exact addNode_mem ⟨hn.1, nil8, hn.2.1, hn.2.2⟩ hw

theorem roots_wraps (hp : Utf8Packet d env p) : ∀ (rs : List Root) (ws ws' : List Node), (∀ r ∈ rs, r ∈ p.doc.roots) →
    (∀ w ∈ ws, Wraps env.reg d w) → Enc.roots env p.doc rs ws = some ws' → ∀ w ∈ ws', Wraps env.reg d w
  | [], ws, ws', _, hw, h => by simp [Enc.roots] at h; exact h ▸ hw
  | r :: rs, ws, ws', hr, hw, h => by
    rw [Enc.roots] at h
    have hrm := hr r (by simp)
    have hm : ∀ ws1, (match r.model with | some m => Enc.model env p.doc m ws | none => some ws) = some ws1 → ∀ w ∈ ws1, Wraps env.reg d w := by
      intro ws1 h1
      split at h1
      · rename_i m hmod
        unfold Enc.model at h1
        split at h1
        · rename_i z infos tys vals e1 e2
          obtain ⟨hx, hn⟩ := hp.models r hrm m hmod z infos tys vals e1 e2
          split at h1
          · cases h1
          · rename_i ws2 h2
            exact encFields_wraps hp infos tys vals ws2 ws1 hx hn
              (encAttrs_wraps hp infos tys vals ws ws2 hx (fun i f t v a b c d => (hn i f t v a b c d).1) hw h2) h1
        · cases h1
      · cases h1; exact hw
    split at h
    · cases h
    · rename_i ws1 h1
      split at h
      · cases h
      · rename_i ws2 h2
        exact roots_wraps hp rs ws2 ws' (fun x hx => hr x (mem_cons_of_mem _ hx))
          (external_wraps (hp.outside r hrm) (hm ws1 h1) h2) h

/-! ### The JSON form -/

theorem utf8Fields_iff {m : List (Str × Json)} : Utf8Fields m ↔ ∀ e ∈ m, IsUtf8 e.1 ∧ Utf8Tree e.2 := by
  induction m with
  | nil => simp [Utf8Fields]
  | cons e m ih => obtain ⟨k, j⟩ := e; rw [Utf8Fields, ih, forall_mem_cons]

theorem fitsFields_iff {d : Nat} {m : List (Str × Json)} : FitsFields d m ↔ ∀ e ∈ m, Fits d e.2 := by
  induction m with
  | nil => simp [FitsFields]
  | cons e m ih => obtain ⟨k, j⟩ := e; rw [FitsFields, ih, forall_mem_cons]

theorem utf8Items_iff {l : List Json} : Utf8Items l ↔ ∀ j ∈ l, Utf8Tree j := by
  induction l with
  | nil => simp [Utf8Items]
  | cons e m ih => rw [Utf8Items, ih, forall_mem_cons]

theorem fitsItems_iff {d : Nat} {l : List Json} : FitsItems d l ↔ ∀ j ∈ l, Fits d j := by
  induction l with
  | nil => simp [FitsItems]
  | cons e m ih => rw [FitsItems, ih, forall_mem_cons]

mutual
theorem fits_mono : ∀ (j : Json) (d e : Nat), d ≤ e → Fits d j → Fits e j
  | .str _, _, _, _, _ => trivial
  | .num _, _, _, _, h => by simp [Fits] at h
  | .bool _, _, _, _, _ => trivial
  | .null, _, _, _, _ => trivial
  | .arr l, d, e, hde, h => by
    cases d with
    | zero => simp [Fits] at h
    | succ d =>
      obtain ⟨e, rfl⟩ : ∃ e', e = e' + 1 := ⟨e - 1, by omega⟩
      rw [Fits] at h ⊢
      exact fitsItems_mono l d e (by omega) h
  | .obj m, d, e, hde, h => by
    cases d with
    | zero => simp [Fits] at h
    | succ d =>
      obtain ⟨e, rfl⟩ : ∃ e', e = e' + 1 := ⟨e - 1, by omega⟩
      rw [Fits] at h ⊢
      exact fitsFields_mono m d e (by omega) h
theorem fitsItems_mono : ∀ (l : List Json) (d e : Nat), d ≤ e → FitsItems d l → FitsItems e l
  | [], _, _, _, _ => by simp [FitsItems]
  | j :: l, d, e, hde, h => by
    rw [FitsItems] at h ⊢
    exact ⟨fits_mono j d e hde h.1, fitsItems_mono l d e hde h.2⟩
theorem fitsFields_mono : ∀ (l : List (Str × Json)) (d e : Nat), d ≤ e → FitsFields d l → FitsFields e l
  | [], _, _, _, _ => by simp [FitsFields]
  | (k, j) :: l, d, e, hde, h => by
    rw [FitsFields] at h ⊢
    exact ⟨fits_mono j d e hde h.1, fitsFields_mono l d e hde h.2⟩
end

/-- The entries of an object. -/
def GoodMap (d : Nat) (m : GoMap Json) : Prop := ∀ e ∈ m, IsUtf8 e.1 ∧ Utf8Tree e.2 ∧ Fits d e.2

theorem goodMap_set {m : GoMap Json} (h : GoodMap d m) {k : Str} {j : Json} (hk : IsUtf8 k) (hj : Utf8Tree j ∧ Fits d j) : GoodMap d (m.set k j) := by
  intro e he
  rcases mem_set.1 he with rfl | he
  · exact ⟨hk, hj⟩
  · exact h e he.1

theorem goodMap_obj {m : GoMap Json} (h : GoodMap d m) : Utf8Tree (.obj m) ∧ Fits (d + 1) (.obj m) := by
  rw [Utf8Tree, Fits]
  exact ⟨utf8Fields_iff.2 fun e he => ⟨(h e he).1, (h e he).2.1⟩, fitsFields_iff.2 fun e he => (h e he).2.2⟩

theorem goodMap_attrs : ∀ (as : List Attr) (m : GoMap Json), (∀ a ∈ as, IsUtf8 a.name.loc ∧ IsUtf8 a.value) → GoodMap d m → GoodMap d (Json.ofAttrs as m)
  | [], m, _, hm => hm
  | a :: as, m, h, hm => by
    rw [Json.ofAttrs]
    refine goodMap_attrs as _ (fun b hb => h b (mem_cons_of_mem _ hb)) ?_
    split
    · exact hm
    · exact goodMap_set hm (h a (by simp)).1 ⟨(h a (by simp)).2, trivial⟩

theorem slim_parts {x : Node} (h : Slim r d x) : IsUtf8 x.value ∧ (∀ a ∈ x.attrs, IsUtf8 a.name.loc ∧ IsUtf8 a.value) ∧ SlimAll r d x.nodes := by
  obtain ⟨n, a, v, l⟩ := x
  exact h

theorem altItem_utf8 {x : Node} (h : Slim r d x) : IsUtf8 (Json.altItem x).value ∧ IsUtf8 (Json.altItem x).lang := by
  obtain ⟨h1, h2, -⟩ := slim_parts h
  refine ⟨h1, ?_⟩
  unfold Json.altItem
  simp only
  split
  · rename_i a as ha
    have : a ∈ x.getAttr [] "lang".toList := by rw [ha]; simp
    unfold Node.getAttr at this
    exact (h2 a (mem_filter.1 this).1).2
  · exact nil8

theorem altItems_utf8 {l : List Node} (h : SlimAll r d l) : ∀ i ∈ Json.altItems l, IsUtf8 i.value ∧ IsUtf8 i.lang := by
  have h0 : ∀ i ∈ l.map Json.altItem, IsUtf8 i.value ∧ IsUtf8 i.lang := by
    intro i hi
    obtain ⟨x, hx, rfl⟩ := mem_map.1 hi
    exact altItem_utf8 (slimAll_iff.1 h x hx).2.2
  unfold Json.altItems
  simp only
  split
  · exact h0
  · split
    · intro i hi
      obtain ⟨y, hy, rfl⟩ := mem_map.1 (mem_of_mem_eraseIdx hi)
      split
      · exact h0 y hy
      · exact h0 y hy
    · exact h0

theorem ofAltItem_good {i : AltItem} (h : IsUtf8 i.value ∧ IsUtf8 i.lang) : Utf8Tree (Json.ofAltItem i) ∧ Fits 1 (Json.ofAltItem i) := by
  unfold Json.ofAltItem
  simp only [Utf8Tree, Utf8Fields, Fits, FitsFields, and_true]
  exact ⟨⟨lit8 "value" (by decide), h.1⟩, ⟨lit8 "lang" (by decide), h.2⟩, lit8 "isDefault" (by decide)⟩

mutual
theorem slim_json : ∀ (x : Node) (d : Nat), Slim r d x → Utf8Tree (Json.ofNode r x) ∧ Fits (d + 1) (Json.ofNode r x)
  | .mk n a v l, d, h => by
    rw [Json.ofNode]
    split
    · exact ⟨h.1, trivial⟩
    · exact slim_children l d _ h.2.2 (goodMap_attrs a [] h.2.1 (by intro e he; cases he))
theorem slim_children : ∀ (l : List Node) (d : Nat) (m : GoMap Json), SlimAll r d l → GoodMap d m →
    Utf8Tree (Json.ofChildren r l m) ∧ Fits (d + 1) (Json.ofChildren r l m)
  | [], d, m, _, hm => by rw [Json.ofChildren]; exact goodMap_obj hm
  | x :: l, d, m, h, hm => by
    rw [SlimAll] at h
    obtain ⟨⟨h0, h1, h2⟩, h3⟩ := h
    obtain ⟨e, rfl⟩ : ∃ e, d = e + 1 := ⟨d - 1, by omega⟩
    rw [Json.ofChildren]
    split
    · have := slim_arr x e h2
      exact ⟨this.1, fits_mono _ _ _ (by omega) this.2⟩
    · split
      · exact slim_alts x e h2
      · exact slim_children l (e + 1) _ h3 (goodMap_set hm h1 (slim_json x e h2))
theorem slim_arr : ∀ (x : Node) (d : Nat), Slim r d x → Utf8Tree (Json.ofArray r x) ∧ Fits (d + 1) (Json.ofArray r x)
  | .mk n a v l, d, h => by
    rw [Json.ofArray, Utf8Tree, Fits]
    exact slim_items l d h.2.2
theorem slim_alts : ∀ (x : Node) (d : Nat), Slim r d x → Utf8Tree (Json.ofAlt r x) ∧ Fits (d + 2) (Json.ofAlt r x)
  | .mk n a v l, d, h => by
    rw [Json.ofAlt.eq_def]
    simp only
    split
    · rename_i n' a' v' y ys zs
      rw [Utf8Tree, Fits]
      have := slim_items (.mk n' a' v' (y :: ys) :: zs) d h.2.2
      exact ⟨this.1, fitsItems_mono _ _ _ (by omega) this.2⟩
    · rw [Utf8Tree, Fits, utf8Items_iff, fitsItems_iff]
      refine ⟨fun j hj => ?_, fun j hj => ?_⟩
      · obtain ⟨i, hi, rfl⟩ := mem_map.1 hj
        exact (ofAltItem_good (altItems_utf8 h.2.2 i hi)).1
      · obtain ⟨i, hi, rfl⟩ := mem_map.1 hj
        exact fits_mono _ _ _ (by omega) (ofAltItem_good (altItems_utf8 h.2.2 i hi)).2
theorem slim_items : ∀ (l : List Node) (d : Nat), SlimAll r d l → Utf8Items (Json.ofItems r l) ∧ FitsItems d (Json.ofItems r l)
  | [], d, _ => by rw [Json.ofItems]; exact ⟨trivial, by simp [FitsItems]⟩
  | x :: l, d, h => by
    rw [SlimAll] at h
    obtain ⟨⟨h0, -, h2⟩, h3⟩ := h
    obtain ⟨e, rfl⟩ : ∃ e, d = e + 1 := ⟨d - 1, by omega⟩
    rw [Json.ofItems, Utf8Items, FitsItems]
    have h4 := slim_json x e h2
    have h5 := slim_items l (e + 1) h3
    exact ⟨⟨h4.1, h5.1⟩, h4.2, h5.2⟩
end

theorem modelsOf_good : ∀ (ws : List Node) (m : GoMap Json), (∀ w ∈ ws, Wraps r d w) → GoodMap (d + 1) m → GoodMap (d + 1) (JDoc.modelsOf r ws m)
  | [], m, _, hm => hm
  | w :: ws, m, h, hm => by
    rw [JDoc.modelsOf]
    refine modelsOf_good ws _ (fun x hx => h x (mem_cons_of_mem _ hx)) ?_
    split
    · exact hm
    · exact goodMap_set hm (h w (by simp)).1 (slim_json w d (h w (by simp)).2)

theorem addNamespaces_mem {Q : Str × Str → Prop} : ∀ (l : List Namespace) (m : GoMap Str), (∀ ns ∈ l, Q (ns.name, ns.uri)) → (∀ e ∈ m, Q e) →
    ∀ e ∈ JDoc.addNamespaces l m, Q e
  | [], m, _, hm => hm
  | ns :: l, m, h, hm => by
    rw [JDoc.addNamespaces]
    refine addNamespaces_mem l _ (fun x hx => h x (mem_cons_of_mem _ hx)) ?_
    split
    · exact hm
    · intro e he
      rcases mem_set.1 he with rfl | he
      · exact h ns (by simp)
      · exact hm e he.1

theorem namespacesOf_mem {Q : Str × Str → Prop} {e : XDoc} : ∀ (ws : List Node) (m : GoMap Str),
    (∀ w ∈ ws, ∀ ns ∈ Enc.namespaces env e w, Q (ns.name, ns.uri)) → (∀ x ∈ m, Q x) → ∀ x ∈ JDoc.namespacesOf env e ws m, Q x
  | [], m, _, hm => hm
  | w :: ws, m, h, hm => by
    rw [JDoc.namespacesOf]
    exact namespacesOf_mem ws _ (fun x hx => h x (mem_cons_of_mem _ hx)) (addNamespaces_mem _ _ (h w (by simp)) hm)

/-- **C75.** A document with texts of UTF-8 is written as JSON with texts of UTF-8, no deeper than its types and the elements
outside of models are nested. -/
theorem document_utf8 (d : Nat) (hd : d ≤ maxDepth - 3) (env : Env) (p : Packet) (hp : Utf8Packet d env p) (jd : JDoc)
    (h : JDoc.ofDoc env p = some jd) : DocUtf8 jd := by
  unfold JDoc.ofDoc at h
  split at h
  · cases h
  · rename_i ws hws
    cases h
    have hw := roots_wraps hp p.doc.roots [] ws (fun _ h => h) (by simp) hws
    refine ⟨hp.about, ?_, ?_, ?_⟩
    · show IsUtf8 (if _ then _ else _)
      split
      · exact ascii_utf8 (by decide)
      · exact hp.toolkit
    · refine namespacesOf_mem (Q := fun e => IsUtf8 e.1 ∧ IsUtf8 e.2) ws [] ?_ (by simp)
      intro w _ ns hns
      obtain ⟨q, hq⟩ := namespaces_found w ns hns
      have := hp.spaces q ns hq
      exact ⟨this.1, this.2.1⟩
    · intro e he
      have := modelsOf_good (r := env.reg) ws [] hw (by intro e he; cases he) e he
      exact ⟨this.1, this.2.1, fits_mono _ _ _ (by unfold maxDepth at *; omega) this.2.2⟩

/-- **C75.** From a document to JSON text and back: a document that meets the conditions of C53, with texts of UTF-8 and nested
less than 9998 deep, is written as JSON text, and the same document is read from the text, with whatever order of entries it is
written and visited.  Missing are the documents that C53 leaves out. -/
theorem document_json_text_roundtrip_partial (h : RegHistory) (env : Env) (dv : Version) (S : Str → Prop) (p : Packet)
    (hok : DocOK h env p.doc dv S) (hx : ¬ S "x".toList) (hj : ∀ r ∈ p.doc.roots, JRootOK env.reg r)
    (d : Nat) (hd : d ≤ maxDepth - 3) (hp : Utf8Packet d env p) (num : Str → Option Str) :
    ∃ jd, JDoc.ofDoc env p = some jd ∧ ∀ jd1, JDocSame jd jd1 →
      ∃ jd2, readDoc num (printDoc jd1) = some jd2 ∧ ∀ jd3, JDocSame jd2 jd3 → ∃ p', JDoc.toDoc env dv jd3 = .ok p' ∧
      p'.about = p.about ∧ p'.toolkit = (if p.toolkit = [] then Enc.toolkitVersion else p.toolkit) ∧
      (∃ rs, rs ~ withContent p.doc.roots ∧ Forall₂ (RootSame env.reg) rs p'.doc.roots) ∧
      ∀ r ∈ withContent p.doc.roots, ∀ q, Uses r q → S q → ∃ ns, p'.doc.findNsByPrefix env q = some ns ∧ ns.uri = bindOf env p.doc q := by
  obtain ⟨jd, h1, h2⟩ := json_text_document_roundtrip_partial h env dv S p hok hx hj num
  exact ⟨jd, h1, h2 (document_utf8 d hd env p hp jd h1)⟩

end Xmp.Props
