import Verif.Props.Embedded

/-! C74: which documents are written with names and texts of XML.  C69 and C70 ask for this of the tree that is written; here
it is traced back to the document. -/

namespace Xmp.Props

open GoStr Utf8 XmlBytes List

/-! ### Specification -/

/-- A string or a list of bytes is a text of XML. -/
def BareText (v : Val) : Prop := ∀ s, v = .str s ∨ v = .bytes s → IsXmlText s

mutual
/-- The texts in a value are texts of XML: strings, bytes, the texts that types write with methods of their own, the values and
languages of alternatives, and those of elements and of fields that are written. -/
def XmlVal : Ty → Val → Prop
  | .text c, v => BareText v ∧ ∀ k s, v = .opq k → c.enc k = some (some s) → IsXmlText s
  | .alt, v => BareText v ∧ ∀ a, v = .alt a → ∀ i ∈ a, IsXmlText i.value ∧ IsXmlText i.lang
  | .slice _ t, v => BareText v ∧ ∀ l e, v = .slice l e → ∀ x ∈ l, XmlVal t x
  | .ptr t, v => BareText v ∧ ∀ x, v = .ptr x → XmlVal t x
  | .struct _ infos tys, v => BareText v ∧ ∀ vals, v = .struct vals → XmlFields tys infos vals
  | .int _, v => BareText v
  | .uint _, v => BareText v
  | .bool, v => BareText v
  | .str, v => BareText v
  | .bytes, v => BareText v
/-- The same for the fields of a struct that are written. -/
def XmlFields : List Ty → List FieldInfo → List Val → Prop
  | t :: ts, f :: fs, v :: vs => (fieldWritten f t v = true → XmlVal t v) ∧ XmlFields ts fs vs
  | _, _, _ => True
end

/-- The prefix and the URI of a namespace can be declared in XML. -/
def DeclOK (uni : Str → Bool) (ns : Namespace) : Prop := ValidName uni ("xmlns:".toList ++ ns.name) ∧ IsXmlText ns.uri

/-- A document with names and texts of XML: in the namespaces that it can use, in the values and field names of the models, in
the attributes and elements outside of models, and in the description of the resource and of the tool. -/
structure XmlPacket (uni : Str → Bool) (env : Env) (p : Packet) : Prop where
  about : IsXmlText p.about
  toolkit : IsXmlText p.toolkit
  spaces : ∀ q ns, p.doc.findNsByPrefix env q = some ns → DeclOK uni ns
  attrs : ∀ r ∈ p.doc.roots, ∀ a ∈ r.node.attrs, ValidName uni a.name.loc ∧ IsXmlText a.value
  nodes : ∀ r ∈ p.doc.roots, ∀ x ∈ r.node.nodes, NamesOK uni x ∧ TextsOK x
  models : ∀ r ∈ p.doc.roots, ∀ m, r.model = some m → ∀ z infos tys vals, m.ty = .struct z infos tys → m.val = .struct vals →
    XmlFields tys infos vals ∧
    ∀ (i : Nat) f t v, infos[i]? = some f → tys[i]? = some t → vals[i]? = some v → fieldWritten f t v = true →
      ValidName uni f.name ∧ TyNames (ValidName uni) t

/-! ### Small facts -/

theorem xmlText_ascii {s : Str} (h : ∀ c ∈ s, 0x20 ≤ c.toNat ∧ c.toNat < 0x80) : IsXmlText s := by
  rw [isXmlText_iff]
  refine ⟨s.map Char.toNat, ?_, ?_⟩
  · intro r hr
    obtain ⟨c, hc, rfl⟩ := mem_map.1 hr
    have := h c hc
    unfold inRange
    rw [Bool.or_eq_true, Bool.or_eq_true, Bool.or_eq_true]
    refine ⟨by unfold Scalar; omega, Or.inl (Or.inl (Or.inr ?_))⟩
    rw [Bool.and_eq_true, decide_eq_true_eq, decide_eq_true_eq]
    omega
  · rw [flatMap_map]
    induction s with
    | nil => rfl
    | cons c s ih =>
      rw [flatMap_cons, ← ih (fun d hd => h d (mem_cons_of_mem _ hd))]
      have hc := (h c (by simp)).2
      unfold encode
      rw [if_pos (by omega)]
      show c :: s = Char.ofNat c.toNat :: s
      rw [Char.ofNat_toNat]

theorem xmlText_itoa (i : Int) : IsXmlText (itoa i) := by
  refine xmlText_ascii (fun c hc => ?_)
  by_cases h1 : isDigit c = true
  · rw [isDigit, Bool.and_eq_true, decide_eq_true_eq, decide_eq_true_eq] at h1
    omega
  · by_cases h2 : c = '-'
    · subst h2; decide
    · exact absurd hc (itoa_not_mem (by simpa using h1) h2 i)

theorem simple_text {v : Val} (h : BareText v) {s : Str} (hs : marshalSimple v = some s) : IsXmlText s := by
  cases v with
  | int i => simp only [marshalSimple, Option.some.injEq] at hs; exact hs ▸ xmlText_itoa i
  | bool b => simp only [marshalSimple, Option.some.injEq] at hs; subst hs; cases b <;> decide
  | str t => simp only [marshalSimple, Option.some.injEq] at hs; exact hs ▸ h t (Or.inl rfl)
  | bytes t => simp only [marshalSimple, Option.some.injEq] at hs; exact hs ▸ h t (Or.inr rfl)
  | _ => simp [marshalSimple] at hs

theorem xmlVal_bare : ∀ {t : Ty} {v : Val}, XmlVal t v → BareText v
  | .text _, _, h => by rw [XmlVal] at h; exact h.1
  | .alt, _, h => by rw [XmlVal] at h; exact h.1
  | .slice _ _, _, h => by rw [XmlVal] at h; exact h.1
  | .ptr _, _, h => by rw [XmlVal] at h; exact h.1
  | .struct _ _ _, _, h => by rw [XmlVal] at h; exact h.1
  | .int _, _, h => by rw [XmlVal] at h; exact h
  | .uint _, _, h => by rw [XmlVal] at h; exact h
  | .bool, _, h => by rw [XmlVal] at h; exact h
  | .str, _, h => by rw [XmlVal] at h; exact h
  | .bytes, _, h => by rw [XmlVal] at h; exact h

theorem leaf_text {t : Ty} {v : Val} (h : XmlVal t v) {s : Str} (hs : leafText t v = some (some s)) : IsXmlText s := by
  unfold leafText at hs
  split at hs
  · rename_i c n
    rw [XmlVal] at h
    exact h.2 n s rfl hs
  · rw [Option.map_eq_some_iff] at hs
    obtain ⟨s', h1, h2⟩ := hs
    cases h2
    exact simple_text (xmlVal_bare h) h1

theorem attr_text {t : Ty} {v : Val} (h : XmlVal t v) {s : Str} (hs : attrText t v = some (some s)) : IsXmlText s := by
  unfold attrText at hs
  split at hs
  · rename_i t v
    rw [XmlVal] at h
    exact leaf_text (h.2 v rfl) hs
  · cases hs
  · exact leaf_text h hs

/-! ### Trees -/

/-- Names and texts of a node but for its own name. -/
structure Within (uni : Str → Bool) (x : Node) : Prop where
  value : IsXmlText x.value
  attrs : ∀ a ∈ x.attrs, ValidName uni a.name.loc ∧ IsXmlText a.value
  nodes : ∀ y ∈ x.nodes, NamesOK uni y ∧ TextsOK y

theorem namesAll_iff {uni : Str → Bool} : ∀ {l : List Node}, NamesOKAll uni l ↔ ∀ y ∈ l, NamesOK uni y
  | [] => by simp [NamesOKAll]
  | x :: l => by rw [NamesOKAll, namesAll_iff, forall_mem_cons]

theorem textsAll_iff : ∀ {l : List Node}, TextsOKAll l ↔ ∀ y ∈ l, TextsOK y
  | [] => by simp [TextsOKAll]
  | x :: l => by rw [TextsOKAll, textsAll_iff, forall_mem_cons]

variable {uni : Str → Bool}

theorem inside_ok {x : Node} (hn : ValidName uni x.xmlName.loc) (h : Within uni x) : NamesOK uni x ∧ TextsOK x := by
  obtain ⟨n, a, v, l⟩ := x
  exact ⟨Or.inr ⟨hn, fun y hy => Or.inr (h.attrs y hy).1, namesAll_iff.2 fun y hy => (h.nodes y hy).1⟩,
    h.value, fun y hy => (h.attrs y hy).2, textsAll_iff.2 fun y hy => (h.nodes y hy).2⟩

theorem inside_new (n : QName) : Within uni (Node.new n) := {
  value := show IsXmlText [] by decide
  attrs := by intro a ha; cases ha
  nodes := by intro a ha; cases ha }

theorem inside_setValue {x : Node} (h : Within uni x) {s : Str} (hs : IsXmlText s) : Within uni (x.setValue s) := by
  obtain ⟨n, a, v, l⟩ := x
  exact ⟨hs, h.attrs, h.nodes⟩

theorem inside_addAttr {x : Node} (h : Within uni x) {a : Attr} (ha : ValidName uni a.name.loc ∧ IsXmlText a.value) :
    Within uni (x.addAttr a) := by
  obtain ⟨n, as, v, l⟩ := x
  refine ⟨h.value, ?_, h.nodes⟩
  have key : ∀ as : List Attr, (∀ b ∈ as, ValidName uni b.name.loc ∧ IsXmlText b.value) →
      ∀ b ∈ AttrList.addAttr a as, ValidName uni b.name.loc ∧ IsXmlText b.value := by
    intro as
    induction as with
    | nil => intro _ b hb; rw [AttrList.addAttr, mem_singleton] at hb; exact hb ▸ ha
    | cons c as ih =>
      intro hall b hb
      rw [AttrList.addAttr] at hb
      split at hb
      · rcases mem_cons.1 hb with rfl | hb
        · exact ⟨(hall c (by simp)).1, ha.2⟩
        · exact hall b (mem_cons_of_mem _ hb)
      · rcases mem_cons.1 hb with rfl | hb
        · exact hall b (by simp)
        · exact ih (fun d hd => hall d (mem_cons_of_mem _ hd)) b hb
  exact key as h.attrs

theorem addNode_mem {P : Node → Prop} {y : Node} (hy : P y) : ∀ {l : List Node}, (∀ x ∈ l, P x) → ∀ x ∈ NodeList.addNode y l, P x
  | [], _, x, hx => by rw [NodeList.addNode, mem_singleton] at hx; exact hx ▸ hy
  | z :: l, h, x, hx => by
    rw [NodeList.addNode] at hx
    split at hx
    · rcases mem_cons.1 hx with rfl | hx
      · exact hy
      · exact h x (mem_cons_of_mem _ hx)
    · rcases mem_cons.1 hx with rfl | hx
      · exact h x (by simp)
      · exact addNode_mem hy (fun w hw => h w (mem_cons_of_mem _ hw)) x hx

theorem inside_addNode {x y : Node} (h : Within uni x) (hy : NamesOK uni y ∧ TextsOK y) : Within uni (x.addNode y) := by
  obtain ⟨n, as, v, l⟩ := x
  exact ⟨h.value, h.attrs, addNode_mem (P := fun y => NamesOK uni y ∧ TextsOK y) hy h.nodes⟩

theorem inside_setNodes {x : Node} (h : Within uni x) {l : List Node} (hl : ∀ y ∈ l, NamesOK uni y ∧ TextsOK y) : Within uni (x.setNodes l) := by
  obtain ⟨n, as, v, k⟩ := x
  exact ⟨h.value, h.attrs, hl⟩

theorem validName_lit {n : Str} (h : (decide (∀ c ∈ n, nameByte c = true) && n.all (fun c => decide (c.toNat < 0x80)) &&
    (match n with | [] => false | c :: _ => firstByte c)) = true) : ValidName uni n := by
  rw [Bool.and_eq_true, Bool.and_eq_true, decide_eq_true_eq] at h
  refine ⟨h.1.1, ?_⟩
  cases n with
  | nil => simp at h
  | cons c s =>
    show (if _ then _ else _) = true
    rw [if_pos h.1.2]
    exact h.2

/-- The same for a literal. -/
theorem lit_valid (n : String) (h : (decide (∀ c ∈ n.toList, nameByte c = true) && n.toList.all (fun c => decide (c.toNat < 0x80)) &&
    (match n.toList with | [] => false | c :: _ => firstByte c)) = true) : ValidName uni n.toList := validName_lit h

/-! ### What is written -/

theorem qname_setValue (x : Node) (s : Str) : (x.setValue s).xmlName = x.xmlName := by cases x; rfl
theorem qname_addAttr (x : Node) (a : Attr) : (x.addAttr a).xmlName = x.xmlName := by cases x; rfl
theorem qname_addNode (x y : Node) : (x.addNode y).xmlName = x.xmlName := by cases x; rfl
theorem qname_setNodes (x : Node) (l : List Node) : (x.setNodes l).xmlName = x.xmlName := by cases x; rfl

/-- A step of the encoder keeps the name of a node and names and texts inside of it. -/
def KeepsXml (uni : Str → Bool) (x y : Node) : Prop := y.xmlName = x.xmlName ∧ (Within uni x → Within uni y)

theorem keeps_attr {f : FieldInfo} {t : Ty} {v : Val} {x y : Node} (hn : ValidName uni f.name) (hv : XmlVal t v)
    (h : marshalAttr f t v x = some y) : KeepsXml uni x y := by
  unfold marshalAttr at h
  split at h
  · cases h
  · cases h; exact ⟨rfl, id⟩
  · rename_i s hs
    cases h
    exact ⟨qname_addAttr _ _, fun hi => inside_addAttr hi ⟨hn, attr_text hv hs⟩⟩

theorem keeps_attrs : ∀ {fs : List FieldInfo} {ts : List Ty} {vs : List Val} {x y : Node}, (∀ f ∈ fs, ValidName uni f.name) →
    XmlFields ts fs vs → marshalAttrs fs ts vs x = some y → KeepsXml uni x y
  | f :: fs, t :: ts, v :: vs, x, y, hn, hv, h => by
    rw [XmlFields] at hv
    rw [marshalAttrs] at h
    split at h
    · rename_i hw
      rw [Bool.and_eq_true] at hw
      split at h
      · cases h
      · rename_i z hz
        have h1 := keeps_attr (hn f (by simp)) (hv.1 hw.2) hz
        have h2 := keeps_attrs (fun g hg => hn g (mem_cons_of_mem _ hg)) hv.2 h
        exact ⟨h2.1.trans h1.1, fun hi => h2.2 (h1.2 hi)⟩
    · exact keeps_attrs (fun g hg => hn g (mem_cons_of_mem _ hg)) hv.2 h
  | [], _, _, x, y, _, _, h => by simp [marshalAttrs] at h; exact h ▸ ⟨rfl, id⟩
  | _ :: _, [], _, x, y, _, _, h => by simp [marshalAttrs] at h; exact h ▸ ⟨rfl, id⟩
  | _ :: _, _ :: _, [], x, y, _, _, h => by simp [marshalAttrs] at h; exact h ▸ ⟨rfl, id⟩

theorem li_valid : ValidName uni "rdf:li".toList := validName_lit (by decide)

theorem array_valid : ∀ typ : ArrayType, ValidName uni ("rdf:".toList ++ typ.toStr)
  | .ordered => validName_lit (by decide)
  | .unordered => validName_lit (by decide)
  | .alternative => validName_lit (by decide)

theorem keeps_array {α : Type} {enc : ElemEnc α} {typ : ArrayType} {items : List α} {x y : Node}
    (he : ∀ v ∈ items, ∀ z, enc v liNode = some z → KeepsXml uni liNode z) (h : marshalArray enc typ items x = some y) : KeepsXml uni x y := by
  unfold marshalArray at h
  split at h
  · cases h; exact ⟨rfl, id⟩
  · rw [Option.map_eq_some_iff] at h
    obtain ⟨lis, h1, rfl⟩ := h
    refine ⟨qname_addNode _ _, fun hi => inside_addNode hi (inside_ok ?_ (inside_setNodes (inside_new _) ?_))⟩
    · exact array_valid typ
    · intro z hz
      obtain ⟨v, hv, e⟩ := mapM_mem h1 z hz
      have := he v hv z e
      exact inside_ok (by rw [this.1]; exact li_valid) (this.2 (inside_new _))

theorem altItem_ok {n : Nat} {i : AltItem} (h : IsXmlText i.value ∧ IsXmlText i.lang) {l : List Node} (hl : marshalAltItem n i = some l) :
    ∀ x ∈ l, NamesOK uni x ∧ TextsOK x := by
  have hlang : ValidName uni "xml:lang".toList := validName_lit (by decide)
  have e0 : Within uni liNode := inside_new _
  have e1 : ∀ y : Node, Within uni y → ∀ s, IsXmlText s → Within uni (y.addStringAttr "xml:lang".toList s) :=
    fun y hy s hs => inside_addAttr hy ⟨hlang, hs⟩
  have nm : ∀ (y : Node) s, y.xmlName = liNode.xmlName → (y.addStringAttr "xml:lang".toList s).xmlName = liNode.xmlName :=
    fun y s hy => (qname_addAttr _ _).trans hy
  have fin : ∀ y : Node, y.xmlName = liNode.xmlName → Within uni y → NamesOK uni y ∧ TextsOK y :=
    fun y h1 h2 => inside_ok (by rw [h1]; exact li_valid) h2
  have hd : IsXmlText "x-default".toList := by decide
  have d1 : Within uni ((liNode.addStringAttr "xml:lang".toList "x-default".toList).setValue i.value) :=
    inside_setValue (e1 _ e0 _ hd) h.1
  have n1 : ((liNode.addStringAttr "xml:lang".toList "x-default".toList).setValue i.value).xmlName = liNode.xmlName :=
    (qname_setValue _ _).trans (nm _ _ rfl)
  unfold marshalAltItem at hl
  simp only at hl
  generalize hel : (if (i.isDefault || n == 1) = true then (liNode.addStringAttr "xml:lang".toList "x-default".toList).setValue i.value else liNode) = el at hl
  have hel' : Within uni el ∧ el.xmlName = liNode.xmlName := by
    rw [← hel]
    split
    · exact ⟨d1, n1⟩
    · exact ⟨e0, rfl⟩
  split at hl
  · cases hl
    intro x hx
    rw [mem_singleton.1 hx]
    exact fin _ hel'.2 hel'.1
  · split at hl
    · cases hl
      intro x hx
      rcases mem_cons.1 hx with rfl | hx
      · exact fin _ hel'.2 hel'.1
      · rw [mem_singleton.1 hx]
        exact fin _ ((qname_setValue _ _).trans (nm _ _ rfl)) (inside_setValue (e1 _ e0 _ h.2) h.1)
    · split at hl
      · cases hl
        intro x hx
        rw [mem_singleton.1 hx]
        exact fin _ ((qname_setValue _ _).trans (nm _ _ hel'.2)) (inside_setValue (e1 _ hel'.1 _ h.2) h.1)
      · cases hl

theorem keeps_alt {a : AltString} (ha : ∀ i ∈ a, IsXmlText i.value ∧ IsXmlText i.lang) {x y : Node} (h : a.marshalXMP x = some y) : KeepsXml uni x y := by
  unfold AltString.marshalXMP at h
  split at h
  · cases h; exact ⟨rfl, id⟩
  · rw [Option.map_eq_some_iff] at h
    obtain ⟨lis, h1, rfl⟩ := h
    refine ⟨qname_addNode _ _, fun hi => inside_addNode hi (inside_ok (array_valid .alternative) (inside_setNodes (inside_new _) ?_))⟩
    intro z hz
    obtain ⟨l, hl, hz⟩ := mem_flatten.1 hz
    obtain ⟨i, hi', e⟩ := mapM_mem h1 l hl
    exact altItem_ok (ha i hi') e z hz

theorem keeps_simple {v : Val} (hb : BareText v) {x y : Node} (h : (marshalSimple v).map x.setValue = some y) : KeepsXml uni x y := by
  rw [Option.map_eq_some_iff] at h
  obtain ⟨s, h1, rfl⟩ := h
  exact ⟨qname_setValue _ _, fun hi => inside_setValue hi (simple_text hb h1)⟩

mutual
theorem keeps_value : ∀ (t : Ty) (v : Val) (x y : Node), TyNames (ValidName uni) t → XmlVal t v → marshalValue t v x = some y → KeepsXml uni x y
  | .ptr t, v, x, y, hn, hv, h => by
    rw [XmlVal] at hv
    rw [TyNames] at hn
    cases v with
    | ptr w => exact keeps_value t w x y hn (hv.2 w rfl) (by simpa [marshalValue] using h)
    | _ => simp [marshalValue] at h; exact h ▸ ⟨rfl, id⟩
  | .text c, v, x, y, hn, hv, h => by
    rw [XmlVal] at hv
    cases v with
    | opq k =>
      rw [marshalValue] at h
      split at h
      · cases h
      · cases h; exact ⟨rfl, id⟩
      · rename_i s hs
        cases h
        exact ⟨qname_setValue _ _, fun hi => inside_setValue hi (hv.2 k s rfl hs)⟩
    | _ => simp [marshalValue] at h
  | .alt, v, x, y, hn, hv, h => by
    rw [XmlVal] at hv
    cases v with
    | alt a => exact keeps_alt (hv.2 a rfl) (by simpa [marshalValue] using h)
    | _ => simp [marshalValue] at h
  | .slice typ t, v, x, y, hn, hv, h => by
    rw [XmlVal] at hv
    rw [TyNames] at hn
    cases v with
    | slice items e =>
      rw [marshalValue] at h
      exact keeps_array (fun w hw z hz => keeps_value t w _ z hn (hv.2 items e rfl w hw) hz) h
    | _ => simp [marshalValue] at h
  | .struct z infos tys, v, x, y, hn, hv, h => by
    rw [XmlVal] at hv
    rw [TyNames] at hn
    cases v with
    | struct vals =>
      have hf := hv.2 vals rfl
      rw [marshalValue] at h
      split at h
      · cases h
      · rename_i a ha
        have h1 := keeps_attrs hn.1 hf ha
        split at h
        · cases h
        · rename_i b hf' hb
          cases h
          have h2 := keeps_fields tys infos vals a b hf' hn.2 hn.1 hf hb
          have h3 : KeepsXml uni x b := ⟨h2.1.trans h1.1, fun hi => h2.2 (h1.2 hi)⟩
          split
          · refine ⟨(qname_addAttr _ _).trans h3.1, fun hi => inside_addAttr (h3.2 hi) ⟨validName_lit (by decide), by decide⟩⟩
          · exact h3
    | _ => simp [marshalValue] at h
  | .int _, v, x, y, _, hv, h => by rw [XmlVal] at hv; rw [marshalValue] at h; exact keeps_simple hv h
  | .uint _, v, x, y, _, hv, h => by rw [XmlVal] at hv; rw [marshalValue] at h; exact keeps_simple hv h
  | .bool, v, x, y, _, hv, h => by rw [XmlVal] at hv; rw [marshalValue] at h; exact keeps_simple hv h
  | .str, v, x, y, _, hv, h => by rw [XmlVal] at hv; rw [marshalValue] at h; exact keeps_simple hv h
  | .bytes, v, x, y, _, hv, h => by rw [XmlVal] at hv; rw [marshalValue] at h; exact keeps_simple hv h
theorem keeps_fields : ∀ (ts : List Ty) (fs : List FieldInfo) (vs : List Val) (x y : Node) (b : Bool), TysNames (ValidName uni) ts →
    (∀ f ∈ fs, ValidName uni f.name) → XmlFields ts fs vs → marshalFields ts fs vs x = some (y, b) → KeepsXml uni x y
  | t :: ts, f :: fs, v :: vs, x, y, b, hn, hf, hv, h => by
    rw [XmlFields] at hv
    rw [TysNames] at hn
    have hf' : ∀ g ∈ fs, ValidName uni g.name := fun g hg => hf g (mem_cons_of_mem _ hg)
    rw [marshalFields] at h
    split at h
    · rename_i hw
      rw [Bool.and_eq_true] at hw
      split at h
      · cases h
      · rename_i z hz
        have h1 := keeps_value t v _ z hn.1 (hv.1 hw.2) hz
        split at h
        · cases h
        · rename_i w c hc
          cases h
          have h2 := keeps_fields ts fs vs _ _ c hn.2 hf' hv.2 hc
          refine ⟨h2.1.trans (qname_addNode _ _), fun hi => h2.2 (inside_addNode hi (inside_ok ?_ (h1.2 (inside_new _))))⟩
          rw [h1.1]
          exact hf f (by simp)
    · exact keeps_fields ts fs vs x y b hn.2 hf' hv.2 h
  | [], _, _, x, y, b, _, _, _, h => by simp [marshalFields] at h; exact h.1 ▸ ⟨rfl, id⟩
  | _ :: _, [], _, x, y, b, _, _, _, h => by simp [marshalFields] at h; exact h.1 ▸ ⟨rfl, id⟩
  | _ :: _, _ :: _, [], x, y, b, _, _, _, h => by simp [marshalFields] at h; exact h.1 ▸ ⟨rfl, id⟩
end

/-! ### Documents -/

theorem inWrapper_inside {ns : Namespace} {f : Node → Option Node} (hf : ∀ x y, f x = some y → Within uni x → Within uni y)
    {ws ws' : List Node} (hw : ∀ w ∈ ws, Within uni w) (h : Enc.inWrapper ns f ws = some ws') : ∀ w ∈ ws', Within uni w := by
  unfold Enc.inWrapper at h
  split at h
  · split at h
    · rename_i i _ w hi
      rw [Option.map_eq_some_iff] at h
      obtain ⟨y, h1, rfl⟩ := h
      intro z hz
      rcases mem_or_eq_of_mem_set hz with hz | rfl
      · exact hw z hz
      · exact hf w z h1 (hw w (mem_of_getElem? hi))
    · cases h
  · rw [Option.map_eq_some_iff] at h
    obtain ⟨y, h1, rfl⟩ := h
    exact addNode_mem (hf _ y h1 (inside_new _)) hw

theorem encAttrs_inside {env : Env} {d : XDoc} : ∀ (fs : List FieldInfo) (ts : List Ty) (vs : List Val) (ws ws' : List Node),
    XmlFields ts fs vs →
    (∀ (i : Nat) f t v, fs[i]? = some f → ts[i]? = some t → vs[i]? = some v → fieldWritten f t v = true → ValidName uni f.name) →
    (∀ w ∈ ws, Within uni w) → Enc.attrs env d fs ts vs ws = some ws' → ∀ w ∈ ws', Within uni w
  | f :: fs, t :: ts, v :: vs, ws, ws', hv, hn, hw, h => by
    rw [XmlFields] at hv
    have hn' : ∀ (i : Nat) g s u, fs[i]? = some g → ts[i]? = some s → vs[i]? = some u → fieldWritten g s u = true → ValidName uni g.name :=
      fun i g s u h1 h2 h3 => hn (i + 1) g s u (by simpa using h1) (by simpa using h2) (by simpa using h3)
    rw [Enc.attrs] at h
    split at h
    · rename_i hwr
      rw [Bool.and_eq_true] at hwr
      split at h
      · cases h
      · split at h
        · cases h
        · rename_i ws1 h1
          refine encAttrs_inside fs ts vs ws1 ws' hv.2 hn' (inWrapper_inside ?_ hw h1) h
          intro x y hxy
          exact (keeps_attr (hn 0 f t v rfl rfl rfl hwr.2) (hv.1 hwr.2) hxy).2
    · exact encAttrs_inside fs ts vs ws ws' hv.2 hn' hw h
  | [], _, _, ws, ws', _, _, hw, h => by simp [Enc.attrs] at h; exact h ▸ hw
  | _ :: _, [], _, ws, ws', _, _, hw, h => by simp [Enc.attrs] at h; exact h ▸ hw
  | _ :: _, _ :: _, [], ws, ws', _, _, hw, h => by simp [Enc.attrs] at h; exact h ▸ hw

theorem encFields_inside {env : Env} {d : XDoc} : ∀ (fs : List FieldInfo) (ts : List Ty) (vs : List Val) (ws ws' : List Node),
    XmlFields ts fs vs →
    (∀ (i : Nat) f t v, fs[i]? = some f → ts[i]? = some t → vs[i]? = some v → fieldWritten f t v = true →
      ValidName uni f.name ∧ TyNames (ValidName uni) t) →
    (∀ w ∈ ws, Within uni w) → Enc.fields env d fs ts vs ws = some ws' → ∀ w ∈ ws', Within uni w
  | f :: fs, t :: ts, v :: vs, ws, ws', hv, hn, hw, h => by
    rw [XmlFields] at hv
    have hn' : ∀ (i : Nat) g s u, fs[i]? = some g → ts[i]? = some s → vs[i]? = some u → fieldWritten g s u = true →
        ValidName uni g.name ∧ TyNames (ValidName uni) s :=
      fun i g s u h1 h2 h3 => hn (i + 1) g s u (by simpa using h1) (by simpa using h2) (by simpa using h3)
    rw [Enc.fields] at h
    split at h
    · rename_i hwr
      rw [Bool.and_eq_true] at hwr
      split at h
      · cases h
      · split at h
        · cases h
        · rename_i ws1 h1
          refine encFields_inside fs ts vs ws1 ws' hv.2 hn' (inWrapper_inside ?_ hw h1) h
          intro x y hxy hi
          rw [Option.map_eq_some_iff] at hxy
          obtain ⟨z, hz, rfl⟩ := hxy
          obtain ⟨h2, h3⟩ := hn 0 f t v rfl rfl rfl hwr.2
          have hk := keeps_value t v _ z h3 (hv.1 hwr.2) hz
          exact inside_addNode hi (inside_ok (by rw [hk.1]; exact h2) (hk.2 (inside_new _)))
    · exact encFields_inside fs ts vs ws ws' hv.2 hn' hw h
  | [], _, _, ws, ws', _, _, hw, h => by simp [Enc.fields] at h; exact h ▸ hw
  | _ :: _, [], _, ws, ws', _, _, hw, h => by simp [Enc.fields] at h; exact h ▸ hw
  | _ :: _, _ :: _, [], ws, ws', _, _, hw, h => by simp [Enc.fields] at h; exact h ▸ hw

theorem external_inside {env : Env} {d : XDoc} {n : Node} (ha : ∀ a ∈ n.attrs, ValidName uni a.name.loc ∧ IsXmlText a.value)
    (hl : ∀ x ∈ n.nodes, NamesOK uni x ∧ TextsOK x) {ws ws' : List Node} (hw : ∀ w ∈ ws, Within uni w)
    (h : Enc.external env d n ws = some ws') : ∀ w ∈ ws', Within uni w := by
  unfold Enc.external at h
  split at h
  · cases h
  · split at h
    · rename_i i _
      cases h
      intro w hm
      rw [mem_iff_getElem?] at hm
      obtain ⟨j, hj⟩ := hm
      rw [getElem?_modify] at hj
      split at hj
      · rw [Option.map_eq_map, Option.map_eq_some_iff] at hj
        obtain ⟨x, hx, rfl⟩ := hj
        have hx := hw x (mem_of_getElem? hx)
        obtain ⟨m, as, v, k⟩ := x
        refine ⟨hx.value, ?_, ?_⟩
        · intro a hm
          rcases mem_append.1 hm with hm | hm
          · exact hx.attrs a hm
          · exact ha a hm
        · intro y hm
          rcases mem_append.1 hm with hm | hm
          · exact hx.nodes y hm
          · exact hl y hm
      · rw [Option.map_eq_map, Option.map_id'] at hj
        exact hw w (mem_of_getElem? hj)
    · cases h
      exact addNode_mem ⟨show IsXmlText [] by decide, ha, hl⟩ hw

theorem roots_inside {env : Env} {p : Packet} (hp : XmlPacket uni env p) : ∀ (rs : List Root) (ws ws' : List Node), (∀ r ∈ rs, r ∈ p.doc.roots) →
    (∀ w ∈ ws, Within uni w) → Enc.roots env p.doc rs ws = some ws' → ∀ w ∈ ws', Within uni w
  | [], ws, ws', _, hw, h => by simp [Enc.roots] at h; exact h ▸ hw
  | r :: rs, ws, ws', hr, hw, h => by
    rw [Enc.roots] at h
    have hrm := hr r (by simp)
    have hm : ∀ ws1, (match r.model with | some m => Enc.model env p.doc m ws | none => some ws) = some ws1 → ∀ w ∈ ws1, Within uni w := by
      intro ws1 h1
      split at h1
      · rename_i m hmod
        unfold Enc.model at h1
        split at h1
        · rename_i z infos tys vals e1 e2
          obtain ⟨hx, hn⟩ := hp.models r hrm m hmod z infos tys vals e1 e2
          split at h1
          · cases h1
          · rename_i ws2 h2
            exact encFields_inside infos tys vals ws2 ws1 hx hn
              (encAttrs_inside infos tys vals ws ws2 hx (fun i f t v a b c d => (hn i f t v a b c d).1) hw h2) h1
        · cases h1
      · cases h1; exact hw
    split at h
    · cases h
    · rename_i ws1 h1
      split at h
      · cases h
      · rename_i ws2 h2
        exact roots_inside hp rs ws2 ws' (fun x hx => hr x (mem_cons_of_mem _ hx))
          (external_inside (hp.attrs r hrm) (hp.nodes r hrm) (hm ws1 h1) h2) h

mutual
theorem namespaces_found {env : Env} {d : XDoc} : ∀ (x : Node) (ns : Namespace), ns ∈ Enc.namespaces env d x → ∃ q, d.findNsByPrefix env q = some ns
  | .mk n a v l, ns, h => by
    rw [Enc.namespaces] at h
    rcases mem_append.1 ((removeDups_spec _).2.1.subset h) with h | h
    · exact namespacesAll_found l ns h
    · obtain ⟨q, -, hq⟩ := mem_filterMap.1 (mem_filter.1 h).1
      exact ⟨q, hq⟩
theorem namespacesAll_found {env : Env} {d : XDoc} : ∀ (l : List Node) (ns : Namespace), ns ∈ Enc.namespacesAll env d l → ∃ q, d.findNsByPrefix env q = some ns
  | [], ns, h => by simp [Enc.namespacesAll] at h
  | x :: l, ns, h => by
    rw [Enc.namespacesAll] at h
    rcases mem_append.1 h with h | h
    · exact namespaces_found x ns h
    · exact namespacesAll_found l ns h
end

/-- **C74.** A document with names and texts of XML is written as a tree with names and texts of XML. -/
theorem encode_xml (uni : Str → Bool) (env : Env) (order : Node → List Namespace → List Namespace) (ho : ∀ w l, (order w l).Perm l)
    (p : Packet) (hp : XmlPacket uni env p) (t : Node) (h : Enc.encode env order p = some t) : NamesOK uni t ∧ TextsOK t := by
  unfold Enc.encode at h
  split at h
  · cases h
  · rename_i ws hws
    cases h
    have hw := roots_inside hp p.doc.roots [] ws (fun _ h => h) (by simp) hws
    refine inside_ok (lit_valid "x:xmpmeta" (by decide)) ⟨show IsXmlText [] by decide, ?_, ?_⟩
    · intro a ha
      rcases mem_cons.1 ha with rfl | ha
      · exact ⟨lit_valid "xmlns:x" (by decide), show IsXmlText "adobe:ns:meta/".toList by decide⟩
      · rw [mem_singleton.1 ha]
        refine ⟨lit_valid "x:xmptk" (by decide), ?_⟩
        show IsXmlText (if p.toolkit = [] then Enc.toolkitVersion else p.toolkit)
        split
        · decide
        · exact hp.toolkit
    · intro y hy
      rw [mem_singleton.1 hy]
      refine inside_ok (lit_valid "rdf:RDF" (by decide)) ⟨show IsXmlText [] by decide, ?_, ?_⟩
      · intro a ha
        rw [mem_singleton.1 ha]
        exact ⟨lit_valid "xmlns:rdf" (by decide), by decide⟩
      · intro z hz
        obtain ⟨w, hm, rfl⟩ := mem_map.1 (mem_filter.1 hz).1
        have hwi := hw w hm
        refine inside_ok (lit_valid "rdf:Description" (by decide)) ⟨hwi.value, ?_, hwi.nodes⟩
        intro a ha
        rcases mem_append.1 ha with ha | ha
        · rcases mem_append.1 ha with ha | ha
          · obtain ⟨ns, hns, rfl⟩ := mem_map.1 ha
            obtain ⟨q, hq⟩ := namespaces_found w ns ((ho w _).subset hns)
            exact hp.spaces q ns hq
          · rw [mem_singleton.1 ha]
            exact ⟨lit_valid "rdf:about" (by decide), hp.about⟩
        · exact hwi.attrs a ha

/-- As below, and what is known of the namespaces and the toolkit of the document that is read. -/
theorem document_bytes_core (h : RegHistory) (env : Env) (dv : Version) (S : Str → Prop) (p : Packet)
    (hok : DocOK h env p.doc dv S) (uni : Str → Bool) (hx : XmlPacket uni env p)
    (order : Node → List Namespace → List Namespace) (ho : ∀ w l, (order w l).Perm l)
    (ind : Option (Str × Str)) (hi : IndentOK ind) (hu : ind.isSome = true → ∀ r ∈ p.doc.roots, UnmixedAll r.node.nodes) :
    ∃ t p', Enc.encode env order p = some t ∧
      p'.doc.roots = withContent p.doc.roots ∧ p'.about = (if withContent p.doc.roots = [] then [] else p.about) ∧
      (∀ r ∈ p'.doc.roots, ∀ q, Uses r q → S q → ∃ ns, p'.doc.findNsByPrefix env q = some ns ∧ ns.uri = bindOf env p.doc q) ∧
      (∀ w, unmarshalText uni env dv (printTree ind t ++ w) = .ok p') ∧
      (∀ pad w, unmarshalText uni env dv (printPacket ind t pad ++ w) = .ok p') ∧
      (∀ limit flags pieces out, flags &&& xpacket ≠ 0 → (∀ b ∈ pieces, b ≠ []) → pieces.flatten = printTree ind t →
        encodeOut flags pieces { limit := limit } = (none, out) → out.w.out.length ≤ 61440 →
        ∀ before after reads, NoStart before → NoStart after → Arrives reads (before ++ out.w.out ++ after) →
          scanDoc uni env dv reads = .ok p') ∧
      p'.toolkit = [] ∧ ∃ l, Declares env p.doc S l ∧ p'.doc.intNs = (decoder h l).int ∧ p'.doc.extNs = (decoder h l).ext := by
  obtain ⟨t, t', p', h1, h2, h3, h4, h5, htk, hdl, h6⟩ := document_roundtrip_core h env dv S p hok order ho ind (indentOK_blank hi) hu
  obtain ⟨hn, ht⟩ := encode_xml uni env order ho p hx t h1
  have hne : t.xmlName.loc ≠ [] := by
    intro e
    obtain ⟨n, a, v, l⟩ := t
    have : Xml.ofNode ind 0 (.mk n a v l) = [] := by
      rw [Xml.ofNode, if_pos (show n.loc = [] from e)]
    rw [this] at h2
    cases h2
  have key : ∀ pad w, unmarshalText uni env dv (printTree ind t ++ w) = .ok p' ∧ unmarshalText uni env dv (printPacket ind t pad ++ w) = .ok p' := by
    intro pad w
    obtain ⟨x, e1, e2, e3⟩ := xml_tree_roundtrip uni hi t hne hn ht pad w
    rw [e1] at h2
    have hr : Xml.read Xml.baseScope x = [t'] := by simpa [Xml.reads] using h2
    unfold unmarshalText
    rw [e2, e3]
    simp only
    rw [hr]
    exact ⟨h3, h3⟩
  refine ⟨t, p', h1, h4, h5, h6, fun w => (key [] w).1, fun pad w => (key pad w).2, ?_, htk, hdl⟩
  intro limit flags pieces out hp hpn hpc he hlen before after reads hb ha hr
  obtain ⟨t1, e1, e2⟩ := scanned_document_roundtrip_partial h env dv S p hok order ho ind hi hu uni limit flags hp
  rw [h1] at e1
  cases e1
  obtain ⟨q, q1, q2, -⟩ := e2 hn ht pieces hpn hpc out he
  obtain ⟨pad, -, ho'⟩ := encodeOut_packet limit flags hp pieces hpn (by rw [he])
  rw [he, hpc, ← packet_eq] at ho'
  have := (key pad []).2
  rw [append_nil] at this
  rw [ho', this] at q1
  cases q1
  exact q2 hlen before after reads hb ha hr

/-- **C74.** From a document to bytes and back: a document that meets the conditions of C46, with names and texts of XML, is
written, and the same document is read from the text alone, from a packet with any padding, whatever follows it, and by `Scan`
from a stream in which the packet lies between other bytes, however the bytes arrive.  Missing are packets of more than 61440
bytes and reads that cut the marker (both fail, see C25), and the documents that C46 leaves out. -/
theorem document_bytes_roundtrip_partial (h : RegHistory) (env : Env) (dv : Version) (S : Str → Prop) (p : Packet)
    (hok : DocOK h env p.doc dv S) (uni : Str → Bool) (hx : XmlPacket uni env p)
    (order : Node → List Namespace → List Namespace) (ho : ∀ w l, (order w l).Perm l)
    (ind : Option (Str × Str)) (hi : IndentOK ind) (hu : ind.isSome = true → ∀ r ∈ p.doc.roots, UnmixedAll r.node.nodes) :
    ∃ t p', Enc.encode env order p = some t ∧
      p'.doc.roots = withContent p.doc.roots ∧ p'.about = (if withContent p.doc.roots = [] then [] else p.about) ∧
      (∀ r ∈ p'.doc.roots, ∀ q, Uses r q → S q → ∃ ns, p'.doc.findNsByPrefix env q = some ns ∧ ns.uri = bindOf env p.doc q) ∧
      (∀ w, unmarshalText uni env dv (printTree ind t ++ w) = .ok p') ∧
      (∀ pad w, unmarshalText uni env dv (printPacket ind t pad ++ w) = .ok p') ∧
      ∀ limit flags pieces out, flags &&& xpacket ≠ 0 → (∀ b ∈ pieces, b ≠ []) → pieces.flatten = printTree ind t →
        encodeOut flags pieces { limit := limit } = (none, out) → out.w.out.length ≤ 61440 →
        ∀ before after reads, NoStart before → NoStart after → Arrives reads (before ++ out.w.out ++ after) →
          scanDoc uni env dv reads = .ok p' := by
  obtain ⟨t, p', h1, h2, h3, h4, h5, h6, h7, -⟩ := document_bytes_core h env dv S p hok uni hx order ho ind hi hu
  exact ⟨t, p', h1, h2, h3, h4, h5, h6, h7⟩

end Xmp.Props
