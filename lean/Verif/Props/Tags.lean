import Verif.Model.Tags
import Verif.Lemmas.GoStr

/-! C35: tag lists. -/

namespace Xmp.Props

open GoStr

/-- A tag that can be told from its attribute name: no dash in the key. -/
def PlainKey (t : Tag) : Prop := '-' ∉ t.key

theorem attrName_inj {a b : Tag} (ha : PlainKey a) (hb : PlainKey b) (h : a.attrName = b.attrName) :
    a.key = b.key ∧ a.lang = b.lang := by
  unfold Tag.attrName at h
  unfold PlainKey at ha hb
  by_cases h1 : a.lang = [] <;> by_cases h2 : b.lang = [] <;> simp only [h1, h2, ne_eq, not_true_eq_false,
    not_false_eq_true, if_true, if_false] at h
  · exact ⟨h, by rw [h1, h2]⟩
  · exact absurd (show '-' ∈ a.key by rw [h]; simp) ha
  · exact absurd (show '-' ∈ b.key by rw [← h]; simp) hb
  · have i1 : indexChar '-' (a.key ++ '-' :: a.lang) = some a.key.length := indexChar_append ha
    have i2 : indexChar '-' (b.key ++ '-' :: b.lang) = some b.key.length := indexChar_append hb
    rw [h, i2] at i1
    have hl : b.key.length = a.key.length := by simpa using i1
    obtain ⟨h3, h4⟩ := List.append_inj h hl.symm
    exact ⟨h3, by simpa using h4⟩

theorem ofAttr_attrName {t : Tag} (h : PlainKey t) : Tag.ofAttr ⟨⟨[], t.attrName⟩, t.value⟩ = t := by
  obtain ⟨k, v, l⟩ := t
  unfold PlainKey at h
  simp only at h
  unfold Tag.ofAttr Tag.attrName
  simp only
  by_cases hl : l = []
  · subst hl
    simp only [ne_eq, not_true_eq_false, if_false, indexChar_none.2 h]
  · simp only [ne_eq, hl, not_false_eq_true, if_true, indexChar_append h]
    simp

/-! Specification: a tag list as a map from key and language to value. -/

/-- The value of a key and language: that of the last tag. -/
def tagValue (k l : Str) : List Tag → Option Str
  | [] => none
  | t :: ts =>
    match tagValue k l ts with
    | some v => some v
    | none => if t.key = k ∧ t.lang = l then some t.value else none

theorem attrs_addAttr (n : Node) (a : Attr) : (n.addAttr a).attrs = AttrList.addAttr a n.attrs := by
  cases n; rfl

theorem addAttr_new {a : Attr} {l : List Attr} (h : ∀ x ∈ l, x.name.loc ≠ a.name.loc) : AttrList.addAttr a l = l ++ [a] := by
  induction l with
  | nil => rfl
  | cons x l ih =>
    rw [AttrList.addAttr, if_neg (h x (by simp)), ih (fun y hy => h y (by simp [hy]))]
    rfl

theorem marshal_attrs {x : List Tag} (hk : ∀ t ∈ x, PlainKey t)
    (hd : x.Pairwise (fun a b => ¬ (a.key = b.key ∧ a.lang = b.lang))) : ∀ (node : Node),
    (∀ t ∈ x, ∀ a ∈ node.attrs, a.name.loc ≠ t.attrName) →
    (TagList.marshalXMP x node).attrs = node.attrs ++ x.map (fun t => ⟨⟨[], t.attrName⟩, t.value⟩) := by
  induction x with
  | nil => intro node _; simp [TagList.marshalXMP]
  | cons t x ih =>
    intro node hn
    obtain ⟨hd1, hd2⟩ := List.pairwise_cons.1 hd
    have h1 : (node.addAttr ⟨⟨[], t.attrName⟩, t.value⟩).attrs = node.attrs ++ [⟨⟨[], t.attrName⟩, t.value⟩] := by
      rw [attrs_addAttr, addAttr_new (hn t (by simp))]
    have := ih (fun u hu => hk u (by simp [hu])) hd2 (node.addAttr ⟨⟨[], t.attrName⟩, t.value⟩) (by
      intro u hu a ha
      rw [h1] at ha
      rcases List.mem_append.1 ha with ha | ha
      · exact hn u (by simp [hu]) a ha
      · have : a = ⟨⟨[], t.attrName⟩, t.value⟩ := by simpa using ha
        subst this
        intro e
        exact hd1 u hu (attrName_inj (hk t (by simp)) (hk u (by simp [hu])) e))
    show (TagList.marshalXMP x (node.addAttr ⟨⟨[], t.attrName⟩, t.value⟩)).attrs = _
    rw [this, h1]
    simp

/-- C35: tags with different keys or languages and without dashes in the keys are read back, in order. -/
theorem tags_roundtrip {x : List Tag} (hk : ∀ t ∈ x, '-' ∉ t.key)
    (hd : x.Pairwise (fun a b => ¬ (a.key = b.key ∧ a.lang = b.lang))) (name : QName) :
    TagList.unmarshalXMP [] (TagList.marshalXMP x (Node.new name)) = x := by
  unfold TagList.unmarshalXMP
  rw [marshal_attrs hk hd _ (by intro t _ a ha; cases ha)]
  simp only [List.nil_append]
  rw [show (Node.new name).attrs = [] from rfl, List.nil_append, List.map_map]
  conv => rhs; rw [← List.map_id x]
  apply List.map_congr_left
  intro t ht
  exact ofAttr_attrName (hk t ht)

/-- A list of tags: two languages of one key, dashes in a language, no language, empty value. -/
def tagSample : List Tag :=
  [⟨"title".toList, "a".toList, "en".toList⟩, ⟨"title".toList, "b".toList, "zh-Hant".toList⟩, ⟨"title".toList, [], []⟩]

example : (∀ t ∈ tagSample, '-' ∉ t.key) ∧ tagSample.Pairwise (fun a b => ¬ (a.key = b.key ∧ a.lang = b.lang)) := by
  decide +kernel

theorem tagValue_append_new {k l : Str} {x y : List Tag} : tagValue k l (x ++ y) = (tagValue k l y).or (tagValue k l x) := by
  induction x with
  | nil => simp [tagValue]
  | cons t x ih =>
    rw [List.cons_append, tagValue, ih, tagValue]
    cases h1 : tagValue k l y with
    | some v => rfl
    | none => rfl

/-- The attributes of tags with plain keys and different names: every attribute comes from a tag. -/
def FromTags (as : List Attr) : Prop :=
  (∀ a ∈ as, ∃ t : Tag, PlainKey t ∧ a = ⟨⟨[], t.attrName⟩, t.value⟩) ∧ as.Pairwise (fun a b => a.name.loc ≠ b.name.loc)

theorem fromTags_add {as : List Attr} (h : FromTags as) {t : Tag} (ht : PlainKey t) :
    FromTags (AttrList.addAttr ⟨⟨[], t.attrName⟩, t.value⟩ as) ∧
    (∀ a ∈ AttrList.addAttr ⟨⟨[], t.attrName⟩, t.value⟩ as, a.name.loc = t.attrName ∨ ∃ b ∈ as, a.name.loc = b.name.loc) ∧
    ∀ k l, tagValue k l ((AttrList.addAttr ⟨⟨[], t.attrName⟩, t.value⟩ as).map Tag.ofAttr) =
      if t.key = k ∧ t.lang = l then some t.value else tagValue k l (as.map Tag.ofAttr) := by
  induction as with
  | nil =>
    refine ⟨⟨?_, ?_⟩, ?_, ?_⟩
    · intro a ha
      simp only [AttrList.addAttr, List.mem_singleton] at ha
      exact ⟨t, ht, ha⟩
    · simp [AttrList.addAttr]
    · intro a ha
      simp only [AttrList.addAttr, List.mem_singleton] at ha
      subst ha; exact Or.inl rfl
    · intro k l
      simp only [AttrList.addAttr, List.map_cons, List.map_nil, tagValue, ofAttr_attrName ht]
  | cons a as ih =>
    obtain ⟨h1, h2⟩ := h
    obtain ⟨hp1, hp2⟩ := List.pairwise_cons.1 h2
    obtain ⟨u, hu, rfl⟩ := h1 a (by simp)
    have ih := ih ⟨fun b hb => h1 b (by simp [hb]), hp2⟩
    rw [AttrList.addAttr]
    by_cases hn : u.attrName = t.attrName
    · rw [if_pos hn]
      obtain ⟨e1, e2⟩ := attrName_inj hu ht hn
      have e : Attr.mk ⟨[], u.attrName⟩ t.value = ⟨⟨[], t.attrName⟩, t.value⟩ := by rw [hn]
      simp only
      rw [e]
      refine ⟨⟨?_, ?_⟩, ?_, ?_⟩
      · intro b hb
        rcases List.mem_cons.1 hb with rfl | hb
        · exact ⟨t, ht, rfl⟩
        · exact h1 b (by simp [hb])
      · refine List.pairwise_cons.2 ⟨fun b hb => ?_, hp2⟩
        have := hp1 b hb
        simp only at this ⊢
        rwa [← hn]
      · intro b hb
        rcases List.mem_cons.1 hb with rfl | hb
        · exact Or.inl rfl
        · exact Or.inr ⟨b, by simp [hb], rfl⟩
      · intro k l
        simp only [List.map_cons, tagValue, ofAttr_attrName ht, ofAttr_attrName hu]
        by_cases hkl : t.key = k ∧ t.lang = l
        · rw [if_pos hkl, if_pos hkl]
          have hnone : tagValue k l (as.map Tag.ofAttr) = none := by
            have : ∀ bs : List Attr, (∀ b ∈ bs, ∃ t : Tag, PlainKey t ∧ b = ⟨⟨[], t.attrName⟩, t.value⟩) →
                (∀ b ∈ bs, b.name.loc ≠ u.attrName) → tagValue k l (bs.map Tag.ofAttr) = none := by
              intro bs
              induction bs with
              | nil => intro _ _; rfl
              | cons b bs ihb =>
                intro g1 g2
                obtain ⟨w, hw, rfl⟩ := g1 b (by simp)
                simp only [List.map_cons, tagValue, ihb (fun c hc => g1 c (by simp [hc])) (fun c hc => g2 c (by simp [hc])),
                  ofAttr_attrName hw]
                rw [if_neg]
                rintro ⟨f1, f2⟩
                refine g2 _ (List.mem_cons_self) ?_
                show w.attrName = u.attrName
                rw [hn]
                unfold Tag.attrName
                rw [f1, f2, hkl.1, hkl.2]
            exact this as (fun b hb => h1 b (by simp [hb])) (fun b hb => (hp1 b hb).symm)
          rw [hnone]
        · rw [if_neg hkl, if_neg hkl, if_neg (by rw [e1, e2]; exact hkl)]
    · rw [if_neg hn]
      obtain ⟨⟨i1, i2⟩, i3, i4⟩ := ih
      refine ⟨⟨?_, ?_⟩, ?_, ?_⟩
      · intro b hb
        rcases List.mem_cons.1 hb with rfl | hb
        · exact ⟨u, hu, rfl⟩
        · exact i1 b hb
      · refine List.pairwise_cons.2 ⟨fun b hb => ?_, i2⟩
        rcases i3 b hb with hb' | ⟨c, hc, hb'⟩
        · rw [hb']; exact hn
        · rw [hb']; exact hp1 c hc
      · intro b hb
        rcases List.mem_cons.1 hb with rfl | hb
        · exact Or.inr ⟨_, List.mem_cons_self, rfl⟩
        · rcases i3 b hb with hb' | ⟨c, hc, hb'⟩
          · exact Or.inl hb'
          · exact Or.inr ⟨c, by simp [hc], hb'⟩
      · intro k l
        simp only [List.map_cons, tagValue, ofAttr_attrName hu, i4]
        by_cases hkl : t.key = k ∧ t.lang = l
        · simp only [if_pos hkl]
        · simp only [if_neg hkl]

/-- C35: with repeated keys and languages, every key and language is read back with the value of its last tag. -/
theorem tags_last_value {x : List Tag} (hk : ∀ t ∈ x, '-' ∉ t.key) (name : QName) (k l : Str) :
    tagValue k l (TagList.unmarshalXMP [] (TagList.marshalXMP x (Node.new name))) = tagValue k l x := by
  have key : ∀ (x : List Tag) (node : Node), (∀ t ∈ x, PlainKey t) → FromTags node.attrs →
      tagValue k l ((TagList.marshalXMP x node).attrs.map Tag.ofAttr) =
        (tagValue k l x).or (tagValue k l (node.attrs.map Tag.ofAttr)) := by
    intro x
    induction x with
    | nil => intro node _ _; rfl
    | cons t x ih =>
      intro node hk hn
      obtain ⟨h1, _, h3⟩ := fromTags_add hn (hk t (by simp))
      have := ih (node.addAttr ⟨⟨[], t.attrName⟩, t.value⟩) (fun u hu => hk u (by simp [hu])) (by rw [attrs_addAttr]; exact h1)
      show tagValue k l ((TagList.marshalXMP x (node.addAttr ⟨⟨[], t.attrName⟩, t.value⟩)).attrs.map Tag.ofAttr) = _
      rw [this, attrs_addAttr, h3, tagValue]
      cases tagValue k l x with
      | some v => rfl
      | none =>
        simp only [Option.none_or]
        split <;> rfl
  unfold TagList.unmarshalXMP
  rw [List.nil_append, key x _ hk ⟨(by intro a ha; cases ha), List.Pairwise.nil⟩]
  simp [Node.new, Node.attrs, tagValue]

/-- C35 fails when a key has a dash: the rest of the key becomes the language. -/
theorem tags_dash_in_key {k l v : Str} {a b : Str} (ha : '-' ∉ a) (hk : k = a ++ '-' :: b) (name : QName) :
    TagList.unmarshalXMP [] (TagList.marshalXMP [⟨k, v, l⟩] (Node.new name)) =
      [⟨a, v, if l = [] then b else b ++ '-' :: l⟩] := by
  subst hk
  unfold TagList.unmarshalXMP TagList.marshalXMP
  simp only [List.foldl_cons, List.foldl_nil, attrs_addAttr, List.nil_append]
  simp only [Node.new, Node.attrs, AttrList.addAttr, List.map_cons, List.map_nil, Tag.attrName, Tag.ofAttr]
  by_cases h : l = []
  · subst h
    simp [indexChar_append ha]
  · simp only [ne_eq, h, not_false_eq_true, if_true, if_false, List.append_assoc, List.cons_append, indexChar_append ha]
    simp

/-- C35 fails for a key and language that occur twice: the first tag is lost. -/
theorem tags_repeated : TagList.unmarshalXMP [] (TagList.marshalXMP
    [⟨"a".toList, "1".toList, []⟩, ⟨"a".toList, "2".toList, []⟩] (Node.new ⟨[], "x".toList⟩)) =
    [⟨"a".toList, "2".toList, []⟩] := by decide +kernel

end Xmp.Props
