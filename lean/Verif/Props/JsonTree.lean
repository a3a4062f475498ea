import Verif.Props.Json

/-! C34: writing node trees as JSON, the round trip, and where it fails. -/

namespace Xmp.Props

open GoStr List

attribute [local irreducible] Json.xDefault

theorem xDefault_ne_nil : Json.xDefault ≠ [] := by unfold Json.xDefault; decide

/-! ### Alternatives -/

/-- The item of a language and text. -/
def pairItem (p : Str × Str) : AltItem := { value := p.2, lang := p.1, isDefault := p.1 = Json.xDefault }

theorem altItem_of {r : Registry} {p : Str × Str} {n : Node} (h : AltLi r p n) : Json.altItem n = pairItem p := by
  obtain ⟨-, -, h3, a, h4, h5, h6⟩ := h
  have : n.getAttr [] "lang".toList = [a] := by
    unfold Node.getAttr
    rw [h4]
    simp [h5]
  unfold Json.altItem pairItem
  rw [this, h3]
  simp only [h6]

theorem altItems_of {r : Registry} {l : List (Str × Str)} {lis : List Node} (h : Forall₂ (AltLi r) l lis) :
    lis.map Json.altItem = l.map pairItem := by
  induction h with
  | nil => rfl
  | cons h1 _ ih => rw [map_cons, map_cons, ih, altItem_of h1]

theorem lastDefault_none {l : List (Str × Str)} (h : ∀ p ∈ l, p.1 ≠ Json.xDefault) : Json.lastDefault (l.map pairItem) = none := by
  induction l with
  | nil => rfl
  | cons p l ih =>
    rw [map_cons, Json.lastDefault, ih (fun q hq => h q (by simp [hq]))]
    exact if_neg (h p (by simp))

theorem lastDefault_some {l1 l2 : List (Str × Str)} (v : Str) (h2 : ∀ p ∈ l2, p.1 ≠ Json.xDefault) :
    Json.lastDefault ((l1 ++ (Json.xDefault, v) :: l2).map pairItem) = some (l1.length, v) := by
  induction l1 with
  | nil =>
    rw [nil_append, map_cons, Json.lastDefault, lastDefault_none h2]
    exact if_pos rfl
  | cons p l ih =>
    rw [cons_append, map_cons, Json.lastDefault, ih]
    rfl

/-- Mark the items with the default text. -/
def markItem (s : Str) (x : AltItem) : AltItem := if x.value = s then { x with isDefault := true } else x

theorem langText_cons (p : Str × Str) (l : List (Str × Str)) (lang : Str) :
    langText (p :: l) lang = if p.1 = lang then some p.2 else langText l lang := by
  unfold langText
  by_cases h : p.1 = lang
  · rw [find?_cons_of_pos (by simp [h]), if_pos h]; rfl
  · rw [find?_cons_of_neg (by simp [h]), if_neg h]

theorem langText_append (l1 l2 : List (Str × Str)) (lang : Str) (h : ∀ p ∈ l1, p.1 ≠ lang) : langText (l1 ++ l2) lang = langText l2 lang := by
  induction l1 with
  | nil => rfl
  | cons p l ih =>
    rw [cons_append, langText_cons, if_neg (h p (by simp)), ih (fun q hq => h q (by simp [hq]))]

theorem langText_plain {l : List (Str × Str)} (h0 : ∀ p ∈ l, p.1 ≠ []) (lang : Str) :
    langText ((l.map pairItem).flatMap expandItem) lang = langText l lang := by
  induction l with
  | nil => rfl
  | cons p l ih =>
    have ih := ih (fun q hq => h0 q (by simp [hq]))
    have hp := h0 p (by simp)
    rw [map_cons, flatMap_cons, langText_cons]
    by_cases hd : p.1 = Json.xDefault
    · have : expandItem (pairItem p) = [p, p] := by
        unfold expandItem pairItem
        simp only [hd, decide_true, if_true]
        rw [if_neg xDefault_ne_nil, ← hd]
      rw [this, cons_append, cons_append, nil_append, langText_cons, langText_cons, ih]
      split <;> rfl
    · have : expandItem (pairItem p) = [p] := by
        unfold expandItem pairItem
        simp [hd]
      rw [this, cons_append, nil_append, langText_cons, ih]

theorem expand_marked {p : Str × Str} {v : Str} (h0 : p.1 ≠ []) (hd : p.1 ≠ Json.xDefault) :
    expandItem (markItem v (pairItem p)) = if p.2 = v then [(Json.xDefault, v), p] else [p] := by
  unfold markItem expandItem pairItem
  by_cases h : p.2 = v
  · rw [if_pos h, if_pos h]; simp only [if_true, h0, if_false, ← h]
  · rw [if_neg h, if_neg h]; simp [hd]

theorem langText_marked {l : List (Str × Str)} {v : Str} (h0 : ∀ p ∈ l, p.1 ≠ []) (hd : ∀ p ∈ l, p.1 ≠ Json.xDefault) (lang : Str)
    (hl : lang ≠ Json.xDefault) : langText (((l.map pairItem).map (markItem v)).flatMap expandItem) lang = langText l lang := by
  induction l with
  | nil => rfl
  | cons p l ih =>
    have ih := ih (fun q hq => h0 q (by simp [hq])) (fun q hq => hd q (by simp [hq]))
    rw [map_cons, map_cons, flatMap_cons, langText_cons, expand_marked (h0 p (by simp)) (hd p (by simp))]
    split
    · rw [cons_append, cons_append, nil_append, langText_cons, if_neg (fun e => hl e.symm), langText_cons, ih]
    · rw [cons_append, nil_append, langText_cons, ih]

theorem langText_marked_default {l : List (Str × Str)} {v : Str} (h0 : ∀ p ∈ l, p.1 ≠ []) (hd : ∀ p ∈ l, p.1 ≠ Json.xDefault) :
    langText (((l.map pairItem).map (markItem v)).flatMap expandItem) Json.xDefault = if v ∈ l.map (·.2) then some v else none := by
  induction l with
  | nil => rfl
  | cons p l ih =>
    have ih := ih (fun q hq => h0 q (by simp [hq])) (fun q hq => hd q (by simp [hq]))
    rw [map_cons, map_cons, flatMap_cons, expand_marked (h0 p (by simp)) (hd p (by simp))]
    by_cases hv : p.2 = v
    · rw [if_pos hv, cons_append, langText_cons, if_pos rfl, if_pos (by simp [hv])]
    · rw [if_neg hv, cons_append, nil_append, langText_cons, if_neg (hd p (by simp)), ih]
      have : v ∈ (p :: l).map (·.2) ↔ v ∈ l.map (·.2) := by
        rw [map_cons, mem_cons]
        exact ⟨fun h => h.resolve_left (fun e => hv e.symm), Or.inr⟩
      simp only [this]

theorem split_default {l : List (Str × Str)} (hn : (l.map (·.1)).Nodup) {v : Str} (hv : (Json.xDefault, v) ∈ l) :
    ∃ l1 l2, l = l1 ++ (Json.xDefault, v) :: l2 ∧ (∀ p ∈ l1 ++ l2, p.1 ≠ Json.xDefault) := by
  obtain ⟨l1, l2, rfl⟩ := append_of_mem hv
  refine ⟨l1, l2, rfl, ?_⟩
  intro p hp e
  rw [map_append, map_cons, nodup_append] at hn
  rcases mem_append.1 hp with hp | hp
  · exact hn.2.2 p.1 (mem_map_of_mem hp) Json.xDefault (by simp) e
  · exact (nodup_cons.1 hn.2.1).1 (mem_map.2 ⟨p, hp, e⟩)

/-- The items of an alternative with a default: without the default if there are other items. -/
theorem altItems_default {r : Registry} {l1 l2 : List (Str × Str)} {v : Str} {lis : List Node}
    (h : Forall₂ (AltLi r) (l1 ++ (Json.xDefault, v) :: l2) lis) (hd : ∀ p ∈ l1 ++ l2, p.1 ≠ Json.xDefault) :
    Json.altItems lis = if v ≠ [] ∧ l1 ++ l2 ≠ [] then ((l1 ++ l2).map pairItem).map (markItem v)
      else (l1 ++ (Json.xDefault, v) :: l2).map pairItem := by
  unfold Json.altItems
  rw [altItems_of h]
  simp only [lastDefault_some v (fun p hp => hd p (mem_append_right _ hp)), length_map]
  have hlen : (l1 ++ (Json.xDefault, v) :: l2).length > 1 ↔ l1 ++ l2 ≠ [] := by
    simp only [length_append, length_cons, ne_eq, append_eq_nil_iff]
    rw [← length_eq_zero_iff, ← length_eq_zero_iff (l := l2)]
    omega
  simp only [hlen]
  split
  · rw [show (fun x : AltItem => if x.value = v then { x with isDefault := true } else x) = markItem v from rfl]
    simp only [map_append, map_cons]
    rw [eraseIdx_append_of_length_le (by simp)]
    simp
  · rfl

theorem alt_form {r : Registry} {l : List (Str × Str)} {lis : List Node} (hk : AltKept l) (h : Forall₂ (AltLi r) l lis) :
    Json.altItems lis ≠ [] ∧ (∀ x ∈ Json.altItems lis, x.isDefault = true ∨ x.lang ≠ []) ∧
    ∀ lang, langText ((Json.altItems lis).flatMap expandItem) lang = langText l lang := by
  obtain ⟨hne, h0, hn, hdef⟩ := hk
  have plain : Json.altItems lis = l.map pairItem → Json.altItems lis ≠ [] ∧ (∀ x ∈ Json.altItems lis, x.isDefault = true ∨ x.lang ≠ []) ∧
      ∀ lang, langText ((Json.altItems lis).flatMap expandItem) lang = langText l lang := by
    intro e
    rw [e]
    refine ⟨by simpa using hne, ?_, langText_plain h0⟩
    intro x hx
    obtain ⟨p, hp, rfl⟩ := mem_map.1 hx
    exact Or.inr (h0 p hp)
  by_cases hd : ∃ v, (Json.xDefault, v) ∈ l
  · obtain ⟨v, hv⟩ := hd
    obtain ⟨l1, l2, rfl, hd⟩ := split_default hn hv
    have e := altItems_default h hd
    split at e
    · rename_i hc
      have h0' : ∀ p ∈ l1 ++ l2, p.1 ≠ [] := fun p hp => h0 p (by
        simp only [mem_append, mem_cons] at hp ⊢
        rcases hp with h | h
        · exact Or.inl h
        · exact Or.inr (Or.inr h))
      rw [e]
      refine ⟨by simpa using hc.2, ?_, ?_⟩
      · intro x hx
        obtain ⟨y, hy, rfl⟩ := mem_map.1 hx
        obtain ⟨p, hp, rfl⟩ := mem_map.1 hy
        unfold markItem
        split
        · exact Or.inl rfl
        · exact Or.inr (h0' p hp)
      · intro lang
        by_cases hl : lang = Json.xDefault
        · subst hl
          rw [langText_marked_default h0' hd, langText_append _ _ _ (fun p hp => hd p (by simp [hp])), langText_cons, if_pos rfl]
          rw [if_pos]
          rcases hdef v hv with h | h | ⟨L, hL, hm⟩
          · exact absurd h hc.1
          · exfalso
            apply hc.2
            simp only [length_append, length_cons] at h
            rw [append_eq_nil_iff, ← length_eq_zero_iff, ← length_eq_zero_iff (l := l2)]
            omega
          · refine mem_map.2 ⟨(L, v), ?_, rfl⟩
            simp only [mem_append, mem_cons] at hm ⊢
            rcases hm with h | h | h
            · exact Or.inl h
            · exact absurd (congrArg Prod.fst h) hL
            · exact Or.inr h
        · rw [langText_marked h0' hd lang hl]
          clear h hdef hn h0 hv e hne plain hc h0'
          induction l1 with
          | nil => rw [nil_append, nil_append, langText_cons, if_neg (fun e => hl e.symm)]
          | cons p l1 ih =>
            rw [cons_append, cons_append, langText_cons, langText_cons, ih]
            exact fun q hq => hd q (by rw [cons_append]; exact mem_cons_of_mem _ hq)
    · exact plain e
  · apply plain
    have : Json.lastDefault (l.map pairItem) = none := lastDefault_none (fun p hp e => hd ⟨p.2, by rw [← e]; exact hp⟩)
    unfold Json.altItems
    rw [altItems_of h]
    simp only [this]

/-! ### Writing -/

theorem ofAttrs_filter (as : List Attr) : ∀ out, Json.ofAttrs as out = Json.ofAttrs (as.filter (fun a => a.name.loc ≠ "rdf:parseType".toList)) out := by
  induction as with
  | nil => intro out; rfl
  | cons a as ih =>
    intro out
    by_cases h : a.name.loc = "rdf:parseType".toList
    · rw [filter_cons_of_neg (fun e => (of_decide_eq_true e) h), Json.ofAttrs, if_pos h, ih]
    · rw [filter_cons, if_pos (decide_eq_true h), Json.ofAttrs, Json.ofAttrs, if_neg h, ih]

theorem set_fresh {m : GoMap Json} {k : Str} (v : Json) (h : k ∉ m.map (·.1)) : GoMap.set m k v = (k, v) :: m := by
  unfold GoMap.set GoMap.del
  congr 1
  rw [filter_eq_self]
  intro e he
  have : e.1 ≠ k := fun hc => h (mem_map.2 ⟨e, he, hc⟩)
  exact decide_eq_true this

theorem ofAlt_nested (r : Registry) {a : Node} (h : FirstNested a.nodes) : Json.ofAlt r a = .arr (Json.ofItems r a.nodes) := by
  obtain ⟨n1, n2, n3, lis⟩ := a
  simp only [Node.nodes] at h ⊢
  match lis, h with
  | .mk _ _ _ (_ :: _) :: _, _ => rw [Json.ofAlt]
  | .mk _ _ _ [] :: _, h => exact absurd rfl h

theorem ofAlt_flat (r : Registry) {a : Node} (h : ¬ FirstNested a.nodes) : Json.ofAlt r a = .arr ((Json.altItems a.nodes).map Json.ofAltItem) := by
  obtain ⟨n1, n2, n3, lis⟩ := a
  simp only [Node.nodes] at h ⊢
  match lis, h with
  | [], _ => rw [Json.ofAlt]; intro _ _ _ _ _ _ h; cases h
  | .mk _ _ _ (_ :: _) :: _, h => exact absurd (by simp [FirstNested, Node.nodes]) h
  | .mk _ _ _ [] :: _, h => rw [Json.ofAlt]; intro _ _ _ _ _ _ h; cases h

mutual
theorem node_form (r : Registry) : ∀ (t : Tree) (n : Node), Shape t → Says r t n → JForm t (Json.ofNode r n)
  | .text s, .mk nm as v ns, hs, h => by
    rw [Says] at h
    obtain ⟨h0, h1, h2, h3⟩ := h
    simp only [Node.value] at h2
    subst h2
    rw [JForm, Json.ofNode, if_pos h0]
    exact ⟨h0, rfl⟩
  | .array l, .mk nm as v ns, hs, h => by
    rw [Says] at h
    obtain ⟨a, h1, h2, h3, -, -, h6, h7⟩ := h
    simp only [Node.value, Node.attrs, Node.nodes] at h1 h2 h3
    subst h1 h2 h3
    rw [Shape] at hs
    rw [JForm, Json.ofNode, if_neg (by simp), Json.ofChildren]
    refine ⟨Json.ofItems r a.nodes, ?_, items_form r l a.nodes hs h7⟩
    rcases h6 with h6 | ⟨h6, h8⟩
    · rw [if_pos h6]
      obtain ⟨a1, a2, a3, a4⟩ := a
      rw [Json.ofArray]; rfl
    · rw [if_neg (by rw [h6]; decide), if_pos h6, ofAlt_nested r h8]
  | .alt l, .mk nm as v ns, hs, h => by
    rw [Says] at h
    obtain ⟨a, h1, h2, h3, -, -, h6, h7⟩ := h
    simp only [Node.value, Node.attrs, Node.nodes] at h1 h2 h3
    subst h1 h2 h3
    rw [Shape] at hs
    have hflat : ¬ FirstNested a.nodes := by
      revert h7
      cases a.nodes with
      | nil => intro _ h; exact h
      | cons n ns =>
        intro h7 hf
        cases h7 with
        | cons h8 _ => exact hf h8.2.1
    rw [JForm, Json.ofNode, if_neg (by simp), Json.ofChildren, if_neg (by rw [h6]; decide), if_pos h6, ofAlt_flat r hflat]
    obtain ⟨q1, q2, q3⟩ := alt_form hs h7
    refine ⟨_, _, rfl, ?_, q1, q2, q3⟩
    rw [forall₂_map_right_iff]
    exact forall₂_same.2 (fun x _ => ⟨_, rfl, .refl _⟩)
  | .struct fs, .mk nm as v ns, hs, h => by
    rw [Says] at h
    obtain ⟨h1, h2⟩ := h
    simp only [Node.value, Node.attrs, Node.nodes] at h1 h2
    subst h1
    rw [Shape] at hs
    rw [JForm, Json.ofNode, if_neg (by simp), ofAttrs_filter]
    right
    obtain ⟨m, mf, e, hp, hf⟩ := fields_form r fs _ ns [] hs.2 (by simpa using hs.1) h2
    rw [append_nil] at hp
    exact ⟨m, mf, e, hp, hf⟩
theorem items_form (r : Registry) : ∀ (l : List Tree) (ns : List Node), ShapeItems l → SaysItems r l ns → JFormItems l (Json.ofItems r ns)
  | [], ns, hs, h => by
    rw [SaysItems] at h
    subst h
    rw [JFormItems, Json.ofItems]
  | t :: ts, ns, hs, h => by
    rw [SaysItems] at h
    obtain ⟨n, ns', rfl, -, h1, h2⟩ := h
    rw [ShapeItems] at hs
    rw [JFormItems, Json.ofItems]
    exact ⟨_, _, rfl, node_form r t n hs.2.1 h1, items_form r ts ns' hs.2.2 h2⟩
theorem fields_form (r : Registry) : ∀ (fs : List (Str × Tree)) (as : List Attr) (ns : List Node) (out : GoMap Json), ShapeFields fs →
    (fs.map (·.1) ++ out.map (·.1)).Nodup → SaysFields r fs as ns →
    ∃ m mf, Json.ofChildren r ns (Json.ofAttrs as out) = .obj m ∧ mf ++ out ~ m ∧ JFormFields fs mf
  | [], as, ns, out, hs, hn, h => by
    rw [SaysFields] at h
    obtain ⟨rfl, rfl⟩ := h
    exact ⟨out, [], by rw [Json.ofAttrs, Json.ofChildren], by simp, by rw [JFormFields]⟩
  | (k, t) :: fs, as, ns, out, hs, hn, h => by
    rw [SaysFields] at h
    rw [ShapeFields] at hs
    have hk : k ∉ out.map (·.1) := by
      rw [map_cons, cons_append, nodup_cons] at hn
      intro hc
      exact hn.1 (by simp [hc])
    have hn' : ∀ j : Json, (fs.map (·.1) ++ (((k, j) :: out) : GoMap Json).map (·.1)).Nodup := by
      intro j
      rw [map_cons, cons_append] at hn
      rw [map_cons]
      exact (perm_middle.nodup_iff).2 hn
    rcases h with ⟨a, as', rfl, hk', rfl, h⟩ | ⟨rfl, n, ns', rfl, hk', h1, h2⟩
    · rw [Json.ofAttrs, if_neg, hk', set_fresh _ hk]
      · obtain ⟨m, mf, e, hp, hf⟩ := fields_form r fs as' ns ((k, .str a.value) :: out) hs.2.2 (hn' _) h
        refine ⟨m, (k, .str a.value) :: mf, e, ?_, ?_⟩
        · exact (perm_middle.symm).trans hp
        · rw [JFormFields]
          refine ⟨_, _, rfl, ?_, hf⟩
          unfold attrTree
          split
          · rename_i h0
            rw [JForm, h0]; exact Or.inl ⟨rfl, rfl⟩
          · rename_i h0
            rw [JForm]; exact ⟨h0, rfl⟩
      · rw [hk']
        intro e
        exact hs.1.2 (by rw [e]; simp)
    · rw [Json.ofAttrs, Json.ofChildren, hk', if_neg, if_neg, set_fresh _ hk]
      · obtain ⟨m, mf, e, hp, hf⟩ := fields_form r fs [] ns' ((k, Json.ofNode r n) :: out) hs.2.2 (hn' _) h2
        rw [Json.ofAttrs] at e
        refine ⟨m, (k, Json.ofNode r n) :: mf, e, (perm_middle.symm).trans hp, ?_⟩
        rw [JFormFields]
        exact ⟨_, _, rfl, node_form r t n hs.2.1 h1, hf⟩
      · intro e; exact hs.1.2 (by rw [e]; simp)
      · intro e
        apply hs.1.2
        simp only [mem_cons, not_mem_nil, or_false] at e ⊢
        rcases e with e | e
        · exact Or.inr (Or.inr (Or.inl e))
        · exact Or.inr (Or.inr (Or.inr (Or.inl e)))
end

/-! ### The round trip -/

/-- C34: the JSON form of a model node of a documented shape can be read, in whatever order the entries of objects are
visited, and the node that is read says the same as the node that was written. -/
theorem json_roundtrip (r : Registry) (hr : r.getPrefix Json.nsRdf = "rdf".toList) (fs : List (Str × Tree)) (hs : Shape (.struct fs)) (n : Node)
    (hn : Says r (.struct fs) n) (j : Json) (hj : JSame (Json.ofNode r n) j) (name : Str) :
    ∃ n', Json.toModel name j = .ok n' ∧ n'.xmlName = ⟨[], name⟩ ∧ Tells r (.struct fs) n' := by
  have h := jform_same _ _ _ (node_form r _ n hs hn) hj
  have hobj : ∃ m, Json.ofNode r n = .obj m := by
    obtain ⟨nm, as, v, ns⟩ := n
    rw [Says] at hn
    obtain ⟨h1, h2⟩ := hn
    simp only [Node.value, Node.attrs, Node.nodes] at h1 h2
    subst h1
    rw [Shape] at hs
    rw [Json.ofNode, if_neg (by simp), ofAttrs_filter]
    obtain ⟨m, mf, e, hp, hf⟩ := fields_form r fs _ ns [] hs.2 (by simpa using hs.1) h2
    exact ⟨m, e⟩
  obtain ⟨m0, e0⟩ := hobj
  rw [e0, JSame] at hj
  obtain ⟨m, -, rfl, -, -⟩ := hj
  rw [JForm] at h
  rcases h with ⟨_, h⟩ | ⟨m1, m', e, hp, hf⟩
  · cases h
  · cases e
    rw [Shape] at hs
    rw [jformFields_iff] at hf
    have hc : Relation.Comp Perm (Forall₂ fun (a : Str × Tree) (b : Str × Json) => a.1 = b.1 ∧ JForm a.2 b.2) fs m := by
      rw [← forall₂_comp_perm_eq_perm_comp_forall₂]
      exact ⟨m', hf, hp⟩
    obtain ⟨fs1, p1, f1⟩ := hc
    have hsh : ShapeFields fs1 := by
      rw [shapeFields_iff]
      intro e he
      exact (shapeFields_iff fs).1 hs.2 e (p1.mem_iff.2 he)
    obtain ⟨ns, fs2, h1, h2, h3⟩ := formFields_read r hr m fs1 hsh f1
    refine ⟨.mk ⟨[], name⟩ [] [] ns, by rw [Json.toModel, h1]; rfl, rfl, .struct fs2, ?_, ?_⟩
    · rw [Tree.Same]
      obtain ⟨fs3, q1, q2⟩ := perm_comp_forall₂ p1 h2
      exact ⟨fs2, fs3, rfl, q2, (sameFields_iff _ _).2 q1⟩
    · rw [Says]
      exact ⟨rfl, h3⟩

mutual
/-- Reading in the same order is one of the orders. -/
theorem jsame_refl : ∀ j : Json, JSame j j
  | .str _ => by rw [JSame]
  | .num _ => by rw [JSame]
  | .bool _ => by rw [JSame]
  | .null => by rw [JSame]
  | .arr l => by rw [JSame]; exact ⟨l, rfl, jsameList_refl l⟩
  | .obj m => by rw [JSame]; exact ⟨m, m, rfl, .refl _, jsameFields_refl m⟩
theorem jsameList_refl : ∀ l : List Json, JSameList l l
  | [] => by rw [JSameList]
  | j :: l => by rw [JSameList]; exact ⟨j, l, rfl, jsame_refl j, jsameList_refl l⟩
theorem jsameFields_refl : ∀ l : List (Str × Json), JSameFields l l
  | [] => by rw [JSameFields]
  | (k, j) :: l => by rw [JSameFields]; exact ⟨j, l, rfl, jsame_refl j, jsameFields_refl l⟩
end

/-! ### Where the round trip fails -/

/-- C34: the default text of an alternative with several texts is not written unless another language has the same
text. -/
theorem json_default_lost (r : Registry) {l : List (Str × Str)} {lis : List Node} (h : Forall₂ (AltLi r) l lis)
    (hn : (l.map (·.1)).Nodup) (h0 : ∀ p ∈ l, p.1 ≠ []) (v : Str) (hv : (Json.xDefault, v) ∈ l) (hne : v ≠ []) (hlen : l.length > 1)
    (hother : ∀ lang, (lang, v) ∈ l → lang = Json.xDefault) :
    (∀ x ∈ Json.altItems lis, x.value ≠ v) ∧ langText l Json.xDefault = some v ∧
      langText ((Json.altItems lis).flatMap expandItem) Json.xDefault = none := by
  obtain ⟨l1, l2, rfl, hd⟩ := split_default hn hv
  have hne' : l1 ++ l2 ≠ [] := by
    intro e
    rw [append_eq_nil_iff] at e
    rw [e.1, e.2] at hlen
    exact absurd hlen (by simp)
  have hsub : ∀ p ∈ l1 ++ l2, p ∈ l1 ++ (Json.xDefault, v) :: l2 := by
    intro p hp
    simp only [mem_append, mem_cons] at hp ⊢
    rcases hp with h | h
    · exact Or.inl h
    · exact Or.inr (Or.inr h)
  have hno : ∀ p ∈ l1 ++ l2, p.2 ≠ v := by
    intro p hp e
    exact hd p hp (hother p.1 (by have := hsub p hp; rwa [show p = (p.1, v) from Prod.ext rfl e] at this))
  have e := altItems_default h hd
  rw [if_pos ⟨hne, hne'⟩] at e
  refine ⟨?_, ?_, ?_⟩
  · rw [e]
    intro x hx
    obtain ⟨y, hy, rfl⟩ := mem_map.1 hx
    obtain ⟨p, hp, rfl⟩ := mem_map.1 hy
    have : markItem v (pairItem p) = pairItem p := if_neg (hno p hp)
    rw [this]
    exact hno p hp
  · rw [langText_append _ _ _ (fun p hp => hd p (mem_append_left _ hp)), langText_cons, if_pos rfl]
  · rw [e, langText_marked_default (fun p hp => h0 p (hsub p hp)) hd, if_neg]
    intro hm
    obtain ⟨p, hp, e⟩ := mem_map.1 hm
    exact hno p hp e

/-- C34: attributes and children of an element with a value are not written. -/
theorem json_qualifiers_lost (r : Registry) (nm : QName) (as : List Attr) (v : Str) (ns : List Node) (hv : v ≠ []) :
    Json.ofNode r (.mk nm as v ns) = .str v := by rw [Json.ofNode, if_pos hv]

/-- C34: an array of arrays is read as an array of empty items. -/
theorem json_nested_lost (l : List Json) (a : List Json) (rest : List Json) (h : l = .arr a :: rest) :
    ∀ lis, Json.toItems l = .ok lis → lis.head? = some (Json.li [] []) := by
  subst h
  intro lis h
  rw [Json.toItems, Json.toNode, if_pos rfl] at h
  simp only at h
  cases hr : Json.toItems rest with
  | ok l => rw [hr] at h; cases h; rfl
  | err => rw [hr] at h; cases h
  | panic => rw [hr] at h; cases h

/-- C34: an item of an alternative without language is read as an empty item: its text is lost. -/
theorem json_no_language_lost (v : Str) :
    Json.altNodes (Json.ofAltItem { value := v, lang := [], isDefault := false }) = .ok [Json.li [] []] := rfl

/-- C34: reading panics when an item behind an object with the keys of an alternative is no such object. -/
theorem json_alt_panics (x : AltItem) (s : Str) (name : Str) (hn : name ≠ []) (node : Node) :
    Json.toNode (.arr [Json.ofAltItem x, .str s]) name node = .panic := by
  rw [Json.toNode, if_neg hn, if_pos (by rfl)]
  rw [show Json.altNodesAll [Json.ofAltItem x, .str s] = .panic from ?_]
  rw [Json.altNodesAll, Json.altNodesAll]
  have : ∃ l, Json.altNodes (Json.ofAltItem x) = .ok l := ⟨_, rfl⟩
  obtain ⟨l, hl⟩ := this
  rw [hl]
  rfl

/-- C34: elements before or behind an array in the same parent are not written. -/
theorem json_siblings_lost (r : Registry) (nm : QName) (as : List Attr) (pre post : List Node) (a : Node)
    (hpre : ∀ v ∈ pre, v.fullName r ∉ ["rdf:Bag".toList, "rdf:Seq".toList, "rdf:Alt".toList])
    (ha : a.fullName r ∈ ["rdf:Bag".toList, "rdf:Seq".toList]) :
    Json.ofNode r (.mk nm as [] (pre ++ a :: post)) = Json.ofArray r a := by
  rw [Json.ofNode, if_neg (by simp)]
  generalize Json.ofAttrs as [] = out
  induction pre generalizing out with
  | nil => rw [nil_append, Json.ofChildren, if_pos ha]
  | cons v pre ih =>
    have hv := hpre v (by simp)
    rw [cons_append, Json.ofChildren, if_neg, if_neg]
    · exact ih (fun w hw => hpre w (by simp [hw])) _
    · intro e; exact hv (by rw [e]; simp)
    · intro e
      apply hv
      simp only [mem_cons, not_mem_nil, or_false] at e ⊢
      rcases e with e | e
      · exact Or.inl e
      · exact Or.inr (Or.inl e)

/-- C34: of elements with the same name only the last is written. -/
theorem json_repeated_lost (r : Registry) (nm : QName) (as : List Attr) (a b : Node) (hn : a.fullName r = b.fullName r)
    (hf : a.fullName r ∉ ["rdf:Bag".toList, "rdf:Seq".toList, "rdf:Alt".toList]) :
    Json.ofNode r (.mk nm as [] [a, b]) = Json.ofNode r (.mk nm as [] [b]) := by
  have h1 : a.fullName r ∉ ["rdf:Bag".toList, "rdf:Seq".toList] := by
    intro e
    apply hf
    simp only [mem_cons, not_mem_nil, or_false] at e ⊢
    rcases e with e | e
    · exact Or.inl e
    · exact Or.inr (Or.inl e)
  have h2 : a.fullName r ≠ "rdf:Alt".toList := fun e => hf (by rw [e]; simp)
  rw [Json.ofNode, Json.ofNode, if_neg (by simp), if_neg (by simp), Json.ofChildren, if_neg h1, if_neg h2]
  rw [Json.ofChildren, if_neg (hn ▸ h1), if_neg (hn ▸ h2), Json.ofChildren, Json.ofChildren, if_neg (hn ▸ h1), if_neg (hn ▸ h2), Json.ofChildren, hn]
  congr 1
  unfold GoMap.set GoMap.del
  rw [filter_cons_of_neg (fun e => (of_decide_eq_true e) rfl), filter_filter]
  simp only [Bool.and_self]

/-- C34: arrays other than alternatives are read as ordered, whatever they were. -/
theorem json_order_forgotten (r : Registry) (nm : QName) (lis : List Node) (h : Json.isAltArray (Json.ofItems r lis) = false)
    (name : Str) (hn : name ≠ []) (node n' : Node)
    (h' : Json.toNode (Json.ofNode r (.mk nm [] [] [.mk ⟨[], "rdf:Bag".toList⟩ [] [] lis])) name node = .ok n') :
    ∃ items, n' = node.appendNode (.mk ⟨[], name⟩ [] [] [.mk ⟨Json.nsRdf, "Seq".toList⟩ [] [] items]) := by
  rw [Json.ofNode, if_neg (by simp), Json.ofChildren, if_pos (by rw [fullName_plain]; simp), Json.ofArray, Json.toNode, if_neg hn, h,
    if_neg (by simp)] at h'
  cases hi : Json.toItems (Json.ofItems r lis) with
  | ok l => rw [hi] at h'; cases h'; exact ⟨l, rfl⟩
  | err => rw [hi] at h'; cases h'
  | panic => rw [hi] at h'; cases h'

/-- C34: exactly the objects with the keys `value`, `lang` and `isDefault` count as items of an alternative. -/
theorem json_item_iff {m : GoMap Json} (hw : GoMap.Wf m) :
    Json.isItem m = true ↔ m.map (·.1) ~ ["value".toList, "lang".toList, "isDefault".toList] := by
  have hk : ∀ k : Str, (GoMap.get m k).isSome = true ↔ k ∈ m.map (·.1) := by
    intro k
    rw [GoMap.mem_keys, Option.isSome_iff_exists]
  unfold Json.isItem
  rw [Bool.and_eq_true, Bool.and_eq_true, Bool.and_eq_true, hk, hk, hk, decide_eq_true_eq]
  constructor
  · rintro ⟨⟨⟨h1, h2⟩, h3⟩, h4⟩
    have hsub : ["value".toList, "lang".toList, "isDefault".toList] ⊆ m.map (·.1) := by
      intro k hm
      simp only [mem_cons, not_mem_nil, or_false] at hm
      rcases hm with rfl | rfl | rfl
      · exact h2
      · exact h3
      · exact h4
    exact ((subperm_of_subset (by decide) hsub).perm_of_length_le (by rw [length_map]; exact h1)).symm
  · intro h
    have hl := h.length_eq
    rw [length_map] at hl
    exact ⟨⟨⟨by rw [hl]; decide, h.mem_iff.2 (by simp)⟩, h.mem_iff.2 (by simp)⟩, h.mem_iff.2 (by simp)⟩

/-- C34: a text under `rdf:value` becomes the value of the element itself. -/
theorem json_rdf_value (s : Str) (node : Node) : Json.toNode (.str s) "rdf:value".toList node = .ok (node.setValue s) := by
  rw [Json.toNode, Json.addSimple, if_neg (by simp)]

/-- C34: an object with the keys of an alternative item sets the value of its element; language and mark become
elements. -/
theorem json_single_item (x : AltItem) (name : Str) (hn : name ≠ []) (node : Node) :
    Json.toNode (Json.ofAltItem x) name node = .ok (node.appendNode (.mk ⟨[], name⟩ [] x.value
      [.mk ⟨[], "lang".toList⟩ [] x.lang [],
       .mk ⟨[], "isDefault".toList⟩ [] (if x.isDefault then "true".toList else "false".toList) []])) := by
  rw [Json.ofAltItem, Json.toNode, if_neg hn]
  rfl

end Xmp.Props
