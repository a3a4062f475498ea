import Verif.Props.JsonDocRead

/-! C53: which documents survive their JSON form; the JSON form of one namespace. -/

namespace Xmp.Props

open GoStr List

/-! ### Specification -/

/-- A top-level node that can be written as JSON and read back, in addition to `RootOK`: the fields of its model survive
(C52), no written field is empty, the content outside of the model is a tree of the documented shapes (C34) and each
part of it has content. -/
structure JRootOK (reg : Registry) (r : Root) : Prop where
  vals : JFields (rootTys r) (rootInfos r) (rootVals r)
  solidA : ∀ (i : Nat) (f : FieldInfo) (t : Ty) (v : Val), (rootInfos r)[i]? = some f → (rootTys r)[i]? = some t → (rootVals r)[i]? = some v →
    fieldWritten f t v = true → f.attr = true → attrText t v ≠ some (some [])
  solidN : ∀ (i : Nat) (f : FieldInfo) (t : Ty) (v : Val), (rootInfos r)[i]? = some f → (rootTys r)[i]? = some t → (rootVals r)[i]? = some v →
    fieldWritten f t v = true → f.attr = false → ∀ x, marshalValue t v (Node.new ⟨[], f.name⟩) = some x → x.isZero = false
  shape : ∃ fs, Shape (.struct fs) ∧ Says reg (.struct fs) r.node ∧ ∀ e ∈ fs, Full e.2

/-- Two JSON documents with the same content; entries of objects may be visited in another order. -/
def JDocSame (a b : JDoc) : Prop :=
  b.about = a.about ∧ b.toolkit = a.toolkit ∧ a.namespaces ~ b.namespaces ∧
    ∃ m, Forall₂ (fun x y => x.1 = y.1 ∧ JSame x.2 y.2) a.models m ∧ m ~ b.models

/-! ### Lists -/

theorem forall₂_zip {α β : Type} {R : α → β → Prop} {a : List α} {b : List β} (h : Forall₂ R a b) :
    ∃ L : List (α × β), L.map (·.1) = a ∧ L.map (·.2) = b ∧ ∀ e ∈ L, R e.1 e.2 := by
  induction h with
  | nil => exact ⟨[], rfl, rfl, by simp⟩
  | cons h1 _ ih =>
    obtain ⟨L, h2, h3, h4⟩ := ih
    refine ⟨(_, _) :: L, by rw [map_cons, h2], by rw [map_cons, h3], ?_⟩
    intro e he
    rcases mem_cons.1 he with rfl | he
    · exact h1
    · exact h4 e he

theorem saysFields_split (r : Registry) : ∀ (fs : List (Str × Tree)) (as : List Attr) (ns : List Node), SaysFields r fs as ns →
    ∃ fsA fsN, fs = fsA ++ fsN ∧ Forall₂ (fun e a => e.1 = a.name.loc ∧ e.2 = attrTree a.value) fsA as ∧
      Forall₂ (fun e n => e.1 = n.fullName r ∧ Says r e.2 n) fsN ns
  | [], as, ns, h => by
    rw [SaysFields] at h
    obtain ⟨rfl, rfl⟩ := h
    exact ⟨[], [], rfl, .nil, .nil⟩
  | (k, t) :: fs, as, ns, h => by
    rw [SaysFields] at h
    rcases h with ⟨a, as', rfl, h1, h2, h3⟩ | ⟨rfl, n, ns', rfl, h1, h2, h3⟩
    · obtain ⟨fsA, fsN, rfl, h4, h5⟩ := saysFields_split r fs as' ns h3
      exact ⟨(k, t) :: fsA, fsN, rfl, .cons ⟨h1.symm, h2⟩ h4, h5⟩
    · obtain ⟨fsA, fsN, rfl, h4, h5⟩ := saysFields_split r fs [] ns' h3
      cases h4
      exact ⟨[], (k, t) :: fsN, rfl, .nil, .cons ⟨h1.symm, h2⟩ h5⟩

theorem saysFields_join (r : Registry) : ∀ (fs : List (Str × Tree)) (ns : List Node),
    Forall₂ (fun e n => e.1 = n.fullName r ∧ Says r e.2 n) fs ns → SaysFields r fs [] ns
  | [], ns, h => by cases h; rw [SaysFields]; exact ⟨rfl, rfl⟩
  | (k, t) :: fs, ns, h => by
    cases h with
    | cons h1 h2 =>
      rw [SaysFields]
      exact Or.inr ⟨rfl, _, _, rfl, h1.1.symm, h1.2, saysFields_join r fs _ h2⟩

theorem shapeFields_mem : ∀ {fs : List (Str × Tree)}, ShapeFields fs → ∀ e ∈ fs, JsonName e.1 ∧ Shape e.2
  | [], _, e, he => by cases he
  | (k, t) :: fs, h, e, he => by
    rw [ShapeFields] at h
    rcases mem_cons.1 he with rfl | he
    · exact ⟨h.1, h.2.1⟩
    · exact shapeFields_mem h.2.2 e he

/-! ### One namespace -/

/-- Where the parts of a group belong. -/
def specOf (r : Root) (fs : List (Str × Tree)) (g : Grp) : List Sp :=
  g.idx.map .fld ++ if g.key = r.node.xmlName.loc then fs.map (fun e => .ext e.1 e.2) else []

section
variable {h : RegHistory} {env : Env} {d : XDoc} {dv : Version} {S : Str → Prop} {l : List (Str × Str)} {r : Root}

/-- An entry of the JSON form of a namespace, and what the decoder makes of it. -/
def JEntry (h : RegHistory) (env : Env) (d : XDoc) (dv : Version) (S : Str → Prop) (l : List (Str × Str)) (r : Root) (sp : Sp) (e : Str × Json) : Prop :=
  JsonName e.1 ∧ targetOf dv r e.1 = sp.key ∧
    ∀ j, JSame e.2 j → ∃ n, (∀ node : Node, Json.toNode j e.1 node = .ok (node.appendNode n)) ∧ EntryOK h env d dv S l r sp n

theorem nameS_jname (hd : DocNs h env d S) {nm : Str} (hn : NameS S nm) : JName nm := by
  obtain ⟨p, loc, rfl, h1, h2, h3⟩ := hn
  obtain ⟨-, hc, hr, hx, -⟩ := hd.plain p h3
  have key : ∀ q r : Str, ':' ∉ q → p ++ ':' :: loc = q ++ ':' :: r → p = q := by
    intro q r hq e
    have := congrArg getPrefix e
    rwa [getPrefix_append hc, getPrefix_append hq] at this
  refine ⟨⟨by simp, ?_⟩, ?_⟩
  · intro hm
    simp only [List.mem_cons, List.not_mem_nil, or_false] at hm
    rcases hm with e | e | e | e | e
    · exact hr (key "rdf".toList "value".toList (by decide) e)
    · exact hr (key "rdf".toList "parseType".toList (by decide) e)
    · exact hr (key "rdf".toList "Bag".toList (by decide) e)
    · exact hr (key "rdf".toList "Seq".toList (by decide) e)
    · exact hr (key "rdf".toList "Alt".toList (by decide) e)
  · intro hm
    simp only [List.mem_cons, List.not_mem_nil, or_false] at hm
    rcases hm with e | e | e
    · exact hr (key "rdf".toList "Description".toList (by decide) e)
    · exact hr (key "rdf".toList "type".toList (by decide) e)
    · exact hx (key "xml".toList "lang".toList (by decide) e)

theorem decoder_rdfNames (hd : DocNs h env d S) (hl : Declares env d S l) : RdfNames (decoder h l) := by
  refine ⟨?_, ?_⟩
  · rw [(decoder_ok h l).reg_eq]
    exact (hd.core nsRDF (by simp)).2.1
  · intro loc hloc
    have h1 : loc ≠ [] ∧ ':' ∉ loc ∧ ¬ S loc := by
      simp only [List.mem_cons, List.not_mem_nil, or_false] at hloc
      rcases hloc with rfl | rfl | rfl
      · exact ⟨by decide, by decide, hd.markup _ (by decide)⟩
      · exact ⟨by decide, by decide, hd.markup _ (by decide)⟩
      · exact ⟨by decide, by decide, hd.markup _ (by decide)⟩
    exact decoder_back_core hd hl (ns := nsRDF) (by simp) h1.1 h1.2.1 h1.2.2

/-- A tree outside of the model. -/
theorem ext_entry (hd : DocNs h env d S) (hl : Declares env d S l) {k : Str} {t : Tree} {j0 : Json} (hn : OwnName env d S l r k)
    (hf : findStructField dv (rootInfos r) k = none) (hs : Shape t) (hfull : Full t) (hj : JForm t j0) :
    JEntry h env d dv S l r (.ext k t) (k, j0) := by
  have hrd := decoder_rdfNames hd hl
  have hjn := (nameS_jname hd hn.1).1
  have htg : targetOf dv r k = (Sp.ext k t).key := by simp [targetOf, hf, Sp.key]
  refine ⟨hjn, htg, ?_⟩
  intro j hjs
  obtain ⟨n, h1, h2, t', h3, h4⟩ := (form_reads (decoder h l).reg hrd.reg j t hs (jform_same t j0 j hj hjs)).1 k hjn
  refine ⟨n, h1, k, h2, hn, htg, ?_, t', h3, says_translate hrd t' n (jnode_added h1) h4⟩
  rw [isZero_translate]
  exact full_says _ t' n h4 (full_same t t' h3 hfull)

theorem field_target {i : Nat} {nm : Str} (hf : findStructField dv (rootInfos r) nm = some i) : targetOf dv r nm = (Sp.fld i).key := by
  simp [targetOf, hf, Sp.key]

/-- A field written as an attribute. -/
theorem attr_entry (hd : DocNs h env d S) {i : Nat} {a : Attr} (hn : OwnName env d S l r a.name.loc)
    (hg : GoodAttr dv (rootInfos r) (rootTys r) (rootVals r) i a) : JEntry h env d dv S l r (.fld i) (attrEntry a) := by
  obtain ⟨t, v, ht, hv, hf, -, ⟨f, -, -, -, -, h1, h2⟩, -⟩ := hg
  have hjn := (nameS_jname hd hn.1).1
  refine ⟨hjn, field_target hf, ?_⟩
  intro j hjs
  rw [attrEntry, jsame_str] at hjs
  subst hjs
  refine ⟨.mk ⟨[], a.name.loc⟩ [] a.value [], ?_, _, rfl, hn, field_target hf, t, v, ht, hv, attr_elem _ dv h1 h2 _ _⟩
  intro node
  rw [attrEntry, Json.toNode, addSimple_named hjn]

/-- A field written as an element. -/
theorem elem_entry (hd : DocNs h env d S) (hl : Declares env d S l) (hr : RootOK h env d dv S r)
    (hj : JFields (rootTys r) (rootInfos r) (rootVals r)) {i : Nat} {x : Node} (hn : OwnName env d S l r x.xmlName.loc)
    (hg : GoodElem dv (rootInfos r) (rootTys r) (rootVals r) i x) : JEntry h env d dv S l r (.fld i) (nodeEntry (decoder h l).reg x) := by
  obtain ⟨t, v, nm, ht, hv, hxn, hf, ⟨f, hf0, rfl, hf1, hf2, hf3, hf4⟩, -⟩ := hg
  rw [hxn] at hn
  simp only at hn
  have hjn := nameS_jname hd hn.1
  have hrd := decoder_rdfNames hd hl
  have hty : TysNames JName [t] := ⟨tyNames_mono (fun _ h => nameS_jname hd h) _ (hr.names i f t v hf0 ht hv hf2).2.2, trivial⟩
  obtain ⟨x', h1, -, -, h2⟩ := jtrips_all (decoder h l) dv hrd.reg _ hty t (List.mem_singleton.2 rfl) v ⟨[], f.name⟩ hf3
    (jfields_get hj i f t v hf0 ht hv hf1 hf2)
  rw [hf4] at h1
  cases h1
  have hk : x.fullName (decoder h l).reg = f.name := fullName_of _ hxn
  unfold nodeEntry
  rw [hk]
  refine ⟨hjn.1, field_target hf, ?_⟩
  intro j hjs
  obtain ⟨n, h3, h4, h5⟩ := (h2 j hjs).1 f.name hjn
  exact ⟨n, h3, f.name, h4, hn, field_target hf, t, v, ht, hv, h5 true⟩

/-- Reading the entries of one namespace. -/
theorem entries_read : ∀ (sps : List Sp) (m m' : List (Str × Json)), Forall₂ (JEntry h env d dv S l r) sps m →
    Forall₂ (fun a b => a.1 = b.1 ∧ JSame a.2 b.2) m m' →
    ∃ ns, (∀ node : Node, Json.toFields false m' node = .ok (node.setNodes (node.nodes ++ ns))) ∧ Forall₂ (EntryOK h env d dv S l r) sps ns := by
  intro sps m m' h1
  induction h1 generalizing m' with
  | nil =>
    intro h2
    cases h2
    refine ⟨[], ?_, .nil⟩
    intro node
    rw [Json.toFields]
    obtain ⟨n1, n2, n3, n4⟩ := node
    simp [Node.setNodes, Node.nodes]
  | cons h1 h2 ih =>
    rename_i sp e sps m
    intro h3
    cases h3 with
    | cons h4 h5 =>
      rename_i e' m'
      obtain ⟨k, j⟩ := e
      obtain ⟨k', j'⟩ := e'
      obtain ⟨rfl, h6⟩ := h4
      simp only at h6
      obtain ⟨n, h7, h8⟩ := h1.2.2 j' h6
      obtain ⟨ns, h9, h10⟩ := ih m' h5
      refine ⟨n :: ns, ?_, .cons h8 h10⟩
      intro node
      rw [Json.toFields, if_neg (by simp), h7]
      simp only [h9]
      obtain ⟨n1, n2, n3, n4⟩ := node
      simp [Node.setNodes, Node.nodes, Node.appendNode]

theorem spec_nodup {G : List Grp} (hG : Grouped dv S r G) {fs : List (Str × Tree)} (hfs : (fs.map (·.1)).Nodup) {g : Grp} (hg : g ∈ G) :
    ((specOf r fs g).map Sp.key).Nodup := by
  have hidx : (G.flatMap Grp.idx).Nodup := (idx_perm G).nodup_iff.2 hG.idx
  have hi : g.idx.Nodup := (List.nodup_flatMap.1 hidx).1 g hg
  unfold specOf
  rw [List.map_append, List.map_map, List.nodup_append]
  refine ⟨hi.map (fun a b e => by simpa [Sp.key] using e), ?_, ?_⟩
  · split
    · rw [List.map_map]
      have : (Sp.key ∘ fun e : Str × Tree => Sp.ext e.1 e.2) = Sum.inr ∘ Prod.fst := rfl
      rw [this, ← List.map_map]
      exact hfs.map (fun a b e => by simpa using e)
    · simp
  · intro a ha b hb
    obtain ⟨i, -, rfl⟩ := List.mem_map.1 ha
    obtain ⟨x, hx, rfl⟩ := List.mem_map.1 hb
    split at hx
    · obtain ⟨e, -, rfl⟩ := List.mem_map.1 hx
      simp [Sp.key]
    · cases hx

theorem keys_of_entries {sps : List Sp} {m : List (Str × Json)} (h1 : Forall₂ (JEntry h env d dv S l r) sps m) (hn : (sps.map Sp.key).Nodup) :
    (m.map (·.1)).Nodup := by
  have : (m.map (·.1)).map (targetOf dv r) = sps.map Sp.key := by
    clear hn
    induction h1 with
    | nil => rfl
    | cons h2 _ ih => rw [map_cons, map_cons, map_cons, ih, h2.2.1]
  rw [← this] at hn
  exact hn.of_map _

/-- The entries of the JSON form of a group. -/
theorem group_entries (hd : DocNs h env d S) (hl : Declares env d S l) (hr : RootOK h env d dv S r) {g : Grp} (hok : GrpOK env d dv S l r g)
    (hj : JFields (rootTys r) (rootInfos r) (rootVals r)) {fs : List (Str × Tree)} (hs : Shape (.struct fs))
    (hsay : Says (decoder h l).reg (.struct fs) r.node) (hfull : ∀ e ∈ fs, Full e.2) :
    ∃ sps, sps ~ specOf r fs g ∧ Forall₂ (JEntry h env d dv S l r) sps
      ((g.fin r.node).attrs.map attrEntry ++ (g.fin r.node).nodes.map (nodeEntry (decoder h l).reg)) := by
  rw [Shape] at hs
  rw [Says] at hsay
  have hfil : r.node.attrs.filter (fun a => decide (a.name.loc ≠ "rdf:parseType".toList)) = r.node.attrs := by
    rw [List.filter_eq_self]
    intro a ha
    rw [decide_eq_true_eq]
    intro e
    have := (nameS_jname hd (hr.attrs a ha).2.1).1.2
    rw [e] at this
    exact this (by simp)
  rw [hfil] at hsay
  obtain ⟨fsA, fsN, rfl, hA, hN⟩ := saysFields_split _ fs _ _ hsay.2
  have f1 : Forall₂ (JEntry h env d dv S l r) (g.attrs.map (fun o => Sp.fld o.1)) ((g.attrs.map (·.2)).map attrEntry) := by
    rw [List.map_map, forall₂_map_left_iff, forall₂_map_right_iff]
    exact forall₂_same.2 (fun o ho => attr_entry hd (hok.attrs o ho).1 (hok.attrs o ho).2)
  have f2 : Forall₂ (JEntry h env d dv S l r) (g.nodes.map (fun o => Sp.fld o.1)) ((g.nodes.map (·.2)).map (nodeEntry (decoder h l).reg)) := by
    rw [List.map_map, forall₂_map_left_iff, forall₂_map_right_iff]
    exact forall₂_same.2 (fun o ho => elem_entry hd hl hr hj (hok.nodes o ho).1 (hok.nodes o ho).2.2.2)
  by_cases hk : g.key = r.node.xmlName.loc
  · have eA : g.extA r.node = r.node.attrs := if_pos hk
    have eN : g.extN r.node = r.node.nodes := if_pos hk
    have okA := hok.extA
    have okN := hok.extN
    rw [eA] at okA
    rw [eN] at okN
    have f3 : Forall₂ (JEntry h env d dv S l r) (fsA.map (fun e => Sp.ext e.1 e.2)) (r.node.attrs.map attrEntry) := by
      rw [forall₂_map_left_iff, forall₂_map_right_iff]
      have hfull' : ∀ e ∈ fsA, Full e.2 := fun e he => hfull e (by simp [he])
      have hprop : ∀ a ∈ r.node.attrs, OwnName env d S l r a.name.loc ∧ a.value ≠ [] ∧ findStructField dv (rootInfos r) a.name.loc = none :=
        fun a ha => ⟨(okA a ha).1, (hr.attrs a ha).2.2.2⟩
      revert hfull' hprop
      clear f1 f2 hs hsay hfil hfull okA eA
      generalize r.node.attrs = as at hA
      induction hA with
      | nil => intro _ _; exact .nil
      | cons h1 h2 ih =>
        rename_i e a fsA as
        intro hfull' hprop
        refine .cons ?_ (ih (fun x hx => hfull' x (by simp [hx])) (fun x hx => hprop x (by simp [hx])))
        obtain ⟨k, t⟩ := e
        obtain ⟨rfl, rfl⟩ := h1
        obtain ⟨g1, g2, g3⟩ := hprop a (by simp)
        have hf := hfull' (a.name.loc, attrTree a.value) (by simp)
        simp only [attrTree, if_neg g2] at hf ⊢
        exact ext_entry hd hl g1 g3 (by rw [Shape]; trivial) hf (by rw [JForm]; exact ⟨g2, rfl⟩)
    have f4 : Forall₂ (JEntry h env d dv S l r) (fsN.map (fun e => Sp.ext e.1 e.2)) (r.node.nodes.map (nodeEntry (decoder h l).reg)) := by
      rw [forall₂_map_left_iff, forall₂_map_right_iff]
      have hfull' : ∀ e ∈ fsN, Full e.2 ∧ Shape e.2 := fun e he => ⟨hfull e (by simp [he]), (shapeFields_mem hs.2 e (by simp [he])).2⟩
      have hprop : ∀ x ∈ r.node.nodes, x.xmlName = ⟨[], x.xmlName.loc⟩ ∧ OwnName env d S l r x.xmlName.loc ∧
          findStructField dv (rootInfos r) x.xmlName.loc = none := by
        intro x hx
        obtain ⟨h1, h2, h3, h4, h5, h6⟩ := hr.nodes x hx
        refine ⟨?_, (okN x hx).1, h6⟩
        have := (h2 x.xmlName (xmlName_mem_allNames x)).1
        generalize x.xmlName = q at this ⊢
        obtain ⟨sp, lo⟩ := q
        simp only at this
        rw [this]
      revert hfull' hprop
      clear f1 f2 f3 hs hsay hfil hfull okN eN hA
      generalize r.node.nodes = ns at hN
      induction hN with
      | nil => intro _ _; exact .nil
      | cons h1 h2 ih =>
        rename_i e x fsN ns
        intro hfull' hprop
        refine .cons ?_ (ih (fun x hx => hfull' x (by simp [hx])) (fun x hx => hprop x (by simp [hx])))
        obtain ⟨k, t⟩ := e
        obtain ⟨h3, h4⟩ := h1
        obtain ⟨g1, g2, g3⟩ := hprop x (by simp)
        obtain ⟨g4, g5⟩ := hfull' (k, t) (by simp)
        have hfn := fullName_of (decoder h l).reg g1
        simp only at h3 h4 g4 g5
        unfold nodeEntry
        rw [← h3]
        rw [hfn] at h3
        rw [← h3] at g2 g3
        exact ext_entry hd hl g2 g3 g5 g4 (node_form _ t x g5 h4)
    refine ⟨(g.attrs.map (fun o => Sp.fld o.1) ++ fsA.map (fun e => Sp.ext e.1 e.2)) ++ (g.nodes.map (fun o => Sp.fld o.1) ++ fsN.map (fun e => Sp.ext e.1 e.2)), ?_, ?_⟩
    · unfold specOf Grp.idx
      rw [if_pos hk, List.map_append, List.map_append, List.map_map, List.map_map]
      rw [List.append_assoc, List.append_assoc]
      refine Perm.append_left _ ?_
      rw [← List.append_assoc, ← List.append_assoc]
      exact Perm.append_right _ perm_append_comm
    · show Forall₂ _ _ ((g.attrs.map (·.2) ++ g.extA r.node).map attrEntry ++ (g.nodes.map (·.2) ++ g.extN r.node).map (nodeEntry _))
      rw [eA, eN, List.map_append, List.map_append]
      exact rel_append (rel_append f1 f3) (rel_append f2 f4)
  · refine ⟨g.attrs.map (fun o => Sp.fld o.1) ++ g.nodes.map (fun o => Sp.fld o.1), ?_, ?_⟩
    · unfold specOf Grp.idx
      rw [if_neg hk, List.append_nil, List.map_append, List.map_map, List.map_map]
      exact .refl _
    · show Forall₂ _ _ ((g.attrs.map (·.2) ++ g.extA r.node).map attrEntry ++ (g.nodes.map (·.2) ++ g.extN r.node).map (nodeEntry _))
      rw [show g.extA r.node = [] from if_neg hk, show g.extN r.node = [] from if_neg hk, List.append_nil, List.append_nil]
      exact rel_append f1 f2

/-- The JSON form of one namespace is read as elements for all its parts. -/
theorem group_read (hd : DocNs h env d S) (hl : Declares env d S l) (hr : RootOK h env d dv S r) {G : List Grp} (hG : Grouped dv S r G) {g : Grp}
    (hg : g ∈ G) (hok : GrpOK env d dv S l r g) (hj : JFields (rootTys r) (rootInfos r) (rootVals r)) {fs : List (Str × Tree)} (hs : Shape (.struct fs))
    (hsay : Says (decoder h l).reg (.struct fs) r.node) (hfull : ∀ e ∈ fs, Full e.2) {j : Json}
    (hjs : JSame (Json.ofNode (decoder h l).reg (g.fin r.node)) j) :
    ∃ L : List (Sp × Node), Json.toModel g.key j = .ok (.mk ⟨[], g.key⟩ [] [] (L.map (·.2))) ∧ L.map (·.1) ~ specOf r fs g ∧
      ∀ e ∈ L, EntryOK h env d dv S l r e.1 e.2 := by
  obtain ⟨sps, hperm, hent⟩ := group_entries hd hl hr hok hj hs hsay hfull
  have hs' := hs
  rw [Shape] at hs'
  have hnd : (sps.map Sp.key).Nodup := (hperm.map _).nodup_iff.2 (spec_nodup hG hs'.1 hg)
  have hkeys := keys_of_entries hent hnd
  have hjname : ∀ e ∈ (g.fin r.node).attrs.map attrEntry ++ (g.fin r.node).nodes.map (nodeEntry (decoder h l).reg), JsonName e.1 := by
    intro e he
    obtain ⟨sp, -, h1⟩ := forall₂_mem_right hent he
    exact h1.1
  obtain ⟨m, hm1, hm2⟩ := ofNode_entries (decoder h l).reg ⟨[], g.key⟩ (g.fin r.node).attrs [] (g.fin r.node).nodes (by simp)
    (fun a ha => hjname (attrEntry a) (by simp only [mem_append]; exact Or.inl (mem_map_of_mem ha)))
    (fun x hx => hjname (nodeEntry _ x) (by simp only [mem_append]; exact Or.inr (mem_map_of_mem hx))) (by
      rw [List.map_append, List.map_map, List.map_map] at hkeys
      exact perm_append_comm.nodup_iff.1 hkeys)
  have hfin : Json.ofNode (decoder h l).reg (g.fin r.node) = .obj m := by
    rw [← hm1, List.append_nil]
    rfl
  rw [hfin, JSame] at hjs
  obtain ⟨m', m'', rfl, hp, hf⟩ := hjs
  rw [jsameFields_iff] at hf
  have c1 : Relation.Comp Perm (Forall₂ (fun (a b : Str × Json) => a.1 = b.1 ∧ JSame a.2 b.2)) m m' := by
    rw [← forall₂_comp_perm_eq_perm_comp_forall₂]
    exact ⟨m'', hf, hp⟩
  obtain ⟨m1, q1, q2⟩ := c1
  have c2 : Relation.Comp Perm (Forall₂ (JEntry h env d dv S l r)) sps m1 := by
    rw [← forall₂_comp_perm_eq_perm_comp_forall₂]
    exact ⟨_, hent, hm2.symm.trans q1⟩
  obtain ⟨sps', q3, q4⟩ := c2
  obtain ⟨ns, h1, h2⟩ := entries_read sps' m1 m' q4 q2
  obtain ⟨L, h3, h4, h5⟩ := forall₂_zip h2
  refine ⟨L, ?_, ?_, h5⟩
  · rw [Json.toModel, h1, h4]
    rfl
  · rw [h3]
    exact q3.symm.trans hperm

end

end Xmp.Props
