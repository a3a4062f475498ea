import Verif.Props.DocDecode

/-! C46: the loops of the decoder. -/

namespace Xmp.Props

open GoStr

/-- The parsed attribute. -/
def parsedAttr (u : Str → Str) (a : Attr) : Attr := { a with name := reparseName u a.name }

/-- Attributes of the top-level node that go to a group. -/
def Grp.extA (n : Node) (g : Grp) : List Attr := if g.key = n.xmlName.loc then n.attrs else []
/-- Elements of the top-level node that go to a group. -/
def Grp.extN (n : Node) (g : Grp) : List Node := if g.key = n.xmlName.loc then n.nodes else []
/-- The fields in a group. -/
def Grp.idx (g : Grp) : List Nat := g.attrs.map (·.1) ++ g.nodes.map (·.1)

/-- A parsed description. -/
def pdesc (u : Str → Str) (ds : List Attr) (about : Str) (w : Node) : Node :=
  .mk ⟨nsRDF.uri, "Description".toList⟩ (ds ++ [⟨⟨nsRDF.uri, "about".toList⟩, about⟩] ++ w.attrs.map (parsedAttr u)) []
    (Node.reparseList u w.nodes)

section
variable {h : RegHistory} {env : Env} {d : XDoc} {dv : Version} {S : Str → Prop} {l : List (Str × Str)} {r : Root}

theorem loop_decls (ds rest : List Attr) (hds : ∀ a ∈ ds, a.name.space = "xmlns".toList) (dd : Dec) (ab : Str) (rs : List Root) :
    Dec.decodeAttributes env dd dv (ds ++ rest) (ab, rs) = Dec.decodeAttributes env dd dv rest (ab, rs) := by
  induction ds with
  | nil => rfl
  | cons a ds ih =>
    have ha := hds a (by simp)
    rw [List.cons_append, Dec.decodeAttributes, if_neg (by rw [ha]; decide)]
    have : Dec.decodeAttribute env dd dv rs a = .ok rs := by
      unfold Dec.decodeAttribute
      rw [translate_fix dd a.name (Or.inr ha)]
      have : skipName a.name = true := by
        unfold skipName
        simp [ha]
      simp [this]
    rw [this]
    exact ih (fun x hx => hds x (by simp [hx]))

theorem own_space (hd : DocNs h env d S) {a : Attr} (hn : OwnName env d S l r a.name.loc) :
    (parsedAttr (bindOf env d) a).name.space ≠ nsRDF.uri := by
  obtain ⟨p, loc, e, hpc, hloc, hSp, ho, hdecl⟩ := ownName_cases hd hn
  unfold parsedAttr
  rw [show a.name = ⟨a.name.space, a.name.loc⟩ from rfl, e, reparse_colon _ hpc]
  exact bind_ne_rdf hd hSp

theorem loop_attrs (hd : DocNs h env d S) (hl : Declares env d S l) (hr : RootOK h env d dv S r) {rs : List Root} (hrs : Fresh r rs)
    (A : List Attr) (N : List Node) (rest : List Attr) (ab : Str) : ∀ (os : List (Nat × Attr)) (is : List Nat),
    (∀ o ∈ os, OwnName env d S l r o.2.name.loc ∧ GoodAttr dv (rootInfos r) (rootTys r) (rootVals r) o.1 o.2) →
    (is ++ os.map (·.1)).Nodup →
    Dec.decodeAttributes env (decoder h l) dv ((os.map (·.2)).map (parsedAttr (bindOf env d)) ++ rest) (ab, rs ++ cur r is A N) =
      Dec.decodeAttributes env (decoder h l) dv rest (ab, rs ++ cur r (is ++ os.map (·.1)) A N) := by
  intro os
  induction os with
  | nil => intro is _ _; simp
  | cons o os ih =>
    intro is hos hnd
    obtain ⟨h1, h2⟩ := hos o (by simp)
    have hi : o.1 ∉ is := by
      intro hi
      have := (List.nodup_append.1 hnd).2.2 o.1 hi o.1 (by simp)
      exact this rfl
    rw [List.map_cons, List.map_cons, List.cons_append, Dec.decodeAttributes, if_neg (own_space hd h1)]
    have := step_attr hd hl hr hrs A N hi h1 h2
    unfold parsedAttr at this ⊢
    rw [this]
    simp only
    have := ih (is ++ [o.1]) (fun x hx => hos x (by simp [hx])) (by simpa using hnd)
    unfold parsedAttr at this
    rw [this]
    simp

theorem loop_extAttrs (hd : DocNs h env d S) (hl : Declares env d S l) (hr : RootOK h env d dv S r) {rs : List Root} (hrs : Fresh r rs)
    (is : List Nat) (N : List Node) (ab : Str) : ∀ (as A : List Attr),
    (∀ a ∈ as, OwnName env d S l r a.name.loc ∧ a ∈ r.node.attrs) → ((A ++ as).map (·.name.loc)).Nodup →
    Dec.decodeAttributes env (decoder h l) dv (as.map (parsedAttr (bindOf env d))) (ab, rs ++ cur r is A N) =
      .ok (ab, rs ++ cur r is (A ++ as) N) := by
  intro as
  induction as with
  | nil => intro A _ _; simp [Dec.decodeAttributes]
  | cons a as ih =>
    intro A has hnd
    obtain ⟨h1, h2⟩ := has a (by simp)
    obtain ⟨h3, h4, h5, h6, h7⟩ := hr.attrs a h2
    rw [List.map_cons, Dec.decodeAttributes, if_neg (own_space hd h1)]
    have := step_extAttr hd hl hr hrs is A N h1 h3 h6 h7 (by
      intro x hx e
      rw [List.map_append, List.nodup_append] at hnd
      exact hnd.2.2 x.name.loc (List.mem_map.2 ⟨x, hx, rfl⟩) a.name.loc (by simp) e)
    unfold parsedAttr at this ⊢
    rw [this]
    simp only
    have := ih (A ++ [a]) (fun x hx => has x (by simp [hx])) (by simpa using hnd)
    unfold parsedAttr at this
    rw [this]
    simp

theorem decodeNodes_append (dd : Dec) : ∀ (a b : List Node) (rs rs' : List Root), Dec.decodeNodes env dd dv a rs = .ok rs' →
    Dec.decodeNodes env dd dv (a ++ b) rs = Dec.decodeNodes env dd dv b rs' := by
  intro a
  induction a with
  | nil => intro b rs rs' e; rw [Dec.decodeNodes] at e; cases e; rfl
  | cons x a ih =>
    intro b rs rs' e
    rw [Dec.decodeNodes] at e
    rw [List.cons_append, Dec.decodeNodes]
    split at e
    · rename_i rs1 h1
      exact ih b rs1 rs' e
    · cases e
    · cases e

theorem loop_nodes (hd : DocNs h env d S) (hl : Declares env d S l) (hr : RootOK h env d dv S r) {rs : List Root} (hrs : Fresh r rs)
    (A : List Attr) (N : List Node) : ∀ (os : List (Nat × Node)) (is : List Nat),
    (∀ o ∈ os, OwnName env d S l r o.2.xmlName.loc ∧ NamesP (NameM S) o.2 ∧ (∀ q ∈ allNames o.2, Bound env d S l q) ∧
      GoodElem dv (rootInfos r) (rootTys r) (rootVals r) o.1 o.2) → (is ++ os.map (·.1)).Nodup →
    Dec.decodeNodes env (decoder h l) dv (Node.reparseList (bindOf env d) (os.map (·.2))) (rs ++ cur r is A N) =
      .ok (rs ++ cur r (is ++ os.map (·.1)) A N) := by
  intro os
  induction os with
  | nil => intro is _ _; simp [Dec.decodeNodes, Node.reparseList]
  | cons o os ih =>
    intro is hos hnd
    obtain ⟨h1, h2, h3, h4⟩ := hos o (by simp)
    have hi : o.1 ∉ is := by
      intro hi
      have := (List.nodup_append.1 hnd).2.2 o.1 hi o.1 (by simp)
      exact this rfl
    rw [List.map_cons, Node.reparseList, Dec.decodeNodes, step_node hd hl hr hrs A N hi h1 h2 h3 h4]
    simp only
    rw [ih (is ++ [o.1]) (fun x hx => hos x (by simp [hx])) (by simpa using hnd)]
    simp

theorem loop_extNodes (hd : DocNs h env d S) (hl : Declares env d S l) (hr : RootOK h env d dv S r) {rs : List Root} (hrs : Fresh r rs)
    (is : List Nat) (A : List Attr) : ∀ (ns N : List Node),
    (∀ x ∈ ns, OwnName env d S l r x.xmlName.loc ∧ (∀ q ∈ allNames x, Bound env d S l q) ∧ x ∈ r.node.nodes) →
    ((N ++ ns).map (·.xmlName.loc)).Nodup →
    Dec.decodeNodes env (decoder h l) dv (Node.reparseList (bindOf env d) ns) (rs ++ cur r is A N) =
      .ok (rs ++ cur r is A (N ++ ns)) := by
  intro ns
  induction ns with
  | nil => intro N _ _; simp [Dec.decodeNodes, Node.reparseList]
  | cons x ns ih =>
    intro N hns hnd
    obtain ⟨h1, h2, h3⟩ := hns x (by simp)
    obtain ⟨h4, h5, h6, h7, h8, h9⟩ := hr.nodes x h3
    rw [Node.reparseList, Dec.decodeNodes, step_extNode hd hl hr hrs is A N h1 h5 h2 h8 h7 h9 (by
      intro y hy e
      rw [List.map_append, List.nodup_append] at hnd
      exact hnd.2.2 y.xmlName.loc (List.mem_map.2 ⟨y, hy, rfl⟩) x.xmlName.loc (by simp) e)]
    simp only
    rw [ih (N ++ [x]) (fun y hy => hns y (by simp [hy])) (by simpa using hnd)]
    simp

theorem reparseList_append (u : Str → Str) (a b : List Node) : Node.reparseList u (a ++ b) = Node.reparseList u a ++ Node.reparseList u b := by
  rw [reparseList_eq_map, reparseList_eq_map, reparseList_eq_map, List.map_append]

/-- What the decoder needs of a group. -/
structure GrpOK (env : Env) (d : XDoc) (dv : Version) (S : Str → Prop) (l : List (Str × Str)) (r : Root) (g : Grp) : Prop where
  attrs : ∀ o ∈ g.attrs, OwnName env d S l r o.2.name.loc ∧ GoodAttr dv (rootInfos r) (rootTys r) (rootVals r) o.1 o.2
  nodes : ∀ o ∈ g.nodes, OwnName env d S l r o.2.xmlName.loc ∧ NamesP (NameM S) o.2 ∧ (∀ q ∈ allNames o.2, Bound env d S l q) ∧
      GoodElem dv (rootInfos r) (rootTys r) (rootVals r) o.1 o.2
  extA : ∀ a ∈ g.extA r.node, OwnName env d S l r a.name.loc ∧ a ∈ r.node.attrs
  extN : ∀ x ∈ g.extN r.node, OwnName env d S l r x.xmlName.loc ∧ (∀ q ∈ allNames x, Bound env d S l q) ∧ x ∈ r.node.nodes

/-- One description. -/
theorem step_description (hd : DocNs h env d S) (hl : Declares env d S l) (hr : RootOK h env d dv S r) {rs : List Root} (hrs : Fresh r rs)
    {g : Grp} (hg : GrpOK env d dv S l r g) {is : List Nat} {A : List Attr} {N : List Node} (hi : (is ++ g.idx).Nodup)
    (hA : ((A ++ g.extA r.node).map (·.name.loc)).Nodup) (hN : ((N ++ g.extN r.node).map (·.xmlName.loc)).Nodup)
    {ds : List Attr} (hds : ∀ a ∈ ds, a.name.space = "xmlns".toList) (about ab : Str) (rest : List Node) :
    Dec.descriptions env (decoder h l) dv (pdesc (bindOf env d) ds about (g.fin r.node) :: rest) (ab, rs ++ cur r is A N) =
      Dec.descriptions env (decoder h l) dv rest (about, rs ++ cur r (is ++ g.idx) (A ++ g.extA r.node) (N ++ g.extN r.node)) := by
  have hname : (pdesc (bindOf env d) ds about (g.fin r.node)).fullName (decoder h l).reg = "rdf:Description".toList := by
    have hk := (hd.core nsRDF (by simp)).2.1
    show (if nsRDF.uri ≠ [] then (decoder h l).reg.short nsRDF.uri "Description".toList else _) = _
    rw [if_pos (by decide), (decoder_ok h l).reg_eq, Registry.short, hk]
    decide
  have hidx : is ++ g.attrs.map (·.1) ++ g.nodes.map (·.1) = is ++ g.idx := by simp [Grp.idx]
  have hi1 : (is ++ g.attrs.map (·.1)).Nodup := by
    rw [← hidx] at hi
    exact (List.nodup_append.1 hi).1
  rw [Dec.descriptions, if_neg (by simp [hname])]
  have hattrs : Dec.decodeAttributes env (decoder h l) dv (pdesc (bindOf env d) ds about (g.fin r.node)).attrs (ab, rs ++ cur r is A N) =
      .ok (about, rs ++ cur r (is ++ g.attrs.map (·.1)) (A ++ g.extA r.node) N) := by
    show Dec.decodeAttributes env (decoder h l) dv (ds ++ [⟨⟨nsRDF.uri, "about".toList⟩, about⟩] ++
      (g.attrs.map (·.2) ++ g.extA r.node).map (parsedAttr (bindOf env d))) _ = _
    rw [List.append_assoc, loop_decls ds _ hds, List.singleton_append, Dec.decodeAttributes, if_pos rfl, if_pos rfl,
      List.map_append, loop_attrs hd hl hr hrs A N _ about g.attrs is hg.attrs hi1]
    exact loop_extAttrs hd hl hr hrs _ N about _ A hg.extA hA
  rw [hattrs]
  simp only
  have hnodes : Dec.decodeNodes env (decoder h l) dv (pdesc (bindOf env d) ds about (g.fin r.node)).nodes
      (rs ++ cur r (is ++ g.attrs.map (·.1)) (A ++ g.extA r.node) N) =
      .ok (rs ++ cur r (is ++ g.idx) (A ++ g.extA r.node) (N ++ g.extN r.node)) := by
    show Dec.decodeNodes env (decoder h l) dv (Node.reparseList (bindOf env d) (g.nodes.map (·.2) ++ g.extN r.node)) _ = _
    rw [reparseList_append, decodeNodes_append _ _ _ _ _ (loop_nodes hd hl hr hrs _ N g.nodes _ hg.nodes (by rw [hidx]; exact hi)), hidx]
    exact loop_extNodes hd hl hr hrs _ _ _ N hg.extN hN
  rw [hnodes]

/-- Is the wrapper of a group not empty? -/
def busy (w : Node) : Bool := !(w.attrs.isEmpty && w.nodes.isEmpty)

theorem not_busy {g : Grp} (hb : busy (g.fin r.node) = false) : g.idx = [] ∧ g.extA r.node = [] ∧ g.extN r.node = [] := by
  have h1 : (g.fin r.node).attrs = [] ∧ (g.fin r.node).nodes = [] := by simpa [busy] using hb
  have h2 : g.attrs.map (·.2) ++ g.extA r.node = [] := h1.1
  have h3 : g.nodes.map (·.2) ++ g.extN r.node = [] := h1.2
  rw [List.append_eq_nil_iff, List.map_eq_nil_iff] at h2 h3
  simp [Grp.idx, h2.1, h2.2, h3.1, h3.2]

theorem is_busy {g : Grp} (hb : busy (g.fin r.node) = true) : ¬ (g.idx = [] ∧ g.extA r.node = [] ∧ g.extN r.node = []) := by
  rintro ⟨h1, h2, h3⟩
  rw [Grp.idx, List.append_eq_nil_iff, List.map_eq_nil_iff, List.map_eq_nil_iff] at h1
  have h4 : (g.fin r.node).attrs = [] := by
    show g.attrs.map (·.2) ++ g.extA r.node = []
    simp [h1.1, h2]
  have h5 : (g.fin r.node).nodes = [] := by
    show g.nodes.map (·.2) ++ g.extN r.node = []
    simp [h1.2, h3]
  simp [busy, h4, h5] at hb

/-- All descriptions of a top-level node; `D` is the parsed form of a wrapper. -/
theorem loop_groups (hd : DocNs h env d S) (hl : Declares env d S l) (hr : RootOK h env d dv S r) {rs : List Root} (hrs : Fresh r rs)
    (about : Str) (D : Node → List Attr) (hD : ∀ w, ∀ a ∈ D w, a.name.space = "xmlns".toList) (rest : List Node) :
    ∀ (G : List Grp) (is : List Nat) (A : List Attr) (N : List Node) (ab : Str),
    (∀ g ∈ G, busy (g.fin r.node) = true → GrpOK env d dv S l r g) → (is ++ G.flatMap Grp.idx).Nodup →
    ((A ++ G.flatMap (Grp.extA r.node)).map (·.name.loc)).Nodup → ((N ++ G.flatMap (Grp.extN r.node)).map (·.xmlName.loc)).Nodup →
    Dec.descriptions env (decoder h l) dv (((G.map (Grp.fin r.node)).filter busy).map (fun w => pdesc (bindOf env d) (D w) about w) ++ rest)
        (ab, rs ++ cur r is A N) =
      Dec.descriptions env (decoder h l) dv rest
        (if G.flatMap Grp.idx = [] ∧ G.flatMap (Grp.extA r.node) = [] ∧ G.flatMap (Grp.extN r.node) = [] then ab else about,
          rs ++ cur r (is ++ G.flatMap Grp.idx) (A ++ G.flatMap (Grp.extA r.node)) (N ++ G.flatMap (Grp.extN r.node))) := by
  intro G
  induction G with
  | nil => intro is A N ab _ _ _ _; simp
  | cons g G ih =>
    intro is A N ab hG h1 h2 h3
    have hG' : ∀ g ∈ G, busy (g.fin r.node) = true → GrpOK env d dv S l r g := fun x hx => hG x (by simp [hx])
    rw [List.map_cons]
    cases hb : busy (g.fin r.node) with
    | false =>
      obtain ⟨e1, e2, e3⟩ := not_busy hb
      rw [List.filter_cons_of_neg (by simp [hb])]
      simp only [List.flatMap_cons, e1, e2, e3, List.nil_append] at h1 h2 h3 ⊢
      exact ih is A N ab hG' h1 h2 h3
    | true =>
      have hne := is_busy hb
      rw [List.filter_cons_of_pos hb, List.map_cons, List.cons_append]
      simp only [List.flatMap_cons, ← List.append_assoc] at h1 h2 h3 ⊢
      have a1 := (List.nodup_append.1 h1).1
      have a2 : ((A ++ g.extA r.node).map (·.name.loc)).Nodup := by
        rw [List.map_append] at h2
        exact (List.nodup_append.1 h2).1
      have a3 : ((N ++ g.extN r.node).map (·.xmlName.loc)).Nodup := by
        rw [List.map_append] at h3
        exact (List.nodup_append.1 h3).1
      rw [step_description hd hl hr hrs (hG g (by simp) hb) a1 a2 a3 (hD _) about ab, ih _ _ _ about hG' h1 h2 h3]
      rw [ite_self, if_neg]
      rintro ⟨e1, e2, e3⟩
      rw [List.append_eq_nil_iff] at e1 e2 e3
      exact hne ⟨e1.1, e2.1, e3.1⟩

/-- The content outside of the model goes to one group. -/
theorem flatMap_own {α : Type} (n : Str) (x : List α) : ∀ (G : List Grp), (G.map (·.key)).Nodup → n ∈ G.map (·.key) →
    G.flatMap (fun g => if g.key = n then x else []) = x := by
  intro G
  induction G with
  | nil => intro _ h; simp at h
  | cons g G ih =>
    intro hk hm
    rw [List.map_cons, List.nodup_cons] at hk
    rw [List.flatMap_cons]
    by_cases hg : g.key = n
    · rw [if_pos hg]
      have : G.flatMap (fun g => if g.key = n then x else []) = [] := by
        rw [List.flatMap_eq_nil_iff]
        intro y hy
        rw [if_neg]
        intro e
        exact hk.1 (List.mem_map.2 ⟨y, hy, by rw [e, hg]⟩)
      rw [this, List.append_nil]
    · rw [if_neg hg, List.nil_append]
      refine ih hk.2 ?_
      rw [List.map_cons, List.mem_cons] at hm
      exact hm.resolve_left (fun e => hg e.symm)

/-- A finished node. -/
theorem build_done (hr : RootOK h env d dv S r) {is : List Nat}
    (hall : ∀ (i : Nat) (f : FieldInfo) (t : Ty) (v : Val), (rootInfos r)[i]? = some f → (rootTys r)[i]? = some t →
      (rootVals r)[i]? = some v → fieldWritten f t v = true → i ∈ is) : build r is r.node.attrs r.node.nodes = r := by
  have hvals : putAll (rootVals r) (Ty.zeros (rootTys r)) is = rootVals r := by
    apply List.ext_getElem?
    intro j
    rw [putAll_get _ _ _ (vals_len hr)]
    split
    · rfl
    · rename_i hj
      obtain ⟨h1, h2, h3⟩ := faithfulFields_get hr.faithful
      rw [zeros_get_ty]
      cases ht : (rootTys r)[j]? with
      | none =>
        rw [List.getElem?_eq_none_iff] at ht
        simp only [Option.map_none]
        symm
        rw [List.getElem?_eq_none_iff]
        omega
      | some t =>
        have hj' := (List.getElem?_eq_some_iff.1 ht).1
        obtain ⟨f, hf⟩ : ∃ f, (rootInfos r)[j]? = some f := ⟨_, List.getElem?_eq_getElem (by omega)⟩
        obtain ⟨v, hv⟩ : ∃ v, (rootVals r)[j]? = some v := ⟨_, List.getElem?_eq_getElem (by omega)⟩
        rw [hv]
        rcases h3 j f t v hf ht hv with hw | hz
        · exact absurd (hall j f t v hf ht hv hw) hj
        · rw [hz]; rfl
  unfold build
  rw [hvals]
  obtain ⟨node, model⟩ := r
  have hn : Node.mk node.xmlName node.attrs [] node.nodes = node := by
    have := hr.value
    cases node
    simp only [Node.value] at this
    simp only [Node.xmlName, Node.attrs, Node.nodes, this]
  simp only [hn]
  congr 1
  cases model with
  | none => rfl
  | some m =>
    obtain ⟨z, -, hv⟩ := hr.struct m rfl
    simp only [Option.map_some]
    rw [← hv]

end

end Xmp.Props
