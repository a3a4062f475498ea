import Verif.Props.DocDecoder

/-! C46: how the decoder rebuilds the top-level nodes. -/

namespace Xmp.Props

open GoStr

/-- A top-level node under construction: the fields `is` of the model, the attributes and elements outside of it. -/
def build (r : Root) (is : List Nat) (A : List Attr) (N : List Node) : Root :=
  ⟨.mk r.node.xmlName A [] N, r.model.map (fun m => { m with val := .struct (putAll (rootVals r) (Ty.zeros (rootTys r)) is) })⟩

/-- The decoder has no node before the first content. -/
def cur (r : Root) (is : List Nat) (A : List Attr) (N : List Node) : List Root :=
  if is = [] ∧ A = [] ∧ N = [] then [] else [build r is A N]

theorem putAll_snoc (vf : List Val) (i : Nat) : ∀ (is : List Nat) (st : List Val), putAll vf st (is ++ [i]) =
    match vf[i]? with
    | some v => (putAll vf st is).set i v
    | none => putAll vf st is := by
  intro is
  induction is with
  | nil =>
    intro st
    simp only [List.nil_append, putAll]
    cases vf[i]? <;> rfl
  | cons j is ih =>
    intro st
    rw [List.cons_append, putAll, putAll]
    cases vf[j]? with
    | none => exact ih st
    | some v => exact ih _

section
variable {h : RegHistory} {env : Env} {d : XDoc} {dv : Version} {S : Str → Prop} {l : List (Str × Str)} {r : Root}

theorem root_name (hd : DocNs h env d S) (hr : RootOK h env d dv S r) (A : List Attr) (v : Str) (N : List Node) :
    (Node.mk r.node.xmlName A v N).name = r.node.xmlName.loc :=
  stripPrefix_none (hd.plain _ (hr.own _ (Or.inl rfl))).2.1

theorem build_matches (hd : DocNs h env d S) (hr : RootOK h env d dv S r) {p : Str} (ho : Owned r p) (is : List Nat) (A : List Attr)
    (N : List Node) : XDoc.rootMatches p (build r is A N) = true := by
  unfold XDoc.rootMatches build
  rcases ho with rfl | ⟨m, hm, hc⟩
  · simp only
    rw [root_name hd hr]
    simp
  · simp [hm, Mdl.can, hc]

theorem mk_nil (hr : RootOK h env d dv S r) : r.node.xmlName = ⟨[], r.node.xmlName.loc⟩ := by
  have := hr.space
  generalize r.node.xmlName = q at *
  obtain ⟨sp, lo⟩ := q
  simp only at this
  subst this
  rfl

/-- The decoder finds or creates the node for a prefix. -/
theorem lookup_root (hd : DocNs h env d S) (hl : Declares env d S l) (hr : RootOK h env d dv S r)
    {p loc : Str} (hp : (p, bindOf env d p) ∈ l) (ho : Owned r p) {q : QName}
    (hq : q = ⟨[], p ++ ':' :: loc⟩ ∨ q = ⟨bindOf env d p, loc⟩) {rs : List Root} (hrs : ∀ x ∈ rs, XDoc.rootMatches p x = false)
    (is : List Nat) (A : List Attr) (N : List Node) :
    Dec.lookupNode env (decoder h l) (rs ++ cur r is A N) q = some (rs.length, rs ++ [build r is A N]) := by
  obtain ⟨ns, h1, h2, h3⟩ := decoder_model hd hl hr hp ho hq
  unfold Dec.lookupNode
  rw [h1]
  simp only [h2]
  by_cases hc : is = [] ∧ A = [] ∧ N = []
  · rw [show cur r is A N = [] from if_pos hc]
    obtain ⟨rfl, rfl, rfl⟩ := hc
    rw [List.append_nil, findIdx?_no _ _ hrs, h3]
    simp only
    cases hm : r.model with
    | none =>
      have hpn : p = r.node.xmlName.loc := by
        rcases ho with e | ⟨m, e, -⟩
        · exact e
        · rw [hm] at e; cases e
      simp only [Option.map_none]
      unfold build
      rw [hm, mk_nil hr, ← hpn]
      rfl
    | some m =>
      obtain ⟨ns0, rest, h4, h5⟩ := hr.head m hm
      obtain ⟨z, h6, h7⟩ := hr.struct m hm
      simp only [Option.map_some, h4]
      unfold build
      rw [hm, mk_nil hr, ← h5]
      simp only [Option.map_some, putAll]
      rw [show m.ty.zero = .struct (Ty.zeros (rootTys r)) from by rw [h6]; rfl]
      rw [h4]
      rfl
  · rw [show cur r is A N = [build r is A N] from if_neg hc]
    rw [findIdx?_mid _ _ _ [] hrs (build_matches hd hr ho _ _ _)]

theorem get_mid {α : Type} (a : List α) (b : α) : (a ++ [b])[a.length]? = some b := by simp

theorem vals_len (hr : RootOK h env d dv S r) : (Ty.zeros (rootTys r)).length = (rootVals r).length := by
  obtain ⟨h1, h2, -⟩ := faithfulFields_get hr.faithful
  rw [h2]
  have : ∀ ts : List Ty, (Ty.zeros ts).length = ts.length := by
    intro ts
    induction ts with
    | nil => rfl
    | cons t ts ih => rw [Ty.zeros, List.length_cons, List.length_cons, ih]
  exact this _

theorem unset_zero (hr : RootOK h env d dv S r) {is : List Nat} {i : Nat} (hi : i ∉ is) {t : Ty} (ht : (rootTys r)[i]? = some t) :
    (putAll (rootVals r) (Ty.zeros (rootTys r)) is)[i]? = some t.zero := by
  rw [putAll_get _ _ _ (vals_len hr), if_neg hi, zeros_get_ty, ht]
  rfl

theorem build_model {m : Mdl} (hm : r.model = some m) (is : List Nat) (A : List Attr) (N : List Node) :
    (build r is A N).model = some { m with val := .struct (putAll (rootVals r) (Ty.zeros (rootTys r)) is) } := by
  simp [build, hm]

/-- A field of the model is set. -/
theorem setField_build (hr : RootOK h env d dv S r) {m : Mdl} (hm : r.model = some m) (rs : List Root) {is : List Nat} (A : List Attr)
    (N : List Node) {i : Nat} (hi : i ∉ is) {t : Ty} {v : Val} (ht : (rootTys r)[i]? = some t) (hv : (rootVals r)[i]? = some v)
    (read : Ty → Val → Res Val) (hread : read t t.zero = .ok v) :
    Dec.setField (rs ++ [build r is A N]) rs.length { m with val := .struct (putAll (rootVals r) (Ty.zeros (rootTys r)) is) }
      (rootTys r) (putAll (rootVals r) (Ty.zeros (rootTys r)) is) i read = .ok (rs ++ [build r (is ++ [i]) A N]) := by
  unfold Dec.setField
  rw [ht, unset_zero hr hi ht]
  simp only [hread]
  rw [modify_mid]
  unfold build
  rw [hm]
  simp only [Option.map_some, putAll_snoc, hv]

theorem cur_ne {is : List Nat} {A : List Attr} {N : List Node} (hne : ¬ (is = [] ∧ A = [] ∧ N = [])) : cur r is A N = [build r is A N] := by
  unfold cur
  rw [if_neg hne]

/-- A name with a declared prefix that belongs to the top-level node. -/
def OwnName (env : Env) (d : XDoc) (S : Str → Prop) (l : List (Str × Str)) (r : Root) (nm : Str) : Prop :=
  NameS S nm ∧ Owned r (getPrefix nm) ∧ (getPrefix nm, bindOf env d (getPrefix nm)) ∈ l

theorem ownName_cases (hd : DocNs h env d S) {nm : Str} (hn : OwnName env d S l r nm) : ∃ p loc, nm = p ++ ':' :: loc ∧ ':' ∉ p ∧ loc ≠ [] ∧
    S p ∧ Owned r p ∧ (p, bindOf env d p) ∈ l := by
  obtain ⟨h1, h2, h3⟩ := hn
  obtain ⟨loc, e, h4, h5, h6⟩ := nameS_split hd h1
  exact ⟨getPrefix nm, loc, e, getPrefix_no_colon _, h4, h6, h2, h3⟩

theorem own_notSkipped (hd : DocNs h env d S) {nm : Str} (hn : NameS S nm) : skipName ⟨[], nm⟩ = false := by
  obtain ⟨p, loc, rfl, -, -, hS⟩ := hn
  obtain ⟨-, hc, h1, h2, h3⟩ := hd.plain p hS
  have key : ∀ s : Str, p ++ ':' :: loc = s → p = getPrefix s := by
    intro s e'
    have := congrArg getPrefix e'
    rwa [getPrefix_append hc] at this
  have k1 : p ++ ':' :: loc ≠ "rdf:parseType".toList := fun e => h1 ((key _ e).trans (by decide))
  have k2 : p ++ ':' :: loc ≠ "rdf:type".toList := fun e => h1 ((key _ e).trans (by decide))
  have k3 : p ++ ':' :: loc ≠ "xml:lang".toList := fun e => h2 ((key _ e).trans (by decide))
  unfold skipName
  simp only [k1, k2, k3, decide_false, Bool.or_false]
  rfl

/-- No node of the list answers to a prefix of the top-level node. -/
def Fresh (r : Root) (rs : List Root) : Prop := ∀ p, Owned r p → ∀ x ∈ rs, XDoc.rootMatches p x = false

/-- An attribute of the model. -/
theorem step_attr (hd : DocNs h env d S) (hl : Declares env d S l) (hr : RootOK h env d dv S r) {rs : List Root} (hrs : Fresh r rs)
    {is : List Nat} (A : List Attr) (N : List Node) {i : Nat} (hi : i ∉ is) {a : Attr} (hn : OwnName env d S l r a.name.loc)
    (hg : GoodAttr dv (rootInfos r) (rootTys r) (rootVals r) i a) :
    Dec.decodeAttribute env (decoder h l) dv (rs ++ cur r is A N) { a with name := reparseName (bindOf env d) a.name } =
      .ok (rs ++ cur r (is ++ [i]) A N) := by
  obtain ⟨t, v, ht, hv, hf, hsp, ⟨f, hf1, hf2⟩, hread⟩ := hg
  obtain ⟨p, loc, e, hpc, hloc, hSp, ho, hdecl⟩ := ownName_cases hd hn
  have hname : reparseName (bindOf env d) a.name = ⟨bindOf env d p, loc⟩ := by
    rw [show a.name = ⟨a.name.space, a.name.loc⟩ from rfl, e, reparse_colon _ hpc]
  obtain ⟨m, hm⟩ : ∃ m, r.model = some m := by
    cases hm : r.model with
    | some m => exact ⟨m, rfl⟩
    | none => simp [rootTys, hm] at ht
  obtain ⟨z, hty, -⟩ := hr.struct m hm
  unfold Dec.decodeAttribute
  simp only [hname, decoder_back hd hl hdecl hloc]
  have hskip := own_notSkipped hd hn.1
  rw [e] at hskip
  simp only [hskip, Bool.false_eq_true, if_false]
  rw [lookup_root hd hl hr hdecl ho (Or.inl rfl) (hrs p ho)]
  simp only
  rw [get_mid]
  simp only [Option.bind_some]
  rw [build_model hm]
  simp only [hty]
  rw [e] at hf
  rw [hf]
  simp only
  rw [← hty, setField_build hr hm rs A N hi ht hv _ hread, cur_ne (by simp)]

/-- An attribute outside of the model. -/
theorem step_extAttr (hd : DocNs h env d S) (hl : Declares env d S l) (hr : RootOK h env d dv S r) {rs : List Root} (hrs : Fresh r rs)
    (is : List Nat) (A : List Attr) (N : List Node) {a : Attr} (hn : OwnName env d S l r a.name.loc) (hsp : a.name.space = [])
    (hv : a.value ≠ []) (hf : findStructField dv (rootInfos r) a.name.loc = none) (hfresh : ∀ x ∈ A, x.name.loc ≠ a.name.loc) :
    Dec.decodeAttribute env (decoder h l) dv (rs ++ cur r is A N) { a with name := reparseName (bindOf env d) a.name } =
      .ok (rs ++ cur r is (A ++ [a]) N) := by
  obtain ⟨p, loc, e, hpc, hloc, hSp, ho, hdecl⟩ := ownName_cases hd hn
  have hname : reparseName (bindOf env d) a.name = ⟨bindOf env d p, loc⟩ := by
    rw [show a.name = ⟨a.name.space, a.name.loc⟩ from rfl, e, reparse_colon _ hpc]
  have haa : (⟨⟨[], p ++ ':' :: loc⟩, a.value⟩ : Attr) = a := by
    obtain ⟨⟨sp, lo⟩, va⟩ := a
    simp only at hsp e
    subst hsp e
    rfl
  have hadd : ∀ r' : Root, r'.node = .mk r.node.xmlName A [] N → r'.model = (build r is A N).model →
      ({ r' with node := r'.node.addAttr a } : Root) = build r is (A ++ [a]) N := by
    intro r' e1 e2
    unfold build at e2 ⊢
    simp only at e2
    rw [e1, e2, Node.addAttr, Node.setAttrs, Node.attrs, addAttr_fresh a A hfresh]
  unfold Dec.decodeAttribute
  simp only [hname, decoder_back hd hl hdecl hloc]
  have hskip := own_notSkipped hd hn.1
  rw [e] at hskip
  simp only [hskip, Bool.false_eq_true, if_false]
  rw [lookup_root hd hl hr hdecl ho (Or.inl rfl) (hrs p ho)]
  simp only
  rw [get_mid]
  simp only [Option.bind_some, haa]
  have hstore : (if a.value ≠ [] then Res.ok ((rs ++ [build r is A N]).modify rs.length (fun r => { r with node := r.node.addAttr a }))
      else .ok (rs ++ [build r is A N])) = .ok (rs ++ cur r is (A ++ [a]) N) := by
    rw [if_pos hv, modify_mid, cur_ne (by simp), hadd _ rfl rfl]
  cases hm : r.model with
  | none =>
    have : (build r is A N).model = none := by simp [build, hm]
    rw [this]
    exact hstore
  | some m =>
    obtain ⟨z, hty, -⟩ := hr.struct m hm
    rw [build_model hm]
    simp only [hty]
    rw [e] at hf
    rw [hf]
    exact hstore

/-- An element of the model. -/
theorem step_node (hd : DocNs h env d S) (hl : Declares env d S l) (hr : RootOK h env d dv S r) {rs : List Root} (hrs : Fresh r rs)
    {is : List Nat} (A : List Attr) (N : List Node) {i : Nat} (hi : i ∉ is) {x : Node} (hn : OwnName env d S l r x.xmlName.loc)
    (hx : NamesP (NameM S) x) (hb : ∀ q ∈ allNames x, Bound env d S l q)
    (hg : GoodElem dv (rootInfos r) (rootTys r) (rootVals r) i x) :
    Dec.decodeNode env (decoder h l) dv (rs ++ cur r is A N) (x.reparse (bindOf env d)) =
      .ok (rs ++ cur r (is ++ [i]) A N) := by
  obtain ⟨t, v, nm, ht, hv, hxn, hf, ⟨f, hf1, hf2⟩, -, hread⟩ := hg
  rw [hxn] at hn
  obtain ⟨p, loc, e, hpc, hloc, hSp, ho, hdecl⟩ := ownName_cases hd hn
  have hname : (x.reparse (bindOf env d)).xmlName = ⟨bindOf env d p, loc⟩ := by
    rw [xmlName_reparse, hxn]
    simp only at e
    rw [e, reparse_colon _ hpc]
  obtain ⟨m, hm⟩ : ∃ m, r.model = some m := by
    cases hm : r.model with
    | some m => exact ⟨m, rfl⟩
    | none => simp [rootTys, hm] at ht
  obtain ⟨z, hty, -⟩ := hr.struct m hm
  unfold Dec.decodeNode
  rw [hname, lookup_root hd hl hr hdecl ho (Or.inr rfl) (hrs p ho)]
  simp only [decoder_back hd hl hdecl hloc, fullNameOf_nil]
  rw [get_mid]
  simp only [Option.bind_some]
  rw [build_model hm]
  simp only [hty]
  simp only at e
  rw [e] at hf
  rw [hf]
  simp only
  rw [← hty, setField_build hr hm rs A N hi ht hv _ (hread _ _ (decoder_rdf hd hl) (decoder_understands hd hl hx hb)), cur_ne (by simp)]

/-- An element outside of the model. -/
theorem step_extNode (hd : DocNs h env d S) (hl : Declares env d S l) (hr : RootOK h env d dv S r) {rs : List Root} (hrs : Fresh r rs)
    (is : List Nat) (A : List Attr) (N : List Node) {x : Node} (hn : OwnName env d S l r x.xmlName.loc)
    (hx : NamesP (NameIn S) x) (hb : ∀ q ∈ allNames x, Bound env d S l q) (ht : TrimmedTree x) (hz : x.isZero = false)
    (hf : findStructField dv (rootInfos r) x.xmlName.loc = none) (hfresh : ∀ y ∈ N, y.xmlName.loc ≠ x.xmlName.loc) :
    Dec.decodeNode env (decoder h l) dv (rs ++ cur r is A N) (x.reparse (bindOf env d)) =
      .ok (rs ++ cur r is A (N ++ [x])) := by
  obtain ⟨p, loc, e, hpc, hloc, hSp, ho, hdecl⟩ := ownName_cases hd hn
  have hname : (x.reparse (bindOf env d)).xmlName = ⟨bindOf env d p, loc⟩ := by
    rw [xmlName_reparse, show x.xmlName = ⟨x.xmlName.space, x.xmlName.loc⟩ from rfl, e, reparse_colon _ hpc]
  have hadd : ∀ r' : Root, r'.node = .mk r.node.xmlName A [] N → r'.model = (build r is A N).model →
      ({ r' with node := r'.node.addNode x } : Root) = build r is A (N ++ [x]) := by
    intro r' e1 e2
    unfold build at e2 ⊢
    simp only at e2
    rw [e1, e2, Node.addNode, Node.setNodes, Node.nodes, addNode_fresh x N hfresh]
  have hback := tree_back hd hl x (fun q hq => ⟨hx q hq, hb q hq⟩) ht
  unfold Dec.decodeNode
  rw [hback, hname, lookup_root hd hl hr hdecl ho (Or.inr rfl) (hrs p ho)]
  simp only [decoder_back hd hl hdecl hloc, fullNameOf_nil, hz, Bool.false_eq_true, if_false]
  rw [get_mid]
  simp only [Option.bind_some]
  have hstore : Res.ok ((rs ++ [build r is A N]).modify rs.length (fun r => { r with node := r.node.addNode x })) =
      .ok (rs ++ cur r is A (N ++ [x])) := by
    rw [modify_mid, cur_ne (by simp), hadd _ rfl rfl]
  cases hm : r.model with
  | none =>
    have : (build r is A N).model = none := by simp [build, hm]
    rw [this]
    exact hstore
  | some m =>
    obtain ⟨z, hty, -⟩ := hr.struct m hm
    rw [build_model hm]
    simp only [hty]
    rw [e] at hf
    rw [hf]
    exact hstore

end

end Xmp.Props
