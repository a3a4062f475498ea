import Verif.Model.JsonDoc
import Verif.Props.JsonDocTree

/-! C53: how the decoder rebuilds top-level nodes from elements in any order. -/

namespace Xmp.Props

open GoStr List

/-- Where an element belongs: to a field of the model, or to a tree outside of it. -/
inductive Sp where
  | fld (i : Nat)
  | ext (k : Str) (t : Tree)

/-- The field or name. -/
def Sp.key : Sp → Nat ⊕ Str
  | .fld i => .inl i
  | .ext k _ => .inr k

/-- The field of a name, or the name if there is none. -/
def targetOf (dv : Version) (r : Root) (nm : Str) : Nat ⊕ Str :=
  match findStructField dv (rootInfos r) nm with
  | some i => .inl i
  | none => .inr nm

/-- An element that the decoder recognises. -/
def EntryOK (h : RegHistory) (env : Env) (d : XDoc) (dv : Version) (S : Str → Prop) (l : List (Str × Str)) (r : Root) (sp : Sp) (x : Node) : Prop :=
  ∃ nm, x.xmlName = ⟨[], nm⟩ ∧ OwnName env d S l r nm ∧ targetOf dv r nm = sp.key ∧
    match sp with
    | .fld i => ∃ t v, (rootTys r)[i]? = some t ∧ (rootVals r)[i]? = some v ∧ unmarshal (decoder h l) dv x true t t.zero = .ok v
    | .ext _ t => (x.translate (decoder h l)).isZero = false ∧ Tells (decoder h l).reg t (x.translate (decoder h l))

/-- The fields among the elements. -/
def flds (L : List (Sp × Node)) : List Nat := L.filterMap (fun e => match e.1 with | .fld i => some i | .ext _ _ => none)
/-- The trees among the elements. -/
def exts (dd : Dec) (L : List (Sp × Node)) : List Node :=
  L.filterMap (fun e => match e.1 with | .fld _ => none | .ext _ _ => some (e.2.translate dd))

/-- The elements of a top-level node. -/
def itemsOf (E : List (Root × Sp × Node)) (r : Root) : List (Sp × Node) :=
  (E.filter (fun e => decide (e.1.node.xmlName.loc = r.node.xmlName.loc))).map (·.2)

/-- The top-level nodes after some elements. -/
def stateOf (dd : Dec) (Rs : List Root) (E : List (Root × Sp × Node)) : List Root :=
  Rs.map (fun r => build r (flds (itemsOf E r)) [] (exts dd (itemsOf E r)))

theorem xmlName_translate (dd : Dec) (n : Node) : (n.translate dd).xmlName = dd.translate n.xmlName := by
  obtain ⟨nm, as, v, l⟩ := n
  rw [Node.translate]; rfl

section
variable {h : RegHistory} {env : Env} {d : XDoc} {dv : Version} {S : Str → Prop} {l : List (Str × Str)} {r : Root}

theorem build_owned (hd : DocNs h env d S) (hr : RootOK h env d dv S r) {p : Str} {is : List Nat} {A : List Attr} {N : List Node}
    (hm : XDoc.rootMatches p (build r is A N) = true) : Owned r p := by
  unfold XDoc.rootMatches at hm
  rw [Bool.or_eq_true] at hm
  rcases hm with hm | hm
  · left
    have hn : (build r is A N).node.name = r.node.xmlName.loc := root_name hd hr A [] N
    rw [hn] at hm
    simpa using (of_decide_eq_true hm).symm
  · right
    cases hmod : r.model with
    | none => simp [build, hmod] at hm
    | some m =>
      rw [build_model hmod] at hm
      exact ⟨m, rfl, of_decide_eq_true hm⟩

/-- The decoder finds a node that exists. -/
theorem lookup_mid (hd : DocNs h env d S) (hl : Declares env d S l) (hr : RootOK h env d dv S r)
    {p loc : Str} (hp : (p, bindOf env d p) ∈ l) (ho : Owned r p) {rs1 rs2 : List Root} (hrs : ∀ x ∈ rs1, XDoc.rootMatches p x = false)
    (is : List Nat) (A : List Attr) (N : List Node) :
    Dec.lookupNode env (decoder h l) (rs1 ++ build r is A N :: rs2) ⟨[], p ++ ':' :: loc⟩ = some (rs1.length, rs1 ++ build r is A N :: rs2) := by
  obtain ⟨ns, h1, h2, h3⟩ := decoder_model hd hl hr hp ho (loc := loc) (Or.inl rfl)
  unfold Dec.lookupNode
  rw [h1]
  simp only [h2]
  rw [findIdx?_mid _ _ _ _ hrs (build_matches hd hr ho _ _ _)]

theorem get_mid' {α : Type} (a : List α) (b : α) (c : List α) : (a ++ b :: c)[a.length]? = some b := by simp

/-- An element, after its top-level node was found or created. -/
theorem step_core (hd : DocNs h env d S) (hl : Declares env d S l) (hr : RootOK h env d dv S r) (rs rs1 rs2 : List Root) {sp : Sp} {x : Node}
    (hx : EntryOK h env d dv S l r sp x) (L : List (Sp × Node)) (hL : ∀ e ∈ L, EntryOK h env d dv S l r e.1 e.2)
    (hfresh : sp.key ∉ L.map (·.1.key))
    (hlook : ∀ p loc, Owned r p → (p, bindOf env d p) ∈ l → x.xmlName = ⟨[], p ++ ':' :: loc⟩ →
      Dec.lookupNode env (decoder h l) rs x.xmlName = some (rs1.length, rs1 ++ build r (flds L) [] (exts (decoder h l) L) :: rs2)) :
    Dec.decodeNode env (decoder h l) dv rs x =
      .ok (rs1 ++ build r (flds (L ++ [(sp, x)])) [] (exts (decoder h l) (L ++ [(sp, x)])) :: rs2) := by
  obtain ⟨nm, hxn, hn, htg, hsp⟩ := hx
  obtain ⟨p, loc, e, hpc, hloc, hSp, ho, hdecl⟩ := ownName_cases hd hn
  have hfix : (decoder h l).translate ⟨[], nm⟩ = ⟨[], nm⟩ := translate_fix _ _ (Or.inl rfl)
  unfold Dec.decodeNode
  rw [hlook p loc ho hdecl (by rw [hxn, e])]
  simp only [hxn, hfix, fullNameOf_nil, get_mid', Option.bind_some]
  cases sp with
  | fld i =>
    obtain ⟨t, v, ht, hv, hread⟩ := hsp
    have hf : findStructField dv (rootInfos r) nm = some i := by
      unfold targetOf at htg
      split at htg
      · rename_i j hj
        rw [hj]
        simp only [Sp.key, Sum.inl.injEq] at htg
        rw [htg]
      · simp [Sp.key] at htg
    obtain ⟨m, hm⟩ : ∃ m, r.model = some m := by
      cases hm : r.model with
      | some m => exact ⟨m, rfl⟩
      | none => simp [rootTys, hm] at ht
    obtain ⟨z, hty, -⟩ := hr.struct m hm
    have hi : i ∉ flds L := by
      intro hc
      unfold flds at hc
      obtain ⟨e, he1, he2⟩ := List.mem_filterMap.1 hc
      apply hfresh
      refine List.mem_map.2 ⟨e, he1, ?_⟩
      split at he2
      · rename_i j hj
        rw [hj]
        cases he2; rfl
      · cases he2
    have e1 : flds (L ++ [(.fld i, x)]) = flds L ++ [i] := by simp [flds]
    have e2 : exts (decoder h l) (L ++ [(.fld i, x)]) = exts (decoder h l) L := by simp [exts]
    rw [build_model hm]
    simp only [hty, hf]
    rw [← hty, e1, e2]
    unfold Dec.setField
    rw [ht, unset_zero hr hi ht]
    simp only [hread]
    rw [modify_mid]
    unfold build
    rw [hm]
    simp only [Option.map_some, putAll_snoc, hv]
  | ext k t =>
    have hf : findStructField dv (rootInfos r) nm = none ∧ nm = k := by
      unfold targetOf at htg
      split at htg
      · simp [Sp.key] at htg
      · rename_i hj
        simp only [Sp.key, Sum.inr.injEq] at htg
        exact ⟨hj, htg⟩
    have e1 : flds (L ++ [(.ext k t, x)]) = flds L := by simp [flds]
    have e2 : exts (decoder h l) (L ++ [(.ext k t, x)]) = exts (decoder h l) L ++ [x.translate (decoder h l)] := by simp [exts]
    have hne : ∀ y ∈ exts (decoder h l) L, y.xmlName.loc ≠ (x.translate (decoder h l)).xmlName.loc := by
      intro y hy
      have hxl : (x.translate (decoder h l)).xmlName.loc = k := by
        rw [xmlName_translate, hxn, hfix, hf.2]
      rw [hxl]
      unfold exts at hy
      obtain ⟨e, he1, he2⟩ := List.mem_filterMap.1 hy
      split at he2
      · cases he2
      · rename_i k' t' hj
        cases he2
        obtain ⟨nm', g1, -, g2, -⟩ := hL e he1
        have hk' : nm' = k' := by
          rw [hj] at g2
          unfold targetOf at g2
          split at g2
          · simp [Sp.key] at g2
          · simpa [Sp.key] using g2
        rw [xmlName_translate, g1, translate_fix _ _ (Or.inl rfl)]
        intro hc
        apply hfresh
        refine List.mem_map.2 ⟨e, he1, ?_⟩
        rw [hj]
        simp only [Sp.key, Sum.inr.injEq]
        rw [← hk']
        exact hc
    have hstore : (if (x.translate (decoder h l)).isZero = true then
          Res.ok (rs1 ++ build r (flds L) [] (exts (decoder h l) L) :: rs2)
        else .ok ((rs1 ++ build r (flds L) [] (exts (decoder h l) L) :: rs2).modify rs1.length
          (fun r => { r with node := r.node.addNode (x.translate (decoder h l)) }))) =
        .ok (rs1 ++ build r (flds L) [] (exts (decoder h l) L ++ [x.translate (decoder h l)]) :: rs2) := by
      rw [if_neg (by rw [hsp.1]; simp), modify_mid]
      unfold build
      simp only [Node.addNode, Node.setNodes, Node.nodes]
      rw [addNode_fresh _ _ hne]
    rw [e1, e2]
    cases hm : r.model with
    | none =>
      have : (build r (flds L) [] (exts (decoder h l) L)).model = none := by simp [build, hm]
      rw [this]
      exact hstore
    | some m =>
      obtain ⟨z, hty, -⟩ := hr.struct m hm
      rw [build_model hm]
      simp only [hty, hf.1]
      exact hstore

theorem itemsOf_append (E E' : List (Root × Sp × Node)) (r : Root) : itemsOf (E ++ E') r = itemsOf E r ++ itemsOf E' r := by
  simp [itemsOf]

theorem itemsOf_mem {E : List (Root × Sp × Node)} {r : Root} {e : Sp × Node} (h : e ∈ itemsOf E r) :
    ∃ r', (r', e) ∈ E ∧ r'.node.xmlName.loc = r.node.xmlName.loc := by
  unfold itemsOf at h
  obtain ⟨x, hx, rfl⟩ := List.mem_map.1 h
  rw [List.mem_filter] at hx
  exact ⟨x.1, hx.1, of_decide_eq_true hx.2⟩

theorem stateOf_other (dd : Dec) (Rs : List Root) (E : List (Root × Sp × Node)) (e : Root × Sp × Node)
    (hne : ∀ x ∈ Rs, e.1.node.xmlName.loc ≠ x.node.xmlName.loc) : stateOf dd Rs (E ++ [e]) = stateOf dd Rs E := by
  unfold stateOf
  apply List.map_congr_left
  intro x hx
  have : itemsOf [e] x = [] := by simp [itemsOf, hne x hx]
  rw [itemsOf_append, this, List.append_nil]

/-- A list of top-level nodes without common prefixes. -/
structure RootsApart (h : RegHistory) (env : Env) (d : XDoc) (dv : Version) (S : Str → Prop) (Q : List Root) : Prop where
  ok : ∀ r ∈ Q, RootOK h env d dv S r
  dis : ∀ r ∈ Q, ∀ r' ∈ Q, r ≠ r' → ∀ p, Owned r p → ¬ Owned r' p

theorem RootsApart.inj {Q : List Root} (hQ : RootsApart h env d dv S Q) {r r' : Root} (hr : r ∈ Q) (hr' : r' ∈ Q)
    (e : r.node.xmlName.loc = r'.node.xmlName.loc) : r = r' := by
  by_contra hne
  exact hQ.dis r hr r' hr' hne _ (Or.inl rfl) (Or.inl e)

/-- The elements in any order. -/
theorem loop_any (hd : DocNs h env d S) (hl : Declares env d S l) {Q : List Root} (hQ : RootsApart h env d dv S Q) :
    ∀ (E2 E1 : List (Root × Sp × Node)) (Rs : List Root), Rs.Nodup → (∀ r ∈ Rs, r ∈ Q) →
    (∀ e ∈ E1 ++ E2, e.1 ∈ Q ∧ EntryOK h env d dv S l e.1 e.2.1 e.2.2) → (∀ e ∈ E1, e.1 ∈ Rs) →
    (∀ r ∈ Q, ((itemsOf (E1 ++ E2) r).map (·.1.key)).Nodup) →
    ∃ Rs', Dec.decodeNodes env (decoder h l) dv (E2.map (·.2.2)) (stateOf (decoder h l) Rs E1) = .ok (stateOf (decoder h l) Rs' (E1 ++ E2)) ∧
      Rs'.Nodup ∧ ∀ r, r ∈ Rs' ↔ r ∈ Rs ∨ ∃ e ∈ E2, e.1 = r := by
  intro E2
  induction E2 with
  | nil =>
    intro E1 Rs h1 _ _ _ _
    exact ⟨Rs, by simp [Dec.decodeNodes], h1, by simp⟩
  | cons e E2 ih =>
    intro E1 Rs hnd hsub hE hE1 hkeys
    obtain ⟨r, sp, x⟩ := e
    obtain ⟨hrQ, hx⟩ := hE (r, sp, x) (by simp)
    simp only at hrQ hx
    have hr := hQ.ok r hrQ
    have hL : ∀ e ∈ itemsOf E1 r, EntryOK h env d dv S l r e.1 e.2 := by
      intro e he
      obtain ⟨r', h1, h2⟩ := itemsOf_mem he
      obtain ⟨h3, h4⟩ := hE (r', e) (by simp [h1])
      have := hQ.inj h3 hrQ h2
      simp only at this
      subst this
      exact h4
    have hfresh : sp.key ∉ (itemsOf E1 r).map (·.1.key) := by
      intro hc
      have := hkeys r hrQ
      rw [show E1 ++ (r, sp, x) :: E2 = E1 ++ ([(r, sp, x)] ++ E2) by simp, itemsOf_append, itemsOf_append,
        show itemsOf [(r, sp, x)] r = [(sp, x)] by simp [itemsOf], List.map_append, List.nodup_append] at this
      exact this.2.2 _ hc sp.key (by simp) rfl
    have hit : itemsOf (E1 ++ [(r, sp, x)]) r = itemsOf E1 r ++ [(sp, x)] := by
      rw [itemsOf_append]; simp [itemsOf]
    have hnomatch : ∀ (Rs1 : List Root), (∀ y ∈ Rs1, y ∈ Q ∧ y ≠ r) → ∀ p, Owned r p → ∀ y ∈ stateOf (decoder h l) Rs1 E1, XDoc.rootMatches p y = false := by
      intro Rs1 h1 p hp y hy
      obtain ⟨z, hz, rfl⟩ := List.mem_map.1 hy
      cases hm : XDoc.rootMatches p (build z (flds (itemsOf E1 z)) [] (exts (decoder h l) (itemsOf E1 z))) with
      | false => rfl
      | true => exact absurd hp (hQ.dis z (h1 z hz).1 r hrQ (h1 z hz).2 p (build_owned hd (hQ.ok z (h1 z hz).1) hm))
    have hloc : ∀ z ∈ Q, z ≠ r → r.node.xmlName.loc ≠ z.node.xmlName.loc := fun z hz hne e => hne (hQ.inj hz hrQ e.symm)
    -- one step
    obtain ⟨Rs1, hstep, hn1, hm1⟩ : ∃ Rs1, Dec.decodeNode env (decoder h l) dv (stateOf (decoder h l) Rs E1) x =
        .ok (stateOf (decoder h l) Rs1 (E1 ++ [(r, sp, x)])) ∧ Rs1.Nodup ∧ ∀ y, y ∈ Rs1 ↔ y ∈ Rs ∨ y = r := by
      by_cases hin : r ∈ Rs
      · obtain ⟨R1, R2, rfl⟩ := List.append_of_mem hin
        have hnd' := hnd
        rw [List.nodup_append, List.nodup_cons] at hnd
        obtain ⟨hn1, ⟨hn2, hn3⟩, hn4⟩ := hnd
        have hR1 : ∀ y ∈ R1, y ∈ Q ∧ y ≠ r := fun y hy => ⟨hsub y (by simp [hy]), fun e => hn4 y hy r (by simp) e⟩
        have hR2 : ∀ y ∈ R2, y ∈ Q ∧ y ≠ r := fun y hy => ⟨hsub y (by simp [hy]), fun e => hn2 (e ▸ hy)⟩
        refine ⟨R1 ++ r :: R2, ?_, hnd', ?_⟩
        · have es : ∀ E, stateOf (decoder h l) (R1 ++ r :: R2) E = stateOf (decoder h l) R1 E ++
              build r (flds (itemsOf E r)) [] (exts (decoder h l) (itemsOf E r)) :: stateOf (decoder h l) R2 E := by
            intro E; simp [stateOf]
          rw [es, es, stateOf_other _ R1 E1 _ (fun y hy => hloc y (hR1 y hy).1 (hR1 y hy).2),
            stateOf_other _ R2 E1 _ (fun y hy => hloc y (hR2 y hy).1 (hR2 y hy).2), hit]
          apply step_core hd hl hr _ _ _ hx _ hL hfresh
          intro p loc ho hdecl e
          rw [e]
          exact lookup_mid hd hl hr hdecl ho (hnomatch R1 hR1 p ho) _ _ _
        · intro y
          constructor
          · exact Or.inl
          · rintro (h | rfl)
            · exact h
            · exact hin
      · have hR : ∀ y ∈ Rs, y ∈ Q ∧ y ≠ r := fun y hy => ⟨hsub y hy, fun e => hin (e ▸ hy)⟩
        have hempty : itemsOf E1 r = [] := by
          rw [List.eq_nil_iff_forall_not_mem]
          intro e he
          obtain ⟨r', h1, h2⟩ := itemsOf_mem he
          have := hQ.inj (hE (r', e) (by simp [h1])).1 hrQ h2
          simp only at this
          subst this
          exact hin (hE1 _ h1)
        refine ⟨Rs ++ [r], ?_, ?_, ?_⟩
        · have es : stateOf (decoder h l) (Rs ++ [r]) (E1 ++ [(r, sp, x)]) = stateOf (decoder h l) Rs E1 ++
              build r (flds (itemsOf E1 r ++ [(sp, x)])) [] (exts (decoder h l) (itemsOf E1 r ++ [(sp, x)])) :: [] := by
            rw [← hit]
            rw [← stateOf_other (decoder h l) Rs E1 (r, sp, x) (fun y hy => hloc y (hR y hy).1 (hR y hy).2)]
            simp [stateOf]
          rw [es]
          apply step_core hd hl hr _ _ _ hx _ hL hfresh
          intro p loc ho hdecl e
          rw [e, hempty]
          have := lookup_root hd hl hr hdecl ho (loc := loc) (Or.inl rfl) (hnomatch Rs hR p ho) [] [] []
          rw [show cur r [] [] [] = [] from by simp [cur], List.append_nil] at this
          rw [this]
          simp [stateOf, flds, exts]
        · rw [List.nodup_append]
          refine ⟨hnd, by simp, ?_⟩
          intro a ha b hb
          rw [List.mem_singleton] at hb
          rw [hb]
          exact (hR a ha).2
        · intro y; simp
    have hassoc : E1 ++ (r, sp, x) :: E2 = (E1 ++ [(r, sp, x)]) ++ E2 := by simp
    rw [hassoc] at hE hkeys
    obtain ⟨Rs', h5, h6, h7⟩ := ih (E1 ++ [(r, sp, x)]) Rs1 hn1 (by
        intro y hy
        rcases (hm1 y).1 hy with hy | rfl
        · exact hsub y hy
        · exact hrQ) hE (by
        intro e he
        rw [hm1]
        rcases List.mem_append.1 he with he | he
        · exact Or.inl (hE1 e he)
        · rw [List.mem_singleton] at he
          rw [he]; exact Or.inr rfl) hkeys
    refine ⟨Rs', ?_, h6, ?_⟩
    · rw [List.map_cons, Dec.decodeNodes]
      simp only
      rw [hstep]
      simp only
      rw [h5, hassoc]
    · intro y
      rw [h7, hm1]
      constructor
      · rintro ((hy | rfl) | ⟨e, he, rfl⟩)
        · exact Or.inl hy
        · exact Or.inr ⟨(y, sp, x), List.mem_cons_self, rfl⟩
        · exact Or.inr ⟨e, by simp [he], rfl⟩
      · rintro (hy | ⟨e, he, rfl⟩)
        · exact Or.inl (Or.inl hy)
        · rcases List.mem_cons.1 he with rfl | he
          · exact Or.inl (Or.inr rfl)
          · exact Or.inr ⟨e, he, rfl⟩

end

end Xmp.Props
