import Verif.Props.DocSpec

/-! C46: what the encoder makes of a document. -/

namespace Xmp.Props

open GoStr

/-- The groups of a top-level node: all written fields of the model, each once, in the group of its prefix. -/
structure Grouped (dv : Version) (S : Str → Prop) (r : Root) (G : List Grp) : Prop where
  keys : (G.map (·.key)).Nodup
  own : r.node.xmlName.loc ∈ G.map (·.key)
  owned : ∀ g ∈ G, Owned r g.key
  attrs : ∀ g ∈ G, ∀ o ∈ g.attrs, getPrefix o.2.name.loc = g.key ∧ NameS S o.2.name.loc ∧
    GoodAttr dv (rootInfos r) (rootTys r) (rootVals r) o.1 o.2
  nodes : ∀ g ∈ G, ∀ o ∈ g.nodes, getPrefix o.2.xmlName.loc = g.key ∧ NameS S o.2.xmlName.loc ∧ NamesP (NameM S) o.2 ∧
    GoodElem dv (rootInfos r) (rootTys r) (rootVals r) o.1 o.2
  idx : ((G.flatMap (·.attrs)).map (·.1) ++ (G.flatMap (·.nodes)).map (·.1)).Nodup
  all : ∀ (i : Nat) (f : FieldInfo) (t : Ty) (v : Val), (rootInfos r)[i]? = some f → (rootTys r)[i]? = some t → (rootVals r)[i]? = some v →
    fieldWritten f t v = true → i ∈ (G.flatMap (·.attrs)).map (·.1) ++ (G.flatMap (·.nodes)).map (·.1)
  only : ∀ i ∈ (G.flatMap (·.attrs)).map (·.1) ++ (G.flatMap (·.nodes)).map (·.1),
    ∃ (f : FieldInfo) (t : Ty) (v : Val), (rootInfos r)[i]? = some f ∧ (rootTys r)[i]? = some t ∧ (rootVals r)[i]? = some v ∧ fieldWritten f t v = true

/-- The wrapper node of a group of a top-level node: the content outside of the model goes to its own namespace. -/
def Grp.fin (n : Node) (g : Grp) : Node :=
  .mk ⟨[], g.key⟩ (g.attrs.map (·.2) ++ if g.key = n.xmlName.loc then n.attrs else []) []
    (g.nodes.map (·.2) ++ if g.key = n.xmlName.loc then n.nodes else [])

theorem fin_other (n : Node) {g : Grp} (h : g.key ≠ n.xmlName.loc) : g.fin n = g.node := by
  simp [Grp.fin, Grp.node, h]

theorem modify_mid {α : Type} (f : α → α) (a : List α) (b : α) (c : List α) :
    (a ++ b :: c).modify a.length f = a ++ f b :: c := by
  induction a with
  | nil => rfl
  | cons x a ih => simp only [List.cons_append, List.length_cons, List.modify_succ_cons, ih]

theorem external_put (env : Env) (d : XDoc) (n : Node) (hs : n.xmlName.space = []) (ns : Namespace) (hcn : ':' ∉ n.xmlName.loc)
    (hf : d.findNsByPrefix env n.xmlName.loc = some ns) (hn : ns.name = n.xmlName.loc) (pre : List Node)
    (hpre : Avoids pre n.xmlName.loc) (L : List Grp) (hL : ∀ g ∈ L, ':' ∉ g.key) (hk : (L.map (·.key)).Nodup) :
    Enc.external env d n (pre ++ L.map Grp.node) = some (pre ++ (putGrp n.xmlName.loc id L).map (Grp.fin n)) := by
  obtain ⟨⟨sp, p0⟩, at', va, no⟩ := n
  simp only [Node.xmlName] at *
  subst hs
  have hpre' : ∀ w ∈ pre, decide (w.name = ns.name) = false := fun w hw => decide_eq_false (by rw [hn]; exact (hpre w hw).2)
  unfold Enc.external
  simp only [Node.xmlName, enc_findNs, getPrefix_none hcn, hf]
  rcases grp_cases p0 L with hno | ⟨l1, g, l2, h1, h2, h3⟩
  · have hnone : (pre ++ L.map Grp.node).findIdx? (fun w => decide (w.name = ns.name)) = none := by
      apply findIdx?_no
      intro w hw
      rcases List.mem_append.1 hw with hw | hw
      · exact hpre' w hw
      · obtain ⟨g, hg, rfl⟩ := List.mem_map.1 hw
        exact decide_eq_false (by rw [grp_name (hL g hg), hn]; exact hno g hg)
    rw [hnone]
    simp only [Option.some.injEq]
    rw [addNode_fresh, put_none _ _ _ hno, List.map_append]
    · have : L.map Grp.node = L.map (Grp.fin (.mk ⟨[], p0⟩ at' va no)) := by
        apply List.map_congr_left
        intro g hg
        exact (fin_other _ (hno g hg)).symm
      rw [this]
      simp [Grp.fin, Node.attrs, Node.nodes, Node.xmlName]
    · intro w hw
      rcases List.mem_append.1 hw with hw | hw
      · exact (hpre w hw).1
      · obtain ⟨g, hg, rfl⟩ := List.mem_map.1 hw
        exact hno g hg
  · subst h1
    have e : pre ++ (l1 ++ g :: l2).map Grp.node = (pre ++ l1.map Grp.node) ++ g.node :: l2.map Grp.node := by simp
    have hsome : ((pre ++ l1.map Grp.node) ++ g.node :: l2.map Grp.node).findIdx? (fun w => decide (w.name = ns.name)) =
        some (pre ++ l1.map Grp.node).length := by
      apply findIdx?_mid
      · intro w hw
        rcases List.mem_append.1 hw with hw | hw
        · exact hpre' w hw
        · obtain ⟨x, hx, rfl⟩ := List.mem_map.1 hw
          exact decide_eq_false (by rw [grp_name (hL x (by simp [hx])), hn]; exact h2 x hx)
      · exact decide_eq_true (by rw [grp_name (hL g (by simp)), hn]; exact h3)
    rw [e, hsome]
    simp only [Option.some.injEq]
    rw [put_some _ _ l1 l2 g h2 h3]
    have h2' : l1.map (Grp.fin (.mk ⟨[], p0⟩ at' va no)) = l1.map Grp.node := by
      apply List.map_congr_left
      intro x hx
      exact fin_other _ (h2 x hx)
    have h4' : l2.map (Grp.fin (.mk ⟨[], p0⟩ at' va no)) = l2.map Grp.node := by
      apply List.map_congr_left
      intro x hx
      apply fin_other
      intro hxk
      simp only [Node.xmlName] at hxk
      rw [List.map_append, List.map_cons] at hk
      have := (List.nodup_cons.1 (List.nodup_append.1 hk).2.1).1
      exact this (List.mem_map.2 ⟨x, hx, by rw [hxk, h3]⟩)
    rw [modify_mid]
    simp only [List.map_append, List.map_cons, h2', h4', id]
    simp [Grp.fin, Grp.node, Node.setNodes, Node.setAttrs, Node.attrs, Node.nodes, Node.xmlName, h3]

theorem tyNames_of_nameS {S : Str → Prop} {h : RegHistory} {env : Env} {d : XDoc} (hd : DocNs h env d S) {t : Ty}
    (ht : TyNames (NameS S) t) : TyNames (fun nm => nm ∉ markupNames ∧ NameM S ⟨[], nm⟩) t :=
  tyNames_mono (fun _ hs => ⟨nameS_markup hd hs, rfl, Or.inl hs⟩) t ht

/-- What is written for one top-level node. -/
theorem root_encoded {h : RegHistory} {env : Env} {d : XDoc} {dv : Version} {S : Str → Prop} (hd : DocNs h env d S) {r : Root}
    (hr : RootOK h env d dv S r) (pre : List Node) (hpre : ∀ p, Owned r p → Avoids pre p) :
    ∃ G, Grouped dv S r G ∧ ∃ ws, (match r.model with | some m => Enc.model env d m pre | none => some pre) = some ws ∧
      Enc.external env d r.node ws = some (pre ++ G.map (Grp.fin r.node)) := by
  have hp0 : Owned r r.node.xmlName.loc := Or.inl rfl
  have hS0 := hr.own _ hp0
  have hc0 := (hd.plain _ hS0).2.1
  obtain ⟨ns0, hns0, -⟩ := hd.found _ hS0
  have hnm0 := findNs_name hd.reg hns0
  cases hmod : r.model with
  | none =>
    have hi : rootInfos r = [] := by simp [rootInfos, hmod]
    have ht : rootTys r = [] := by simp [rootTys, hmod]
    refine ⟨putGrp r.node.xmlName.loc id [], ?_, pre, rfl, ?_⟩
    · refine ⟨by simp [putGrp], by simp [putGrp], ?_, ?_, ?_, by simp [putGrp], ?_, by simp [putGrp]⟩
      · intro g hg
        simp only [putGrp, List.mem_singleton] at hg
        subst hg
        exact hp0
      · intro g hg o ho
        simp only [putGrp, List.mem_singleton] at hg
        subst hg
        cases ho
      · intro g hg o ho
        simp only [putGrp, List.mem_singleton] at hg
        subst hg
        cases ho
      · intro i f t v h1
        rw [hi] at h1
        simp at h1
    · have := external_put env d r.node hr.space ns0 hc0 hns0 hnm0 pre (hpre _ hp0) [] (by simp) (by simp)
      simpa using this
  | some m =>
    obtain ⟨z, hty, hval⟩ := hr.struct m hmod
    have hfn : ∀ (i : Nat) f t v, (rootInfos r)[i]? = some f → (rootTys r)[i]? = some t → (rootVals r)[i]? = some v →
        fieldWritten f t v = true → FieldNs env d pre f := by
      intro i f t v h1 h2 h3 h4
      obtain ⟨-, ⟨m', hm', hcan⟩, -⟩ := hr.names i f t v h1 h2 h3 h4
      have ho : Owned r (getPrefix f.name) := Or.inr ⟨m', hm', hcan⟩
      obtain ⟨ns, hns, -⟩ := hd.found _ (hr.own _ ho)
      have hnm := findNs_name hd.reg hns
      exact ⟨ns, hns, hnm, by rw [hnm]; exact hpre _ ho⟩
    obtain ⟨as, ha1, ha2, ha3, ha4, ha5⟩ := attrs_grouped env d pre dv (rootInfos r) (rootTys r) (rootVals r) (rootTys r) 0
      (rootInfos r) (rootVals r) [] hr.faithful (fun j => by rw [Nat.zero_add]) (fun j => by rw [Nat.zero_add])
      (fun j => by rw [Nat.zero_add]) hfn (by simp) (by simp)
    have hgA : ∀ g ∈ as.foldl putA [], ':' ∉ g.key ∧ g.nodes = [] := by
      apply foldA_inv (fun g => ':' ∉ g.key ∧ g.nodes = [])
      · intro o _; exact ⟨getPrefix_no_colon _, rfl⟩
      · intro o _ g _ hg; exact hg
      · simp
    obtain ⟨es, he1, he2, he3, he4, he5⟩ := fields_grouped env d pre dv (NameM S) (markupP_nameM S) (rootInfos r) (rootTys r) (rootVals r)
      (rootTys r) 0 (rootInfos r) (rootVals r) (as.foldl putA []) hr.faithful (fun j => by rw [Nat.zero_add]) (fun j => by rw [Nat.zero_add])
      (fun j => by rw [Nat.zero_add])
      (fun i f t v h1 h2 h3 h4 => ⟨tyNames_of_nameS hd (hr.names i f t v h1 h2 h3 h4).2.2, ⟨rfl, Or.inl (hr.names i f t v h1 h2 h3 h4).1⟩,
        hfn i f t v h1 h2 h3 h4⟩) (fun g hg => (hgA g hg).1) (fun g hg o ho => by rw [(hgA g hg).2] at ho; cases ho)
    have hmodel : Enc.model env d m pre = some (pre ++ (es.foldl putN (as.foldl putA [])).map Grp.node) := by
      unfold Enc.model
      rw [hty, hval]
      simp only
      rw [List.map_nil, List.append_nil] at ha1
      rw [ha1]
      simp only
      rw [he1]
    have hfname : ∀ (i : Nat) f t v, (rootInfos r)[i]? = some f → (rootTys r)[i]? = some t → (rootVals r)[i]? = some v →
        fieldWritten f t v = true → NameS S f.name ∧ Owned r (getPrefix f.name) := by
      intro i f t v hf ht hv hw
      obtain ⟨h1, ⟨m', hm', hcan⟩, -⟩ := hr.names i f t v hf ht hv hw
      exact ⟨h1, Or.inr ⟨m', hm', hcan⟩⟩
    let P : Grp → Prop := fun g => Owned r g.key ∧
      (∀ o ∈ g.attrs, getPrefix o.2.name.loc = g.key ∧ NameS S o.2.name.loc ∧ GoodAttr dv (rootInfos r) (rootTys r) (rootVals r) o.1 o.2) ∧
      ∀ o ∈ g.nodes, getPrefix o.2.xmlName.loc = g.key ∧ NameS S o.2.xmlName.loc ∧ NamesP (NameM S) o.2 ∧
        GoodElem dv (rootInfos r) (rootTys r) (rootVals r) o.1 o.2
    have haN : ∀ o ∈ as, NameS S o.2.name.loc ∧ Owned r (getPrefix o.2.name.loc) := by
      intro o ho
      obtain ⟨t, v, g1, g2, _, _, ⟨f, hf1, hf2⟩, _⟩ := (ha2 o ho).2
      rw [hf2.1]
      exact hfname _ f t v hf1 g1 g2 hf2.2.2.1
    have heN : ∀ o ∈ es, NameS S o.2.xmlName.loc ∧ Owned r (getPrefix o.2.xmlName.loc) := by
      intro o ho
      obtain ⟨t, v, nm, g1, g2, h3, _, ⟨f, hf1, hf2⟩, _⟩ := (he2 o ho).2.1
      rw [h3, hf2.1]
      exact hfname _ f t v hf1 g1 g2 hf2.2.2.1
    have hPA : ∀ g ∈ as.foldl putA [], P g := by
      apply foldA_inv P
      · intro o ho
        exact ⟨(haN o ho).2, by simp, by simp⟩
      · rintro o ho g hk ⟨h1, h2, h3⟩
        refine ⟨h1, ?_, h3⟩
        intro o' ho'
        rcases List.mem_append.1 ho' with ho' | ho'
        · exact h2 o' ho'
        · rw [List.mem_singleton] at ho'
          subst ho'
          exact ⟨hk.symm, (haN o' ho).1, (ha2 o' ho).2⟩
      · simp
    have hPE : ∀ g ∈ es.foldl putN (as.foldl putA []), P g := by
      apply foldN_inv P
      · intro o ho
        exact ⟨(heN o ho).2, by simp, by simp⟩
      · rintro o ho g hk ⟨h1, h2, h3⟩
        refine ⟨h1, h2, ?_⟩
        intro o' ho'
        rcases List.mem_append.1 ho' with ho' | ho'
        · exact h3 o' ho'
        · rw [List.mem_singleton] at ho'
          subst ho'
          exact ⟨hk.symm, (heN o' ho).1, (he2 o' ho).2.2, (he2 o' ho).2.1⟩
      · exact hPA
    have hkeys : ((es.foldl putN (as.foldl putA [])).map (·.key)).Nodup := foldN_keys es _ (foldA_keys as [] (by simp))
    have hcol : ∀ g ∈ es.foldl putN (as.foldl putA []), ':' ∉ g.key :=
      fun g hg => (hd.plain _ (hr.own _ (hPE g hg).1)).2.1
    have hputP : ∀ g ∈ putGrp r.node.xmlName.loc id (es.foldl putN (as.foldl putA [])), P g := by
      intro g hg
      rcases mem_put hg with hg | ⟨x, hx, hk, hgx⟩
      · exact hPE g hg
      · rw [hgx]
        rcases hx with hx | rfl
        · exact hPE x hx
        · exact ⟨hp0, by simp, by simp⟩
    have hpa : (putGrp r.node.xmlName.loc id (es.foldl putN (as.foldl putA []))).flatMap (·.attrs) = (es.foldl putN (as.foldl putA [])).flatMap (·.attrs) ∧
        (putGrp r.node.xmlName.loc id (es.foldl putN (as.foldl putA []))).flatMap (·.nodes) = (es.foldl putN (as.foldl putA [])).flatMap (·.nodes) := by
      rcases grp_cases r.node.xmlName.loc (es.foldl putN (as.foldl putA [])) with hno | ⟨l1, g, l2, h1, h2, h3⟩
      · rw [put_none _ _ _ hno]; simp
      · rw [h1, put_some _ _ l1 l2 g h2 h3]; simp
    have hA : ((putGrp r.node.xmlName.loc id (es.foldl putN (as.foldl putA []))).flatMap (·.attrs)).Perm as := by
      rw [hpa.1, foldN_attrs]
      simpa using foldA_attrs as []
    have hN : ((putGrp r.node.xmlName.loc id (es.foldl putN (as.foldl putA []))).flatMap (·.nodes)).Perm es := by
      rw [hpa.2]
      refine (foldN_nodes es _).trans ?_
      rw [foldA_nodes]
      simp
    have hperm := (hA.map (·.1)).append (hN.map (·.1))
    refine ⟨putGrp r.node.xmlName.loc id (es.foldl putN (as.foldl putA [])), ?_, _, hmodel,
      external_put env d r.node hr.space ns0 hc0 hns0 hnm0 pre (hpre _ hp0) _ hcol hkeys⟩
    refine ⟨put_keys_nodup _ _ (fun _ => rfl) _ hkeys, ?_, fun g hg => (hputP g hg).1, fun g hg => (hputP g hg).2.1,
      fun g hg => (hputP g hg).2.2, ?_, ?_, ?_⟩
    · rw [put_keys _ id (fun _ => rfl)]
      split
      · assumption
      · simp
    · rw [hperm.nodup_iff, List.nodup_append]
      refine ⟨ha3, he3, ?_⟩
      intro i hi j hj e
      subst e
      obtain ⟨o, ho, rfl⟩ := List.mem_map.1 hi
      obtain ⟨o', ho', e'⟩ := List.mem_map.1 hj
      obtain ⟨f, t, v, f1, f2, f3, f4, f5⟩ := ha5 o ho
      obtain ⟨f', t', v', f1', f2', f3', f4', f5'⟩ := he5 o' ho'
      rw [e', f1] at f1'
      cases f1'
      rw [f4] at f4'
      cases f4'
    · intro i f t v h1 h2 h3 h4
      rw [hperm.mem_iff, List.mem_append]
      cases hat : f.attr with
      | true => exact Or.inl (ha4 i f t v (Nat.zero_le _) h1 h2 h3 hat h4)
      | false => exact Or.inr (he4 i f t v (Nat.zero_le _) h1 h2 h3 hat h4)
    · intro i hi
      rw [hperm.mem_iff, List.mem_append] at hi
      rcases hi with hi | hi
      · obtain ⟨o, ho, rfl⟩ := List.mem_map.1 hi
        obtain ⟨f, t, v, f1, f2, f3, f4, f5⟩ := ha5 o ho
        exact ⟨f, t, v, f1, f2, f3, f5⟩
      · obtain ⟨o, ho, rfl⟩ := List.mem_map.1 hi
        obtain ⟨f, t, v, f1, f2, f3, f4, f5⟩ := he5 o ho
        exact ⟨f, t, v, f1, f2, f3, f5⟩

/-- What is written for a list of top-level nodes. -/
theorem roots_encoded {h : RegHistory} {env : Env} {d : XDoc} {dv : Version} {S : Str → Prop} (hd : DocNs h env d S) :
    ∀ (rs : List Root) (pre : List Node), (∀ r ∈ rs, RootOK h env d dv S r) →
    rs.Pairwise (fun r r' => ∀ p, Owned r p → ¬ Owned r' p) → (∀ r ∈ rs, ∀ p, Owned r p → Avoids pre p) →
    ∃ Gs : List (Root × List Grp), Gs.map (·.1) = rs ∧ (∀ x ∈ Gs, Grouped dv S x.1 x.2) ∧
      Enc.roots env d rs pre = some (pre ++ Gs.flatMap (fun x => x.2.map (Grp.fin x.1.node))) := by
  intro rs
  induction rs with
  | nil => intro pre _ _ _; exact ⟨[], rfl, by simp, by simp [Enc.roots]⟩
  | cons r rs ih =>
    intro pre hok hdis hav
    obtain ⟨G, hG, ws, hm, he⟩ := root_encoded hd (hok r (by simp)) pre (hav r (by simp))
    rw [List.pairwise_cons] at hdis
    obtain ⟨Gs, h1, h2, h3⟩ := ih (pre ++ G.map (Grp.fin r.node)) (fun x hx => hok x (by simp [hx])) hdis.2 (by
      intro x hx p hp w hw
      rcases List.mem_append.1 hw with hw | hw
      · exact hav x (by simp [hx]) p hp w hw
      · obtain ⟨g, hg, rfl⟩ := List.mem_map.1 hw
        have ho := hG.owned g hg
        have hne : g.key ≠ p := by
          intro e
          exact hdis.1 x hx p (e ▸ ho) hp
        have hc := (hd.plain _ ((hok r (by simp)).own _ ho)).2.1
        refine ⟨hne, ?_⟩
        show stripPrefix g.key ≠ p
        rw [stripPrefix_none hc]
        exact hne)
    refine ⟨(r, G) :: Gs, by simp [h1], ?_, ?_⟩
    · intro x hx
      rcases List.mem_cons.1 hx with rfl | hx
      · exact hG
      · exact h2 x hx
    · rw [Enc.roots]
      cases hmod : r.model with
      | none =>
        rw [hmod] at hm
        simp only [Option.some.injEq] at hm
        subst hm
        simp only [he, h3]
        simp
      | some m =>
        rw [hmod] at hm
        simp only at hm ⊢
        rw [hm]
        simp only [he, h3]
        simp

end Xmp.Props
