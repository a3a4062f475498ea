import Verif.Props.Visible
import Verif.Props.ShippedBytes
import Verif.Props.TypedXmpCases

/-! C78: what is read from a document by path is read from the saved document as well. -/

namespace Xmp.Props

open GoStr

/-! ### What is read by path makes up content -/

theorem getPathF_content : ∀ (f : Nat) (n : Node) (p : Path) (s : Str), n.value = [] → Node.getPathF f n p = some s → s ≠ [] →
    n.attrs ≠ [] ∨ n.nodes ≠ []
  | 0, _, _, _, _, h, _ => by simp [Node.getPathF] at h
  | f + 1, n, p, s, hv, h, hs => by
    by_contra hc
    simp only [not_or, ne_eq, not_not] at hc
    rw [Node.getPathF] at h
    generalize parsePathSegment p.popFront.1 = seg at h
    obtain ⟨name, idx, lang⟩ := seg
    simp only [hc.2] at h
    split at h
    · cases h
    · split at h
      · split at h
        · rw [hv] at h
          cases h
          exact hs rfl
        · rcases getPathF_content f n _ s hv h hs with e | e
          · exact e hc.1
          · exact e hc.2
      · rw [show NodeList.findNodeByName [] (stripPrefix name) = none from rfl] at h
        simp only [Node.getAttr, hc.1, List.filter_nil, Option.some.injEq] at h
        exact hs h.symm

theorem getModelPath_content {r : Root} {m : Mdl} (hm : r.model = some m) {p : Path} {s : Str} (h : getModelPath m.ty m.val p = .ok s)
    (hs : s ≠ []) : HasContent r := by
  unfold getModelPath at h
  rw [getModelPathF] at h
  split at h
  · cases h
    exact absurd rfl hs
  · simp only at h
    split at h
    · cases h
    · split at h
      · rename_i z infos tys vals ht hv
        split at h
        · cases h
        · rename_i i _
          split at h
          · rename_i fi fty fv h1 h2 h3
            refine Or.inr (Or.inr ⟨i, fi, fty, fv, ?_, ?_, ?_, ?_⟩)
            · simpa [rootInfos, hm, ht] using h1
            · simpa [rootTys, hm, ht] using h2
            · simpa [rootVals, hm, hv] using h3
            · have hnil : fv.isNil = false := by
                cases fv <;> first | rfl | skip
                simp only [getField, GetRes.ok.injEq] at h
                exact absurd h.symm hs
              obtain ⟨g1, g2, -⟩ := getField_ok h hs
              unfold fieldWritten
              rw [g1, zero_between, hnil]
              rcases g2 with e | e <;> simp [e]
          · cases h
      · cases h

theorem owned_of_matches {h : RegHistory} {env : Env} {d : XDoc} {dv : Version} {S : Str → Prop} {r : Root} (hd : DocNs h env d S)
    (hr : RootOK h env d dv S r) {pfx : Str} : XDoc.rootMatches pfx r = true ↔ Owned r pfx := by
  have : r.node.name = r.node.xmlName.loc := stripPrefix_none (hd.plain _ (hr.own _ (Or.inl rfl))).2.1
  unfold XDoc.rootMatches Owned
  rw [this]
  cases hm : r.model with
  | none => simp [@eq_comm Str pfx]
  | some m => simp [Mdl.can, @eq_comm Str pfx]

theorem pathNs_pfx {env : Env} {d : XDoc} {p : Path} {ns : Namespace} (h : d.pathNs env p = some ns) :
    ∃ i, indexChar ':' p = some i ∧ d.findNsByPrefix env (p.take i) = some ns := by
  unfold XDoc.pathNs at h
  split at h
  · rename_i i hi
    exact ⟨i, hi, h⟩
  · cases h

/-- **C78.** A document with the same top-level nodes, as far as they have content, and the same prefixes gives the same value for every
path that leads to a value. -/
theorem getPath_kept {h : RegHistory} {env : Env} {d : XDoc} {dv : Version} {S : Str → Prop} (hok : DocOK h env d dv S) (d' : XDoc)
    (hr : ∀ r, r ∈ d'.roots ↔ r ∈ d.roots ∧ HasContent r)
    (hn : ∀ r ∈ d'.roots, ∀ q, Uses r q → S q → ∃ ns, d'.findNsByPrefix env q = some ns ∧ ns.uri = bindOf env d q)
    {p : Path} {s : Str} (hs : s ≠ []) (hg : d.getPath env p = .ok s) : d'.getPath env p = .ok s := by
  unfold XDoc.getPath at hg ⊢
  split at hg
  · cases hg
  rename_i hx
  rw [if_neg hx]
  cases hp : d.pathNs env p with
  | none => rw [hp] at hg; cases hg
  | some ns =>
  rw [hp] at hg
  dsimp only at hg
  obtain ⟨i, hi, hf⟩ := pathNs_pfx hp
  have hname := findNs_name hok.ns.reg hf
  cases hfn : d.findNode ns with
  | none => rw [hfn] at hg; cases hg
  | some j =>
  rw [hfn] at hg
  dsimp only at hg
  cases hrj : d.roots[j]? with
  | none => rw [hrj] at hg; cases hg
  | some r =>
  rw [hrj] at hg
  dsimp only at hg
  have hmem := List.mem_of_getElem? hrj
  have hro := hok.roots r hmem
  have hmatch : XDoc.rootMatches ns.name r = true := by
    unfold XDoc.findNode at hfn
    rw [List.findIdx?_eq_some_iff_getElem] at hfn
    obtain ⟨hlt, hm, -⟩ := hfn
    rw [List.getElem?_eq_getElem hlt, Option.some.injEq] at hrj
    rw [← hrj]; exact hm
  have hown : Owned r (p.take i) := by
    rw [hname] at hmatch
    exact (owned_of_matches hok.ns hro).1 hmatch
  have hcont : HasContent r := by
    cases hm : r.model with
    | none =>
      rw [hm] at hg
      dsimp only at hg
      cases hq : r.node.getPath p with
      | none => rw [hq] at hg; cases hg
      | some t =>
        rw [hq] at hg
        cases hg
        rcases getPathF_content _ _ _ _ hro.value hq hs with e | e
        · exact Or.inl e
        · exact Or.inr (Or.inl e)
    | some m =>
      rw [hm] at hg
      dsimp only at hg
      cases hq : getModelPath m.ty m.val p with
      | ok t => rw [hq] at hg; cases hg; exact getModelPath_content hm hq hs
      | err => rw [hq] at hg; cases hg
      | notFound =>
        rw [hq] at hg
        dsimp only at hg
        cases hq : r.node.getPath p with
        | none => rw [hq] at hg; cases hg
        | some t =>
          rw [hq] at hg
          cases hg
          rcases getPathF_content _ _ _ _ hro.value hq hs with e | e
          · exact Or.inl e
          · exact Or.inr (Or.inl e)
  have hmem' := (hr r).2 ⟨hmem, hcont⟩
  obtain ⟨ns', hf', -⟩ := hn r hmem' _ (Or.inl hown) (hro.own _ hown)
  have hname' := findNs_name hok.ns.reg hf'
  rw [show d'.pathNs env p = some ns' by unfold XDoc.pathNs; rw [hi]; exact hf']
  dsimp only
  have hfn' : ∃ k, d'.findNode ns' = some k := by
    cases e : d'.findNode ns' with
    | some k => exact ⟨k, rfl⟩
    | none =>
      unfold XDoc.findNode at e
      rw [List.findIdx?_eq_none_iff] at e
      have := e r hmem'
      rw [hname', ← hname, hmatch] at this
      cases this
  obtain ⟨k, hk⟩ := hfn'
  rw [hk]
  dsimp only
  unfold XDoc.findNode at hk
  rw [List.findIdx?_eq_some_iff_getElem] at hk
  obtain ⟨hlt, hm, -⟩ := hk
  have hsame : d'.roots[k] = r := by
    by_contra hne
    have hmk := (hr _).1 (List.getElem_mem hlt)
    have hownk : Owned d'.roots[k] (p.take i) := by
      rw [hname'] at hm
      exact (owned_of_matches hok.ns (hok.roots _ hmk.1)).1 hm
    obtain ⟨a, ha, ea⟩ := List.getElem_of_mem hmk.1
    obtain ⟨b, hb, eb⟩ := List.getElem_of_mem hmem
    have hpw := List.pairwise_iff_getElem.1 hok.disjoint
    rw [← ea] at hownk
    rw [← eb] at hown
    rcases Nat.lt_trichotomy a b with hab | hab | hab
    · exact hpw a b ha hb hab _ hownk hown
    · subst hab
      exact hne (ea.symm.trans eb)
    · exact hpw b a hb ha hab _ hown hownk
  rw [List.getElem?_eq_getElem hlt, hsame]
  exact hg

end Xmp.Props
