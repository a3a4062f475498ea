import Verif.Lemmas.GoMap
import Verif.Props.Kept
import Verif.Props.Sync

/-! Properties of merging documents (C42). -/

namespace Xmp.Props

open GoStr SyncFlags

/-! ### Specification -/

/-- The document has, at the root `j` with the XML name `xn`, a model like `m0` that serves the namespace of the
path `q`; its value satisfies `P`. -/
structure Present (reg : Registry) (d : XDoc) (q : Path) (j : Nat) (xn : QName) (m0 : Mdl) (P : Val → Prop) : Prop where
  regNames : ∀ pre ns, reg.getNamespace pre = some ns → ns.name = pre
  known : (reg.getNamespace q.namespacePrefix).isSome = true
  found : d.roots.findIdx? (XDoc.rootMatches q.namespacePrefix) = some j
  root : ∃ n v, d.roots[j]? = some ⟨n, some { m0 with val := v }⟩ ∧ n.xmlName = xn ∧ HasTy m0.ty v ∧ P v

/-- The factories do not make rivals of the model `m0` of the root `xn`: a new model that would serve the prefix
`pre`, or be attached to that root, is made only for namespaces that `m0` serves. -/
def NoRival (env : Env) (pre : Str) (xn : QName) (m0 : Mdl) : Prop :=
  ∀ ns m', env.newModel ns = some m' →
    (m'.can pre = true ∨ ∃ ns0 rest, m'.nss = ns0 :: rest ∧ (stripPrefix xn.loc = ns0.name ∨ m0.can ns0.name = true)) →
    m0.can ns.name = true

/-! ### Helper lemmas -/

theorem findIdx_some_iff {α : Type} {p : α → Bool} {l : List α} {j : Nat} :
    l.findIdx? p = some j ↔ (∃ a, l[j]? = some a ∧ p a = true) ∧ ∀ k a, k < j → l[k]? = some a → p a = false := by
  induction l generalizing j with
  | nil => simp
  | cons x xs ih =>
    rw [List.findIdx?_cons]
    by_cases hx : p x = true
    · rw [if_pos hx]
      cases j with
      | zero =>
        simp [hx]
      | succ j =>
        simp only [Option.some.injEq]
        constructor
        · intro h; omega
        · rintro ⟨_, h⟩
          have := h 0 x (by omega) rfl
          rw [hx] at this; cases this
    · rw [if_neg hx]
      have hx' : p x = false := by cases h : p x with | true => exact absurd h hx | false => rfl
      cases j with
      | zero =>
        constructor
        · intro h; cases hf : xs.findIdx? p <;> rw [hf] at h <;> simp at h
        · rintro ⟨⟨a, h1, h2⟩, _⟩
          simp only [List.getElem?_cons_zero, Option.some.injEq] at h1
          subst h1
          exact absurd h2 hx
      | succ j =>
        have : Option.map (· + 1) (xs.findIdx? p) = some (j + 1) ↔ xs.findIdx? p = some j := by
          cases xs.findIdx? p <;> simp
        rw [this, ih]
        simp only [List.getElem?_cons_succ]
        constructor
        · rintro ⟨h1, h2⟩
          refine ⟨h1, ?_⟩
          intro k a hk ha
          cases k with
          | zero => simp only [List.getElem?_cons_zero, Option.some.injEq] at ha; subst ha; exact hx'
          | succ k => exact h2 k a (by omega) (by simpa using ha)
        · rintro ⟨h1, h2⟩
          exact ⟨h1, fun k a hk ha => h2 (k + 1) a (by omega) (by simpa using ha)⟩

theorem namespacePrefix_plain (p : Path) : stripPrefix p.namespacePrefix = p.namespacePrefix ∨ p.isXmpPath = false := by
  unfold Path.namespacePrefix Path.isXmpPath
  cases h : indexChar ':' p with
  | none => right; rfl
  | some i =>
    left
    obtain ⟨a, b, rfl, h1, h2⟩ := indexChar_some h
    simp only
    have : (a ++ ':' :: b).take i = a := by rw [← h2]; simp
    rw [this]
    unfold stripPrefix
    rw [indexChar_none.mpr h1]

/-- Namespaces found for a path are named by its prefix. -/
theorem pathNs_name {env : Env} {d : XDoc} {p : Path} {ns : Namespace}
    (hreg : ∀ pre ns, env.reg.getNamespace pre = some ns → ns.name = pre) (h : d.pathNs env p = some ns) :
    ns.name = p.namespacePrefix := by
  unfold XDoc.pathNs at h
  unfold Path.namespacePrefix
  cases hi : indexChar ':' p with
  | none => rw [hi] at h; cases h
  | some i =>
    rw [hi] at h
    simp only at h ⊢
    unfold XDoc.findNsByPrefix at h
    cases h1 : d.intNs.find? (fun e => e.2.name = p.take i) with
    | some e =>
      rw [h1] at h
      simp only [Option.some.injEq] at h
      have := List.find?_some h1
      rw [← h]; simpa using this
    | none =>
      rw [h1] at h
      simp only at h
      cases h2 : d.extNs.find? (fun e => e.2.name = p.take i) with
      | some e =>
        rw [h2] at h
        simp only [Option.some.injEq] at h
        have := List.find?_some h2
        rw [← h]; simpa using this
      | none =>
        rw [h2] at h
        exact hreg _ _ h

theorem pathNs_isSome {env : Env} {d : XDoc} {p : Path} (hx : p.isXmpPath = true)
    (hk : (env.reg.getNamespace p.namespacePrefix).isSome = true) : ∃ ns, d.pathNs env p = some ns := by
  unfold XDoc.pathNs
  unfold Path.namespacePrefix at hk
  unfold Path.isXmpPath at hx
  cases hi : indexChar ':' p with
  | none => rw [hi] at hx; cases hx
  | some i =>
    rw [hi] at hk
    simp only at hk ⊢
    unfold XDoc.findNsByPrefix
    cases d.intNs.find? (fun e => e.2.name = p.take i) with
    | some e => exact ⟨_, rfl⟩
    | none =>
      cases d.extNs.find? (fun e => e.2.name = p.take i) with
      | some e => exact ⟨_, rfl⟩
      | none => exact Option.isSome_iff_exists.mp hk

/-- Reading from a document in which the value is present. -/
theorem present_read {env : Env} {d : XDoc} {q : Path} {j : Nat} {xn : QName} {m0 : Mdl} {P : Val → Prop}
    (h : Present env.reg d q j xn m0 P) (hx : q.isXmpPath = true) :
    ∃ v, P v ∧ HasTy m0.ty v ∧ ∀ s, getModelPath m0.ty v q = .ok s → d.getPath env q = .ok s := by
  obtain ⟨n, v, h1, h2, h3, h4⟩ := h.root
  refine ⟨v, h4, h3, ?_⟩
  intro s hs
  obtain ⟨ns, hns⟩ := pathNs_isSome (d := d) hx h.known
  have hname := pathNs_name h.regNames hns
  unfold XDoc.getPath
  have hnode : d.findNode ns = some j := by unfold XDoc.findNode; rw [hname]; exact h.found
  simp only [hx, Bool.not_true, Bool.false_eq_true, if_false, hns, hnode, h1, hs]

theorem present_register {reg : Registry} {d : XDoc} {q : Path} {j : Nat} {xn : QName} {m0 : Mdl} {P : Val → Prop}
    (h : Present reg d q j xn m0 P) (ns : Namespace) : Present (reg.register ns []) d q j xn m0 P := by
  refine ⟨?_, ?_, h.found, h.root⟩
  · intro pre x hx
    unfold Registry.getNamespace Registry.register at hx
    by_cases hp : pre = ns.name
    · subst hp
      simp only [GoMap.get_set_self, Option.some.injEq] at hx
      rw [← hx]
    · simp only [GoMap.get_set_ne _ _ hp] at hx
      exact h.regNames pre x hx
  · unfold Registry.getNamespace Registry.register
    by_cases hp : q.namespacePrefix = ns.name
    · simp only [hp, GoMap.get_set_self, Option.isSome_some]
    · simp only [GoMap.get_set_ne _ _ hp]
      exact h.known

theorem addRoot_append {x : Root} {l : List Root} (h : ∀ v ∈ l, v.node.xmlName.loc ≠ x.node.xmlName.loc) :
    XDoc.addRoot x l = (l.length, l ++ [x]) := by
  induction l with
  | nil => rfl
  | cons v vs ih =>
    rw [XDoc.addRoot, if_neg (h v (by simp)), ih (fun w hw => h w (by simp [hw]))]
    rfl

theorem present_append {reg : Registry} {d : XDoc} {q : Path} {j : Nat} {xn : QName} {m0 : Mdl} {P : Val → Prop}
    (h : Present reg d q j xn m0 P) {d' : XDoc} {x : Root} (hd : d'.roots = d.roots ++ [x]) : Present reg d' q j xn m0 P := by
  obtain ⟨n, v, h1, h2⟩ := h.root
  have hlt := (List.getElem?_eq_some_iff.mp h1).1
  refine ⟨h.regNames, h.known, ?_, n, v, ?_, h2⟩
  · have hf := h.found
    rw [findIdx_some_iff] at hf ⊢
    obtain ⟨⟨a, ha, hp⟩, hk⟩ := hf
    refine ⟨⟨a, ?_, hp⟩, ?_⟩
    · rw [hd, List.getElem?_append_left hlt]; exact ha
    · intro k b hkj hb
      rw [hd, List.getElem?_append_left (by omega)] at hb
      exact hk k b hkj hb
  · rw [hd, List.getElem?_append_left hlt]; exact h1

theorem rootMatches_found {xn : QName} {m0 : Mdl} {n : Node} {v : Val} {pfx : Str}
    (hxn : n.xmlName = xn) (h : XDoc.rootMatches pfx ⟨n, some { m0 with val := v }⟩ = true) :
    stripPrefix xn.loc = pfx ∨ m0.can pfx = true := by
  unfold XDoc.rootMatches at h
  simp only [Bool.or_eq_true, decide_eq_true_eq] at h
  rcases h with h | h
  · left; rw [← h, ← hxn]; rfl
  · right; exact h

/-- Adding what is missing for a namespace keeps the value. -/
theorem present_prepare {env : Env} {d : XDoc} {q : Path} {j : Nat} {xn : QName} {m0 : Mdl} {P : Val → Prop}
    (h : Present env.reg d q j xn m0 P) (hr : NoRival env q.namespacePrefix xn m0) {ns : Namespace}
    (hplain : stripPrefix ns.name = ns.name) : Present env.reg (d.prepare env ns).2.2 q j xn m0 P := by
  obtain ⟨n, v, h1, h2, h3⟩ := h.root
  unfold XDoc.prepare
  cases hm : d.findModel ns with
  | some i => exact h
  | none =>
    simp only
    -- the model of the root does not serve the namespace
    have hcan : m0.can ns.name = false := by
      cases hc : m0.can ns.name with
      | false => rfl
      | true =>
        unfold XDoc.findModel at hm
        rw [List.findIdx?_eq_none_iff] at hm
        have := hm _ (List.mem_of_getElem? h1)
        rw [show XDoc.modelMatches ns.name ⟨n, some { m0 with val := v }⟩ = m0.can ns.name from rfl, hc] at this
        cases this
    cases hn : env.newModel ns with
    | some m' =>
      simp only
      have hno := hr ns m' hn
      rw [hcan] at hno
      have hpre : m'.can q.namespacePrefix = false := by
        cases hc : m'.can q.namespacePrefix with
        | false => rfl
        | true => have := hno (Or.inl hc); cases this
      unfold XDoc.addModel
      cases hnss : m'.nss with
      | nil => exact h
      | cons ns0 rest =>
        simp only
        cases hf : d.findNode ns0 with
        | none => exact present_append h rfl
        | some i =>
          simp only
          have hij : i ≠ j := by
            rintro rfl
            unfold XDoc.findNode at hf
            rw [findIdx_some_iff] at hf
            obtain ⟨⟨a, ha, hp⟩, _⟩ := hf
            rw [h1] at ha
            cases ha
            have := hno (Or.inr ⟨ns0, rest, hnss, rootMatches_found h2 hp⟩)
            cases this
          refine ⟨h.regNames, h.known, ?_, n, v, ?_, h2, h3⟩
          · have hfd := h.found
            rw [findIdx_some_iff] at hfd ⊢
            obtain ⟨⟨a, ha, hp⟩, hk⟩ := hfd
            refine ⟨⟨a, ?_, hp⟩, ?_⟩
            · simp only [List.getElem?_modify, if_neg hij, ha]
              rfl
            · intro k b hkj hb
              simp only [List.getElem?_modify] at hb
              cases hrk : d.roots[k]? with
              | none => rw [hrk] at hb; simp at hb
              | some c =>
                rw [hrk] at hb
                have hc := hk k c hkj hrk
                by_cases hik : i = k
                · subst hik
                  simp at hb
                  subst hb
                  unfold XDoc.rootMatches at hc ⊢
                  simp only [Bool.or_eq_false_iff] at hc ⊢
                  exact ⟨hc.1, hpre⟩
                · simp [hik] at hb
                  subst hb
                  exact hc
          · simp only [List.getElem?_modify, if_neg hij, h1]
            rfl
    | none =>
      simp only
      cases hf : d.findNode ns with
      | some k => exact h
      | none =>
        simp only
        have hno : ∀ w ∈ d.roots, w.node.xmlName.loc ≠ ns.name := by
          intro w hw hloc
          unfold XDoc.findNode at hf
          rw [List.findIdx?_eq_none_iff] at hf
          have := hf w hw
          unfold XDoc.rootMatches Node.name at this
          rw [hloc, hplain] at this
          simp at this
        have happ := addRoot_append (x := ⟨Node.new ⟨[], ns.name⟩, none⟩) (l := d.roots) hno
        rw [happ]
        exact present_append h rfl

/-- What a write does to a root. -/
theorem write_root {env : Env} {d : XDoc} {j : Nat} {n : Node} {m0 : Mdl} {v : Val}
    (h : d.roots[j]? = some ⟨n, some { m0 with val := v }⟩) (mi ni : Option Nat) (p : Path) (value : Str)
    (flags : SyncFlags) : ∃ n' v', (d.write env mi ni p value flags).1.roots[j]? = some ⟨n', some { m0 with val := v' }⟩ ∧
      n'.xmlName = n.xmlName ∧ (v' = v ∨ v' = (setModelPath m0.ty v p value flags).1) := by
  have hnode : ∀ (e : XDoc) (w : Val), e.roots[j]? = some ⟨n, some { m0 with val := w }⟩ →
      ∃ n', (e.writeNode env ni p value flags).1.roots[j]? = some ⟨n', some { m0 with val := w }⟩ ∧ n'.xmlName = n.xmlName := by
    intro e w he
    unfold XDoc.writeNode
    cases ni with
    | none => exact ⟨n, he, rfl⟩
    | some k =>
      simp only
      cases hk : e.roots[k]? with
      | none => exact ⟨n, he, rfl⟩
      | some r =>
        simp only
        by_cases hkj : k = j
        · subst hkj
          rw [he] at hk
          cases hk
          refine ⟨(n.setPath env.reg p value flags).1, ?_, ?_⟩
          · unfold XDoc.setNode
            simp only [List.getElem?_modify, he, if_true, Option.map_eq_map, Option.map_some]
          · unfold Node.setPath; exact xmlName_setPathF _ _ _ _ _ _
        · exact ⟨n, by rw [setNode_other e _ hkj]; exact he, rfl⟩
  unfold XDoc.write
  cases mi with
  | none =>
    obtain ⟨n', h1, h2⟩ := hnode d v h
    exact ⟨n', v, h1, h2, Or.inl rfl⟩
  | some i =>
    simp only
    cases hm : (d.roots[i]?).bind (·.model) with
    | none =>
      obtain ⟨n', h1, h2⟩ := hnode d v h
      exact ⟨n', v, h1, h2, Or.inl rfl⟩
    | some mdl =>
      simp only
      obtain ⟨w, hw, hset⟩ : ∃ w, (w = v ∨ w = (setModelPath m0.ty v p value flags).1) ∧
          (d.setVal i (setModelPath mdl.ty mdl.val p value flags).1).roots[j]? = some ⟨n, some { m0 with val := w }⟩ := by
        by_cases hij : i = j
        · subst hij
          rw [h] at hm
          simp only [Option.bind_some, Option.some.injEq] at hm
          subst hm
          refine ⟨_, Or.inr rfl, ?_⟩
          unfold XDoc.setVal
          simp only [List.getElem?_modify, h, if_true, Option.map_eq_map, Option.map_some]
        · exact ⟨v, Or.inl rfl, by rw [setVal_other d _ hij]; exact h⟩
      split
      · obtain ⟨n', h1, h2⟩ := hnode _ w hset
        exact ⟨n', w, h1, h2, hw⟩
      · exact ⟨n, w, hset, rfl, hw⟩

theorem update_root {env : Env} {d : XDoc} {j : Nat} {n : Node} {m0 : Mdl} {v : Val}
    (h : d.roots[j]? = some ⟨n, some { m0 with val := v }⟩) (mi ni : Option Nat) (p : Path) (value : Str)
    (flags : SyncFlags) : ∃ n' v', (d.update env mi ni p value flags).1.roots[j]? = some ⟨n', some { m0 with val := v' }⟩ ∧
      n'.xmlName = n.xmlName ∧ (v' = v ∨ v' = (setModelPath m0.ty v p value flags).1) := by
  have h0 : ∃ n' v', d.roots[j]? = some ⟨n', some { m0 with val := v' }⟩ ∧
      n'.xmlName = n.xmlName ∧ (v' = v ∨ v' = (setModelPath m0.ty v p value flags).1) := ⟨n, v, h, rfl, Or.inl rfl⟩
  have h1 := write_root (env := env) h mi ni p value flags
  unfold XDoc.update
  split
  · exact h0
  · exact h0
  · exact h0
  · split
    · exact h0
    · split
      · exact h0
      · split
        · exact h0
        · simp only
          split
          · exact h1
          · exact h1
          · exact h1

/-- One path set without the delete flag keeps a property of the value that writes keep. -/
theorem present_setPath {env : Env} {d : XDoc} {q : Path} {j : Nat} {xn : QName} {m0 : Mdl} {P : Val → Prop}
    (h : Present env.reg d q j xn m0 P) (hr : NoRival env q.namespacePrefix xn m0) (hw : m0.ty.Wf) (desc : PathValue)
    (hD : (eff desc.flags).has DELETE = false)
    (hP : ∀ v, HasTy m0.ty v → desc.value ≠ [] → P v → P (setModelPath m0.ty v desc.path desc.value (eff desc.flags)).1) :
    Present (d.setPath env desc).2.1 (d.setPath env desc).1 q j xn m0 P := by
  unfold XDoc.setPath
  simp only [show (if desc.flags = 0 then DEFAULT else desc.flags) = eff desc.flags from rfl]
  by_cases hx : desc.path.isXmpPath = true
  · simp only [hx, Bool.not_true, Bool.false_eq_true, if_false]
    have hres : ∀ ns reg', d.resolveNs env desc = some (ns, reg') → Present reg' d q j xn m0 P ∧
        stripPrefix ns.name = ns.name := by
      intro ns reg' hres
      have hpl : stripPrefix desc.path.namespacePrefix = desc.path.namespacePrefix := by
        rcases namespacePrefix_plain desc.path with h' | h'
        · exact h'
        · rw [hx] at h'; cases h'
      unfold XDoc.resolveNs at hres
      cases hns : d.pathNs env desc.path with
      | some ns' =>
        rw [hns] at hres
        simp only [Option.some.injEq, Prod.mk.injEq] at hres
        obtain ⟨rfl, rfl⟩ := hres
        refine ⟨h, ?_⟩
        rw [pathNs_name h.regNames hns]; exact hpl
      | none =>
        rw [hns] at hres
        simp only at hres
        split at hres
        · simp only [Option.some.injEq, Prod.mk.injEq] at hres
          obtain ⟨rfl, rfl⟩ := hres
          exact ⟨present_register h _, hpl⟩
        · cases hres
    cases hrs : d.resolveNs env desc with
    | none => exact h
    | some x =>
      obtain ⟨ns, reg'⟩ := x
      obtain ⟨hp, hplain⟩ := hres ns reg' hrs
      simp only
      split
      · exact hp
      · have hprep := present_prepare (env := { env with reg := reg' }) hp hr hplain
        split
        · exact hprep
        · rename_i hval
          have hval' : desc.value ≠ [] := fun hv => hval ⟨hv, hD⟩
          split
          · rename_i hdel; rw [hD] at hdel; exact absurd hdel.2 (by simp)
          · simp only
            obtain ⟨n, v, h1, h2, h3, h4⟩ := hprep.root
            obtain ⟨n', v', h5, h6, h7⟩ := update_root (env := { env with reg := reg' }) h1
              (XDoc.prepare { env with reg := reg' } d ns).1 (XDoc.prepare { env with reg := reg' } d ns).2.1 desc.path
              desc.value (eff desc.flags)
            have hu := update_untouched { env with reg := reg' } (XDoc.prepare { env with reg := reg' } d ns).2.2
              (XDoc.prepare { env with reg := reg' } d ns).1 (XDoc.prepare { env with reg := reg' } d ns).2.1 desc.path
              desc.value (eff desc.flags)
            refine ⟨hprep.regNames, hprep.known, ?_, n', v', h5, h6.trans h2, ?_⟩
            · rw [← (sameRoles_find hu.roles q.namespacePrefix).1]; exact hprep.found
            · rcases h7 with rfl | rfl
              · exact ⟨h3, h4⟩
              · refine ⟨?_, hP v h3 hval' h4⟩
                unfold setModelPath
                simp only
                generalize (if eff desc.flags = 0 then DEFAULT else eff desc.flags) = fl
                split
                · exact h3
                · exact setModelPathF_typed _ _ _ _ _ _ hw h3
  · simp only [hx, Bool.not_false, if_true]
    exact h

theorem present_imp {reg : Registry} {d : XDoc} {q : Path} {j : Nat} {xn : QName} {m0 : Mdl} {P Q : Val → Prop}
    (h : Present reg d q j xn m0 P) (hi : ∀ v, HasTy m0.ty v → P v → Q v) : Present reg d q j xn m0 Q := by
  obtain ⟨h1, h2, h3, n, v, h4, h5, h6, h7⟩ := h
  exact ⟨h1, h2, h3, n, v, h4, h5, h6, hi v h6 h7⟩

/-- A list of paths set without the delete flag keeps a property of the value that writes keep. -/
theorem present_setPaths {q : Path} {j : Nat} {xn : QName} {m0 : Mdl} {P : Val → Prop} {flags : SyncFlags}
    (hw : m0.ty.Wf) (hD : (eff flags).has DELETE = false) (l : PathValueList)
    (hP : ∀ x ∈ l, ∀ v, HasTy m0.ty v → x.value ≠ [] → P v → P (setModelPath m0.ty v x.path x.value (eff flags)).1) :
    ∀ (env : Env) (d : XDoc), Present env.reg d q j xn m0 P → NoRival env q.namespacePrefix xn m0 →
      Present (XDoc.setPaths env flags d l).2.1 (XDoc.setPaths env flags d l).1 q j xn m0 P := by
  induction l with
  | nil => intro env d h _; exact h
  | cons x xs ih =>
    intro env d h hr
    have h1 := present_setPath h hr hw { x with flags := flags } hD (hP x (by simp))
    rw [XDoc.setPaths]
    generalize hg : d.setPath env { x with flags := flags } = r at h1 ⊢
    obtain ⟨d1, reg, res⟩ := r
    cases res with
    | ok => exact ih (fun y hy => hP y (by simp [hy])) { env with reg := reg } d1 h1 hr
    | notFound => exact h1
    | err => exact h1
    | panic => exact h1

theorem setPaths_append {flags : SyncFlags} {l2 : PathValueList} (l1 : PathValueList) : ∀ (env : Env) (d : XDoc),
    (XDoc.setPaths env flags d (l1 ++ l2)).2.2 = .ok → (XDoc.setPaths env flags d l1).2.2 = .ok ∧
      XDoc.setPaths env flags d (l1 ++ l2) =
        XDoc.setPaths { env with reg := (XDoc.setPaths env flags d l1).2.1 } flags (XDoc.setPaths env flags d l1).1 l2 := by
  induction l1 with
  | nil => intro env d _; exact ⟨rfl, rfl⟩
  | cons x xs ih =>
    intro env d h
    rw [List.cons_append, XDoc.setPaths] at h
    rw [List.cons_append, XDoc.setPaths, XDoc.setPaths]
    generalize d.setPath env { x with flags := flags } = r at h ⊢
    obtain ⟨d1, reg, res⟩ := r
    cases res with
    | ok => exact ih _ _ h
    | notFound => cases h
    | err => cases h
    | panic => cases h

theorem present_found {env : Env} {d : XDoc} {q : Path} {j : Nat} {xn : QName} {m0 : Mdl} {P : Val → Prop}
    (h : Present env.reg d q j xn m0 P) (hx : q.isXmpPath = true) (hc : m0.can q.namespacePrefix = true) :
    ∃ ns, d.pathNs env q = some ns ∧ d.findNode ns = some j ∧ d.findModel ns = some j := by
  obtain ⟨ns, hns⟩ := pathNs_isSome (d := d) hx h.known
  have hname := pathNs_name h.regNames hns
  refine ⟨ns, hns, by unfold XDoc.findNode; rw [hname]; exact h.found, ?_⟩
  obtain ⟨n, v, h1, _⟩ := h.root
  have hf := h.found
  unfold XDoc.findModel
  rw [findIdx_some_iff] at hf ⊢
  refine ⟨⟨_, h1, by rw [hname]; exact hc⟩, ?_⟩
  intro k a hk ha
  have h2 := hf.2 k a hk ha
  rw [hname]
  unfold XDoc.rootMatches at h2
  unfold XDoc.modelMatches
  cases hm : a.model with
  | none => rfl
  | some m =>
    rw [hm] at h2
    simp only [Bool.or_eq_false_iff] at h2
    exact h2.2

/-- A missing string is written. -/
theorem present_adds {env : Env} {d : XDoc} {j : Nat} {xn : QName} {m0 : Mdl} {desc : PathValue}
    (h : Present env.reg d desc.path j xn m0 (fun _ => True)) (hr : NoRival env desc.path.namespacePrefix xn m0)
    (hc : m0.can desc.path.namespacePrefix = true) (hw : m0.ty.Wf) (hz : ZeroLaw m0.ty) (hq : Straight m0.ty desc.path)
    (hval : desc.value ≠ []) (htr : Trimmed desc.value) (hf : desc.flags ≠ 0) (hC : desc.flags.has CREATE = true)
    (hR : desc.flags.has REPLACE = false) (hD : desc.flags.has DELETE = false) :
    Present (d.setPath env desc).2.1 (d.setPath env desc).1 desc.path j xn m0 (fun v => ∃ s, s ≠ [] ∧
      getModelPath m0.ty v desc.path = .ok s ∧ (d.getPath env desc.path = .ok [] → s = desc.value)) := by
  have heff : eff desc.flags = desc.flags := by unfold eff; rw [if_neg hf]
  have hx := addr_isXmpPath (straight_addr hq)
  obtain ⟨ns, hns, hnode, hmodel⟩ := present_found h hx hc
  obtain ⟨n, v, h1, h2, h3, _⟩ := h.root
  obtain ⟨cur, hcur⟩ : ∃ s, getModelPath m0.ty v desc.path = .ok s := by
    exact straight_read hq _ _ h3
  have hread : d.getPath env desc.path = .ok cur := by
    unfold XDoc.getPath
    simp only [hx, Bool.not_true, Bool.false_eq_true, if_false, hns, hnode, h1, hcur]
  by_cases hne : cur = []
  · subst hne
    have hok := model_adds_missing hq hz h3 hcur desc.value desc.flags
    have hparse : ∀ u, HasTy .str u → parseLeaf .str u desc.value = some (.str desc.value) := by
      intro u _
      simp [parseLeaf, setValue, trimSpace_of_trimmed htr]
    have hafter := model_read_after_write (straight_addr hq) hw hz h3 hparse (s := desc.value) rfl
      (by
        intro _
        cases hv : desc.value with
        | nil => exact absurd hv hval
        | cons c cs => rfl) hval (flags := desc.flags)
      (v' := (setModelPath m0.ty v desc.path desc.value desc.flags).1) (Prod.ext rfl hok)
    have hs : Served env d ns := ⟨j, _, hnode, h1, Or.inl ⟨_, rfl, hmodel⟩⟩
    have hset := setPath_served hs hx hns (Or.inr (by rw [heff]; exact hD))
    rw [if_neg (by rintro ⟨h', _⟩; exact hval h'), heff, hnode, hmodel] at hset
    have hupd : d.update env (some j) (some j) desc.path desc.value desc.flags =
        ({ d.setVal j (setModelPath m0.ty v desc.path desc.value desc.flags).1 with dirty := true }, .ok) := by
      have hcc : d.current (some j) (some j) desc.path = some (.ok []) := by
        unfold XDoc.current
        simp only [Option.bind_some, h1, hcur]
      unfold XDoc.update
      simp only [hcc]
      rw [if_neg (fun h' => hval h'.symm), if_neg (by rintro ⟨_, h'⟩; rw [has_or_left (has_or_left hC)] at h'; cases h'),
        if_neg (by rintro ⟨h', _⟩; exact h' rfl)]
      unfold XDoc.write
      simp only [h1, Option.bind_some, hok]
    rw [hupd] at hset
    rw [hset]
    refine ⟨h.regNames, h.known, ?_, n, (setModelPath m0.ty v desc.path desc.value desc.flags).1, ?_, h2, ?_,
      desc.value, hval, hafter, fun _ => rfl⟩
    · have hu := update_untouched env d (some j) (some j) desc.path desc.value desc.flags
      rw [hupd] at hu
      rw [← (sameRoles_find hu.roles desc.path.namespacePrefix).1]; exact h.found
    · unfold XDoc.setVal
      simp only [List.getElem?_modify, h1, if_true, Option.map_eq_map, Option.map_some]
    · unfold setModelPath
      simp only
      generalize (if desc.flags = 0 then DEFAULT else desc.flags) = fl
      split
      · exact h3
      · exact setModelPathF_typed _ _ _ _ _ _ hw h3
  · have hp : Present env.reg d desc.path j xn m0 (fun v => getModelPath m0.ty v desc.path = .ok cur) :=
      ⟨h.regNames, h.known, h.found, n, v, h1, h2, h3, hcur⟩
    have := present_setPath hp hr hw desc (by rw [heff]; exact hD) (by
      intro w hw' hv' hg
      rw [heff]
      exact model_keeps_simple (straight_simple hq) hw hz hw' hv' hne hf hR hg desc.path)
    refine present_imp this ?_
    intro w _ hg
    refine ⟨cur, hne, hg, ?_⟩
    intro h'
    rw [hread] at h'
    simp only [GetRes.ok.injEq] at h'
    exact absurd h' hne

/-- The document that `merge` starts with. -/
theorem present_maps {reg : Registry} {d : XDoc} {q : Path} {j : Nat} {xn : QName} {m0 : Mdl} {P : Val → Prop}
    (h : Present reg d q j xn m0 P) (a b : GoMap Namespace) :
    Present reg { d with intNs := a, extNs := b } q j xn m0 P := ⟨h.regNames, h.known, h.found, h.root⟩

theorem present_dirty {reg : Registry} {d : XDoc} {q : Path} {j : Nat} {xn : QName} {m0 : Mdl} {P : Val → Prop}
    (h : Present reg d q j xn m0 P) (b : Bool) :
    Present reg { d with dirty := b } q j xn m0 P := ⟨h.regNames, h.known, h.found, h.root⟩

/-! ### Theorems -/

/-- C42, first half: merging any listing into a document without the replace and delete flags keeps every
simple value that is not empty, also when the merge fails on the way. -/
theorem merge_keeps_partial {env : Env} {d : XDoc} {q : Path} {j : Nat} {xn : QName} {m0 : Mdl} {t : Ty} {s : Str}
    {flags : SyncFlags} (hp : Present env.reg d q j xn m0 (fun v => getModelPath m0.ty v q = .ok s)) (hs : s ≠ [])
    (hr : NoRival env q.namespacePrefix xn m0) (hw : m0.ty.Wf) (hz : ZeroLaw m0.ty) (hk : Simple m0.ty q t)
    (hx : q.isXmpPath = true) (hf : flags ≠ 0) (hR : flags.has REPLACE = false) (hD : flags.has DELETE = false)
    (l : PathValueList) (bInt bExt : GoMap Namespace) :
    d.getPath env q = .ok s ∧
    (d.merge env l bInt bExt flags).1.getPath { env with reg := (d.merge env l bInt bExt flags).2.1 } q = .ok s := by
  have heff : eff flags = flags := by unfold eff; rw [if_neg hf]
  refine ⟨?_, ?_⟩
  · obtain ⟨v, h1, _, h2⟩ := present_read hp hx
    exact h2 s h1
  · have h1 := present_setPaths (flags := flags) (P := fun v => getModelPath m0.ty v q = .ok s) hw (by rw [heff]; exact hD) l
      (by
        intro x _ v hv hxv hg
        rw [heff]
        exact model_keeps_simple hk hw hz hv hxv hs hf hR hg x.path) env _
      (present_maps hp (bInt.foldl (fun m e => m.set e.1 e.2) d.intNs) (bExt.foldl (fun m e => m.set e.1 e.2) d.extNs)) hr
    have h2 : Present (d.merge env l bInt bExt flags).2.1 (d.merge env l bInt bExt flags).1 q j xn m0
        (fun v => getModelPath m0.ty v q = .ok s) := by
      unfold XDoc.merge
      simp only
      generalize XDoc.setPaths env flags _ l = r at h1 ⊢
      obtain ⟨d2, reg, res⟩ := r
      cases res with
      | ok => exact present_dirty h1 true
      | notFound => exact h1
      | err => exact h1
      | panic => exact h1
    obtain ⟨v, h3, _, h4⟩ := present_read
      (env := { env with reg := (d.merge env l bInt bExt flags).2.1 }) h2 hx
    exact h4 s h3

/-- C42, second half: after a successful merge with the create flag and without the replace and delete flags,
every string that is listed and whose model is in the destination is there; it is the listed one, if it was
missing when its turn came. -/
theorem merge_adds_partial {env : Env} {d : XDoc} {x : PathValue} {j : Nat} {xn : QName} {m0 : Mdl}
    {flags : SyncFlags} (hp : Present env.reg d x.path j xn m0 (fun _ => True))
    (hr : NoRival env x.path.namespacePrefix xn m0) (hc : m0.can x.path.namespacePrefix = true) (hw : m0.ty.Wf)
    (hz : ZeroLaw m0.ty) (hq : Straight m0.ty x.path) (hval : x.value ≠ []) (htr : Trimmed x.value) (hf : flags ≠ 0)
    (hC : flags.has CREATE = true) (hR : flags.has REPLACE = false) (hD : flags.has DELETE = false)
    {l1 l2 : PathValueList} {bInt bExt : GoMap Namespace}
    (hok : (d.merge env (l1 ++ x :: l2) bInt bExt flags).2.2 = .ok) :
    (d.merge env l1 bInt bExt flags).2.2 = .ok ∧
    ∃ s, s ≠ [] ∧ (d.merge env (l1 ++ x :: l2) bInt bExt flags).1.getPath
        { env with reg := (d.merge env (l1 ++ x :: l2) bInt bExt flags).2.1 } x.path = .ok s ∧
      ((d.merge env l1 bInt bExt flags).1.getPath { env with reg := (d.merge env l1 bInt bExt flags).2.1 } x.path = .ok [] →
        s = x.value) := by
  have heff : eff flags = flags := by unfold eff; rw [if_neg hf]
  have hD' : (eff flags).has DELETE = false := by rw [heff]; exact hD
  have hx := addr_isXmpPath (straight_addr hq)
  have h0 := present_maps hp (bInt.foldl (fun m e => m.set e.1 e.2) d.intNs) (bExt.foldl (fun m e => m.set e.1 e.2) d.extNs)
  have hm : ∀ l, d.merge env l bInt bExt flags = (match XDoc.setPaths env flags
      { d with intNs := bInt.foldl (fun m e => m.set e.1 e.2) d.intNs, extNs := bExt.foldl (fun m e => m.set e.1 e.2) d.extNs } l
      with
      | (d2, reg, .ok) => ({ d2 with dirty := true }, reg, .ok)
      | r => r) := fun _ => rfl
  generalize XDoc.mk d.roots d.dirty (bInt.foldl (fun m e => m.set e.1 e.2) d.intNs)
    (bExt.foldl (fun m e => m.set e.1 e.2) d.extNs) = d0 at h0 hm
  have hok' : (XDoc.setPaths env flags d0 (l1 ++ x :: l2)).2.2 = .ok := by
    rw [hm] at hok
    generalize XDoc.setPaths env flags d0 (l1 ++ x :: l2) = r at hok ⊢
    obtain ⟨d2, reg, res⟩ := r
    cases res with
    | ok => rfl
    | notFound => exact hok
    | err => exact hok
    | panic => exact hok
  obtain ⟨hok1, happ⟩ := setPaths_append l1 env d0 hok'
  have hp1 := present_setPaths (flags := flags) (P := fun _ => True) hw hD' l1 (fun _ _ _ _ _ _ => trivial) env d0 h0 hr
  have hm1 := hm l1
  have hm2 := hm (l1 ++ x :: l2)
  rw [happ] at hm2 hok'
  generalize XDoc.setPaths env flags d0 l1 = r1 at hok1 hp1 hm1 hm2 hok'
  obtain ⟨d1, reg1, res1⟩ := r1
  simp only at hok1 hp1 hm2 hok'
  subst hok1
  simp only at hm1
  rw [XDoc.setPaths] at hm2 hok'
  have hp2 := present_adds (env := { env with reg := reg1 }) (desc := { x with flags := flags }) hp1 hr hc hw hz hq hval
    htr hf hC hR hD
  generalize d1.setPath { env with reg := reg1 } { x with flags := flags } = r2 at hp2 hm2 hok'
  obtain ⟨d2, reg2, res2⟩ := r2
  cases res2 with
  | notFound => cases hok'
  | err => cases hok'
  | panic => cases hok'
  | ok =>
    simp only at hp2 hm2 hok'
    have hp3 := present_setPaths (flags := flags) hw hD' l2
      (by
        rintro y _ v hv hyv ⟨s, h1, h2, h3⟩
        refine ⟨s, h1, ?_, h3⟩
        rw [heff]
        exact model_keeps_simple (straight_simple hq) hw hz hv hyv h1 hf hR h2 y.path)
      { env with reg := reg2 } d2 hp2 hr
    generalize XDoc.setPaths { env with reg := reg2 } flags d2 l2 = r3 at hp3 hm2 hok'
    obtain ⟨d3, reg3, res3⟩ := r3
    simp only at hok' hp3
    subst hok'
    simp only at hm2
    rw [hm1, hm2]
    refine ⟨rfl, ?_⟩
    obtain ⟨v, ⟨s, h1, h2, h3⟩, _, h4⟩ := present_read
      (env := { env with reg := reg3 }) (present_dirty hp3 true) hx
    exact ⟨s, h1, h4 s h2, h3⟩

/-! ### Concrete cases -/

/-- A string field and a field of the struct behind a pointer. -/
theorem sample_straight : Straight (sampleTy refZero) "x:name".toList ∧ Straight (sampleTy refZero) "x:ref/st:id".toList := by
  refine ⟨.leaf (i := 0) (idx := -1) (lang := []) (fi := { name := "x:name".toList, attr := true })
      ⟨by decide, by decide, ⟨"name".toList, by decide, by decide⟩, rfl, rfl⟩ rfl rfl, ?_⟩
  refine .field (i := 5) (idx := -1) (lang := []) (fi := { name := "x:ref".toList }) (fty := .ptr (refTy refZero))
      ⟨by decide, by decide, ⟨"ref".toList, by decide, by decide⟩, rfl, rfl⟩ rfl rfl rfl (by decide) ?_
  exact .leaf (i := 0) (idx := -1) (lang := []) (fi := { name := "st:id".toList })
      ⟨by decide, by decide, ⟨"id".toList, by decide, by decide⟩, rfl, rfl⟩ rfl rfl

/-- A field of the third element of an array of structs. -/
theorem sample_simple : Simple (sampleTy refZero) "x:parts[2]/st:rank".toList (.int 64) := by
  refine .item (i := 4) (idx := 2) (lang := []) (fi := { name := "x:parts".toList })
      (fty := .slice .ordered (refTy refZero))
      ⟨by decide, by decide, ⟨"parts".toList, by decide, by decide⟩, rfl, rfl⟩ rfl rfl (by decide) ?_
  exact .leaf (i := 1) (idx := -1) (lang := []) (fi := { name := "st:rank".toList })
      ⟨by decide, by decide, ⟨"rank".toList, by decide, by decide⟩, rfl, rfl⟩ rfl rfl trivial

/-- Hypotheses of `model_keeps_simple`, for any path that is written. -/
example (v : Val) (hv : HasTy (sampleTy refZero) v) (h : got refZero v "x:parts[2]/st:rank" = .ok "7".toList) (p : Path) :
    getModelPath (sampleTy refZero) (setModelPath (sampleTy refZero) v p "8".toList ADD).1 "x:parts[2]/st:rank".toList =
      .ok "7".toList :=
  model_keeps_simple sample_simple (sampleTy_wf _) sampleTy_zeroLaw hv (by decide) (by decide) (by decide) (by decide) h p

/-- Hypotheses of `model_adds_missing`: the struct does not exist before. -/
example : (setModelPath (sampleTy refZero) (sample0 refZero) "x:ref/st:id".toList "8".toList ADD).2 = .ok :=
  model_adds_missing sample_straight.2 sampleTy_zeroLaw (hasTy_zero _) rfl _ _

/-- The sample environment with a factory for `x` only. -/
def envM : Env := { envX with make := fun _ name => if name = "x".toList then some (mdlX (sample0 refZero)) else none }

theorem envM_names (pre : Str) (ns : Namespace) (h : envM.reg.getNamespace pre = some ns) : ns.name = pre := by
  unfold Registry.getNamespace envM envX at h
  by_cases hy : pre = nsY.name
  · subst hy; cases h; rfl
  · by_cases hx : pre = nsX.name
    · subst hx; cases h; rfl
    · simp only [Registry.register, GoMap.get_set_ne _ _ hy, GoMap.get_set_ne _ _ hx] at h
      cases h

theorem docX_present (v : Val) (hv : HasTy (sampleTy refZero) v) {q : Path} (hq : q.namespacePrefix = "x".toList)
    {P : Val → Prop} (hP : P v) : Present envM.reg (docX v) q 0 ⟨[], "x".toList⟩ (mdlX v) P :=
  ⟨envM_names, by rw [hq]; rfl, by rw [hq]; rfl, Node.new ⟨[], "x".toList⟩, v, rfl, rfl, hv, hP⟩

theorem envM_noRival (v : Val) (pre : Str) : NoRival envM pre ⟨[], "x".toList⟩ (mdlX v) := by
  intro ns m' h _
  unfold Env.newModel at h
  split at h
  · cases h
  · by_cases hn : ns.name = "x".toList
    · rw [hn]; rfl
    · simp only [envM, if_neg hn] at h
      cases h

/-- Hypotheses of `merge_keeps_partial`, for any listing. -/
example (v : Val) (hv : HasTy (sampleTy refZero) v) (h : got refZero v "x:parts[2]/st:rank" = .ok "7".toList)
    (l : PathValueList) :
    ((docX v).merge envM l [] [] ADD).1.getPath { envM with reg := ((docX v).merge envM l [] [] ADD).2.1 }
      "x:parts[2]/st:rank".toList = .ok "7".toList :=
  (merge_keeps_partial (docX_present v hv (by decide) h) (by decide) (envM_noRival v _) (sampleTy_wf _) sampleTy_zeroLaw
    sample_simple (by decide) (by decide) (by decide) (by decide) l [] []).2

/-- Hypotheses of `merge_adds_partial`; one value is there, the other two are added, one of them to a bare
node. -/
example : ∃ s, s ≠ [] ∧ ((docX (put refZero (sample0 refZero) "x:name" "a").1).merge envM
      ([pv "x:name" "b", pv "y:b" "2"] ++ pv "x:ref/st:id" "c" :: []) [] [] ADD).1.getPath
      { envM with reg := ((docX (put refZero (sample0 refZero) "x:name" "a").1).merge envM
      ([pv "x:name" "b", pv "y:b" "2"] ++ pv "x:ref/st:id" "c" :: []) [] [] ADD).2.1 } "x:ref/st:id".toList = .ok s ∧ s = "c".toList := by
  obtain ⟨_, s, h1, h2, h3⟩ := merge_adds_partial (env := envM) (x := pv "x:ref/st:id" "c") (l1 := [pv "x:name" "b", pv "y:b" "2"])
    (l2 := []) (bInt := []) (bExt := []) (flags := ADD) (d := docX (put refZero (sample0 refZero) "x:name" "a").1)
    (docX_present _ (setModelPathF_typed _ _ _ _ _ _ (sampleTy_wf _) (hasTy_zero _)) (by decide) trivial)
    (envM_noRival _ _) rfl (sampleTy_wf _) sampleTy_zeroLaw sample_straight.2 (by decide) (by decide) (by decide) (by decide)
    (by decide) (by decide) rfl
  exact ⟨s, h1, h2, h3 rfl⟩

/-- C42 fails for array elements: with the add flags, an element that is there is overwritten. -/
theorem merge_overwrites_element :
    (docX (put refZero (sample0 refZero) "x:tags" "mine").1).getPath envM "x:tags[0]".toList = .ok "mine".toList ∧
    ((docX (put refZero (sample0 refZero) "x:tags" "mine").1).merge envM [pv "x:tags[0]" "theirs"] [] [] ADD).2.2 = .ok ∧
    ((docX (put refZero (sample0 refZero) "x:tags" "mine").1).merge envM [pv "x:tags[0]" "theirs"] [] [] ADD).1.getPath envM
      "x:tags[0]".toList = .ok "theirs".toList := ⟨rfl, rfl, rfl⟩

/-- C42 fails when a listed path can not be read from the destination, here because it ends in a struct
there: the merge is abandoned, in spite of the nofail flag, and the paths after it are not added. -/
theorem merge_stops :
    ((docX (put refZero (sample0 refZero) "x:ref/st:id" "c").1).merge envM [pv "x:ref" "a", pv "x:name" "b"] [] [] ADD).2.2 = .err ∧
    ((docX (put refZero (sample0 refZero) "x:ref/st:id" "c").1).merge envM [pv "x:ref" "a", pv "x:name" "b"] [] [] ADD).1.getPath
      envM "x:name".toList = .ok [] := ⟨rfl, rfl⟩

/-- C42 fails for a destination that holds a bare node of a namespace with a model: the merge attaches an
empty model, which hides the values of the node. -/
theorem merge_hides_bare_values :
    docRaw.getPath envM "x:name".toList = .ok "old".toList ∧
    (docRaw.merge envM [pv "x:count" "3"] [] [] ADD).2.2 = .ok ∧
    (docRaw.merge envM [pv "x:count" "3"] [] [] ADD).1.getPath envM "x:name".toList = .ok [] := ⟨rfl, rfl, rfl⟩

end Xmp.Props
