import Verif.Model.DocPath
import Verif.Props.ModelPathCases

/-! Properties of path access to documents (C26). -/

namespace Xmp.Props

open GoStr SyncFlags

/-! ### Specification -/

/-- The flags in effect: 0 stands for the default. -/
def eff (flags : SyncFlags) : SyncFlags := if flags = 0 then DEFAULT else flags

/-- Do the flags allow to replace the value `cur` of a property (empty: missing) by `value`? -/
def Allowed (flags : SyncFlags) (cur value : Str) : Prop :=
  (value = [] → flags.has DELETE = true) ∧
  (cur = [] → flags.has (CREATE ||| APPEND ||| UNIQUE) = true) ∧
  (cur ≠ [] → flags.has (REPLACE ||| DELETE ||| APPEND ||| UNIQUE) = true)

/-- The namespace has a node in the document, which carries the model of the namespace, or is a bare node of
a namespace without model. -/
def Served (env : Env) (d : XDoc) (ns : Namespace) : Prop :=
  ∃ j r, d.findNode ns = some j ∧ d.roots[j]? = some r ∧
    ((∃ m, r.model = some m ∧ d.findModel ns = some j) ∨
      (r.model = none ∧ d.findModel ns = none ∧ env.newModel ns = none))

/-! ### Helper lemmas -/

theorem prepare_served {env : Env} {d : XDoc} {ns : Namespace} (h : Served env d ns) :
    d.prepare env ns = (d.findModel ns, d.findNode ns, d) := by
  obtain ⟨j, r, h1, h2, ⟨m, h3, h4⟩ | ⟨h3, h4, h5⟩⟩ := h
  · unfold XDoc.prepare; rw [h4, h1]
  · unfold XDoc.prepare; rw [h4, h1]; simp only [h5]

theorem current_served {env : Env} {d : XDoc} {ns : Namespace} {p : Path} (h : Served env d ns)
    (hx : p.isXmpPath = true) (hns : d.pathNs env p = some ns) :
    (∃ s, d.current (d.findModel ns) (d.findNode ns) p = some (.ok s) ∧ d.getPath env p = .ok s) ∨
    (d.current (d.findModel ns) (d.findNode ns) p = some .err ∧ d.getPath env p = .err) := by
  obtain ⟨j, r, h1, h2, ⟨m, h3, h4⟩ | ⟨h3, h4, h5⟩⟩ := h
  · unfold XDoc.current XDoc.getPath
    simp only [hx, hns, h1, h2, h3, h4, Bool.not_true, Bool.false_eq_true, if_false, Option.bind_some]
    cases getModelPath m.ty m.val p with
    | ok s => exact Or.inl ⟨s, rfl, rfl⟩
    | err => exact Or.inr ⟨rfl, rfl⟩
    | notFound =>
      cases r.node.getPath p with
      | none => exact Or.inr ⟨rfl, rfl⟩
      | some s => exact Or.inl ⟨s, rfl, rfl⟩
  · unfold XDoc.current XDoc.getPath
    simp only [hx, hns, h1, h2, h3, h4, Bool.not_true, Bool.false_eq_true, if_false, Option.bind_some, Option.bind_none]
    cases r.node.getPath p with
    | none => exact Or.inr ⟨rfl, rfl⟩
    | some s => exact Or.inl ⟨s, rfl, rfl⟩

/-- `SetPath` below the root of a served namespace. -/
theorem setPath_served {env : Env} {d : XDoc} {ns : Namespace} {desc : PathValue} (h : Served env d ns)
    (hx : desc.path.isXmpPath = true) (hns : d.pathNs env desc.path = some ns)
    (hl : 0 < desc.path.len ∨ (eff desc.flags).has DELETE = false) :
    d.setPath env desc =
      if desc.value = [] ∧ (eff desc.flags).has DELETE = false then (d, env.reg, XDoc.fail (eff desc.flags))
      else ((d.update env (d.findModel ns) (d.findNode ns) desc.path desc.value (eff desc.flags)).1, env.reg,
        (d.update env (d.findModel ns) (d.findNode ns) desc.path desc.value (eff desc.flags)).2) := by
  have hr : d.resolveNs env desc = some (ns, env.reg) := by unfold XDoc.resolveNs; rw [hns]
  have hnode : (d.findNode ns).isNone = false := by
    obtain ⟨j, r, h1, _⟩ := h
    rw [h1]; rfl
  unfold XDoc.setPath
  simp only [hx, Bool.not_true, Bool.false_eq_true, if_false, hr, hnode, false_and, and_false, prepare_served h]
  change (if desc.value = [] ∧ (eff desc.flags).has DELETE = false then _ else _) = _
  by_cases h1 : desc.value = [] ∧ (eff desc.flags).has DELETE = false
  · rw [if_pos h1, if_pos h1]; rfl
  · rw [if_neg h1, if_neg h1]
    change (if desc.path.len = 0 ∧ (eff desc.flags).has DELETE = true then _ else _) = _
    rw [if_neg (by rintro ⟨h2, h3⟩; rcases hl with h4 | h4
                   · omega
                   · rw [h3] at h4; cases h4)]
    rfl

theorem fail_eq (f : SyncFlags) : XDoc.fail f = if f.has NOFAIL then .ok else .err := rfl

/-! ### Theorems -/

/-- C26: if the flags do not allow the change, the document stays exactly as it is, and an error is
reported unless the `NOFAIL` flag is set. -/
theorem setPath_denied_partial {env : Env} {d : XDoc} {ns : Namespace} {desc : PathValue} {cur : Str}
    (h : Served env d ns) (hx : desc.path.isXmpPath = true) (hns : d.pathNs env desc.path = some ns)
    (hl : 0 < desc.path.len ∨ (eff desc.flags).has DELETE = false) (hcur : d.getPath env desc.path = .ok cur)
    (hne : cur ≠ desc.value) (hdeny : ¬ Allowed (eff desc.flags) cur desc.value) :
    d.setPath env desc = (d, env.reg, if (eff desc.flags).has NOFAIL then .ok else .err) := by
  rw [setPath_served h hx hns hl]
  by_cases h1 : desc.value = [] ∧ (eff desc.flags).has DELETE = false
  · rw [if_pos h1, fail_eq]
  · rw [if_neg h1]
    have hc : d.current (d.findModel ns) (d.findNode ns) desc.path = some (.ok cur) := by
      rcases current_served h hx hns with ⟨s, h2, h3⟩ | ⟨h2, h3⟩
      · rw [h3] at hcur; cases hcur; exact h2
      · rw [h3] at hcur; cases hcur
    have hu : d.update env (d.findModel ns) (d.findNode ns) desc.path desc.value (eff desc.flags) =
        (d, XDoc.fail (eff desc.flags)) := by
      unfold XDoc.update
      simp only [hc, if_neg hne]
      by_cases h2 : cur = [] ∧ (eff desc.flags).has (CREATE ||| APPEND ||| UNIQUE) = false
      · rw [if_pos h2]
      · rw [if_neg h2]
        by_cases h3 : cur ≠ [] ∧ (eff desc.flags).has (REPLACE ||| DELETE ||| APPEND ||| UNIQUE) = false
        · rw [if_pos h3]
        · exfalso
          apply hdeny
          refine ⟨?_, ?_, ?_⟩
          · intro h4
            cases hd : (eff desc.flags).has DELETE with
            | true => rfl
            | false => exact absurd ⟨h4, hd⟩ h1
          · intro h4
            cases hd : (eff desc.flags).has (CREATE ||| APPEND ||| UNIQUE) with
            | true => rfl
            | false => exact absurd ⟨h4, hd⟩ h2
          · intro h4
            cases hd : (eff desc.flags).has (REPLACE ||| DELETE ||| APPEND ||| UNIQUE) with
            | true => rfl
            | false => exact absurd ⟨h4, hd⟩ h3
    rw [hu, fail_eq]

/-- C26: setting the value that is already there changes nothing and succeeds. -/
theorem setPath_same {env : Env} {d : XDoc} {ns : Namespace} {desc : PathValue}
    (h : Served env d ns) (hx : desc.path.isXmpPath = true) (hns : d.pathNs env desc.path = some ns)
    (hl : 0 < desc.path.len ∨ (eff desc.flags).has DELETE = false)
    (hcur : d.getPath env desc.path = .ok desc.value) (hv : desc.value ≠ []) :
    d.setPath env desc = (d, env.reg, .ok) := by
  rw [setPath_served h hx hns hl, if_neg (by rintro ⟨h1, _⟩; exact hv h1)]
  have hc : d.current (d.findModel ns) (d.findNode ns) desc.path = some (.ok desc.value) := by
    rcases current_served h hx hns with ⟨s, h2, h3⟩ | ⟨h2, h3⟩
    · rw [h3] at hcur; cases hcur; exact h2
    · rw [h3] at hcur; cases hcur
  unfold XDoc.update
  simp only [hc, if_true]

/-- C26: without the create flag, a namespace that is not in the document is not added. -/
theorem setPath_absent_denied {env : Env} {d : XDoc} {ns : Namespace} {desc : PathValue}
    (hx : desc.path.isXmpPath = true) (hns : d.pathNs env desc.path = some ns) (hm : d.findModel ns = none)
    (hn : d.findNode ns = none) (hf : (eff desc.flags).has CREATE = false) :
    d.setPath env desc = (d, env.reg, if (eff desc.flags).has NOFAIL then .ok else .err) := by
  have hr : d.resolveNs env desc = some (ns, env.reg) := by unfold XDoc.resolveNs; rw [hns]
  unfold XDoc.setPath
  simp only [hx, Bool.not_true, Bool.false_eq_true, if_false, hr, hm, hn, Option.isNone_none, true_and]
  change (if (eff desc.flags).has CREATE = false then _ else _) = _
  rw [if_pos hf]
  rfl

/-- C26 in the words of the property: a value that is read differently after `SetPath` was changed with
permission: with the delete flag if the new value is empty; with a create, append or unique flag if it was
missing; with a replace, delete, append or unique flag if it was there. -/
theorem setPath_change_allowed {env : Env} {d d' : XDoc} {reg : Registry} {res : SetRes} {ns : Namespace}
    {desc : PathValue} {cur : Str}
    (h : Served env d ns) (hx : desc.path.isXmpPath = true) (hns : d.pathNs env desc.path = some ns)
    (hl : 0 < desc.path.len ∨ (eff desc.flags).has DELETE = false) (hcur : d.getPath env desc.path = .ok cur)
    (hset : d.setPath env desc = (d', reg, res)) (hch : d' ≠ d) : Allowed (eff desc.flags) cur desc.value := by
  by_cases hne : cur = desc.value
  · exfalso
    subst hne
    by_cases hv : desc.value = []
    · rw [setPath_served h hx hns hl] at hset
      by_cases h1 : desc.value = [] ∧ (eff desc.flags).has DELETE = false
      · rw [if_pos h1] at hset
        exact hch (by cases hset; rfl)
      · rw [if_neg h1] at hset
        have hc : d.current (d.findModel ns) (d.findNode ns) desc.path = some (.ok desc.value) := by
          rcases current_served h hx hns with ⟨s, h2, h3⟩ | ⟨h2, h3⟩
          · rw [h3] at hcur; cases hcur; exact h2
          · rw [h3] at hcur; cases hcur
        unfold XDoc.update at hset
        simp only [hc, if_true] at hset
        exact hch (by cases hset; rfl)
    · rw [setPath_same h hx hns hl hcur hv] at hset
      exact hch (by cases hset; rfl)
  · by_cases ha : Allowed (eff desc.flags) cur desc.value
    · exact ha
    · rw [setPath_denied_partial h hx hns hl hcur hne ha] at hset
      exact absurd (by cases hset; rfl) hch

/-- C26: with the `NOFAIL` flag no error is reported, once the current value could be read. -/
theorem setPath_nofail {env : Env} {d : XDoc} {ns : Namespace} {desc : PathValue} {cur : Str}
    (h : Served env d ns) (hx : desc.path.isXmpPath = true) (hns : d.pathNs env desc.path = some ns)
    (hl : 0 < desc.path.len ∨ (eff desc.flags).has DELETE = false) (hcur : d.getPath env desc.path = .ok cur)
    (hnf : (eff desc.flags).has NOFAIL = true) :
    (d.setPath env desc).2.2 = .ok ∨ (d.setPath env desc).2.2 = .panic := by
  have hff : XDoc.fail (eff desc.flags) = .ok := by rw [fail_eq, hnf]; rfl
  rw [setPath_served h hx hns hl]
  split
  · exact Or.inl hff
  · have hc : d.current (d.findModel ns) (d.findNode ns) desc.path = some (.ok cur) := by
      rcases current_served h hx hns with ⟨s, h2, h3⟩ | ⟨h2, h3⟩
      · rw [h3] at hcur; cases hcur; exact h2
      · rw [h3] at hcur; cases hcur
    simp only
    unfold XDoc.update
    simp only [hc]
    split
    · exact Or.inl rfl
    · split
      · exact Or.inl hff
      · split
        · exact Or.inl hff
        · cases hr : (d.write env (d.findModel ns) (d.findNode ns) desc.path desc.value (eff desc.flags)).2 with
          | panic => right; exact hr
          | ok => exact Or.inl rfl
          | err => exact Or.inl hff
          | notFound => exact Or.inl hff

/-! ### Other properties of the document -/

/-- Roots agree in what `FindNode` and `FindModel` look at. -/
def SameRole (a b : Root) : Prop :=
  a.node.xmlName = b.node.xmlName ∧ a.model.map (·.canNames) = b.model.map (·.canNames)

theorem sameRole_refl (a : Root) : SameRole a a := ⟨rfl, rfl⟩

theorem sameRole_matches {a b : Root} (h : SameRole a b) (pfx : Str) :
    XDoc.rootMatches pfx a = XDoc.rootMatches pfx b ∧ XDoc.modelMatches pfx a = XDoc.modelMatches pfx b := by
  obtain ⟨h1, h2⟩ := h
  have hname : a.node.name = b.node.name := by unfold Node.name; rw [h1]
  have hm : XDoc.modelMatches pfx a = XDoc.modelMatches pfx b := by
    unfold XDoc.modelMatches
    cases ha : a.model with
    | none => rw [ha] at h2; cases hb : b.model with
      | none => rfl
      | some m => rw [hb] at h2; simp at h2
    | some m => rw [ha] at h2; cases hb : b.model with
      | none => rw [hb] at h2; simp at h2
      | some m' =>
        rw [hb] at h2
        simp only [Option.map_some, Option.some.injEq] at h2
        simp only [Mdl.can, h2]
  refine ⟨?_, hm⟩
  unfold XDoc.rootMatches
  rw [hname]
  congr 1

/-- Two lists of roots of the same roles. -/
def SameRoles (l l' : List Root) : Prop :=
  l.length = l'.length ∧ ∀ (i : Nat) a b, l[i]? = some a → l'[i]? = some b → SameRole a b

theorem sameRoles_refl (l : List Root) : SameRoles l l := by
  refine ⟨rfl, ?_⟩
  intro i a b h1 h2
  rw [h1] at h2; cases h2; exact sameRole_refl a

theorem sameRoles_trans {a b c : List Root} (h : SameRoles a b) (h' : SameRoles b c) : SameRoles a c := by
  refine ⟨h.1.trans h'.1, ?_⟩
  intro i x z hx hz
  have hi : i < b.length := by
    rw [← h.1]; exact (List.getElem?_eq_some_iff.mp hx).1
  have h1 := h.2 i x b[i] hx (List.getElem?_eq_getElem hi)
  have h2 := h'.2 i b[i] z (List.getElem?_eq_getElem hi) hz
  exact ⟨h1.1.trans h2.1, h1.2.trans h2.2⟩

theorem sameRoles_find {l l' : List Root} (h : SameRoles l l') (pfx : Str) :
    l.findIdx? (XDoc.rootMatches pfx) = l'.findIdx? (XDoc.rootMatches pfx) ∧
    l.findIdx? (XDoc.modelMatches pfx) = l'.findIdx? (XDoc.modelMatches pfx) := by
  induction l generalizing l' with
  | nil =>
    cases l' with
    | nil => exact ⟨rfl, rfl⟩
    | cons b bs => have := h.1; simp at this
  | cons a as ih =>
    cases l' with
    | nil => have := h.1; simp at this
    | cons b bs =>
      have h0 := sameRole_matches (h.2 0 a b rfl rfl) pfx
      have ht : SameRoles as bs := by
        refine ⟨by have := h.1; simpa using this, ?_⟩
        intro i x y hx hy
        exact h.2 (i + 1) x y (by simpa using hx) (by simpa using hy)
      have := ih ht
      simp only [List.findIdx?_cons, h0.1, h0.2, this.1, this.2, and_self]

theorem sameRoles_modify {l : List Root} {i : Nat} {f : Root → Root} (h : ∀ a, l[i]? = some a → SameRole a (f a)) :
    SameRoles l (l.modify i f) := by
  refine ⟨by simp, ?_⟩
  intro j a b ha hb
  rw [List.getElem?_modify] at hb
  rw [ha] at hb
  by_cases hij : i = j
  · subst hij
    simp at hb
    subst hb
    exact h a ha
  · simp [hij] at hb
    subst hb
    exact sameRole_refl a

theorem setVal_roles (d : XDoc) (i : Nat) (v : Val) : SameRoles d.roots (d.setVal i v).roots := by
  apply sameRoles_modify
  intro a _
  refine ⟨rfl, ?_⟩
  cases a.model <;> rfl

theorem setNode_roles {d : XDoc} {i : Nat} {r : Root} {n : Node} (hr : d.roots[i]? = some r)
    (h : n.xmlName = r.node.xmlName) : SameRoles d.roots (d.setNode i n).roots := by
  apply sameRoles_modify
  intro a ha
  rw [hr] at ha
  cases ha
  exact ⟨h.symm, rfl⟩

theorem setVal_other (d : XDoc) {i k : Nat} (v : Val) (h : i ≠ k) : (d.setVal i v).roots[k]? = d.roots[k]? := by
  unfold XDoc.setVal
  simp only [List.getElem?_modify, if_neg h]
  cases d.roots[k]? <;> rfl

theorem setNode_other (d : XDoc) {i k : Nat} (n : Node) (h : i ≠ k) : (d.setNode i n).roots[k]? = d.roots[k]? := by
  unfold XDoc.setNode
  simp only [List.getElem?_modify, if_neg h]
  cases d.roots[k]? <;> rfl

/-- What a write leaves alone: namespace maps, the roles of the roots, all roots but the addressed ones. -/
structure Untouched (d d' : XDoc) (m n : Option Nat) : Prop where
  int : d'.intNs = d.intNs
  ext : d'.extNs = d.extNs
  roles : SameRoles d.roots d'.roots
  other : ∀ k, m ≠ some k → n ≠ some k → d'.roots[k]? = d.roots[k]?

theorem writeNode_untouched (env : Env) (d : XDoc) (m n : Option Nat) (p : Path) (value : Str) (flags : SyncFlags) :
    Untouched d (d.writeNode env n p value flags).1 m n := by
  unfold XDoc.writeNode
  cases n with
  | none => exact ⟨rfl, rfl, sameRoles_refl _, fun _ _ _ => rfl⟩
  | some j =>
    simp only
    cases hr : d.roots[j]? with
    | none => exact ⟨rfl, rfl, sameRoles_refl _, fun _ _ _ => rfl⟩
    | some r =>
      simp only
      refine ⟨rfl, rfl, setNode_roles hr ?_, ?_⟩
      · unfold Node.setPath; exact xmlName_setPathF _ _ _ _ _ _
      · intro k _ hk
        exact setNode_other d _ (fun h => hk (by rw [h]))

theorem write_untouched (env : Env) (d : XDoc) (m n : Option Nat) (p : Path) (value : Str) (flags : SyncFlags) :
    Untouched d (d.write env m n p value flags).1 m n := by
  unfold XDoc.write
  cases m with
  | none => exact writeNode_untouched _ _ _ _ _ _ _
  | some i =>
    simp only
    cases hr : (d.roots[i]?).bind (·.model) with
    | none => exact writeNode_untouched _ _ _ _ _ _ _
    | some mdl =>
      simp only
      have h1 : Untouched d (d.setVal i (setModelPath mdl.ty mdl.val p value flags).1) (some i) n :=
        ⟨rfl, rfl, setVal_roles d i _, fun k hk _ => setVal_other d _ (fun h => hk (by rw [h]))⟩
      split
      · have h2 := writeNode_untouched env (d.setVal i (setModelPath mdl.ty mdl.val p value flags).1) (some i) n p value flags
        exact ⟨h2.int.trans h1.int, h2.ext.trans h1.ext, sameRoles_trans h1.roles h2.roles,
          fun k hk hn => (h2.other k hk hn).trans (h1.other k hk hn)⟩
      · exact h1

theorem update_untouched (env : Env) (d : XDoc) (m n : Option Nat) (p : Path) (value : Str) (flags : SyncFlags) :
    Untouched d (d.update env m n p value flags).1 m n := by
  have h0 : Untouched d d m n := ⟨rfl, rfl, sameRoles_refl _, fun _ _ _ => rfl⟩
  have h1 := write_untouched env d m n p value flags
  unfold XDoc.update
  split
  · exact h0
  · exact h0
  · exact h0
  · split
    · exact h0
    · split
      · exact h0
      · split
        · exact h0
        · simp only
          split
          · exact h1
          · exact ⟨h1.int, h1.ext, h1.roles, h1.other⟩
          · exact h1

theorem getPath_untouched {env : Env} {d d' : XDoc} {m n : Option Nat} (h : Untouched d d' m n) {q : Path}
    {ns : Namespace} {j : Nat} (hq : d.pathNs env q = some ns) (hj : d.findNode ns = some j) (h1 : m ≠ some j)
    (h2 : n ≠ some j) : d'.getPath env q = d.getPath env q := by
  have hns : d'.pathNs env q = d.pathNs env q := by
    unfold XDoc.pathNs XDoc.findNsByPrefix
    rw [h.int, h.ext]
  have hnode : d'.findNode ns = d.findNode ns := ((sameRoles_find h.roles ns.name).1).symm
  unfold XDoc.getPath
  simp only [hns, hq, hnode, hj, h.other j h1 h2]

/-- C26: `SetPath`, allowed or not, does not change what is read from paths of other namespaces (kept in
other nodes of the document). -/
theorem setPath_other_namespace {env : Env} {d : XDoc} {ns ns' : Namespace} {desc : PathValue} {q : Path} {j : Nat}
    (h : Served env d ns) (hx : desc.path.isXmpPath = true) (hns : d.pathNs env desc.path = some ns)
    (hl : 0 < desc.path.len ∨ (eff desc.flags).has DELETE = false) (hq : d.pathNs env q = some ns')
    (hj : d.findNode ns' = some j) (hne : d.findNode ns ≠ some j) :
    (d.setPath env desc).1.getPath env q = d.getPath env q := by
  have hm : d.findModel ns ≠ some j := by
    obtain ⟨k, r, h1, h2, ⟨m, h3, h4⟩ | ⟨h3, h4, h5⟩⟩ := h
    · rw [h4, ← h1]; exact hne
    · rw [h4]; simp
  rw [setPath_served h hx hns hl]
  split
  · rfl
  · exact getPath_untouched (update_untouched env d _ _ _ _ _) hq hj hm hne

/-- C26 and C32: `SetPath` of a non-empty value, allowed or not, does not change a non-empty value of the
same model that is read through a path that parts from the one set. -/
theorem setPath_frame_model {env : Env} {d : XDoc} {ns ns' : Namespace} {desc : PathValue} {q : Path} {j : Nat} {r : Root}
    {m : Mdl} {s : Str} (hj : d.findNode ns = some j) (hm : d.findModel ns = some j) (hr : d.roots[j]? = some r)
    (hmr : r.model = some m) (hx : desc.path.isXmpPath = true) (hxq : q.isXmpPath = true)
    (hns : d.pathNs env desc.path = some ns)
    (hv : desc.value ≠ []) (hl : 0 < desc.path.len) (hq : d.pathNs env q = some ns') (hj' : d.findNode ns' = some j)
    (hw : m.ty.Wf) (hz : ZeroLaw m.ty) (ht : HasTy m.ty m.val) (ha : Apart m.ty desc.path q) (hs : s ≠ [])
    (hget : getModelPath m.ty m.val q = .ok s) :
    d.getPath env q = .ok s ∧ (d.setPath env desc).1.getPath env q = .ok s := by
  have h : Served env d ns := ⟨j, r, hj, hr, Or.inl ⟨m, hmr, hm⟩⟩
  have hread : ∀ (d' : XDoc) (v : Val) (n' : Node), Untouched d d' (some j) (some j) →
      d'.roots[j]? = some ⟨n', some { m with val := v }⟩ → getModelPath m.ty v q = .ok s → d'.getPath env q = .ok s := by
    intro d' v n' hu hd hg
    have hns' : d'.pathNs env q = d.pathNs env q := by
      unfold XDoc.pathNs XDoc.findNsByPrefix
      rw [hu.int, hu.ext]
    have hnode : d'.findNode ns' = d.findNode ns' := ((sameRoles_find hu.roles ns'.name).1).symm
    unfold XDoc.getPath
    simp only [hxq, Bool.not_true, Bool.false_eq_true, if_false, hns', hq, hnode, hj', hd, hg]
  have h0 : Untouched d d (some j) (some j) := ⟨rfl, rfl, sameRoles_refl _, fun _ _ _ => rfl⟩
  have hd0 : d.getPath env q = .ok s := by
    refine hread d m.val r.node h0 ?_ hget
    rw [hr]
    cases r with
    | mk n mo => simp only at hmr; subst hmr; rfl
  refine ⟨hd0, ?_⟩
  rw [setPath_served h hx hns (Or.inl hl), if_neg (by rintro ⟨h1, _⟩; exact hv h1)]
  simp only
  have hu := update_untouched env d (d.findModel ns) (d.findNode ns) desc.path desc.value (eff desc.flags)
  rw [hj, hm] at hu ⊢
  have hframe := model_frame ha hw hz ht hv hs (eff desc.flags) hget
  have hwr : ∃ n', (d.write env (some j) (some j) desc.path desc.value (eff desc.flags)).1.roots[j]? =
      some ⟨n', some { m with val := (setModelPath m.ty m.val desc.path desc.value (eff desc.flags)).1 }⟩ := by
    unfold XDoc.write
    simp only [hr, Option.bind_some, hmr]
    have hset : (d.setVal j (setModelPath m.ty m.val desc.path desc.value (eff desc.flags)).1).roots[j]? =
        some ⟨r.node, some { m with val := (setModelPath m.ty m.val desc.path desc.value (eff desc.flags)).1 }⟩ := by
      unfold XDoc.setVal
      simp only [List.getElem?_modify, hr, if_true, Option.map_eq_map, Option.map_some, hmr]
    split
    · unfold XDoc.writeNode
      simp only [hset]
      refine ⟨(r.node.setPath env.reg desc.path desc.value (eff desc.flags)).1, ?_⟩
      unfold XDoc.setNode
      simp only [List.getElem?_modify, hset, if_true, Option.map_eq_map, Option.map_some]
    · exact ⟨_, hset⟩
  obtain ⟨n', hwr⟩ := hwr
  have hd := hread _ _ n' (write_untouched env d (some j) (some j) desc.path desc.value (eff desc.flags)) hwr hframe
  unfold XDoc.update
  split
  · exact hd0
  · exact hd0
  · exact hd0
  · split
    · exact hd0
    · split
      · exact hd0
      · split
        · exact hd0
        · simp only
          split
          · exact hd
          · exact hd
          · exact hd

/-- C26: a permitted change takes effect.  With flags that allow to create and to replace (the default), a
value that can be written to the model is written, the document is marked as changed, and the value is what
is read from the document afterwards. -/
theorem setPath_writes {env : Env} {d : XDoc} {ns : Namespace} {desc : PathValue} {j : Nat} {r : Root}
    {m : Mdl} {cur : Str} {t : Ty} {k : Bool} {w : Val} (hj : d.findNode ns = some j) (hm : d.findModel ns = some j)
    (hr : d.roots[j]? = some r) (hmr : r.model = some m) (hx : desc.path.isXmpPath = true)
    (hns : d.pathNs env desc.path = some ns) (hv : desc.value ≠ []) (hl : 0 < desc.path.len)
    (hR : (eff desc.flags).has REPLACE = true) (hC : (eff desc.flags).has CREATE = true)
    (hw : m.ty.Wf) (hz : ZeroLaw m.ty) (ht : HasTy m.ty m.val) (ha : Addr m.ty desc.path t k)
    (hparse : ∀ u, HasTy t u → parseLeaf t u desc.value = some w) (hs : leafText t w = some (some desc.value))
    (hne : k = false → isEmptyValue t w = false) (hcur : getModelPath m.ty m.val desc.path = .ok cur) :
    (d.setPath env desc).2.2 = .ok ∧ (d.setPath env desc).1.getPath env desc.path = .ok desc.value ∧
    (cur ≠ desc.value → (d.setPath env desc).1.dirty = true) := by
  have h : Served env d ns := ⟨j, r, hj, hr, Or.inl ⟨m, hmr, hm⟩⟩
  have hok := model_write_succeeds ha hw ht hparse hv (flags := eff desc.flags) (Or.inr ⟨hR, hC⟩)
  have hread := model_read_after_write ha hw hz ht hparse hs hne hv (flags := eff desc.flags)
    (v' := (setModelPath m.ty m.val desc.path desc.value (eff desc.flags)).1) (Prod.ext rfl hok)
  have hc : d.current (some j) (some j) desc.path = some (.ok cur) := by
    unfold XDoc.current
    simp only [Option.bind_some, hr, hmr, hcur]
  rw [setPath_served h hx hns (Or.inl hl), if_neg (by rintro ⟨h1, _⟩; exact hv h1)]
  simp only [hj, hm]
  unfold XDoc.update
  simp only [hc]
  by_cases he : cur = desc.value
  · rw [if_pos he]
    refine ⟨rfl, ?_, fun h => absurd he h⟩
    unfold XDoc.getPath
    simp only [hx, Bool.not_true, Bool.false_eq_true, if_false, hns, hj, hr, hmr, hcur, he]
  · have hor : ∀ a b : SyncFlags, (eff desc.flags).has a = true → (eff desc.flags).has (a ||| b) = true := by
      intro a b hab
      simp only [SyncFlags.has, ne_eq, bne_iff_ne] at hab ⊢
      intro h0
      apply hab
      apply Nat.eq_of_testBit_eq
      intro i
      have := congrArg (fun x => Nat.testBit x i) h0
      simp only [Nat.testBit_and, Nat.testBit_or, Nat.zero_testBit] at this ⊢
      cases h1 : Nat.testBit (eff desc.flags) i <;> cases h2 : Nat.testBit a i <;> simp_all
    rw [if_neg he, if_neg (by rintro ⟨_, h1⟩; rw [hor _ _ (hor _ _ hC)] at h1; cases h1),
      if_neg (by rintro ⟨_, h1⟩; rw [hor _ _ (hor _ _ (hor _ _ hR))] at h1; cases h1)]
    have hwr : d.write env (some j) (some j) desc.path desc.value (eff desc.flags) =
        (d.setVal j (setModelPath m.ty m.val desc.path desc.value (eff desc.flags)).1, .ok) := by
      unfold XDoc.write
      simp only [hr, Option.bind_some, hmr, hok]
    have hu := write_untouched env d (some j) (some j) desc.path desc.value (eff desc.flags)
    rw [hwr] at hu
    simp only [hwr]
    refine ⟨trivial, ?_, fun _ => trivial⟩
    have hns' : XDoc.pathNs env { d.setVal j (setModelPath m.ty m.val desc.path desc.value (eff desc.flags)).1 with dirty := true } desc.path = some ns := by
      rw [← hns]; rfl
    have hnode : XDoc.findNode { d.setVal j (setModelPath m.ty m.val desc.path desc.value (eff desc.flags)).1 with dirty := true } ns = some j := by
      rw [← hj]; exact ((sameRoles_find hu.roles ns.name).1).symm
    have hset : (XDoc.roots { d.setVal j (setModelPath m.ty m.val desc.path desc.value (eff desc.flags)).1 with dirty := true })[j]? =
        some ⟨r.node, some { m with val := (setModelPath m.ty m.val desc.path desc.value (eff desc.flags)).1 }⟩ := by
      unfold XDoc.setVal
      simp only [List.getElem?_modify, hr, if_true, Option.map_eq_map, Option.map_some, hmr]
    unfold XDoc.getPath
    simp only [hx, Bool.not_true, Bool.false_eq_true, if_false, hns', hnode, hset, hread]

theorem eraseP_eq_filter {α β : Type} [DecidableEq β] (f : α → β) (b : β) (l : List α) (h : (l.map f).Nodup) :
    l.eraseP (fun v => f v = b) = l.filter (fun v => f v ≠ b) := by
  induction l with
  | nil => rfl
  | cons a l ih =>
    simp only [List.map_cons, List.nodup_cons] at h
    by_cases ha : f a = b
    · rw [List.eraseP_cons_of_pos (by simpa using ha), List.filter_cons_of_neg (by simpa using ha)]
      symm
      rw [List.filter_eq_self]
      intro x hx
      simp only [ne_eq, decide_eq_true_eq]
      intro hxb
      exact h.1 (by rw [ha, ← hxb]; exact List.mem_map_of_mem hx)
    · rw [List.eraseP_cons_of_neg (by simpa using ha), List.filter_cons_of_pos (by simpa using ha), ih h.2]

/-- C26: setting the root path of a namespace to the empty value with the delete flag removes the node of the
namespace and nothing else, and marks the document as changed. -/
theorem setPath_deletes_namespace {env : Env} {d : XDoc} {ns : Namespace} {desc : PathValue}
    (h : Served env d ns) (hx : desc.path.isXmpPath = true) (hns : d.pathNs env desc.path = some ns)
    (hl : desc.path.len = 0) (hd : (eff desc.flags).has DELETE = true) (hv : desc.value = [])
    (hn : (d.roots.map (·.node.name)).Nodup) (hex : ∃ r ∈ d.roots, r.node.name = ns.name) :
    (d.setPath env desc).1.roots = d.roots.filter (fun r => r.node.name ≠ ns.name) ∧
    (d.setPath env desc).1.dirty = true ∧ (d.setPath env desc).2.2 = .ok := by
  have hr : d.resolveNs env desc = some (ns, env.reg) := by unfold XDoc.resolveNs; rw [hns]
  have hnode : (d.findNode ns).isNone = false := by
    obtain ⟨j, r, h1, _⟩ := h
    rw [h1]; rfl
  have hset : d.setPath env desc = (d.removeNamespace ns, env.reg, .ok) := by
    unfold XDoc.setPath
    simp only [hx, Bool.not_true, Bool.false_eq_true, if_false, hr, hnode, false_and, and_false, prepare_served h]
    change (if desc.value = [] ∧ (eff desc.flags).has DELETE = false then _
      else if desc.path.len = 0 ∧ (eff desc.flags).has DELETE = true then _ else _) = _
    rw [if_neg (by rintro ⟨_, h1⟩; rw [hd] at h1; cases h1), if_pos ⟨hl, hd⟩, if_pos hv]
  have hrem : d.removeNamespace ns = { roots := d.roots.filter (fun r => r.node.name ≠ ns.name), dirty := true
                                       intNs := d.intNs.del ns.uri, extNs := d.extNs.del ns.uri } := by
    unfold XDoc.removeNamespace
    rw [if_pos, eraseP_eq_filter (fun r : Root => r.node.name) ns.name d.roots hn]
    rw [List.any_eq_true]
    obtain ⟨r, h1, h2⟩ := hex
    exact ⟨r, h1, by simpa using h2⟩
  rw [hset, hrem]
  exact ⟨rfl, rfl, rfl⟩

end Xmp.Props
