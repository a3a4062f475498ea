import Verif.Model.DocXmp
import Verif.Lemmas.Path
import Mathlib.Tactic.Common

/-! C72: fields of a model whose name has the prefix of another namespace are never set by reading a document. -/

namespace Xmp.Props

open GoStr

/-- A model with the value of a field as it was made by its factory. -/
def AsMade (env : Env) (m : Mdl) (i : Nat) : Prop :=
  ∃ ns m0 z infos tys v0 v, (∃ p, env.reg.getNamespace p = some ns) ∧ env.newModel ns = some m0 ∧ m0.ty = .struct z infos tys ∧ m0.val = .struct v0 ∧
    m = { m0 with val := .struct v } ∧ v[i]? = v0[i]?

/-- The prefix `q` is none that the top-level node answers to. -/
def Stranger (r : Root) (m : Mdl) (q : Str) : Prop :=
  ∀ p ∈ r.node.name :: m.canNames, ':' ∉ p ∧ p ≠ q

/-- The fields of the model of a top-level node that have a strange prefix. -/
def Kept (env : Env) (r : Root) : Prop :=
  ∀ m, r.model = some m → ∀ z infos tys vals, m.ty = .struct z infos tys → m.val = .struct vals →
    ∀ i f q loc, infos[i]? = some f → f.name = q ++ ':' :: loc → ':' ∉ q → f.any = false → Stranger r m q → AsMade env m i

/-- The model that the factory of a registered namespace makes answers to the prefix of this namespace. -/
def Answers (env : Env) : Prop :=
  ∀ p ns m, env.reg.getNamespace p = some ns → env.newModel ns = some m → ∀ n0 rest, m.nss = n0 :: rest →
    ns.name ∈ (Node.new ⟨[], expandName n0.name []⟩).name :: m.canNames

/-! ### Proof -/

theorem untouched_new {env : Env} {ns : Namespace} {m : Mdl} (hp : ∃ p, env.reg.getNamespace p = some ns) (h : env.newModel ns = some m) {z : Option (List Val → Bool)}
    {infos : List FieldInfo} {tys : List Ty} {vals : List Val} (ht : m.ty = .struct z infos tys) (hv : m.val = .struct vals) (i : Nat) :
    AsMade env m i := ⟨ns, m, z, infos, tys, vals, vals, hp, h, ht, hv, by rw [← hv], rfl⟩

theorem findNs_local {d : Dec} {loc : Str} {ns : Namespace} (h : d.findNs ⟨[], loc⟩ = some ns) : ns.name = getPrefix loc := by
  simp only [Dec.findNs, ne_eq, not_true, if_false] at h
  unfold Dec.findByPrefix at h
  split at h
  · rename_i e he
    cases h
    simpa using List.find?_some he
  · cases h2 : d.ext.find? (fun e => decide (e.2.name = getPrefix loc)) with
    | none => rw [h2] at h; cases h
    | some e =>
      rw [h2] at h
      simp only [Option.map_some, Option.some.injEq] at h
      subst h
      simpa using List.find?_some h2

theorem lastIdx_spec {p : FieldInfo → Bool} : ∀ {l : List FieldInfo} {k : Nat}, lastIdx p l = some k → ∃ f, l[k]? = some f ∧ p f = true
  | [], k, h => by cases h
  | f :: fs, k, h => by
    rw [lastIdx] at h
    split at h
    · rename_i i hi
      cases h
      obtain ⟨g, h1, h2⟩ := lastIdx_spec hi
      exact ⟨g, by simpa using h1, h2⟩
    · split at h
      · cases h
        exact ⟨f, rfl, by assumption⟩
      · cases h

/-- The field that is found has the name, or is an `any` field. -/
theorem findStructField_spec {dv : Version} {infos : List FieldInfo} {name : Str} {k : Nat}
    (h : findStructField dv infos name = some k) : ∃ f, infos[k]? = some f ∧ (f.name = name ∨ f.any = true) := by
  unfold findStructField at h
  split at h
  · rename_i i hi
    cases h
    rw [List.findIdx?_eq_some_iff_getElem] at hi
    obtain ⟨hlt, hp, -⟩ := hi
    refine ⟨infos[k], List.getElem?_eq_getElem hlt, Or.inl ?_⟩
    simp only [Bool.and_eq_true, decide_eq_true_eq] at hp
    exact hp.2
  · obtain ⟨f, h1, h2⟩ := lastIdx_spec h
    simp only [Bool.and_eq_true] at h2
    exact ⟨f, h1, Or.inr h2.2⟩

/-- The namespaces of the decoder are registered, or have no factory. -/
def NssKnown (d : Dec) : Prop :=
  ∀ e, e ∈ d.int ∨ e ∈ d.ext → (∃ p, d.reg.getNamespace p = some e.2) ∨ e.2.factory = none

theorem declared_known (reg : Registry) : ∀ (l : List (Str × Str)) (d : Dec), NssKnown d →
    NssKnown (l.foldl (fun d x => d.addNamespace x.1 x.2) d)
  | [], d, h => h
  | x :: l, d, h => by
    refine declared_known reg l _ ?_
    have setmem : ∀ (m : GoMap Namespace) k v e, e ∈ m.set k v → e = (k, v) ∨ e ∈ m := by
      intro m k v e he
      rcases List.mem_cons.1 he with he | he
      · exact Or.inl he
      · exact Or.inr (List.mem_filter.1 he).1
    unfold Dec.addNamespace
    simp only
    split
    · split
      · rename_i ns hns
        intro e he
        rcases he with he | he
        · rcases setmem _ _ _ _ he with rfl | he
          · exact Or.inl ⟨_, hns⟩
          · exact h e (Or.inl he)
        · exact h e (Or.inr he)
      · exact h
    · split
      · exact h
      · intro e he
        rcases he with he | he
        · exact h e (Or.inl he)
        · rcases setmem _ _ _ _ he with rfl | he
          · exact Or.inr rfl
          · exact h e (Or.inr he)

theorem addNamespace_reg (l : List (Str × Str)) (d : Dec) : (l.foldl (fun d x => d.addNamespace x.1 x.2) d).reg = d.reg := by
  induction l generalizing d with
  | nil => rfl
  | cons x l ih =>
    rw [List.foldl_cons, ih]
    unfold Dec.addNamespace
    simp only
    split
    · split <;> rfl
    · split <;> rfl

theorem findNs_known {d : Dec} (h : NssKnown d) {n : QName} {ns : Namespace} (hf : d.findNs n = some ns) :
    (∃ p, d.reg.getNamespace p = some ns) ∨ ns.factory = none := by
  have getmem : ∀ (m : GoMap Namespace) k v, m.get k = some v → ∃ e ∈ m, e.2 = v := by
    intro m k v hm
    unfold GoMap.get at hm
    cases hx : m.find? (fun e => decide (e.1 = k)) with
    | none => rw [hx] at hm; cases hm
    | some e => rw [hx] at hm; cases hm; exact ⟨e, List.mem_of_find?_eq_some hx, rfl⟩
  have byp : ∀ p ns, d.findByPrefix p = some ns → ∃ e, (e ∈ d.int ∨ e ∈ d.ext) ∧ e.2 = ns := by
    intro p ns hp
    unfold Dec.findByPrefix at hp
    split at hp
    · rename_i e he
      cases hp
      exact ⟨e, Or.inl (List.mem_of_find?_eq_some he), rfl⟩
    · cases hx : d.ext.find? (fun e => decide (e.2.name = p)) with
      | none => rw [hx] at hp; cases hp
      | some e => rw [hx] at hp; cases hp; exact ⟨e, Or.inr (List.mem_of_find?_eq_some hx), rfl⟩
  suffices ∃ e, (e ∈ d.int ∨ e ∈ d.ext) ∧ e.2 = ns by
    obtain ⟨e, he, rfl⟩ := this
    exact h e he
  unfold Dec.findNs at hf
  split at hf
  · rename_i ns' hns
    cases hf
    split at hns
    · unfold Dec.findByURI at hns
      split at hns
      · rename_i v hv
        cases hns
        obtain ⟨e, he, h2⟩ := getmem _ _ _ hv
        exact ⟨e, Or.inl he, h2⟩
      · obtain ⟨e, he, h2⟩ := getmem _ _ _ hns
        exact ⟨e, Or.inr he, h2⟩
    · cases hns
  · exact byp _ _ hf

/-- What `lookupNode` finds: the nodes are still as required, and the node answers to the prefix. -/
theorem lookup_spec {env : Env} (ha : Answers env) {d : Dec} (hd : NssKnown d) (hreg : d.reg = env.reg) {rs rs' : List Root}
    {name : QName} {i : Nat} (hk : ∀ r ∈ rs, Kept env r) (h : Dec.lookupNode env d rs name = some (i, rs')) :
    (∀ r ∈ rs', Kept env r) ∧ ∃ ns, d.findNs name = some ns ∧ ∀ r m, rs'[i]? = some r → r.model = some m →
      ns.name ∈ r.node.name :: m.canNames := by
  unfold Dec.lookupNode at h
  split at h
  · cases h
  rename_i ns hns
  split at h
  · rename_i j hj
    cases h
    refine ⟨hk, ns, hns, ?_⟩
    intro r m hr hm
    rw [List.findIdx?_eq_some_iff_getElem] at hj
    obtain ⟨hlt, hp, -⟩ := hj
    rw [List.getElem?_eq_getElem hlt] at hr
    cases hr
    unfold XDoc.rootMatches at hp
    rw [hm] at hp
    simp only [Bool.or_eq_true, decide_eq_true_eq, Mdl.can] at hp
    rcases hp with hp | hp
    · exact List.mem_cons.2 (Or.inl hp.symm)
    · exact List.mem_cons.2 (Or.inr hp)
  · have key : ∀ r, (∀ m, r.model = some m → env.newModel ns = some m) → Kept env r := by
      intro r hm m hr z infos tys vals ht hv k f q loc _ _ _ _ _
      refine untouched_new ?_ (hm m hr) ht hv k
      rcases findNs_known hd hns with hp | hp
      · exact hreg ▸ hp
      · have := hm m hr
        unfold Env.newModel at this
        rw [hp] at this
        cases this
    split at h
    · cases h
      refine ⟨?_, ns, hns, ?_⟩
      · intro r hr
        rcases List.mem_append.1 hr with hr | hr
        · exact hk r hr
        · rw [List.mem_singleton.1 hr]
          exact key _ (by intro m h; cases h)
      · intro r m hr hm
        simp only [List.getElem?_concat_length, Option.some.injEq] at hr
        rw [← hr] at hm
        cases hm
    · rename_i m hm
      split at h
      · cases h
      · rename_i ns0 nss hnss
        cases h
        have hnew := key ⟨Node.new ⟨[], expandName ns0.name []⟩, some m⟩ (by intro m' h; cases h; exact hm)
        refine ⟨?_, ns, hns, ?_⟩
        · intro r hr
          rcases List.mem_append.1 hr with hr | hr
          · exact hk r hr
          · rw [List.mem_singleton.1 hr]
            exact hnew
        · intro r m' hr hm'
          simp only [List.getElem?_concat_length, Option.some.injEq] at hr
          rw [← hr] at hm'
          cases hm'
          rcases findNs_known hd hns with ⟨p, hp⟩ | hp
          · rw [← hr]
            exact ha p ns _ (hreg ▸ hp) hm ns0 nss hnss
          · unfold Env.newModel at hm
            rw [hp] at hm
            cases hm

theorem kept_modify {env : Env} {rs : List Root} {i : Nat} {g : Root → Root} (hk : ∀ r ∈ rs, Kept env r)
    (hg : ∀ r, rs[i]? = some r → Kept env (g r)) : ∀ r ∈ rs.modify i g, Kept env r := by
  intro r hr
  obtain ⟨k, hlt, hx⟩ := List.mem_iff_getElem.1 hr
  rw [List.getElem_modify] at hx
  rw [List.length_modify] at hlt
  split at hx
  · rename_i hik
    subst hik
    rw [← hx]
    exact hg _ (List.getElem?_eq_getElem hlt)
  · rw [← hx]
    exact hk _ (List.getElem_mem hlt)

/-- Another node, with the same name. -/
theorem kept_node {env : Env} {r : Root} (h : Kept env r) {n : Node} (hn : n.name = r.node.name) : Kept env { r with node := n } := by
  intro m hm z infos tys vals ht hv i f q loc h1 h2 h3 h4 h5
  refine h m hm z infos tys vals ht hv i f q loc h1 h2 h3 h4 ?_
  unfold Stranger at h5 ⊢
  rw [← hn]
  exact h5

/-- A field is set that has a prefix to which the node answers. -/
theorem kept_field {env : Env} {r : Root} (h : Kept env r) {m : Mdl} (hm : r.model = some m) {z : Option (List Val → Bool)}
    {infos : List FieldInfo} {tys : List Ty} {vals : List Val} (ht : m.ty = .struct z infos tys) (hv : m.val = .struct vals)
    {k : Nat} (x : Val) (hk : ∀ f, infos[k]? = some f → ∀ q loc, f.name = q ++ ':' :: loc → ':' ∉ q → f.any = false → ¬ Stranger r m q) :
    Kept env { r with model := some { m with val := .struct (vals.set k x) } } := by
  intro m' hm' z' infos' tys' vals' ht' hv' i f q loc h1 h2 h3 h4 h5
  cases hm'
  simp only at ht' hv'
  cases hv'
  rw [ht] at ht'
  cases ht'
  have hne : k ≠ i := by
    rintro rfl
    exact hk f h1 q loc h2 h3 h4 h5
  obtain ⟨ns, m0, z0, i0, t0, v0, v, e0, e1, e2, e3, e4, e5⟩ := h m hm z infos tys vals ht hv i f q loc h1 h2 h3 h4 h5
  refine ⟨ns, m0, z0, i0, t0, v0, vals.set k x, e0, e1, e2, e3, ?_, ?_⟩
  · rw [e4]
  · rw [List.getElem?_set_ne hne, ← e5]
    rw [e4] at hv
    cases hv
    rfl

theorem kept_setField {env : Env} {rs : List Root} {i k : Nat} {m : Mdl} {z : Option (List Val → Bool)} {infos : List FieldInfo}
    {tys : List Ty} {vals : List Val} {read : Ty → Val → Res Val} {rs' : List Root} (hk : ∀ r ∈ rs, Kept env r)
    (hm : (rs[i]?).bind (·.model) = some m) (ht : m.ty = .struct z infos tys) (hv : m.val = .struct vals)
    (hf : ∀ r, rs[i]? = some r → ∀ f, infos[k]? = some f → ∀ q loc, f.name = q ++ ':' :: loc → ':' ∉ q → f.any = false → ¬ Stranger r m q)
    (h : Dec.setField rs i m tys vals k read = .ok rs') : ∀ r ∈ rs', Kept env r := by
  unfold Dec.setField at h
  split at h
  · split at h
    · cases h
      refine kept_modify hk ?_
      intro r hr
      rw [hr] at hm
      exact kept_field (hk r (List.mem_of_getElem? hr)) hm ht hv _ (hf r hr)
    · cases h
    · cases h
  · cases h

theorem name_addAttr (n : Node) (a : Attr) : (n.addAttr a).name = n.name := by cases n; rfl
theorem name_addNode (n x : Node) : (n.addNode x).name = n.name := by cases n; rfl

theorem kept_attribute {env : Env} (ha : Answers env) {d : Dec} (hd : NssKnown d) (hreg : d.reg = env.reg) (dv : Version)
    {rs rs' : List Root} (a : Attr) (hk : ∀ r ∈ rs, Kept env r) (h : Dec.decodeAttribute env d dv rs a = .ok rs') :
    ∀ r ∈ rs', Kept env r := by
  unfold Dec.decodeAttribute at h
  simp only at h
  split at h
  · cases h; exact hk
  rename_i hskip
  split at h
  · cases h
  rename_i i rs1 hl
  obtain ⟨hk1, ns, hns, hans⟩ := lookup_spec ha hd hreg hk hl
  have hpre : ns.name = getPrefix (d.translate a.name).loc := by
    have hsp : (d.translate a.name).space = [] := by
      unfold Dec.translate at hns hskip ⊢
      split
      · rename_i hc
        rcases hc with hc | hc
        · exact hc
        · rw [if_pos (Or.inr hc)] at hskip
          simp [skipName, hc] at hskip
      · rename_i hc
        rw [if_neg hc] at hns
        split
        · rfl
        · rename_i hno
          rw [hno] at hns
          simp only at hns
          rw [hns] at hno
          simp at hno
    have e : d.translate a.name = ⟨[], (d.translate a.name).loc⟩ := by
      rw [← hsp]
    rw [e] at hns
    exact findNs_local hns
  have hstore : ∀ rs2, (if a.value ≠ [] then Res.ok (rs1.modify i (fun r => { r with node := r.node.addAttr ⟨d.translate a.name, a.value⟩ }))
      else Res.ok rs1) = Res.ok rs2 → ∀ r ∈ rs2, Kept env r := by
    intro rs2 h2
    split at h2
    · cases h2
      exact kept_modify hk1 (fun r hr => kept_node (hk1 r (List.mem_of_getElem? hr)) (name_addAttr _ _))
    · cases h2; exact hk1
  split at h
  · exact hstore _ h
  · rename_i m hm
    split at h
    · rename_i z infos tys vals ht hv
      split at h
      · rename_i k hf
        refine kept_setField hk1 hm ht hv ?_ h
        intro r hr f hfk q loc hname hq hany hst
        obtain ⟨f', hf', hn⟩ := findStructField_spec hf
        rw [hfk] at hf'
        cases hf'
        rcases hn with hn | hn
        · rw [hr] at hm
          have := hans r m hr hm
          refine (hst _ this).2 ?_
          rw [hpre, ← hn, hname, getPrefix_append hq]
        · rw [hany] at hn; cases hn
      · exact hstore _ h
    · cases h

theorem kept_node_read {env : Env} (ha : Answers env) {d : Dec} (hd : NssKnown d) (hreg : d.reg = env.reg) (dv : Version)
    {rs rs' : List Root} (n : Node) (hx : n.xmlName.space ≠ "xmlns".toList) (hk : ∀ r ∈ rs, Kept env r)
    (h : Dec.decodeNode env d dv rs n = .ok rs') : ∀ r ∈ rs', Kept env r := by
  unfold Dec.decodeNode at h
  split at h
  · cases h
  rename_i i rs1 hl
  simp only at h
  obtain ⟨hk1, ns, hns, hans⟩ := lookup_spec ha hd hreg hk hl
  have hpre : ns.name = getPrefix (fullNameOf d.reg (d.translate n.xmlName)) ∨
      ∃ loc, fullNameOf d.reg (d.translate n.xmlName) = expandName ns.name loc := by
    by_cases hsp : n.xmlName.space = []
    · left
      have e : n.xmlName = ⟨[], n.xmlName.loc⟩ := by rw [← hsp]
      have e2 : d.translate n.xmlName = n.xmlName := by
        unfold Dec.translate
        rw [if_pos (Or.inl hsp)]
      rw [e2]
      unfold fullNameOf
      rw [if_neg (by simp [hsp])]
      rw [e] at hns
      exact findNs_local hns
    · right
      refine ⟨n.xmlName.loc, ?_⟩
      unfold Dec.translate
      rw [if_neg (fun hc => hc.elim hsp hx), hns]
      simp [fullNameOf]
  have hstore : ∀ rs2, (if (n.translate d).isZero = true then Res.ok rs1
      else Res.ok (rs1.modify i (fun r => { r with node := r.node.addNode (n.translate d) }))) = Res.ok rs2 → ∀ r ∈ rs2, Kept env r := by
    intro rs2 h2
    split at h2
    · cases h2; exact hk1
    · cases h2
      exact kept_modify hk1 (fun r hr => kept_node (hk1 r (List.mem_of_getElem? hr)) (name_addNode _ _))
  split at h
  · exact hstore _ h
  · rename_i m hm
    split at h
    · rename_i z infos tys vals ht hv
      split at h
      · rename_i k hf
        refine kept_setField hk1 hm ht hv ?_ h
        intro r hr f hfk q loc hname hq hany hst
        obtain ⟨f', hf', hn⟩ := findStructField_spec hf
        rw [hfk] at hf'
        cases hf'
        rcases hn with hn | hn
        · rw [hr] at hm
          obtain ⟨hc, hne⟩ := hst _ (hans r m hr hm)
          refine hne ?_
          rcases hpre with hp | ⟨l, hp⟩
          · rw [hp, ← hn, hname, getPrefix_append hq]
          · rw [← hn, hname] at hp
            unfold expandName at hp
            split at hp
            · exact absurd (by rw [← hp]; simp) hc
            · have := congrArg getPrefix hp
              rw [getPrefix_append hq] at this
              rw [show join [':'] [ns.name, l] = ns.name ++ ':' :: l by simp [join], getPrefix_append hc] at this
              exact this.symm
        · rw [hany] at hn; cases hn
      · exact hstore _ h
    · cases h

theorem kept_attributes {env : Env} (ha : Answers env) {d : Dec} (hd : NssKnown d) (hreg : d.reg = env.reg) (dv : Version) :
    ∀ (l : List Attr) (s s' : Str × List Root), (∀ r ∈ s.2, Kept env r) → Dec.decodeAttributes env d dv l s = .ok s' →
    ∀ r ∈ s'.2, Kept env r
  | [], s, s', hk, h => by rw [Dec.decodeAttributes] at h; cases h; exact hk
  | a :: l, (about, rs), s', hk, h => by
    rw [Dec.decodeAttributes] at h
    split at h
    · exact kept_attributes ha hd hreg dv l (if a.name.loc = "about".toList then a.value else about, rs) s' hk h
    · split at h
      · rename_i rs1 h1
        exact kept_attributes ha hd hreg dv l _ s' (kept_attribute ha hd hreg dv a hk h1) h
      · cases h
      · cases h

theorem kept_nodes {env : Env} (ha : Answers env) {d : Dec} (hd : NssKnown d) (hreg : d.reg = env.reg) (dv : Version) :
    ∀ (l : List Node) (rs rs' : List Root), (∀ n ∈ l, n.xmlName.space ≠ "xmlns".toList) → (∀ r ∈ rs, Kept env r) →
      Dec.decodeNodes env d dv l rs = .ok rs' → ∀ r ∈ rs', Kept env r
  | [], rs, rs', _, hk, h => by rw [Dec.decodeNodes] at h; cases h; exact hk
  | n :: l, rs, rs', hx, hk, h => by
    rw [Dec.decodeNodes] at h
    split at h
    · rename_i rs1 h1
      exact kept_nodes ha hd hreg dv l _ rs' (fun n hn => hx n (List.mem_cons_of_mem _ hn))
        (kept_node_read ha hd hreg dv n (hx n List.mem_cons_self) hk h1) h
    · cases h
    · cases h

theorem kept_descriptions {env : Env} (ha : Answers env) {d : Dec} (hd : NssKnown d) (hreg : d.reg = env.reg) (dv : Version) :
    ∀ (l : List Node) (s s' : Str × List Root), (∀ n ∈ l, ∀ x ∈ n.nodes, x.xmlName.space ≠ "xmlns".toList) →
      (∀ r ∈ s.2, Kept env r) → Dec.descriptions env d dv l s = .ok s' → ∀ r ∈ s'.2, Kept env r
  | [], s, s', _, hk, h => by rw [Dec.descriptions] at h; cases h; exact hk
  | n :: l, s, s', hx, hk, h => by
    rw [Dec.descriptions] at h
    split at h
    · cases h
    split at h
    · rename_i about rs h1
      split at h
      · rename_i rs1 h2
        refine kept_descriptions ha hd hreg dv l _ s' (fun n hn => hx n (List.mem_cons_of_mem _ hn)) ?_ h
        exact kept_nodes ha hd hreg dv _ rs rs1 (hx n List.mem_cons_self)
          (kept_attributes ha hd hreg dv _ s (about, rs) hk h1) h2
      · cases h
      · cases h
    · cases h
    · cases h

/-- **C72, finding.** Whatever is read: a field of a model whose name has a prefix to which the model does not answer is never
set. -/
theorem foreign_never_read (env : Env) (ha : Answers env) (dv : Version) (t : Node)
    (hx : ∀ root, Dec.rdfRoot env.reg t = some root → ∀ n ∈ root.nodes, ∀ x ∈ n.nodes, x.xmlName.space ≠ "xmlns".toList)
    (q : Packet) (h : Dec.decode env dv t = .ok q) : ∀ r ∈ q.doc.roots, Kept env r := by
  unfold Dec.decode at h
  split at h
  · cases h
  rename_i root hroot
  simp only at h
  split at h
  · rename_i about rs hs
    cases h
    refine kept_descriptions ha ?_ ?_ dv root.nodes _ _ (hx root hroot) ?_ hs
    · exact declared_known env.reg _ _ (by intro e he; rcases he with he | he <;> cases he)
    · exact addNamespace_reg _ _
    · intro r hr; cases hr
  · cases h
  · cases h

end Xmp.Props
