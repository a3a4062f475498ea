import Verif.Model.Document
import Verif.Props.Registry

/-! Properties C12 (removal and filters), C13 (model lookup), C41 (dirty flag). -/

namespace Xmp.Props

open GoStr

/-! ### C12 -/

/-- Top-level nodes as the package creates them: the XML name is the bare prefix. -/
def TopLevel (d : Doc) : Prop := ∀ v ∈ d.nodes, v.space = [] ∧ ':' ∉ v.loc

/-- No two nodes of the same name. -/
def Distinct (d : Doc) : Prop := (d.nodes.map (·.name)).Nodup

theorem topLevel_name {d : Doc} (h : TopLevel d) {v : TopNode} (hv : v ∈ d.nodes) : v.ns = v.name := by
  obtain ⟨h1, h2⟩ := h v hv
  unfold TopNode.ns TopNode.name getPrefix stripPrefix
  rw [if_pos h1, indexChar_none.2 h2]

/-- C12: removing one namespace removes the first node of that name and nothing else; the result says
whether there was one. -/
theorem removeNamespace_spec (d : Doc) (ns : Namespace) :
    (∃ l v r, d.nodes = l ++ v :: r ∧ v.name = ns.name ∧ (∀ w ∈ l, w.name ≠ ns.name) ∧
      (d.removeNamespace ns).1 = true ∧ (d.removeNamespace ns).2.nodes = l ++ r) ∨
    ((∀ v ∈ d.nodes, v.name ≠ ns.name) ∧ d.removeNamespace ns = (false, d)) := by
  by_cases h : ∃ v ∈ d.nodes, v.name = ns.name
  · left
    obtain ⟨v, hv, hn⟩ := h
    have hp : (fun v : TopNode => decide (v.name = ns.name)) v = true := by simp [hn]
    obtain ⟨a, l, r, hl, ha, e1, e2⟩ := List.exists_of_eraseP (p := fun v : TopNode => decide (v.name = ns.name)) hv hp
    have hany : d.nodes.any (fun v => decide (v.name = ns.name)) = true := by
      rw [List.any_eq_true]; exact ⟨v, hv, hp⟩
    refine ⟨l, a, r, e1, by simpa using ha, fun w hw => by simpa using hl w hw, ?_, ?_⟩
    · simp only [Doc.removeNamespace, hany, if_true]
    · simp only [Doc.removeNamespace, hany, if_true]; exact e2
  · right
    have h' : ∀ v ∈ d.nodes, v.name ≠ ns.name := fun v hv hn => h ⟨v, hv, hn⟩
    refine ⟨h', ?_⟩
    have hany : d.nodes.any (fun v => decide (v.name = ns.name)) = false := by
      rw [List.any_eq_false]; intro v hv; simpa using h' v hv
    simp only [Doc.removeNamespace, hany, Bool.false_eq_true, if_false]

theorem removeNamespace_nodes (d : Doc) (ns : Namespace) :
    (d.removeNamespace ns).2.nodes = d.nodes.eraseP (fun v => v.name = ns.name) ∧
    (d.removeNamespace ns).1 = d.nodes.any (fun v => v.name = ns.name) := by
  unfold Doc.removeNamespace
  split
  · rename_i h; exact ⟨rfl, h.symm⟩
  · rename_i h
    refine ⟨?_, by simpa using h⟩
    simp only
    rw [List.eraseP_of_forall_not]
    intro a ha hn
    exact h (List.any_eq_true.2 ⟨a, ha, hn⟩)

/-- Removing the first node of each name in a list removes all nodes with a name in the list,
provided every name occurs in the list at least as often as among the nodes. -/
theorem erase_all (L : List Namespace) : ∀ (d : Doc),
    (∀ n ∈ L, d.nodes.countP (fun v => v.name = n.name) ≤ L.countP (fun m => m.name = n.name)) →
    (d.removeNamespaces L).2.nodes = d.nodes.filter (fun v => decide (∀ n ∈ L, v.name ≠ n.name)) := by
  induction L with
  | nil => intro d _; simp [Doc.removeNamespaces]; symm; rw [List.filter_eq_self]; simp
  | cons a t ih =>
    intro d hc
    have hstep := (removeNamespace_nodes d a).1
    generalize hd' : (d.removeNamespace a).2 = d' at hstep
    have e : (d.removeNamespaces (a :: t)).2.nodes = (d'.removeNamespaces t).2.nodes := by
      simp only [Doc.removeNamespaces]; rw [hd']
    rw [e]
    by_cases hm : ∃ v ∈ d.nodes, v.name = a.name
    · obtain ⟨v, hv, hn⟩ := hm
      have hp : (fun v : TopNode => decide (v.name = a.name)) v = true := by simp [hn]
      obtain ⟨w, l, r, hl, hw, e1, e2⟩ := List.exists_of_eraseP (p := fun v : TopNode => decide (v.name = a.name)) hv hp
      have hw : w.name = a.name := by simpa using hw
      rw [e2] at hstep
      have hcount : ∀ n : Str, d.nodes.countP (fun v => v.name = n) =
          d'.nodes.countP (fun v => v.name = n) + (if a.name = n then 1 else 0) := by
        intro n
        rw [e1, hstep, List.countP_append, List.countP_append, List.countP_cons, hw]
        simp only [decide_eq_true_eq]
        omega
      have hcL : ∀ n : Str, (a :: t).countP (fun m => m.name = n) =
          t.countP (fun m => m.name = n) + (if a.name = n then 1 else 0) := by
        intro n; rw [List.countP_cons]; simp only [decide_eq_true_eq]
      have ih' := ih d' (fun n hn => by
        have := hc n (by simp [hn])
        rw [hcount, hcL] at this
        omega)
      rw [ih', hstep, e1, List.filter_append, List.filter_append, List.filter_cons_of_neg
        (by simp [hw])]
      by_cases hat : ∃ n ∈ t, n.name = a.name
      · have key : ∀ l : List TopNode, l.filter (fun v => decide (∀ n ∈ t, v.name ≠ n.name)) =
            l.filter (fun v => decide (∀ n ∈ a :: t, v.name ≠ n.name)) := by
          intro l
          apply List.filter_congr
          intro v _
          obtain ⟨n, hn, hna⟩ := hat
          simp only [decide_eq_decide, List.mem_cons, forall_eq_or_imp]
          exact ⟨fun h => ⟨hna ▸ h n hn, h⟩, fun h => h.2⟩
        rw [key, key]
      · have hzero : d'.nodes.countP (fun v => v.name = a.name) = 0 := by
          have h1 := hc a (by simp)
          rw [hcount, hcL] at h1
          have h2 : t.countP (fun m => decide (m.name = a.name)) = 0 := by
            rw [List.countP_eq_zero]; intro n hn hh
            exact hat ⟨n, hn, by simpa using hh⟩
          omega
        rw [hstep, List.countP_append] at hzero
        have hl0 : l.countP (fun v => decide (v.name = a.name)) = 0 := by omega
        have hr0 : r.countP (fun v => decide (v.name = a.name)) = 0 := by omega
        rw [List.countP_eq_zero] at hl0 hr0
        have key : ∀ l : List TopNode, (∀ v ∈ l, ¬ decide (v.name = a.name) = true) →
            l.filter (fun v => decide (∀ n ∈ t, v.name ≠ n.name)) =
            l.filter (fun v => decide (∀ n ∈ a :: t, v.name ≠ n.name)) := by
          intro l hl
          apply List.filter_congr
          intro v hv
          have := hl v hv
          simp only [decide_eq_true_eq] at this
          simp only [decide_eq_decide, List.mem_cons, forall_eq_or_imp]
          exact ⟨fun h => ⟨this, h⟩, fun h => h.2⟩
        rw [key l hl0, key r hr0]
    · have hnone : ∀ v ∈ d.nodes, v.name ≠ a.name := fun v hv hn => hm ⟨v, hv, hn⟩
      rw [List.eraseP_of_forall_not (by intro v hv; simpa using hnone v hv)] at hstep
      have ih' := ih d' (fun n hn => by
        rw [hstep]
        have h1 := hc n (by simp [hn])
        by_cases ha : a.name = n.name
        · have : d.nodes.countP (fun v => decide (v.name = n.name)) = 0 := by
            rw [List.countP_eq_zero]; intro v hv; rw [← ha]; simpa using hnone v hv
          omega
        · rw [List.countP_cons_of_neg (by simp [ha])] at h1
          exact h1)
      rw [ih', hstep]
      apply List.filter_congr
      intro v hv
      simp only [decide_eq_decide, List.mem_cons, forall_eq_or_imp]
      exact ⟨fun h => ⟨hnone v hv, h⟩, fun h => h.2⟩

/-- The flag returned by `RemoveNamespaces`: some node of a listed name was there. -/
theorem removeNamespaces_flag (L : List Namespace) : ∀ d : Doc,
    (d.removeNamespaces L).1 = true ↔ ∃ v ∈ d.nodes, ∃ n ∈ L, v.name = n.name := by
  induction L with
  | nil => intro d; simp [Doc.removeNamespaces]
  | cons a t ih =>
    intro d
    have h1 := removeNamespace_nodes d a
    simp only [Doc.removeNamespaces, Bool.or_eq_true, ih, h1.1, h1.2, List.any_eq_true, decide_eq_true_eq]
    constructor
    · rintro (⟨v, hv, hn⟩ | ⟨v, hv, n, hn, he⟩)
      · exact ⟨v, hv, a, by simp, hn⟩
      · exact ⟨v, List.mem_of_mem_eraseP hv, n, by simp [hn], he⟩
    · rintro ⟨v, hv, n, hn, he⟩
      rcases List.mem_cons.1 hn with rfl | hn
      · exact Or.inl ⟨v, hv, he⟩
      · by_cases hva : v.name = a.name
        · exact Or.inl ⟨v, hv, hva⟩
        · right
          refine ⟨v, ?_, n, hn, he⟩
          exact (List.mem_eraseP_of_neg (by simpa using hva)).2 hv

/-- C12: removing a list of namespaces from a document with one node per name removes exactly the
nodes of those names, keeps all others unchanged and in order, and reports whether any was removed. -/
theorem removeNamespaces_exact (d : Doc) (hd : Distinct d) (L : List Namespace) :
    (d.removeNamespaces L).2.nodes = d.nodes.filter (fun v => decide (∀ n ∈ L, v.name ≠ n.name)) ∧
    ((d.removeNamespaces L).1 = true ↔ ∃ v ∈ d.nodes, ∃ n ∈ L, v.name = n.name) := by
  refine ⟨erase_all L d ?_, removeNamespaces_flag L d⟩
  intro n hn
  have h1 : d.nodes.countP (fun v => decide (v.name = n.name)) ≤ 1 := by
    have := List.nodup_iff_count.1 hd n.name
    rw [List.count_eq_countP, List.countP_map] at this
    refine Nat.le_trans (Nat.le_of_eq ?_) this
    apply List.countP_congr
    intro v _; simp
  have h2 : 0 < L.countP (fun m => decide (m.name = n.name)) := by
    rw [List.countP_pos_iff]; exact ⟨n, hn, by simp⟩
  omega

private def mDc : XModel := ⟨1, [⟨"dc".toList, "u1".toList, some 1⟩], ["dc".toList]⟩
private def exDoc : Doc :=
  { nodes := [{ loc := "dc".toList, model := some mDc }, { loc := "foo".toList, content := 7 },
              { loc := "tiff".toList, content := 8 }]
    intNs := [("u1".toList, ⟨"dc".toList, "u1".toList, some 1⟩)]
    extNs := [("u9".toList, ⟨"foo".toList, "u9".toList, none⟩)] }

example : Distinct exDoc ∧ TopLevel exDoc ∧
    (exDoc.removeNamespaces [⟨"foo".toList, [], none⟩, ⟨"bar".toList, [], none⟩]).2.nodes.map (·.loc) =
      ["dc".toList, "tiff".toList] := by
  refine ⟨by unfold Distinct; decide, ?_, by decide⟩
  intro v hv
  simp [exDoc] at hv
  rcases hv with rfl | rfl | rfl <;> exact ⟨rfl, by decide⟩

theorem findNsByPrefix_name {r : Registry} (hr : ∀ p ns, r.getNamespace p = some ns → ns.name = p) (d : Doc)
    (pre : Str) (ns : Namespace) (h : Doc.findNsByPrefix r d pre = some ns) : ns.name = pre := by
  unfold Doc.findNsByPrefix at h
  split at h
  · rename_i e he
    have := List.find?_some he
    simp at this h
    rw [← h]; exact this
  · split at h
    · rename_i e he
      have := List.find?_some he
      simp at this h
      rw [← h]; exact this
    · exact hr _ _ h

/-- Whether a prefix is known to the document or the registry; independent of map iteration order. -/
def Known (r : Registry) (d : Doc) (pre : Str) : Prop :=
  (∃ e ∈ d.intNs, e.2.name = pre) ∨ (∃ e ∈ d.extNs, e.2.name = pre) ∨ (r.getNamespace pre).isSome = true

instance (r : Registry) (d : Doc) (pre : Str) : Decidable (Known r d pre) := by
  unfold Known; infer_instance

theorem findNsByPrefix_isSome (r : Registry) (d : Doc) (pre : Str) :
    (Doc.findNsByPrefix r d pre).isSome = true ↔ Known r d pre := by
  unfold Doc.findNsByPrefix Known
  split
  · rename_i e he
    have h1 := List.find?_some he
    have h2 := List.mem_of_find?_eq_some he
    simp only [Option.isSome_some, true_iff]
    left; exact ⟨e, h2, by simpa using h1⟩
  · rename_i h0
    rw [List.find?_eq_none] at h0
    have h0 : ¬ ∃ e ∈ d.intNs, e.2.name = pre := by
      rintro ⟨e, he, hn⟩; exact h0 e he (by simpa using hn)
    split
    · rename_i e he
      have h1 := List.find?_some he
      have h2 := List.mem_of_find?_eq_some he
      simp only [Option.isSome_some, true_iff]
      right; left; exact ⟨e, h2, by simpa using h1⟩
    · rename_i h0'
      rw [List.find?_eq_none] at h0'
      have h0' : ¬ ∃ e ∈ d.extNs, e.2.name = pre := by
        rintro ⟨e, he, hn⟩; exact h0' e he (by simpa using hn)
      simp [h0, h0']

/-- C12: filtering keeps, unchanged and in order, exactly the nodes whose name is in the list or whose
namespace is unknown, whatever the iteration order of the namespace maps (and even if several nodes
share a name); the result says whether any node was removed.  `r` is any registry reached by
registrations. -/
theorem filterNamespaces_exact (h : RegHistory) (d : Doc) (ht : TopLevel d) (keep : List Namespace) :
    (Doc.filterNamespaces (runReg h) d keep).2.nodes =
      d.nodes.filter (fun v => decide ((∃ k ∈ keep, k.name = v.name) ∨ ¬ Known (runReg h) d v.name)) ∧
    ((Doc.filterNamespaces (runReg h) d keep).1 = true ↔
      ∃ v ∈ d.nodes, (∀ k ∈ keep, k.name ≠ v.name) ∧ Known (runReg h) d v.name) := by
  have hr : ∀ p ns, (runReg h).getNamespace p = some ns → ns.name = p := by
    intro p ns hns
    rw [registry_prefix_latest, Option.map_eq_some_iff] at hns
    obtain ⟨e, he, rfl⟩ := hns
    simpa using List.find?_some he
  unfold Doc.filterNamespaces
  simp only
  generalize hL : (d.nodes.filterMap (fun v => Doc.findNsByPrefix (runReg h) d v.ns)).filter
    (fun v => !NamespaceList.contains keep (some v)) = L
  have hmem : ∀ n : Str, (∃ m ∈ L, m.name = n) ↔
      (∃ v ∈ d.nodes, v.name = n) ∧ (∀ k ∈ keep, k.name ≠ n) ∧ Known (runReg h) d n := by
    intro n
    constructor
    · rintro ⟨m, hm, rfl⟩
      rw [← hL, List.mem_filter, List.mem_filterMap] at hm
      obtain ⟨⟨v, hv, hf⟩, hk⟩ := hm
      rw [topLevel_name ht hv] at hf
      have hn := findNsByPrefix_name hr d _ _ hf
      refine ⟨⟨v, hv, hn.symm⟩, ?_, ?_⟩
      · simpa [NamespaceList.contains] using hk
      · rw [← findNsByPrefix_isSome, hn, hf]; rfl
    · rintro ⟨⟨v, hv, rfl⟩, hk, hkn⟩
      rw [← findNsByPrefix_isSome, Option.isSome_iff_exists] at hkn
      obtain ⟨m, hm⟩ := hkn
      have hn := findNsByPrefix_name hr d _ _ hm
      refine ⟨m, ?_, hn⟩
      rw [← hL, List.mem_filter, List.mem_filterMap]
      refine ⟨⟨v, hv, by rw [topLevel_name ht hv]; exact hm⟩, ?_⟩
      simp only [NamespaceList.contains, Bool.not_eq_true', List.any_eq_false, decide_eq_true_eq]
      intro k hk'
      rw [hn]; exact hk k hk'
  constructor
  · rw [erase_all L d]
    · apply List.filter_congr
      intro v hv
      rw [decide_eq_decide]
      constructor
      · intro hh
        by_cases hk : ∃ k ∈ keep, k.name = v.name
        · exact Or.inl hk
        · right
          intro hkn
          have hk : ∀ k ∈ keep, k.name ≠ v.name := fun k hk' e => hk ⟨k, hk', e⟩
          obtain ⟨m, hm, hmn⟩ := (hmem v.name).2 ⟨⟨v, hv, rfl⟩, hk, hkn⟩
          exact hh m hm hmn.symm
      · intro hh n hn e
        obtain ⟨-, h2, h3⟩ := (hmem v.name).1 ⟨n, hn, e.symm⟩
        rcases hh with ⟨k, hk, hkn⟩ | hh
        · exact h2 k hk hkn
        · exact hh h3
    · intro n hn
      obtain ⟨-, h2, h3⟩ := (hmem n.name).1 ⟨n, hn, rfl⟩
      rw [← hL, List.countP_filter, List.countP_filterMap]
      apply List.countP_mono_left
      intro v hv hvn
      simp only [decide_eq_true_eq] at hvn
      rw [topLevel_name ht hv, hvn]
      rw [← findNsByPrefix_isSome, Option.isSome_iff_exists] at h3
      obtain ⟨m, hm⟩ := h3
      have hmn := findNsByPrefix_name hr d _ _ hm
      rw [hm]
      simp only [Option.map_some, Option.getD_some, Bool.and_eq_true, decide_eq_true_eq, hmn, true_and,
        Bool.not_eq_true', NamespaceList.contains, List.any_eq_false]
      intro k hk; exact h2 k hk
  · rw [removeNamespaces_flag]
    constructor
    · rintro ⟨v, hv, n, hn, he⟩
      obtain ⟨-, h2, h3⟩ := (hmem v.name).1 ⟨n, hn, he.symm⟩
      exact ⟨v, hv, h2, h3⟩
    · rintro ⟨v, hv, h2, h3⟩
      obtain ⟨m, hm, hmn⟩ := (hmem v.name).2 ⟨⟨v, hv, rfl⟩, h2, h3⟩
      exact ⟨v, hv, m, hm, hmn.symm⟩

example : TopLevel exDoc ∧
    (Doc.filterNamespaces (runReg []) exDoc [⟨"tiff".toList, [], none⟩]).2.nodes.map (·.loc) = ["tiff".toList] ∧
    (Doc.filterNamespaces (runReg []) exDoc [⟨"dc".toList, [], none⟩]).2.nodes.map (·.loc) =
      ["dc".toList, "tiff".toList] := by
  refine ⟨?_, by decide, by decide⟩
  intro v hv
  simp [exDoc] at hv
  rcases hv with rfl | rfl | rfl <;> exact ⟨rfl, by decide⟩

theorem removeNamespaces_sublist (L : List Namespace) : ∀ d : Doc,
    List.Sublist (d.removeNamespaces L).2.nodes d.nodes := by
  induction L with
  | nil => intro d; exact List.Sublist.refl _
  | cons a t ih =>
    intro d
    simp only [Doc.removeNamespaces]
    refine (ih _).trans ?_
    rw [(removeNamespace_nodes d a).1]
    exact List.eraseP_sublist

/-- C12: applying a filter to a document with one node per name: with a non-empty include list the
nodes of unlisted known namespaces go, with an exclude list the nodes of listed namespaces go, all
other nodes stay unchanged and in order. -/
theorem filter_apply_exact (h : RegHistory) (d : Doc) (ht : TopLevel d) (hd : Distinct d) (f : Filter) :
    (f.apply (runReg h) d).2.nodes = d.nodes.filter (fun v => decide (
      (f.incl = [] ∨ (∃ k ∈ f.incl, k.name = v.name) ∨ ¬ Known (runReg h) d v.name) ∧
      ∀ n ∈ f.excl, v.name ≠ n.name)) := by
  have hexc : ∀ d : Doc, Distinct d → (if f.excl.length > 0 then d.removeNamespaces f.excl else (false, d)).2.nodes =
      d.nodes.filter (fun v => decide (∀ n ∈ f.excl, v.name ≠ n.name)) := by
    intro d hd
    split
    · exact (removeNamespaces_exact d hd _).1
    · rename_i h0
      have : f.excl = [] := List.length_eq_zero_iff.1 (by omega)
      simp [this]
      symm; rw [List.filter_eq_self]; simp
  unfold Filter.apply
  simp only
  by_cases h0 : f.incl.length > 0
  · simp only [h0, if_true]
    have hf := (filterNamespaces_exact h d ht f.incl).1
    have hne : f.incl ≠ [] := by intro e; simp [e] at h0
    rw [hexc]
    · rw [hf, List.filter_filter]
      apply List.filter_congr
      intro v _
      simp [hne, Bool.and_comm]
    · unfold Distinct
      rw [hf]
      exact (List.filter_sublist.map _).nodup hd
  · simp only [h0, if_false]
    have : f.incl = [] := List.length_eq_zero_iff.1 (by omega)
    rw [hexc d hd]
    apply List.filter_congr
    intro v _
    simp [this]

example : Distinct exDoc ∧ (Filter.apply (runReg []) { excl := [⟨"dc".toList, [], none⟩] } exDoc).2.nodes.map (·.loc) =
    ["foo".toList, "tiff".toList] := by
  exact ⟨by unfold Distinct; decide, by decide⟩

/-! ### C13 -/

/-- A model as all models of the package are: at least one namespace, and `Can` true for exactly the
prefix of the first one, which contains no colon. -/
def Lawful (m : XModel) (ns : Namespace) : Prop :=
  m.nss.head? = some ns ∧ (∀ p, m.can p = true ↔ p = ns.name) ∧ ':' ∉ ns.name

/-- Operations of a history: add a model, make a model (with the model the factory would create),
remove a namespace. -/
inductive DocOp where
  | add (m : XModel) (ns : Namespace)
  | make (ns : Namespace) (fresh : XModel)
  | remove (ns : Namespace)

/-- The models given to the operations are lawful; a factory makes models of its own namespace. -/
def DocOp.Ok : DocOp → Prop
  | .add m ns => Lawful m ns
  | .make ns m => Lawful m ns
  | .remove _ => True

def DocOp.run (d : Doc) : DocOp → Doc
  | .add m _ => (d.addModel (some m)).getD d
  | .make ns m => (d.makeModel ns (some m)).2
  | .remove ns => (d.removeNamespace ns).2

/-- Specification: which model is stored under a prefix after a history (latest operation last). -/
def modelSpec (pfx : Str) : List DocOp → Option XModel → Option XModel
  | [], cur => cur
  | .add m ns :: t, cur => modelSpec pfx t (if ns.name = pfx then some m else cur)
  | .make ns m :: t, cur => modelSpec pfx t (if ns.name = pfx then (cur.orElse fun _ => some m) else cur)
  | .remove ns :: t, cur => modelSpec pfx t (if ns.name = pfx then none else cur)

/-- Invariant of documents built from models only: every node carries a lawful model of the node's
name, and names are distinct. -/
def ModelDoc (d : Doc) : Prop :=
  Distinct d ∧ ∀ v ∈ d.nodes, ':' ∉ v.loc ∧ ∃ m, v.model = some m ∧ ∀ p, m.can p = true ↔ p = v.loc

theorem name_eq_loc {v : TopNode} (h : ':' ∉ v.loc) : v.name = v.loc := stripPrefix_none' h
where stripPrefix_none' {s : Str} (h : ':' ∉ s) : stripPrefix s = s := by
        unfold stripPrefix; rw [indexChar_none.2 h]

theorem findModel_eq {d : Doc} (hd : ModelDoc d) (ns : Namespace) :
    d.findModel ns = (d.nodes.find? (fun v => v.loc = ns.name)).bind (·.model) := by
  obtain ⟨-, h⟩ := hd
  unfold Doc.findModel
  generalize d.nodes = l at h
  induction l with
  | nil => rfl
  | cons v t ih =>
    obtain ⟨-, m, hm, hc⟩ := h v (by simp)
    rw [List.findSome?_cons]
    by_cases hv : v.loc = ns.name
    · rw [List.find?_cons_of_pos (by simp [hv])]
      have : m.can ns.name = true := (hc _).2 hv.symm
      simp [hm, this]
    · rw [List.find?_cons_of_neg (by simp [hv])]
      have : m.can ns.name = false := by
        cases hh : m.can ns.name with
        | false => rfl
        | true => exact absurd ((hc _).1 hh).symm hv
      simp only [hm, this, Bool.false_eq_true, if_false]
      exact ih (fun w hw => h w (by simp [hw]))

theorem nodeMatches_eq {d : Doc} (hd : ModelDoc d) {v : TopNode} (hv : v ∈ d.nodes) (p : Str) :
    Doc.nodeMatches p v = decide (v.loc = p) := by
  obtain ⟨hl, m, hm, hc⟩ := hd.2 v hv
  unfold Doc.nodeMatches
  rw [name_eq_loc hl, hm]
  simp only
  by_cases h : v.loc = p
  · simp [h]
  · have : m.can p = false := by
      cases hh : m.can p with
      | false => rfl
      | true => exact absurd ((hc _).1 hh).symm h
    simp [h, this]

theorem setModelAt_spec (p : Str) (m : XModel) (l : List TopNode) (q : TopNode → Bool)
    (hq : ∀ v ∈ l, q v = decide (v.loc = p)) :
    (Doc.setModelAt q m l).map (·.loc) = l.map (·.loc) ∧
    (∀ w ∈ Doc.setModelAt q m l, w ∈ l ∨ (∃ v ∈ l, v.loc = p ∧ w = { v with model := some m })) ∧
    (∀ r : Str, ((Doc.setModelAt q m l).find? (fun v => v.loc = r)).bind (·.model) =
      if r = p ∧ (∃ v ∈ l, v.loc = p) then some m else (l.find? (fun v => v.loc = r)).bind (·.model)) := by
  induction l with
  | nil => simp [Doc.setModelAt]
  | cons v t ih =>
    have hv := hq v (by simp)
    obtain ⟨a, b, c⟩ := ih (fun w hw => hq w (by simp [hw]))
    by_cases h : v.loc = p
    · have hv : q v = true := by rw [hv]; simp [h]
      simp only [Doc.setModelAt, hv, if_true]
      refine ⟨rfl, ?_, ?_⟩
      · intro w hw
        rcases List.mem_cons.1 hw with rfl | hw
        · exact Or.inr ⟨v, by simp, h, rfl⟩
        · exact Or.inl (by simp [hw])
      · intro r
        by_cases hr : r = p
        · subst hr
          rw [List.find?_cons_of_pos (by simp [h])]
          have : ∃ w ∈ v :: t, w.loc = r := ⟨v, by simp, h⟩
          simp only [this, and_self, if_true]; rfl
        · have hvr : v.loc ≠ r := fun e => hr (e.symm.trans h)
          rw [List.find?_cons_of_neg (by simp [hvr]), List.find?_cons_of_neg (by simp [hvr])]
          simp [hr]
    · have hv : q v = false := by rw [hv]; simp [h]
      simp only [Doc.setModelAt, hv, Bool.false_eq_true, if_false]
      refine ⟨by simp [a], ?_, ?_⟩
      · intro w hw
        rcases List.mem_cons.1 hw with rfl | hw
        · exact Or.inl (by simp)
        · rcases b w hw with hb | ⟨u, hu, hb⟩
          · exact Or.inl (by simp [hb])
          · exact Or.inr ⟨u, by simp [hu], hb⟩
      · intro r
        by_cases hvr : v.loc = r
        · rw [List.find?_cons_of_pos (by simp [hvr]), List.find?_cons_of_pos (by simp [hvr])]
          have : ¬ r = p := fun e => h (hvr.trans e)
          simp [this]
        · rw [List.find?_cons_of_neg (by simp [hvr]), List.find?_cons_of_neg (by simp [hvr]), c]
          simp [h]

theorem find_append_new {l : List TopNode} {p : Str} (h : ∀ v ∈ l, v.loc ≠ p) (m : XModel) (r : Str) :
    ((l ++ [({ loc := p, model := some m } : TopNode)]).find? (fun v => decide (v.loc = r))).bind (·.model) =
      if r = p then some m else (l.find? (fun v => decide (v.loc = r))).bind (·.model) := by
  rw [List.find?_append]
  by_cases hr : r = p
  · subst hr
    have : l.find? (fun v => decide (v.loc = r)) = none := by
      rw [List.find?_eq_none]; intro v hv; simpa using h v hv
    rw [this]
    simp
  · have : ([{ loc := p, model := some m }] : List TopNode).find? (fun v => decide (v.loc = r)) = none := by
      simp [Ne.symm hr]
    rw [this]
    simp [hr]

theorem op_step (d : Doc) (hd : ModelDoc d) (op : DocOp) (ho : op.Ok) :
    ModelDoc (op.run d) ∧ ∀ ns : Namespace,
      (op.run d).findModel ns = modelSpec ns.name [op] (d.findModel ns) := by
  cases op with
  | add m n0 =>
    obtain ⟨hh, hcan, hcol⟩ := ho
    cases hnss : m.nss with
    | nil => rw [hnss] at hh; simp at hh
    | cons n1 rest =>
      rw [hnss] at hh
      simp only [List.head?_cons, Option.some.injEq] at hh
      subst hh
      have hexp : expandName n1.name [] = n1.name := by simp [expandName]
      have hmatch : ∀ v ∈ d.nodes, Doc.nodeMatches n1.name v = decide (v.loc = n1.name) :=
        fun v hv => nodeMatches_eq hd hv _
      cases hf : d.findNode n1 with
      | none =>
        have hno : ∀ v ∈ d.nodes, v.loc ≠ n1.name := by
          intro v hv he
          unfold Doc.findNode at hf
          rw [List.find?_eq_none] at hf
          exact hf v hv (by rw [hmatch v hv]; simp [he])
        have e : DocOp.run d (.add m n1) =
            { d with nodes := d.nodes ++ [{ loc := n1.name, model := some m }]
                     intNs := Doc.trackNs d.intNs (n1 :: rest), dirty := true } := by
          simp [DocOp.run, Doc.addModel, hnss, hf, hexp]
        have hmd : ModelDoc (DocOp.run d (.add m n1)) := by
          rw [e]
          refine ⟨?_, ?_⟩
          · unfold Distinct
            simp only [List.map_append, List.map_cons, List.map_nil]
            rw [List.nodup_append]
            refine ⟨hd.1, by simp, ?_⟩
            intro a ha b hb hab
            obtain ⟨v, hv, rfl⟩ := List.mem_map.1 ha
            simp only [List.mem_singleton] at hb
            have : v.name = v.loc := name_eq_loc (hd.2 v hv).1
            rw [hb, this] at hab
            have hn : (TopNode.name { loc := n1.name, model := some m }) = n1.name := name_eq_loc (v := { loc := n1.name, model := some m }) hcol
            rw [hn] at hab
            exact hno v hv hab
          · intro v hv
            simp only [List.mem_append, List.mem_singleton] at hv
            rcases hv with hv | rfl
            · exact hd.2 v hv
            · exact ⟨hcol, m, rfl, hcan⟩
        refine ⟨hmd, fun ns => ?_⟩
        rw [findModel_eq hmd, e]
        simp only [modelSpec]
        rw [find_append_new hno, findModel_eq hd]
        by_cases h : ns.name = n1.name
        · simp [h]
        · simp [h, Ne.symm h]
      | some w =>
        have hyes : ∃ v ∈ d.nodes, v.loc = n1.name := by
          unfold Doc.findNode at hf
          have h1 := List.mem_of_find?_eq_some hf
          have h2 := List.find?_some hf
          rw [hmatch w h1] at h2
          exact ⟨w, h1, by simpa using h2⟩
        have e : DocOp.run d (.add m n1) =
            { d with nodes := Doc.setModelAt (Doc.nodeMatches n1.name) m d.nodes
                     intNs := Doc.trackNs d.intNs (n1 :: rest), dirty := true } := by
          simp [DocOp.run, Doc.addModel, hnss, hf]
        obtain ⟨a, b, c⟩ := setModelAt_spec n1.name m d.nodes _ hmatch
        have hmd : ModelDoc (DocOp.run d (.add m n1)) := by
          rw [e]
          refine ⟨?_, ?_⟩
          · unfold Distinct
            simp only
            have : (Doc.setModelAt (Doc.nodeMatches n1.name) m d.nodes).map (·.name) = d.nodes.map (·.name) := by
              have e1 : ∀ l : List TopNode, l.map (·.name) = (l.map (·.loc)).map stripPrefix := by
                intro l; rw [List.map_map]; rfl
              rw [e1, e1, a]
            rw [this]; exact hd.1
          · intro v hv
            simp only at hv
            rcases b v hv with hb | ⟨u, hu, hul, rfl⟩
            · exact hd.2 v hb
            · refine ⟨(hd.2 u hu).1, m, rfl, ?_⟩
              simp only [hul]; exact hcan
        refine ⟨hmd, fun ns => ?_⟩
        rw [findModel_eq hmd, e]
        simp only [modelSpec]
        rw [c, findModel_eq hd]
        by_cases h : ns.name = n1.name
        · simp [h, hyes]
        · simp [h, Ne.symm h]
  | make n0 m =>
    obtain ⟨hh, hcan, hcol⟩ := ho
    have hexp : expandName n0.name [] = n0.name := by simp [expandName]
    cases hf : d.findModel n0 with
    | some m' =>
      have e : DocOp.run d (.make n0 m) = d := by simp [DocOp.run, Doc.makeModel, hf]
      rw [e]
      refine ⟨hd, fun ns => ?_⟩
      simp only [modelSpec]
      by_cases h : n0.name = ns.name
      · have : d.findModel ns = d.findModel n0 := by rw [findModel_eq hd, findModel_eq hd, h]
        simp [h, this, hf]
      · simp [h]
    | none =>
      have hno : ∀ v ∈ d.nodes, v.loc ≠ n0.name := by
        intro v hv he
        rw [findModel_eq hd] at hf
        cases hx : d.nodes.find? (fun v => decide (v.loc = n0.name)) with
        | none =>
          rw [List.find?_eq_none] at hx
          exact hx v hv (by simp [he])
        | some u =>
          rw [hx] at hf
          obtain ⟨-, mu, hmu, -⟩ := hd.2 u (List.mem_of_find?_eq_some hx)
          simp [hmu] at hf
      have e : DocOp.run d (.make n0 m) =
          { d with nodes := d.nodes ++ [{ loc := n0.name, model := some m }]
                   intNs := Doc.trackNs d.intNs m.nss, dirty := true } := by
        simp [DocOp.run, Doc.makeModel, hf, hexp]
      have hmd : ModelDoc (DocOp.run d (.make n0 m)) := by
        rw [e]
        refine ⟨?_, ?_⟩
        · unfold Distinct
          simp only [List.map_append, List.map_cons, List.map_nil]
          rw [List.nodup_append]
          refine ⟨hd.1, by simp, ?_⟩
          intro a ha b hb hab
          obtain ⟨v, hv, rfl⟩ := List.mem_map.1 ha
          simp only [List.mem_singleton] at hb
          have : v.name = v.loc := name_eq_loc (hd.2 v hv).1
          rw [hb, this] at hab
          have hn : (TopNode.name { loc := n0.name, model := some m }) = n0.name := name_eq_loc (v := { loc := n0.name, model := some m }) hcol
          rw [hn] at hab
          exact hno v hv hab
        · intro v hv
          simp only [List.mem_append, List.mem_singleton] at hv
          rcases hv with hv | rfl
          · exact hd.2 v hv
          · exact ⟨hcol, m, rfl, hcan⟩
      refine ⟨hmd, fun ns => ?_⟩
      rw [findModel_eq hmd, e]
      simp only [modelSpec]
      rw [find_append_new hno]
      by_cases h : ns.name = n0.name
      · have : d.findModel ns = none := by rw [findModel_eq hd, h, ← findModel_eq hd]; exact hf
        simp [h, this]
      · rw [findModel_eq hd]; simp [h, Ne.symm h]
  | remove n0 =>
    have hnodes := (removeNamespace_nodes d n0).1
    have hall : (d.removeNamespace n0).2.nodes = d.nodes.filter (fun v => decide (v.name ≠ n0.name)) := by
      have h1 := (removeNamespaces_exact d hd.1 [n0]).1
      simp only [Doc.removeNamespaces] at h1
      rw [h1]
      apply List.filter_congr
      intro v _; simp
    have hmd : ModelDoc (DocOp.run d (.remove n0)) := by
      unfold DocOp.run
      refine ⟨?_, ?_⟩
      · unfold Distinct; rw [hall]; exact (List.filter_sublist.map _).nodup hd.1
      · intro v hv
        simp only at hv
        rw [hall] at hv
        exact hd.2 v ((List.mem_filter.1 hv).1)
    refine ⟨hmd, fun ns => ?_⟩
    rw [findModel_eq hmd, findModel_eq hd]
    simp only [modelSpec, DocOp.run]
    rw [hall]
    have hloc : d.nodes.filter (fun v => decide (v.name ≠ n0.name)) = d.nodes.filter (fun v => decide (v.loc ≠ n0.name)) := by
      apply List.filter_congr
      intro v hv
      rw [name_eq_loc (hd.2 v hv).1]
    rw [hloc, List.find?_filter]
    by_cases h : n0.name = ns.name
    · have : d.nodes.find? (fun a => decide (decide (a.loc ≠ n0.name) = true ∧ decide (a.loc = ns.name) = true)) = none := by
        rw [List.find?_eq_none]; intro v _
        rw [h]
        by_cases hv : v.loc = ns.name <;> simp [hv]
      rw [this, if_pos h]; rfl
    · simp only [h, if_false]
      congr 1
      congr 1
      funext v
      by_cases hv : v.loc = ns.name
      · have : ns.name ≠ n0.name := Ne.symm h
        simp [hv, this]
      · simp [hv]

/-- C13: after any history of adding, making and removing models, starting from an empty document,
looking up a namespace finds the model the history left under its prefix: the one added last, or made
first, since the last removal. -/
theorem findModel_history (ops : List DocOp) (h : ∀ op ∈ ops, op.Ok) (ns : Namespace) :
    (ops.foldl DocOp.run {}).findModel ns = modelSpec ns.name ops none ∧
    Distinct (ops.foldl DocOp.run {}) := by
  have gen : ∀ (ops : List DocOp) (d : Doc), ModelDoc d → (∀ op ∈ ops, op.Ok) →
      (ops.foldl DocOp.run d).findModel ns = modelSpec ns.name ops (d.findModel ns) ∧
      Distinct (ops.foldl DocOp.run d) := by
    intro ops
    induction ops with
    | nil => intro d hd _; exact ⟨rfl, hd.1⟩
    | cons op t ih =>
      intro d hd ho
      obtain ⟨h1, h2⟩ := op_step d hd op (ho op (by simp))
      rw [List.foldl_cons]
      obtain ⟨h3, h4⟩ := ih _ h1 (fun o ho' => ho o (by simp [ho']))
      refine ⟨?_, h4⟩
      rw [h3, h2 ns]
      cases op <;> rfl
  have := gen ops {} ⟨by simp [Distinct], by simp⟩ h
  exact this

/-- C13: making a model twice returns the same model and changes nothing the second time. -/
theorem makeModel_idem (d : Doc) (ns : Namespace) (m m' : XModel) (hm : Lawful m ns) :
    let r := d.makeModel ns (some m)
    r.2.makeModel ns (some m') = (r.1, r.2) ∧ r.1 = r.2.findModel ns := by
  intro r
  have hr : r = d.makeModel ns (some m) := rfl
  cases hf : d.findModel ns with
  | some m0 =>
    have e : r = (some m0, d) := by rw [hr]; simp [Doc.makeModel, hf]
    rw [e]
    exact ⟨by simp [Doc.makeModel, hf], hf.symm⟩
  | none =>
    have hfm : r.2.findModel ns = some m := by
      rw [hr]
      unfold Doc.findModel at hf ⊢
      simp only [Doc.makeModel, Doc.findModel, hf]
      rw [List.findSome?_append, hf]
      have : m.can ns.name = true := (hm.2.1 _).2 rfl
      simp [this]
    have h1 : r.1 = some m := by rw [hr]; simp [Doc.makeModel, hf]
    refine ⟨?_, by rw [h1, hfm]⟩
    simp [Doc.makeModel, hfm, h1]

private def nsDc : Namespace := ⟨"dc".toList, "u1".toList, some 1⟩
private def nsFoo : Namespace := ⟨"foo".toList, "u9".toList, some 2⟩
private def mDc' : XModel := ⟨2, [nsDc], ["dc".toList]⟩
private def mFoo : XModel := ⟨3, [nsFoo], ["foo".toList]⟩

example : (∀ op ∈ [DocOp.make nsDc mDc, .make nsFoo mFoo, .add mDc' nsDc, .remove nsFoo], op.Ok) ∧
    ([DocOp.make nsDc mDc, .make nsFoo mFoo, .add mDc' nsDc, .remove nsFoo].foldl DocOp.run {}).findModel nsDc = some mDc' ∧
    ([DocOp.make nsDc mDc, .make nsFoo mFoo, .add mDc' nsDc, .remove nsFoo].foldl DocOp.run {}).findModel nsFoo = none := by
  refine ⟨?_, by decide, by decide⟩
  intro op hop
  simp at hop
  rcases hop with rfl | rfl | rfl | rfl
  · exact ⟨rfl, by simp [XModel.can, mDc, nsDc], by decide⟩
  · exact ⟨rfl, by simp [XModel.can, mFoo, nsFoo], by decide⟩
  · exact ⟨rfl, by simp [XModel.can, mDc', nsDc], by decide⟩
  · trivial

/-- C12/C13 finding: once a namespace has a node without model (as `SetPath` and decoding create for
namespaces without factory), `MakeModel` adds a second node of the same name; removing the namespace
then removes only the bare node and the model is still found. -/
theorem makeModel_duplicates_node : ∃ (d : Doc) (ns : Namespace) (m : XModel),
    d = Doc.ensureRaw {} ns ∧ Lawful m ns ∧
    ¬ Distinct (d.makeModel ns (some m)).2 ∧
    ((d.makeModel ns (some m)).2.removeNamespaces [ns]).2.findModel ns = some m :=
  ⟨Doc.ensureRaw {} nsFoo, nsFoo, mFoo, rfl, ⟨rfl, by simp [XModel.can, mFoo, nsFoo], by decide⟩,
    by unfold Distinct; decide, by decide⟩

/-- C13: after adding a model all its namespaces are known to the document by URI. -/
theorem addModel_tracks (d d' : Doc) (m : XModel) (h : d.addModel (some m) = some d')
    (hu : (m.nss.map (·.uri)).Nodup) : ∀ ns ∈ m.nss, d'.findNsByURI ns.uri = some ns := by
  have track : ∀ (nss : List Namespace) (g : GoMap Namespace), (nss.map (·.uri)).Nodup →
      (∀ ns ∈ nss, (Doc.trackNs g nss).get ns.uri = some ns) ∧
      (∀ u, u ∉ nss.map (·.uri) → (Doc.trackNs g nss).get u = g.get u) := by
    intro nss
    induction nss with
    | nil => intro g _; simp [Doc.trackNs]
    | cons a t ih =>
      intro g hn
      simp only [List.map_cons, List.nodup_cons] at hn
      obtain ⟨h1, h2⟩ := ih (g.set a.uri a) hn.2
      have e : Doc.trackNs g (a :: t) = Doc.trackNs (g.set a.uri a) t := rfl
      rw [e]
      constructor
      · intro ns hns
        rcases List.mem_cons.1 hns with rfl | hns
        · rw [h2 _ hn.1, GoMap.get_set_self]
        · exact h1 ns hns
      · intro u hu
        simp only [List.map_cons, List.mem_cons, not_or] at hu
        rw [h2 u hu.2, GoMap.get_set_ne _ _ hu.1]
  intro ns hns
  have hint : d'.intNs = Doc.trackNs d.intNs m.nss := by
    unfold Doc.addModel at h
    cases hm : m.nss with
    | nil => rw [hm] at hns; simp at hns
    | cons a t =>
      simp only [hm] at h
      split at h <;> (simp only [Option.some.injEq] at h; rw [← h])
  unfold Doc.findNsByURI
  rw [hint, (track m.nss d.intNs hu).1 ns hns]

example : ((Doc.addModel {} (some mDc)).map (fun d => d.findNsByURI "u1".toList)) =
    some (some ⟨"dc".toList, "u1".toList, some 1⟩) := by decide

/-- C12: a removed namespace is no longer known to the document by its URI, all other URIs are as
before. -/
theorem removeNamespace_untracks (d : Doc) (ns : Namespace) (h : (d.removeNamespace ns).1 = true) :
    (d.removeNamespace ns).2.findNsByURI ns.uri = none ∧
    ∀ u, u ≠ ns.uri → (d.removeNamespace ns).2.findNsByURI u = d.findNsByURI u := by
  have hany : d.nodes.any (fun v => decide (v.name = ns.name)) = true := by
    rw [← (removeNamespace_nodes d ns).2]; exact h
  simp only [Doc.removeNamespace, hany, if_true]
  refine ⟨by simp [Doc.findNsByURI, GoMap.get_del_self], fun u hu => ?_⟩
  simp [Doc.findNsByURI, GoMap.get_del_ne _ hu]

example : (exDoc.removeNamespace nsFoo).1 = true ∧ exDoc.findNsByURI "u9".toList ≠ none := by decide

/-- C13: namespace lookup by name and URI: a URI known to the document decides; otherwise the prefix
of the name is looked up in the document and then in the registry. -/
theorem findNs_spec (r : Registry) (d : Doc) (name uri : Str) :
    (∀ ns, uri ≠ [] → d.findNsByURI uri = some ns → Doc.findNs r d name uri = some ns) ∧
    (uri = [] ∨ d.findNsByURI uri = none →
      ((Doc.findNs r d name uri).isSome = true ↔ Known r d (getPrefix name)) ∧
      ((∀ e ∈ d.intNs ++ d.extNs, e.2.name ≠ getPrefix name) →
        Doc.findNs r d name uri = r.getNamespace (getPrefix name))) := by
  constructor
  · intro ns hu h; simp [Doc.findNs, hu, h]
  · intro h
    have e : Doc.findNs r d name uri = Doc.findNsByPrefix r d (getPrefix name) := by
      unfold Doc.findNs
      rcases h with h | h
      · simp [h]
      · simp [h]
    rw [e]
    refine ⟨findNsByPrefix_isSome r d _, fun hno => ?_⟩
    unfold Doc.findNsByPrefix
    have h1 : d.intNs.find? (fun e => decide (e.2.name = getPrefix name)) = none := by
      rw [List.find?_eq_none]; intro x hx; simpa using hno x (by simp [hx])
    have h2 : d.extNs.find? (fun e => decide (e.2.name = getPrefix name)) = none := by
      rw [List.find?_eq_none]; intro x hx; simpa using hno x (by simp [hx])
    simp [h1, h2]

example : Doc.findNs (runReg []) exDoc "foo:bar".toList [] = some ⟨"foo".toList, "u9".toList, none⟩ := by decide

/-! ### C41 -/

/-- C41: writing back a clean document calls no model and changes nothing. -/
theorem sync_clean_calls_nothing (f : SyncFn) (d : Doc) (h : d.dirty = false) :
    d.syncToXMP f = ([], d, true) := by
  simp [Doc.syncToXMP, h]

/-- The models of a document in node order. -/
def modelsOf (nodes : List TopNode) : List XModel := nodes.filterMap (·.model)

theorem syncLoop_calls (f : SyncFn) : ∀ (nodes : List TopNode) (d : Doc),
    (∃ rest, (Doc.syncLoop f nodes d).1 ++ rest = modelsOf nodes) ∧
    ((Doc.syncLoop f nodes d).2.2 = true → (Doc.syncLoop f nodes d).1 = modelsOf nodes) := by
  intro nodes
  induction nodes with
  | nil => intro d; simp [Doc.syncLoop, modelsOf]
  | cons n ns ih =>
    intro d
    cases hm : n.model with
    | none =>
      have e : modelsOf (n :: ns) = modelsOf ns := by simp [modelsOf, hm]
      have e' : Doc.syncLoop f (n :: ns) d = Doc.syncLoop f ns d := by simp [Doc.syncLoop, hm]
      rw [e, e']; exact ih d
    | some m =>
      have e : modelsOf (n :: ns) = m :: modelsOf ns := by simp [modelsOf, hm]
      rw [e]
      cases hf : (f m d).2 with
      | true => simp [Doc.syncLoop, hm, hf]
      | false =>
        obtain ⟨h1, h2⟩ := ih (f m d).1
        obtain ⟨rest, hr⟩ := h1
        simp only [Doc.syncLoop, hm, hf, Bool.false_eq_true, if_false]
        exact ⟨⟨rest, by simp [hr]⟩, fun hok => by rw [h2 hok]⟩

/-- C41: writing back a dirty document calls its models in node order; it succeeds iff every model
was called without failure, and then the document is clean; after a failure it is still dirty
(models cannot clear the flag, `hf`). -/
theorem sync_dirty_calls_all (f : SyncFn) (d : Doc) (h : d.dirty = true)
    (hf : ∀ m d, d.dirty = true → (f m d).1.dirty = true) :
    (∃ rest, (d.syncToXMP f).1 ++ rest = modelsOf d.nodes) ∧
    ((d.syncToXMP f).2.2 = true → (d.syncToXMP f).1 = modelsOf d.nodes ∧ (d.syncToXMP f).2.1.dirty = false) ∧
    ((d.syncToXMP f).2.2 = false → (d.syncToXMP f).2.1.dirty = true) := by
  have hc := syncLoop_calls f d.nodes d
  have hdirty : ∀ (nodes : List TopNode) (d : Doc), d.dirty = true → (Doc.syncLoop f nodes d).2.1.dirty = true := by
    intro nodes
    induction nodes with
    | nil => intro d hd; exact hd
    | cons n ns ih =>
      intro d hd
      cases hm : n.model with
      | none => simp only [Doc.syncLoop, hm]; exact ih d hd
      | some m =>
        cases hfm : (f m d).2 with
        | true => simp only [Doc.syncLoop, hm, hfm, if_true]; exact hf m d hd
        | false => simp only [Doc.syncLoop, hm, hfm, Bool.false_eq_true, if_false]; exact ih _ (hf m d hd)
  unfold Doc.syncToXMP
  simp only [h, Bool.not_true, Bool.false_eq_true, if_false]
  cases hok : (Doc.syncLoop f d.nodes d).2.2 with
  | true =>
    simp only [hok, if_true]
    exact ⟨hc.1, fun _ => ⟨hc.2 hok, trivial⟩, by simp⟩
  | false =>
    simp only [hok, Bool.false_eq_true, if_false]
    exact ⟨hc.1, by simp, fun _ => hdirty _ _ h⟩

/-- Document changing operations other than writing back. -/
inductive ChangeOp where
  | add (m : Option XModel)
  | make (ns : Namespace) (fresh : Option XModel)
  | removeNs (ns : Namespace)
  | removeList (l : List Namespace)
  | filter (r : Registry) (f : Filter)

def ChangeOp.run (d : Doc) : ChangeOp → Doc
  | .add m => (d.addModel m).getD d
  | .make ns m => (d.makeModel ns m).2
  | .removeNs ns => (d.removeNamespace ns).2
  | .removeList l => (d.removeNamespaces l).2
  | .filter r f => (f.apply r d).2

theorem removeNamespaces_dirty (l : List Namespace) : ∀ d : Doc,
    (d.removeNamespaces l).2 = d ∨ (d.removeNamespaces l).2.dirty = true := by
  induction l with
  | nil => intro d; left; rfl
  | cons a t ih =>
    intro d
    have h1 : (d.removeNamespace a).2 = d ∨ (d.removeNamespace a).2.dirty = true := by
      unfold Doc.removeNamespace
      split
      · right; rfl
      · left; rfl
    simp only [Doc.removeNamespaces]
    rcases ih (d.removeNamespace a).2 with h2 | h2
    · rw [h2]; exact h1
    · exact Or.inr h2

theorem change_dirty (d : Doc) (op : ChangeOp) : op.run d = d ∨ (op.run d).dirty = true := by
  cases op with
  | add m =>
    show (d.addModel m).getD d = d ∨ ((d.addModel m).getD d).dirty = true
    cases m with
    | none => left; rfl
    | some m =>
      cases hm : m.nss with
      | nil => left; simp [Doc.addModel, hm]
      | cons a t =>
        right
        cases hf : d.findNode a <;> simp [Doc.addModel, hm, hf]
  | make ns m =>
    show (d.makeModel ns m).2 = d ∨ (d.makeModel ns m).2.dirty = true
    unfold Doc.makeModel
    split
    · left; rfl
    · split
      · left; rfl
      · right; rfl
  | removeNs ns =>
    show (d.removeNamespace ns).2 = d ∨ (d.removeNamespace ns).2.dirty = true
    unfold Doc.removeNamespace
    split
    · right; rfl
    · left; rfl
  | removeList l => exact removeNamespaces_dirty l d
  | filter r f =>
    show (f.apply r d).2 = d ∨ (f.apply r d).2.dirty = true
    unfold Filter.apply
    simp only
    have h1 : (if f.incl.length > 0 then Doc.filterNamespaces r d f.incl else (false, d)).2 = d ∨
        (if f.incl.length > 0 then Doc.filterNamespaces r d f.incl else (false, d)).2.dirty = true := by
      split
      · exact removeNamespaces_dirty _ d
      · left; rfl
    generalize (if f.incl.length > 0 then Doc.filterNamespaces r d f.incl else (false, d)).2 = d1 at h1
    split
    · rcases removeNamespaces_dirty f.excl d1 with h2 | h2
      · rw [h2]; exact h1
      · exact Or.inr h2
    · exact h1

/-- C41: after any history of model and namespace operations a document that differs in any way from
the starting document is dirty, and a dirty document stays dirty until it is written back. -/
theorem changed_is_dirty (ops : List ChangeOp) (d : Doc) :
    (ops.foldl ChangeOp.run d = d ∨ (ops.foldl ChangeOp.run d).dirty = true) ∧
    (d.dirty = true → (ops.foldl ChangeOp.run d).dirty = true) := by
  have first : ops.foldl ChangeOp.run d = d ∨ (ops.foldl ChangeOp.run d).dirty = true := by
    induction ops generalizing d with
    | nil => left; rfl
    | cons op t ih =>
      rw [List.foldl_cons]
      rcases ih (op.run d) with h | h
      · rw [h]; exact change_dirty d op
      · exact Or.inr h
  refine ⟨first, fun hd => ?_⟩
  rcases first with h | h
  · rw [h]; exact hd
  · exact h

example : ({} : Doc).dirty = false ∧
    ([ChangeOp.make nsDc (some mDc), .removeNs nsDc].foldl ChangeOp.run {}).nodes = [] ∧
    ([ChangeOp.make nsDc (some mDc), .removeNs nsDc].foldl ChangeOp.run {}).dirty = true ∧
    (ChangeOp.run {} (.removeNs nsDc)).dirty = false := by decide

/-- C41 finding: the bare node `SetPath` creates before its permission checks is not covered: when the
checks then refuse the value, the document has changed without being marked dirty. -/
theorem raw_node_not_dirty : ∃ (d : Doc) (ns : Namespace),
    Doc.ensureRaw d ns ≠ d ∧ (Doc.ensureRaw d ns).dirty = false :=
  ⟨{}, nsFoo, by decide, by decide⟩

end Xmp.Props
