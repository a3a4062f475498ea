import Verif.Model.Registry
import Verif.Lemmas.GoMap
import Verif.Lemmas.GoStr
import Mathlib.Tactic.Common

/-! Properties C10 (registry) and C11 (filter text). -/

namespace Xmp.Props

open GoStr

/-! ### C10 -/

/-- A history of `Register` calls. -/
abbrev RegHistory := List (Namespace × List Group)

/-- The registry after a history, starting from the empty registry (xmp/registry.go:48-52). -/
def runReg (h : RegHistory) : Registry := h.foldl (fun r e => r.register e.1 e.2) {}

theorem runReg_snoc (h : RegHistory) (e : Namespace × List Group) :
    runReg (h ++ [e]) = (runReg h).register e.1 e.2 := by
  simp [runReg]

/-- Induction on histories from the front. -/
theorem snoc_induction {α : Type} {P : List α → Prop} (nil : P []) (snoc : ∀ l a, P l → P (l ++ [a])) :
    ∀ l, P l := by
  intro l
  have : ∀ r : List α, P r.reverse := by
    intro r
    induction r with
    | nil => exact nil
    | cons a t ih => rw [List.reverse_cons]; exact snoc _ _ ih
  simpa using this l.reverse

/-- The last entry of a list satisfying a test. -/
def lastWith {α : Type} (p : α → Bool) (l : List α) : Option α := l.reverse.find? p

/-- C10: a prefix resolves to the namespace registered last under it. -/
theorem registry_prefix_latest (h : RegHistory) (pfx : Str) :
    (runReg h).getNamespace pfx = (lastWith (fun e => e.1.name = pfx) h).map (·.1) := by
  induction h using snoc_induction with
  | nil => rfl
  | snoc l a ih =>
    rw [runReg_snoc]
    unfold Registry.getNamespace Registry.register
    simp only [lastWith, List.reverse_append, List.reverse_cons, List.reverse_nil, List.nil_append,
      List.cons_append]
    by_cases hp : a.1.name = pfx
    · subst hp
      rw [GoMap.get_set_self, List.find?_cons_of_pos (by simp)]; rfl
    · rw [GoMap.get_set_ne _ _ (Ne.symm hp), List.find?_cons_of_neg (by simp [hp])]
      exact ih

/-- C10: a URI resolves to the prefix of the namespace registered last under it; an unregistered URI
to the empty prefix. -/
theorem registry_uri_latest (h : RegHistory) (uri : Str) :
    (runReg h).getPrefix uri =
      match lastWith (fun e => e.1.uri = uri) h with
      | some e => e.1.name
      | none => [] := by
  have key : (runReg h).nsUriMap.get uri = (lastWith (fun e => e.1.uri = uri) h).map (·.1) := by
    induction h using snoc_induction with
    | nil => rfl
    | snoc l a ih =>
      rw [runReg_snoc]
      unfold Registry.register
      simp only [lastWith, List.reverse_append, List.reverse_cons, List.reverse_nil, List.nil_append,
        List.cons_append]
      by_cases hp : a.1.uri = uri
      · subst hp
        rw [GoMap.get_set_self, List.find?_cons_of_pos (by simp)]; rfl
      · rw [GoMap.get_set_ne _ _ (Ne.symm hp), List.find?_cons_of_neg (by simp [hp])]
        exact ih
  unfold Registry.getPrefix
  rw [key]
  cases lastWith (fun e : Namespace × List Group => decide (e.1.uri = uri)) h <;> rfl

/-- C10: `Short` prefixes a name with the prefix of its URI, if it has one. -/
theorem registry_short (h : RegHistory) (uri name : Str) :
    (runReg h).short uri name =
      match lastWith (fun e => e.1.uri = uri) h with
      | some e => if e.1.name = [] then name else e.1.name ++ [':'] ++ name
      | none => name := by
  unfold Registry.short
  rw [registry_uri_latest]
  cases lastWith (fun e : Namespace × List Group => decide (e.1.uri = uri)) h with
  | none => simp
  | some e =>
    simp only
    by_cases he : e.1.name = []
    · simp [he]
    · simp [he, join]

/-- Specification of a group: every registration contributes its namespace once for each time it
names the group. -/
def groupSpec (h : RegHistory) (g : Group) : List Namespace :=
  h.flatMap fun e => (e.2.filter (fun x => x = g)).map fun _ => e.1

theorem addGroup_get (ns : Namespace) (gs : List Group) (m : GoMap (List Namespace)) (g : Group) (hg : g ≠ []) :
    (gs.foldl (Registry.addGroup ns) m).get g =
      match m.get g, (gs.filter (fun x => x = g)).map (fun _ => ns) with
      | none, [] => none
      | none, l => some l
      | some k, l => some (k ++ l) := by
  induction gs generalizing m with
  | nil => cases h : m.get g <;> simp [h]
  | cons a t ih =>
    rw [List.foldl_cons, ih]
    by_cases ha : a = g
    · subst ha
      cases h : m.get a with
      | none => simp [Registry.addGroup, hg, h, GoMap.get_set_self]
      | some k => simp [Registry.addGroup, hg, h, GoMap.get_set_self]
    · have : (Registry.addGroup ns m a).get g = m.get g := by
        unfold Registry.addGroup
        split
        · split
          · exact GoMap.get_set_ne _ _ (Ne.symm ha)
          · exact GoMap.get_set_ne _ _ (Ne.symm ha)
        · rfl
      rw [this, List.filter_cons_of_neg (by simp [ha])]

/-- C10: a group lists exactly the namespaces registered for it, in order of registration; a group
nothing was registered for is an error, and so is the empty group. -/
theorem registry_group (h : RegHistory) (g : Group) :
    (runReg h).getGroupNamespaces g =
      if g = [] ∨ groupSpec h g = [] then none else some (groupSpec h g) := by
  unfold Registry.getGroupNamespaces
  by_cases hg : g = []
  · subst hg
    simp only [true_or, if_true]
    induction h using snoc_induction with
    | nil => rfl
    | snoc l a ih =>
      rw [runReg_snoc]
      unfold Registry.register
      simp only
      have : ∀ (gs : List Group) (m : GoMap (List Namespace)), m.get [] = none →
          (gs.foldl (Registry.addGroup a.1) m).get [] = none := by
        intro gs
        induction gs with
        | nil => intro m hm; exact hm
        | cons b t ih =>
          intro m hm
          rw [List.foldl_cons]
          apply ih
          unfold Registry.addGroup
          by_cases hb : b = []
          · simp [hb, hm]
          · simp only [ne_eq, hb, not_false_iff, if_true]
            split <;> rw [GoMap.get_set_ne _ _ (Ne.symm hb)] <;> exact hm
      exact this _ _ ih
  · simp only [hg, false_or]
    induction h using snoc_induction with
    | nil => rfl
    | snoc l a ih =>
      rw [runReg_snoc]
      unfold Registry.register
      simp only
      rw [addGroup_get _ _ _ _ hg, ih]
      have hs : groupSpec (l ++ [a]) g = groupSpec l g ++ (a.2.filter (fun x => x = g)).map fun _ => a.1 := by
        simp [groupSpec]
      rw [hs]
      by_cases hl : groupSpec l g = []
      · simp only [hl, if_true, List.nil_append]
        cases (a.2.filter (fun x => x = g)).map (fun _ => a.1) <;> simp
      · simp only [hl, if_false, List.append_eq_nil_iff, false_and]

/-- C10: the listing of prefixes contains exactly the registered ones, each once. -/
theorem registry_prefixes (h : RegHistory) :
    (runReg h).prefixes.Nodup ∧ ∀ p, p ∈ (runReg h).prefixes ↔ ∃ e ∈ h, e.1.name = p := by
  constructor
  · have : GoMap.Wf (runReg h).nsNameMap := by
      induction h using snoc_induction with
      | nil => exact GoMap.wf_nil
      | snoc l a ih => rw [runReg_snoc]; exact GoMap.wf_set ih _ _
    exact this
  · intro p
    unfold Registry.prefixes
    rw [GoMap.mem_keys]
    have := registry_prefix_latest h p
    unfold Registry.getNamespace at this
    rw [this]
    unfold lastWith
    constructor
    · rintro ⟨v, hv⟩
      rw [Option.map_eq_some_iff] at hv
      obtain ⟨e, he, -⟩ := hv
      exact ⟨e, by simpa using List.mem_of_find?_eq_some he, by simpa using List.find?_some he⟩
    · rintro ⟨e, he, hp⟩
      cases hf : h.reverse.find? (fun e => decide (e.1.name = p)) with
      | none =>
        rw [List.find?_eq_none] at hf
        exact absurd hp (by simpa using hf e (by simpa using he))
      | some x => exact ⟨x.1, rfl⟩

/-- C10: the listing of namespaces contains exactly one namespace per registered URI, the last one. -/
theorem registry_namespaces (h : RegHistory) (ns : Namespace) :
    ((runReg h).namespaces.map (·.uri)).Nodup ∧
    (ns ∈ (runReg h).namespaces ↔ (lastWith (fun e => e.1.uri = ns.uri) h).map (·.1) = some ns) := by
  have key : ∀ uri, (runReg h).nsUriMap.get uri = (lastWith (fun e => e.1.uri = uri) h).map (·.1) := by
    intro uri
    induction h using snoc_induction with
    | nil => rfl
    | snoc l a ih =>
      rw [runReg_snoc]
      unfold Registry.register
      simp only [lastWith, List.reverse_append, List.reverse_cons, List.reverse_nil, List.nil_append,
        List.cons_append]
      by_cases hp : a.1.uri = uri
      · subst hp
        rw [GoMap.get_set_self, List.find?_cons_of_pos (by simp)]; rfl
      · rw [GoMap.get_set_ne _ _ (Ne.symm hp), List.find?_cons_of_neg (by simp [hp])]
        exact ih
  have hwf : GoMap.Wf (runReg h).nsUriMap := by
    clear key
    induction h using snoc_induction with
    | nil => exact GoMap.wf_nil
    | snoc l a ih => rw [runReg_snoc]; exact GoMap.wf_set ih _ _
  have hkey : ∀ e ∈ (runReg h).nsUriMap, e.2.uri = e.1 := by
    intro e he
    have := (GoMap.get_eq_some hwf).2 he
    rw [key, Option.map_eq_some_iff] at this
    obtain ⟨x, hx, hx2⟩ := this
    rw [← hx2]
    simpa using List.find?_some hx
  have hmap : (runReg h).namespaces.map (·.uri) = (runReg h).nsUriMap.map (·.1) := by
    unfold Registry.namespaces
    rw [List.map_map]
    exact List.map_congr_left fun e he => hkey e he
  constructor
  · rw [hmap]; exact hwf
  · rw [← key, GoMap.get_eq_some hwf]
    unfold Registry.namespaces
    rw [List.mem_map]
    constructor
    · rintro ⟨e, he, rfl⟩
      rw [hkey e he]; exact he
    · intro hm; exact ⟨_, hm, rfl⟩

private def nA : Namespace := ⟨"dc".toList, "u1".toList, some 0⟩
private def nB : Namespace := ⟨"dc".toList, "u2".toList, some 1⟩
private def nC : Namespace := ⟨"xmp".toList, "u1".toList, some 2⟩
private def exHist : RegHistory := [(nA, ["image".toList, []]), (nC, ["xmp".toList]), (nB, ["image".toList])]

example : (runReg exHist).getNamespace "dc".toList = some nB ∧
    (runReg exHist).getPrefix "u1".toList = "xmp".toList ∧
    (runReg exHist).getGroupNamespaces "image".toList = some [nA, nB] ∧
    (runReg exHist).getGroupNamespaces "music".toList = none ∧
    (runReg exHist).short "u2".toList "title".toList = "dc:title".toList := by decide

/-! ### Lists of namespaces -/

/-- C10: `RemoveDups` keeps, in order, exactly the first namespace of every URI. -/
theorem removeDups_spec (l : List Namespace) :
    ((NamespaceList.removeDups l).map (·.uri)).Nodup ∧
    List.Sublist (NamespaceList.removeDups l) l ∧
    (∀ ns, ns ∈ NamespaceList.removeDups l ↔ l.find? (fun v => v.uri = ns.uri) = some ns) := by
  have key : ∀ (l : List Namespace) (found : List Str),
      ((NamespaceList.removeDupsFrom found l).map (·.uri)).Nodup ∧
      List.Sublist (NamespaceList.removeDupsFrom found l) l ∧
      (∀ ns, ns ∈ NamespaceList.removeDupsFrom found l ↔
        ns.uri ∉ found ∧ l.find? (fun v => v.uri = ns.uri) = some ns) := by
    intro l
    induction l with
    | nil => intro found; simp [NamespaceList.removeDupsFrom]
    | cons v vs ih =>
      intro found
      by_cases hv : v.uri ∈ found
      · obtain ⟨a, b, c⟩ := ih found
        simp only [NamespaceList.removeDupsFrom, hv, if_true]
        refine ⟨a, b.trans (List.sublist_cons_self _ _), fun ns => ?_⟩
        rw [c]
        constructor
        · rintro ⟨h1, h2⟩
          refine ⟨h1, ?_⟩
          rw [List.find?_cons_of_neg, h2]
          simp only [decide_eq_true_eq]
          intro e; exact h1 (e ▸ hv)
        · rintro ⟨h1, h2⟩
          refine ⟨h1, ?_⟩
          rw [List.find?_cons_of_neg] at h2
          · exact h2
          · simp only [decide_eq_true_eq]
            intro e; exact h1 (e ▸ hv)
      · obtain ⟨a, b, c⟩ := ih (v.uri :: found)
        simp only [NamespaceList.removeDupsFrom, hv, if_false]
        refine ⟨?_, b.cons_cons _, fun ns => ?_⟩
        · rw [List.map_cons, List.nodup_cons]
          refine ⟨?_, a⟩
          intro hm
          obtain ⟨w, hw, hw2⟩ := List.mem_map.1 hm
          exact ((c w).1 hw).1 (by simp [hw2])
        · rw [List.mem_cons, c]
          by_cases e : v.uri = ns.uri
          · rw [List.find?_cons_of_pos (by simp [e])]
            constructor
            · rintro (rfl | ⟨h1, -⟩)
              · exact ⟨hv, rfl⟩
              · exact absurd (by simp [e]) h1
            · rintro ⟨-, h2⟩
              left; exact (Option.some.inj h2).symm
          · rw [List.find?_cons_of_neg (by simp [e])]
            constructor
            · rintro (rfl | ⟨h1, h2⟩)
              · exact absurd rfl e
              · simp only [List.mem_cons, not_or] at h1
                exact ⟨h1.2, h2⟩
            · rintro ⟨h1, h2⟩
              right
              simp only [List.mem_cons, not_or]
              exact ⟨⟨fun hh => e hh.symm, h1⟩, h2⟩
  obtain ⟨a, b, c⟩ := key l []
  exact ⟨a, b, fun ns => by rw [NamespaceList.removeDups, c]; simp⟩

example : NamespaceList.removeDups [nA, nC, nB, nA] = [nA, nB] := by decide

/-- C10: membership of a namespace in groups after a history of registrations. -/
theorem group_contains_iff (h : RegHistory) (gs : List Group) (ns : Namespace) :
    (runReg h).groupListContains gs ns = true ↔
      ∃ g ∈ gs, g ≠ [] ∧ ∃ e ∈ h, g ∈ e.2 ∧ e.1.name = ns.name := by
  have one : ∀ g, (runReg h).groupContains g ns = true ↔ g ≠ [] ∧ ∃ e ∈ h, g ∈ e.2 ∧ e.1.name = ns.name := by
    intro g
    unfold Registry.groupContains Registry.groupList
    rw [registry_group]
    by_cases hg : g = []
    · simp [hg]
    · have : ((if g = [] ∨ groupSpec h g = [] then none else some (groupSpec h g)) : Option (List Namespace)).getD [] = groupSpec h g := by
        simp only [hg, false_or]
        split
        · rename_i hh; rw [hh]; rfl
        · rfl
      rw [this]
      simp only [groupSpec, List.any_eq_true, List.mem_flatMap, List.mem_map, List.mem_filter,
        decide_eq_true_eq, ne_eq, hg, not_false_iff, true_and]
      constructor
      · rintro ⟨x, ⟨e, he, a, ⟨ha, rfl⟩, rfl⟩, hn⟩
        exact ⟨e, he, ha, hn⟩
      · rintro ⟨e, he, ha, hn⟩
        exact ⟨e.1, ⟨e, he, g, ⟨ha, rfl⟩, rfl⟩, hn⟩
  unfold Registry.groupListContains
  simp only [List.any_eq_true, one]

example : (runReg exHist).groupListContains ["music".toList, "image".toList] nB = true := by decide

/-! ### C11 -/

/-- A namespace whose prefix stands for it in a filter text: registered under its prefix, the
prefix without comma and not the name of a group. -/
def Printable (r : Registry) (ns : Namespace) : Prop :=
  r.getNamespace ns.name = some ns ∧ ',' ∉ ns.name ∧ parseGroup ns.name = []

theorem lookup_printable {r : Registry} {ns : Namespace} (h : Printable r ns) :
    Filter.lookup r ns.name = some [ns] := by
  simp [Filter.lookup, h.1, h.2.2]

/-- C11: printing and strictly parsing gives the filter back. -/
theorem filter_roundtrip_strict (r : Registry) (f : Filter) (h : ∀ ns ∈ f.incl ++ f.excl, Printable r ns) :
    Filter.parseStrict r f.toStr = some f := by
  obtain ⟨inc, exc⟩ := f
  have inc_fold : ∀ (l : List Namespace) (g : Filter), (∀ ns ∈ l, Printable r ns) →
      (l.map (fun v => '+' :: v.name)).foldlM (Filter.strictStep r) g = some { g with incl := g.incl ++ l } := by
    intro l
    induction l with
    | nil => intro g _; simp
    | cons a t ih =>
      intro g hl
      simp only [List.map_cons, List.foldlM_cons, Filter.strictStep, lookup_printable (hl a (by simp)),
        Option.map_some, Option.bind_eq_bind, Option.bind_some]
      rw [ih _ (fun ns hns => hl ns (by simp [hns]))]
      simp
  have exc_fold : ∀ (l : List Namespace) (g : Filter), (∀ ns ∈ l, Printable r ns) →
      (l.map (fun v => '-' :: v.name)).foldlM (Filter.strictStep r) g = some { g with excl := g.excl ++ l } := by
    intro l
    induction l with
    | nil => intro g _; simp
    | cons a t ih =>
      intro g hl
      simp only [List.map_cons, List.foldlM_cons, Filter.strictStep, lookup_printable (hl a (by simp)),
        Option.map_some, Option.bind_eq_bind, Option.bind_some]
      rw [ih _ (fun ns hns => hl ns (by simp [hns]))]
      simp
  have hi : ∀ ns ∈ inc, Printable r ns := fun ns hns => h ns (by simp [hns])
  have he : ∀ ns ∈ exc, Printable r ns := fun ns hns => h ns (by simp [hns])
  unfold Filter.parseStrict Filter.toStr
  simp only
  generalize hw : inc.map (fun v => '+' :: v.name) ++ exc.map (fun v => '-' :: v.name) = w
  by_cases hnil : w = []
  · subst hnil
    simp only [List.append_eq_nil_iff, List.map_eq_nil_iff] at hw
    obtain ⟨rfl, rfl⟩ := hw
    rfl
  · have hc : ∀ t ∈ w, ',' ∉ t := by
      intro t ht
      rw [← hw] at ht
      rcases List.mem_append.1 ht with ht | ht
      · obtain ⟨n, hn, rfl⟩ := List.mem_map.1 ht
        have := (hi n hn).2.1
        simp [this]
      · obtain ⟨n, hn, rfl⟩ := List.mem_map.1 ht
        have := (he n hn).2.1
        simp [this]
    have hlen : (join [','] w).length ≠ 0 := by
      intro h0
      have h1 := split_join hnil hc
      rw [List.length_eq_zero_iff.1 h0] at h1
      have : [] ∈ w := by rw [← h1]; simp [split]
      rw [← hw] at this
      simp at this
    rw [if_neg hlen, split_join hnil hc, ← hw, List.foldlM_append, inc_fold inc {} hi]
    simp only [Option.bind_eq_bind, Option.bind_some]
    rw [exc_fold exc _ he]
    simp

/-- C11: whenever strict parsing succeeds and no word starts with a space, lenient parsing gives the
same filter. -/
theorem filter_lenient_of_strict (r : Registry) (s : Str) (f : Filter)
    (hs : ∀ w ∈ split ',' s, w.head? ≠ some ' ') (h : Filter.parseStrict r s = some f) :
    Filter.parse r s = f := by
  unfold Filter.parseStrict at h
  unfold Filter.parse
  split
  · rename_i h0
    rw [if_pos h0] at h
    exact Option.some.inj h
  · rename_i h0
    rw [if_neg h0] at h
    generalize split ',' s = w at hs h
    generalize ({} : Filter) = g at h ⊢
    induction w generalizing g with
    | nil => simpa using h
    | cons a t ih =>
      rw [List.foldlM_cons] at h
      rw [List.foldl_cons]
      cases hstep : Filter.strictStep r g a with
      | none => rw [hstep] at h; simp at h
      | some g' =>
        rw [hstep] at h
        simp only [Option.bind_eq_bind, Option.bind_some] at h
        have : Filter.lenientStep r g a = g' := by
          have ha := hs a (by simp)
          have one : ∀ v l, Filter.lookup r v = some l → Filter.lookupLenient r v = l := by
            intro v l hl; simp [Filter.lookupLenient, hl]
          cases a with
          | nil => simpa [Filter.strictStep, Filter.lenientStep] using hstep
          | cons c cs =>
            by_cases h1 : c = '-'
            · subst h1
              simp only [Filter.strictStep, Option.map_eq_some_iff] at hstep
              obtain ⟨l, hl, rfl⟩ := hstep
              simp [Filter.lenientStep, one _ _ hl]
            · by_cases h2 : c = '+'
              · subst h2
                simp only [Filter.strictStep, Option.map_eq_some_iff] at hstep
                obtain ⟨l, hl, rfl⟩ := hstep
                simp [Filter.lenientStep, one _ _ hl]
              · have h3 : c ≠ ' ' := by
                  intro hh; subst hh; simp at ha
                have e1 : Filter.strictStep r g (c :: cs) =
                    (Filter.lookup r (c :: cs)).map (fun l => { g with incl := g.incl ++ l }) := by
                  unfold Filter.strictStep
                  split <;> simp_all
                have e2 : Filter.lenientStep r g (c :: cs) = { g with incl := g.incl ++ Filter.lookupLenient r (c :: cs) } := by
                  unfold Filter.lenientStep
                  split <;> simp_all
                rw [e1, Option.map_eq_some_iff] at hstep
                obtain ⟨l, hl, rfl⟩ := hstep
                rw [e2, one _ _ hl]
        rw [this]
        exact ih (fun w hw => hs w (by simp [hw])) g' h

/-- C11: printing and (leniently) parsing gives the filter back. -/
theorem filter_roundtrip (r : Registry) (f : Filter) (h : ∀ ns ∈ f.incl ++ f.excl, Printable r ns) :
    Filter.parse r f.toStr = f := by
  refine filter_lenient_of_strict r _ f ?_ (filter_roundtrip_strict r f h)
  intro w hw
  unfold Filter.toStr at hw
  generalize hl : f.incl.map (fun v => '+' :: v.name) ++ f.excl.map (fun v => '-' :: v.name) = l at hw
  have hc : ∀ t ∈ l, ',' ∉ t ∧ t.head? ≠ some ' ' := by
    intro t ht
    rw [← hl] at ht
    rcases List.mem_append.1 ht with ht | ht
    · obtain ⟨n, hn, rfl⟩ := List.mem_map.1 ht
      have := (h n (by simp [hn])).2.1
      simp [this]
    · obtain ⟨n, hn, rfl⟩ := List.mem_map.1 ht
      have := (h n (by simp [hn])).2.1
      simp [this]
  by_cases hnil : l = []
  · subst hnil
    simp [join, split] at hw
    subst hw
    simp
  · rw [split_join hnil (fun t ht => (hc t ht).1)] at hw
    exact (hc w hw).2

private def exReg : Registry :=
  runReg [(⟨"dc".toList, "u1".toList, none⟩, ["image".toList]), (⟨"tiff".toList, "u2".toList, none⟩, ["image".toList]),
    (⟨"xmp".toList, "u3".toList, none⟩, ["xmp".toList]), (⟨"xmpMM".toList, "u4".toList, none⟩, ["xmp".toList])]
private def nDc : Namespace := ⟨"dc".toList, "u1".toList, none⟩
private def nTiff : Namespace := ⟨"tiff".toList, "u2".toList, none⟩

example : (∀ ns ∈ (Filter.mk [nDc] [nTiff]).incl ++ (Filter.mk [nDc] [nTiff]).excl, Printable exReg ns) ∧
    (Filter.mk [nDc] [nTiff]).toStr = "+dc,-tiff".toList := by
  constructor
  · intro ns hns
    simp at hns
    rcases hns with rfl | rfl <;> exact ⟨by decide, by decide, by decide⟩
  · decide

/-- C11: unknown names: a lenient filter keeps them by name, a strict one refuses the text. -/
theorem filter_unknown (r : Registry) (n : Str) (h : r.getNamespace n = none) (hc : ',' ∉ n) (hg : parseGroup n = []) :
    (Filter.parse r ('+' :: n)).incl.map (·.name) = [n] ∧
    (Filter.parse r ('-' :: n)).excl.map (·.name) = [n] ∧
    Filter.parseStrict r ('+' :: n) = none ∧ Filter.parseStrict r ('-' :: n) = none := by
  have s1 : split ',' ('+' :: n) = ['+' :: n] := split_no_sep (by simp [hc])
  have s2 : split ',' ('-' :: n) = ['-' :: n] := split_no_sep (by simp [hc])
  simp [Filter.parse, Filter.parseStrict, s1, s2, Filter.lenientStep, Filter.strictStep, Filter.lookupLenient,
    Filter.lookup, h, hg]

example : exReg.getNamespace "foo".toList = none ∧ parseGroup "foo".toList = [] := by decide

/-- C11: a group name stands for all namespaces registered for the group. -/
theorem filter_group (r : Registry) (g : Str) (hg : parseGroup g ≠ []) (hc : ',' ∉ g) :
    Filter.parse r ('-' :: g) = { excl := r.groupList g } ∧ Filter.parse r ('+' :: g) = { incl := r.groupList g } := by
  have e : parseGroup g = g := by
    have key : ∀ x : Str, parseGroup x = x ∨ parseGroup x = [] := by
      intro x
      unfold parseGroup
      repeat' (split <;> [(left; symm; assumption); skip])
      right; rfl
    exact (key g).resolve_right hg
  have s1 : split ',' ('+' :: g) = ['+' :: g] := split_no_sep (by simp [hc])
  have s2 : split ',' ('-' :: g) = ['-' :: g] := split_no_sep (by simp [hc])
  rw [e] at hg
  simp [Filter.parse, s1, s2, Filter.lenientStep, Filter.lookupLenient, Filter.lookup, e, hg]

example : parseGroup "image".toList ≠ [] ∧
    Filter.parse exReg "-image".toList = { excl := [nDc, nTiff] } := by decide

/-- C11 finding: the prefix `xmp` is also a group name, so a filter for the XMP basic namespace does
not survive printing: it comes back as the whole group. -/
theorem filter_xmp_not_roundtrip :
    ∃ (r : Registry) (f : Filter), (∀ ns ∈ f.incl ++ f.excl, r.getNamespace ns.name = some ns) ∧
      (Filter.parse r f.toStr).excl.length ≠ f.excl.length :=
  ⟨exReg, { excl := [⟨"xmp".toList, "u3".toList, none⟩] }, by
    intro ns hns; simp at hns; subst hns; decide, by decide⟩

end Xmp.Props
