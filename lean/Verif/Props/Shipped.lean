import Verif.Model.Shipped
import Verif.Props.Document
import Verif.Props.DocXmpCases

/-! C71: the models shipped with the library fit together. -/

namespace Xmp.Props

open GoStr Shipped

/-! ### Programs -/

/-- All registrations that the library makes, in whatever package. -/
def shippedRegs : List (Namespace × List Group) := coreRegs ++ packages.flatMap (·.regs)

/-- The registrations made by the packages with names in `S`. -/
def regsOf (S : List Str) : List (Namespace × List Group) :=
  coreRegs ++ (packages.filter (fun p => decide (p.name ∈ S))).flatMap (·.regs)

/-- Go initialises the packages a program imports, and what these import. -/
def Closed (S : List Str) : Prop := ∀ p ∈ packages, p.name ∈ S → ∀ i ∈ p.imports, i ∈ S

/-- The calls of `Register` in a program with the packages `S`: those of the packages in any order and any number of times,
and calls of the program's own for prefixes and URIs that the library does not use. -/
structure Program (S : List Str) (h : RegHistory) : Prop where
  all : ∀ e ∈ regsOf S, e ∈ h
  only : ∀ e ∈ h, e ∈ regsOf S ∨
    (e.1.name ∉ shippedRegs.map (·.1.name) ∧ e.1.uri ∉ shippedRegs.map (·.1.uri))

theorem regsOf_sub (S : List Str) : ∀ e ∈ regsOf S, e ∈ shippedRegs := by
  intro e he
  simp only [regsOf, shippedRegs, List.mem_append, List.mem_flatMap, List.mem_filter] at he ⊢
  rcases he with h | ⟨p, ⟨hp, -⟩, h⟩
  · exact Or.inl h
  · exact Or.inr ⟨p, hp, h⟩

theorem shipped_names_nodup : (shippedRegs.map (·.1.name)).Nodup := by decide +kernel

theorem shipped_uris_nodup : (shippedRegs.map (·.1.uri)).Nodup := by decide +kernel

theorem eq_of_nodup_map {α β : Type} {f : α → β} : ∀ {l : List α}, (l.map f).Nodup → ∀ {a b}, a ∈ l → b ∈ l → f a = f b → a = b
  | [], _, _, _, ha, _, _ => by cases ha
  | x :: l, hn, a, b, ha, hb, e => by
    rw [List.map_cons, List.nodup_cons] at hn
    rcases List.mem_cons.1 ha with ea | ha <;> rcases List.mem_cons.1 hb with eb | hb
    · rw [ea, eb]
    · exact absurd (List.mem_map.2 ⟨b, hb, by rw [← e, ea]⟩) hn.1
    · exact absurd (List.mem_map.2 ⟨a, ha, by rw [e, eb]⟩) hn.1
    · exact eq_of_nodup_map hn.2 ha hb e

theorem lastWith_unique {α : Type} {q : α → Bool} {l : List α} {a : α} (ha : a ∈ l) (hq : q a = true)
    (hu : ∀ b ∈ l, q b = true → b = a) : lastWith q l = some a := by
  unfold lastWith
  cases hf : l.reverse.find? q with
  | none =>
    rw [List.find?_eq_none] at hf
    exact absurd hq (hf a (by simpa using ha))
  | some b =>
    have := List.find?_some hf
    have hm := List.mem_of_find?_eq_some hf
    rw [hu b (by simpa using hm) this]

theorem program_name {S : List Str} {h : RegHistory} (hp : Program S h) {e : Namespace × List Group} (he : e ∈ regsOf S) :
    ∀ b ∈ h, b.1.name = e.1.name → b = e := by
  intro b hb en
  rcases hp.only b hb with hb | ⟨hb, -⟩
  · exact eq_of_nodup_map shipped_names_nodup (regsOf_sub S b hb) (regsOf_sub S e he) en
  · exact absurd (List.mem_map.2 ⟨e, regsOf_sub S e he, en.symm⟩) hb

theorem program_uri {S : List Str} {h : RegHistory} (hp : Program S h) {e : Namespace × List Group} (he : e ∈ regsOf S) :
    ∀ b ∈ h, b.1.uri = e.1.uri → b = e := by
  intro b hb en
  rcases hp.only b hb with hb | ⟨-, hb⟩
  · exact eq_of_nodup_map shipped_uris_nodup (regsOf_sub S b hb) (regsOf_sub S e he) en
  · exact absurd (List.mem_map.2 ⟨e, regsOf_sub S e he, en.symm⟩) hb

/-- **C71.** Whatever packages a program uses and in whatever order they are initialised, every namespace of these packages is
found under its prefix and its URI, belongs to exactly the groups it was registered for, and names of it are shortened to its
prefix. -/
theorem shipped_resolved (S : List Str) (h : RegHistory) (hp : Program S h) (e : Namespace × List Group) (he : e ∈ regsOf S) :
    (runReg h).getNamespace e.1.name = some e.1 ∧ (runReg h).getPrefix e.1.uri = e.1.name ∧
    (∀ n, (runReg h).short e.1.uri n = e.1.name ++ ':' :: n) ∧
    (∀ g, (runReg h).groupContains g e.1 = true ↔ g ∈ e.2) := by
  have h1 := registry_prefix_latest h e.1.name
  rw [lastWith_unique (hp.all e he) (by simp) (fun b hb q => program_name hp he b hb (by simpa using q))] at h1
  have h2 := registry_uri_latest h e.1.uri
  rw [lastWith_unique (hp.all e he) (by simp) (fun b hb q => program_uri hp he b hb (by simpa using q))] at h2
  have hne : ∀ e ∈ shippedRegs, e.1.name ≠ [] ∧ [] ∉ e.2 := by decide +kernel
  refine ⟨h1, h2, fun n => ?_, fun g => ?_⟩
  · simp only [Registry.short, h2, ne_eq, (hne e (regsOf_sub S e he)).1, not_false_iff, if_true]
    simp [GoStr.join]
  · have := group_contains_iff h [g] e.1
    simp only [Registry.groupListContains, List.any_cons, List.any_nil, Bool.or_false] at this
    rw [this]
    constructor
    · rintro ⟨g', hg', -, b, hb, hgb, en⟩
      rw [List.mem_singleton.1 hg'] at hgb
      rwa [program_name hp he b hb en] at hgb
    · intro hg
      refine ⟨g, by simp, ?_, e, hp.all e he, hg, rfl⟩
      rintro rfl
      exact (hne e (regsOf_sub S e he)).2 hg

/-- **C71.** Namespaces of packages that a program does not use are unknown to it. -/
theorem shipped_unused (S : List Str) (h : RegHistory) (hp : Program S h) (e : Namespace × List Group) (he : e ∈ shippedRegs)
    (hn : e ∉ regsOf S) : (runReg h).getNamespace e.1.name = none ∧ (runReg h).getPrefix e.1.uri = [] := by
  have hno : ∀ b ∈ h, b.1.name ≠ e.1.name ∧ b.1.uri ≠ e.1.uri := by
    intro b hb
    rcases hp.only b hb with hb | ⟨h1, h2⟩
    · constructor
      · intro en
        exact hn (eq_of_nodup_map shipped_names_nodup (regsOf_sub S b hb) he en ▸ hb)
      · intro en
        exact hn (eq_of_nodup_map shipped_uris_nodup (regsOf_sub S b hb) he en ▸ hb)
    · exact ⟨fun en => h1 (List.mem_map.2 ⟨e, he, en.symm⟩), fun en => h2 (List.mem_map.2 ⟨e, he, en.symm⟩)⟩
  have l1 : lastWith (fun b : Namespace × List Group => decide (b.1.name = e.1.name)) h = none := by
    unfold lastWith
    rw [List.find?_eq_none]
    intro b hb
    simpa using (hno b (by simpa using hb)).1
  have l2 : lastWith (fun b : Namespace × List Group => decide (b.1.uri = e.1.uri)) h = none := by
    unfold lastWith
    rw [List.find?_eq_none]
    intro b hb
    simpa using (hno b (by simpa using hb)).2
  rw [registry_prefix_latest, registry_uri_latest, l1, l2]
  exact ⟨rfl, rfl⟩

/-- A program that imports `models/xmp_mm` and registers a namespace of its own. -/
def mmProgram : RegHistory :=
  (regsOf ["xmp_mm".toList, "xmp_dm".toList, "xmp_tpg".toList]).reverse ++ [(⟨"own".toList, "u:own".toList, none⟩, ["music".toList])]

theorem mmProgram_ok : Program ["xmp_mm".toList, "xmp_dm".toList, "xmp_tpg".toList] mmProgram := by
  refine ⟨fun e he => List.mem_append_left _ (List.mem_reverse.2 he), fun e he => ?_⟩
  rcases List.mem_append.1 he with he | he
  · exact Or.inl (List.mem_reverse.1 he)
  · rw [List.mem_singleton.1 he]
    exact Or.inr (by decide +kernel)

example : Closed ["xmp_mm".toList, "xmp_dm".toList, "xmp_tpg".toList] ∧
    (runReg mmProgram).getPrefix "http://ns.adobe.com/xap/1.0/sType/ResourceRef#".toList = "stRef".toList ∧
    ((runReg mmProgram).getNamespace "dc".toList).isNone := by
  exact ⟨by unfold Closed; decide +kernel, by decide +kernel, by decide +kernel⟩

/-! ### Prefixes used in tags -/

/-- **C71.** All prefixes used in the tags of the packages of a program are registered, provided that a program using
`xmp_tpg` also uses `xmp_base`, and one using `dji` also uses `tiff`. -/
theorem used_prefixes_known_partial (S : List Str) (hc : Closed S) (h : RegHistory) (hp : Program S h)
    (hx : "xmp_tpg".toList ∈ S → "xmp_base".toList ∈ S) (hj : "dji".toList ∈ S → "tiff".toList ∈ S)
    (p : Pkg) (hpk : p ∈ packages) (hs : p.name ∈ S) (q : Str) (hq : q ∈ p.used) :
    ∃ ns, (runReg h).getNamespace q = some ns ∧ ns.name = q := by
  have tab : ∀ p ∈ packages, ∀ q ∈ p.used, q ∈ coreRegs.map (·.1.name) ∨ ∃ p' ∈ packages,
      (p'.name = p.name ∨ p'.name ∈ p.imports ∨ (p.name = "xmp_tpg".toList ∧ p'.name = "xmp_base".toList) ∨
        (p.name = "dji".toList ∧ p'.name = "tiff".toList)) ∧ q ∈ p'.regs.map (·.1.name) := by decide +kernel
  have key : ∃ e ∈ regsOf S, e.1.name = q := by
    rcases tab p hpk q hq with hcq | ⟨p', hp', hrel, hq'⟩
    · obtain ⟨e, he, rfl⟩ := List.mem_map.1 hcq
      exact ⟨e, List.mem_append_left _ he, rfl⟩
    · obtain ⟨e, he, rfl⟩ := List.mem_map.1 hq'
      have hin : p'.name ∈ S := by
        rcases hrel with e | hi | ⟨e1, e2⟩ | ⟨e1, e2⟩
        · rw [e]; exact hs
        · exact hc p hpk hs _ hi
        · rw [e2]; exact hx (e1 ▸ hs)
        · rw [e2]; exact hj (e1 ▸ hs)
      exact ⟨e, List.mem_append_right _ (List.mem_flatMap.2 ⟨p', List.mem_filter.2 ⟨hp', by simpa using hin⟩, he⟩), rfl⟩
  obtain ⟨e, he, rfl⟩ := key
  exact ⟨e.1, (shipped_resolved S h hp e he).1, rfl⟩

/-- The packages that importing `models` registers satisfy the conditions. -/
example : Closed allModels ∧ "xmp_base".toList ∈ allModels ∧ "tiff".toList ∈ allModels := by
  exact ⟨by unfold Closed; decide +kernel, by decide +kernel, by decide +kernel⟩

/-- **C71, finding.** A program that uses `xmp_tpg` but not `xmp_base` does not know the prefix `xmpG` of colour swatches, and
one that uses `dji` but not `tiff` does not know the prefix of the field `Model`. -/
theorem used_prefixes_unknown (S : List Str) (h : RegHistory) (hp : Program S h) :
    ("xmp_base".toList ∉ S → (runReg h).getNamespace "xmpG".toList = none) ∧
    ("tiff".toList ∉ S → (runReg h).getNamespace "tiff".toList = none) := by
  have own : ∀ p ∈ packages, ∀ e ∈ p.regs, (e.1.name = "xmpG".toList → p.name = "xmp_base".toList) ∧
      (e.1.name = "tiff".toList → p.name = "tiff".toList) := by decide +kernel
  have core : ∀ e ∈ coreRegs, e.1.name ≠ "xmpG".toList ∧ e.1.name ≠ "tiff".toList := by decide +kernel
  have no : ∀ S' : List Str, ∀ e ∈ regsOf S', (e.1.name = "xmpG".toList → "xmp_base".toList ∈ S') ∧
      (e.1.name = "tiff".toList → "tiff".toList ∈ S') := by
    intro S' e he
    simp only [regsOf, List.mem_append, List.mem_flatMap, List.mem_filter, decide_eq_true_eq] at he
    rcases he with he | ⟨p, ⟨hp, hs⟩, he⟩
    · exact ⟨fun en => absurd en (core e he).1, fun en => absurd en (core e he).2⟩
    · exact ⟨fun en => (own p hp e he).1 en ▸ hs, fun en => (own p hp e he).2 en ▸ hs⟩
  have ex1 : ∃ e ∈ shippedRegs, e.1.name = "xmpG".toList := by decide +kernel
  have ex2 : ∃ e ∈ shippedRegs, e.1.name = "tiff".toList := by decide +kernel
  constructor
  · intro hb
    obtain ⟨e, he, en⟩ := ex1
    rw [← en]
    exact (shipped_unused S h hp e he (fun hi => hb ((no S e hi).1 en))).1
  · intro hb
    obtain ⟨e, he, en⟩ := ex2
    rw [← en]
    exact (shipped_unused S h hp e he (fun hi => hb ((no S e hi).2 en))).1

example : Closed ["xmp_dm".toList, "xmp_tpg".toList] ∧ Closed ["dji".toList] ∧ "xmpG".toList ∈ pkg_xmp_tpg.used ∧
    "tiff".toList ∈ pkg_dji.used := by
  exact ⟨by unfold Closed; decide +kernel, by unfold Closed; decide +kernel, by decide, by decide⟩

/-- **C71, finding.** Importing `models` does not register digiKam: its namespace is unknown, by prefix and by URI. -/
theorem digikam_not_registered (h : RegHistory) (hp : Program allModels h) :
    (runReg h).getNamespace "digiKam".toList = none ∧ (runReg h).getPrefix "http://www.digikam.org/ns/1.0/".toList = [] ∧
    pkg_digikam ∈ packages := by
  have := shipped_unused allModels h hp (⟨"digiKam".toList, "http://www.digikam.org/ns/1.0/".toList, some 3⟩, ["xmp".toList])
    (by decide +kernel) (by decide +kernel)
  exact ⟨this.1, this.2, by simp [packages]⟩

example : Program allModels (regsOf allModels) := ⟨fun _ he => he, fun _ he => Or.inl he⟩

/-! ### Typed access -/

/-- **C71.** The factory of every namespace makes a model of that namespace: its `Can` is true for exactly the prefix, and its
first namespace is this one.  Namespaces without a factory make no model. -/
theorem shipped_lawful (e : Namespace × List Group) (he : e ∈ shippedRegs) :
    (newModel e.1).isSome = e.1.factory.isSome ∧
    ∀ d, newModel e.1 = some d → d ∈ decls ∧ ∀ id, Lawful (d.inst id) e.1 := by
  have tab : ∀ e ∈ shippedRegs, (newModel e.1).isSome = e.1.factory.isSome ∧
      ((newModel e.1).all fun d => decide (d ∈ decls ∧ d.ns = e.1 ∧ d.can = e.1.name ∧ ':' ∉ e.1.name)) = true := by
    decide +kernel
  obtain ⟨h1, h2⟩ := tab e he
  refine ⟨h1, fun d hd => ?_⟩
  rw [hd] at h2
  simp only [Option.all_some, decide_eq_true_eq] at h2
  refine ⟨h2.1, fun id => ⟨by simp [Decl.inst, h2.2.1], fun p => ?_, h2.2.2.2⟩⟩
  simp [XModel.can, Decl.inst, h2.2.2.1]

/-- All models of the library are lawful, and there is one for every type. -/
theorem decls_lawful : (∀ d ∈ decls, ∀ id, Lawful (d.inst id) d.ns) ∧ (decls.map (·.typ)).Nodup ∧ (decls.map (·.can)).Nodup := by
  have tab : ∀ d ∈ decls, d.can = d.ns.name ∧ ':' ∉ d.ns.name := by decide +kernel
  refine ⟨fun d hd id => ⟨rfl, fun p => ?_, (tab d hd).2⟩, by decide +kernel, by decide +kernel⟩
  simp [XModel.can, Decl.inst, (tab d hd).1]

/-- Operations with models of the library, and of a program's own models for other prefixes; `ty` gives the types of the
instances. -/
def ShippedOp (ty : Nat → Str) : DocOp → Prop
  | .add m ns => (∃ d ∈ decls, m = d.inst m.id ∧ ty m.id = d.typ ∧ ns = d.ns) ∨ (Lawful m ns ∧ ns.name ∉ shippedRegs.map (·.1.name))
  | .make ns m => (∃ d, newModel ns = some d ∧ (∃ g, (ns, g) ∈ shippedRegs) ∧ m = d.inst m.id ∧ ty m.id = d.typ) ∨
      (Lawful m ns ∧ ns.name ∉ shippedRegs.map (·.1.name))
  | .remove _ => True

theorem shippedOp_ok {ty : Nat → Str} {op : DocOp} (h : ShippedOp ty op) : op.Ok := by
  cases op with
  | add m ns =>
    rcases h with ⟨d, hd, hm, -, hn⟩ | h
    · show Lawful m ns
      rw [hm, hn]
      exact decls_lawful.1 d hd _
    · exact h.1
  | make ns m =>
    rcases h with ⟨d, hd, ⟨g, hg⟩, hm, -⟩ | h
    · show Lawful m ns
      rw [hm]
      exact ((shipped_lawful (ns, g) hg).2 d hd).2 _
    · exact h.1
  | remove ns => trivial

theorem decl_ns_name : ∀ d ∈ decls, d.ns.name ∈ shippedRegs.map (·.1.name) := by decide +kernel

theorem shipped_type {ty : Nat → Str} {d0 : Decl} (h0 : d0 ∈ decls) : ∀ (ops : List DocOp), (∀ op ∈ ops, ShippedOp ty op) →
    ∀ cur : Option XModel, (∀ m, cur = some m → ty m.id = d0.typ) →
    ∀ m, modelSpec d0.ns.name ops cur = some m → ty m.id = d0.typ
  | [], _, cur, hcur, m, hm => hcur m hm
  | op :: ops, ho, cur, hcur, m, hm => by
    have tl := shipped_type h0 ops (fun o h => ho o (List.mem_cons_of_mem _ h))
    have hop := ho op List.mem_cons_self
    have same : ∀ d ∈ decls, d.ns.name = d0.ns.name → d = d0 := by
      have : (decls.map (fun d => d.ns.name)).Nodup := by decide +kernel
      intro d hd e
      exact eq_of_nodup_map this hd h0 e
    cases op with
    | add x ns =>
      refine tl _ ?_ m hm
      intro y hy
      split at hy
      · rename_i e
        cases hy
        rcases hop with ⟨d, hd, -, ht, hn⟩ | ⟨-, hn⟩
        · rw [ht, same d hd (by rw [← hn, e])]
        · exact absurd (e ▸ decl_ns_name d0 h0) hn
      · exact hcur y hy
    | make ns x =>
      refine tl _ ?_ m hm
      intro y hy
      split at hy
      · rename_i e
        cases cur with
        | some c => exact hcur y hy
        | none =>
          cases hy
          rcases hop with ⟨d, hd, ⟨g, hg⟩, -, ht⟩ | ⟨-, hn⟩
          · have hl := (shipped_lawful (ns, g) hg).2 d hd
            have hns : d.ns = ns := by
              have := (hl.2 0).1
              simpa [Decl.inst] using this
            rw [ht, same d hl.1 (by rw [hns, e])]
          · exact absurd (e ▸ decl_ns_name d0 h0) hn
      · exact hcur y hy
    | remove ns =>
      refine tl _ ?_ m hm
      intro y hy
      split at hy
      · cases hy
      · exact hcur y hy

theorem typed_decl : ∀ p ∈ packages, ∀ w, p.typed = some w → ∃ d ∈ decls, d.typ = w.1 ∧ d.ns = w.2 := by
  have tab : ∀ p ∈ packages, (p.typed.all fun w => decide (∃ d ∈ decls, d.typ = w.1 ∧ d.ns = w.2)) = true := by decide +kernel
  intro p hp w hw
  have := tab p hp
  rw [hw] at this
  simpa using this

/-- **C71.** After any history of adding, making and removing models of the library, and models of a program's own for other
prefixes, the functions `FindModel` of all packages find the model that the history left under their prefix, or nil if there is
none, and `MakeModel` returns that model or a new one; the type assertions never fail. -/
theorem typed_access (ty : Nat → Str) (ops : List DocOp) (ho : ∀ op ∈ ops, ShippedOp ty op) (p : Pkg) (hp : p ∈ packages)
    (w : Str × Namespace) (hw : p.typed = some w) (fresh : XModel)
    (hf : ∃ d, newModel w.2 = some d ∧ fresh = d.inst fresh.id ∧ ty fresh.id = d.typ) :
    let d := ops.foldl DocOp.run {}
    findTyped ty w d = (match modelSpec w.2.name ops none with | some m => .ptr m | none => .nil) ∧
    (makeTyped ty w (some fresh) d).1 = some (.ptr ((modelSpec w.2.name ops none).getD fresh)) := by
  intro d
  obtain ⟨d0, h0, ht, hn⟩ := typed_decl p hp w hw
  have hh := (findModel_history ops (fun op h => shippedOp_ok (ho op h)) w.2).1
  have hty := shipped_type h0 ops ho none (by simp)
  rw [hn, ht] at hty
  have fty : ty fresh.id = w.1 := by
    obtain ⟨d1, hd1, -, hd2⟩ := hf
    have tab : ∀ p ∈ packages, (p.typed.all fun w => decide ((newModel w.2).map (·.typ) = some w.1)) = true := by decide +kernel
    have := tab p hp
    rw [hw] at this
    simp only [Option.all_some, decide_eq_true_eq, hd1, Option.map_some, Option.some.injEq] at this
    rw [hd2, this]
  constructor
  · unfold findTyped
    rw [hh]
    cases hm : modelSpec w.2.name ops none with
    | none => rfl
    | some m => simp only [hty m hm, if_true]
  · unfold makeTyped Doc.makeModel
    rw [hh]
    cases hm : modelSpec w.2.name ops none with
    | none => simp [fty]
    | some m => simp [hty m hm]

/-- Types of instances: 1 is a `dc` model, 2 a `tiff` model and 3 one of the program's own. -/
def exTy (n : Nat) : Str := if n = 1 ∨ n = 4 then "dc.DublinCore".toList else if n = 2 then "tiff.TiffInfo".toList else "main.Own".toList

def dcDecl : Decl := ⟨"dc.DublinCore".toList, ⟨"dc".toList, "http://purl.org/dc/elements/1.1/".toList, some 2⟩, "dc".toList⟩
def tiffDecl : Decl := ⟨"tiff.TiffInfo".toList, ⟨"tiff".toList, "http://ns.adobe.com/tiff/1.0/".toList, some 15⟩, "tiff".toList⟩

def exOps : List DocOp :=
  [.make dcDecl.ns (dcDecl.inst 1), .add (tiffDecl.inst 2) tiffDecl.ns,
   .add ⟨3, [⟨"own".toList, "u:own".toList, none⟩], ["own".toList]⟩ ⟨"own".toList, "u:own".toList, none⟩,
   .remove tiffDecl.ns]

example : (∀ op ∈ exOps, ShippedOp exTy op) ∧ pkg_dc.typed = some (dcDecl.typ, dcDecl.ns) ∧
    findTyped exTy (dcDecl.typ, dcDecl.ns) (exOps.foldl DocOp.run {}) = .ptr (dcDecl.inst 1) ∧
    findTyped exTy (tiffDecl.typ, tiffDecl.ns) (exOps.foldl DocOp.run {}) = .nil := by
  refine ⟨?_, by decide +kernel, by decide +kernel, by decide +kernel⟩
  intro op hop
  simp only [exOps, List.mem_cons, List.not_mem_nil, or_false] at hop
  rcases hop with rfl | rfl | rfl | rfl
  · exact Or.inl ⟨dcDecl, by decide +kernel, ⟨["xmp".toList], by decide +kernel⟩, rfl, rfl⟩
  · exact Or.inl ⟨tiffDecl, by decide +kernel, rfl, rfl, rfl⟩
  · exact Or.inr ⟨⟨rfl, by simp [XModel.can], by decide⟩, by decide +kernel⟩
  · trivial

/-- **C71, finding.** If a program adds a model of its own that is responsible for the prefix of a package, `FindModel` of this
package panics, and `MakeModel` returns a nil pointer without an error. -/
theorem own_model_breaks_access (ty : Nat → Str) (w : Str × Namespace) (m : XModel) (ns : Namespace)
    (hm : m.nss.head? = some ns) (hc : m.can w.2.name = true) (ht : ty m.id ≠ w.1) (fresh : Option XModel) :
    ∃ d, Doc.addModel {} (some m) = some d ∧ findTyped ty w d = .panic ∧ makeTyped ty w fresh d = (some .nil, d) := by
  obtain ⟨id, nss, can⟩ := m
  cases nss with
  | nil => cases hm
  | cons a t =>
    refine ⟨_, rfl, ?_, ?_⟩
    · simp [findTyped, Doc.findModel, hc, ht]
    · simp [makeTyped, Doc.makeModel, Doc.findModel, hc, ht]

example : pkg_dc.typed = some (dcDecl.typ, dcDecl.ns) ∧ exTy 3 ≠ dcDecl.typ ∧
    (⟨3, [⟨"own".toList, "u:own".toList, none⟩], ["own".toList, "dc".toList]⟩ : XModel).can dcDecl.ns.name = true := by
  exact ⟨by decide +kernel, by decide, by decide⟩

/-! ### Fields with the prefix of another model -/

theorem attrs_unknown_none_fields {env : Env} {d : XDoc} {q : Str} (hq : Enc.findNs env d ⟨[], q⟩ = none) :
    ∀ (fs : List FieldInfo) (ts : List Ty) (vs : List Val) (ws : List Node),
    (∃ (i : Nat) (f : FieldInfo) (t : Ty) (v : Val), fs[i]? = some f ∧ ts[i]? = some t ∧ vs[i]? = some v ∧ f.name = q ∧
      fieldWritten f t v = true ∧ f.attr = false ∧ i < min ts.length vs.length) → Enc.fields env d fs ts vs ws = none
  | [], _, _, _, ⟨i, f, t, v, h, _⟩ => by simp at h
  | _ :: _, [], _, _, ⟨i, f, t, v, _, h, _⟩ => by simp at h
  | _ :: _, _ :: _, [], _, ⟨i, f, t, v, _, _, h, _⟩ => by simp at h
  | f0 :: fs, t0 :: ts, v0 :: vs, ws, ⟨i, f, t, v, h1, h2, h3, hn, hw, ha, hi⟩ => by
    rw [Enc.fields]
    cases i with
    | zero =>
      simp only [List.getElem?_cons_zero, Option.some.injEq] at h1 h2 h3
      subst h1 h2 h3
      rw [if_pos (by simp [ha, hw]), hn, hq]
    | succ i =>
      simp only [List.getElem?_cons_succ] at h1 h2 h3
      have ih := fun ws => attrs_unknown_none_fields hq fs ts vs ws ⟨i, f, t, v, h1, h2, h3, hn, hw, ha, by
        simp only [List.length_cons] at hi; omega⟩
      split
      · split
        · rfl
        · split
          · rfl
          · exact ih _
      · exact ih _

theorem attrs_unknown_none {env : Env} {d : XDoc} {q : Str} (hq : Enc.findNs env d ⟨[], q⟩ = none) :
    ∀ (fs : List FieldInfo) (ts : List Ty) (vs : List Val) (ws : List Node),
    (∃ (i : Nat) (f : FieldInfo) (t : Ty) (v : Val), fs[i]? = some f ∧ ts[i]? = some t ∧ vs[i]? = some v ∧ f.name = q ∧
      fieldWritten f t v = true ∧ f.attr = true) → Enc.attrs env d fs ts vs ws = none
  | [], _, _, _, ⟨i, f, t, v, h, _⟩ => by simp at h
  | _ :: _, [], _, _, ⟨i, f, t, v, _, h, _⟩ => by simp at h
  | _ :: _, _ :: _, [], _, ⟨i, f, t, v, _, _, h, _⟩ => by simp at h
  | f0 :: fs, t0 :: ts, v0 :: vs, ws, ⟨i, f, t, v, h1, h2, h3, hn, hw, ha⟩ => by
    rw [Enc.attrs]
    cases i with
    | zero =>
      simp only [List.getElem?_cons_zero, Option.some.injEq] at h1 h2 h3
      subst h1 h2 h3
      rw [if_pos (by simp [ha, hw]), hn, hq]
    | succ i =>
      simp only [List.getElem?_cons_succ] at h1 h2 h3
      have ih := fun ws => attrs_unknown_none hq fs ts vs ws ⟨i, f, t, v, h1, h2, h3, hn, hw, ha⟩
      split
      · split
        · rfl
        · split
          · rfl
          · exact ih _
      · exact ih _

theorem roots_none {env : Env} {d : XDoc} {m : Mdl} (hm : ∀ ws, Enc.model env d m ws = none) :
    ∀ (rs : List Root) (ws : List Node), (∃ r ∈ rs, r.model = some m) → Enc.roots env d rs ws = none
  | [], _, ⟨_, h, _⟩ => by cases h
  | r :: rs, ws, ⟨x, hx, hxm⟩ => by
    rw [Enc.roots]
    rcases List.mem_cons.1 hx with rfl | hx
    · rw [hxm]
      simp only [hm]
    · have ih := fun ws => roots_none hm rs ws ⟨x, hx, hxm⟩
      split
      · rfl
      · split
        · rfl
        · exact ih _

/-- **C71, finding.** A document cannot be written at all if any of its models has a non-empty field whose prefix is known neither
to the document nor to the registry, wherever the field and the model are. -/
theorem unknown_prefix_not_written (env : Env) (order : Node → List Namespace → List Namespace) (p : Packet) (r : Root) (hr : r ∈ p.doc.roots)
    (m : Mdl) (hm : r.model = some m) (z : Option (List Val → Bool)) (fs : List FieldInfo) (ts : List Ty) (vs : List Val)
    (ht : m.ty = .struct z fs ts) (hv : m.val = .struct vs) (i : Nat) (f : FieldInfo) (t : Ty) (v : Val)
    (h1 : fs[i]? = some f) (h2 : ts[i]? = some t) (h3 : vs[i]? = some v) (hw : fieldWritten f t v = true)
    (hn : p.doc.findNsByPrefix env (getPrefix f.name) = none) : Enc.encode env order p = none := by
  have hq : Enc.findNs env p.doc ⟨[], f.name⟩ = none := by simp [Enc.findNs, hn]
  have hmod : ∀ ws, Enc.model env p.doc m ws = none := by
    intro ws
    unfold Enc.model
    rw [ht, hv]
    cases ha : f.attr with
    | true =>
      simp only
      rw [attrs_unknown_none hq fs ts vs ws ⟨i, f, t, v, h1, h2, h3, rfl, hw, ha⟩]
    | false =>
      simp only
      split
      · rfl
      · rename_i ws' _
        refine attrs_unknown_none_fields hq fs ts vs ws' ⟨i, f, t, v, h1, h2, h3, rfl, hw, ha, ?_⟩
        obtain ⟨a, -⟩ := List.getElem?_eq_some_iff.1 h2
        obtain ⟨b, -⟩ := List.getElem?_eq_some_iff.1 h3
        omega
  unfold Enc.encode
  rw [roots_none hmod p.doc.roots [] ⟨r, hr, hm⟩]

/-- Two fields of models/dji/dji.go:91-104; the other fields are floating point numbers. -/
def djiTy : Ty := .struct none [⟨"drone-dji:SpeedX".toList, false, false, false, false, .zero, .zero⟩,
  ⟨"tiff:Model".toList, false, false, false, false, .zero, .zero⟩] [.int 32, .str]
/-- One field of models/tiff/model.go:56-91. -/
def tiffTy : Ty := .struct none [⟨"tiff:Model".toList, false, false, false, false, .zero, .zero⟩] [.str]

def djiNs : Namespace := ⟨"drone-dji".toList, "http://www.dji.com/drone-dji/1.0/".toList, some 4⟩
def djiMdl (v : Val) : Mdl := ⟨[djiNs], ["drone-dji".toList], djiTy, v⟩
def tiffMdl (v : Val) : Mdl := ⟨[tiffDecl.ns], ["tiff".toList], tiffTy, v⟩

/-- A program with the packages `S`. -/
def djiEnv (S : List Str) : Env :=
  { reg := runReg (regsOf S)
    make := fun f _ => if f = 4 then some (djiMdl djiTy.zero) else if f = 15 then some (tiffMdl tiffTy.zero) else none }

/-- A document with a drone's speed and the name of the drone. -/
def djiDoc : Packet :=
  { doc := { roots := [⟨Node.new ⟨[], "drone-dji".toList⟩, some (djiMdl (.struct [.int 7, .str "FC300".toList]))⟩]
             intNs := [(djiNs.uri, djiNs)] } }

/-- The string in the last field of a model. -/
def lastStr (r : Root) : Option Str :=
  match r.model with
  | some ⟨_, _, _, .struct vs⟩ => (match vs.getLast? with | some (.str s) => some s | _ => none)
  | _ => none

/-- **C71, finding.** The name of a drone: without `tiff` in the program the document cannot be written; with it the document is
read back with a second model, of `tiff`, which has the name, and the drone has none. -/
theorem drone_name_moves :
    Enc.encode (djiEnv ["dji".toList]) (fun _ l => l) djiDoc = none ∧
    (docTrip (djiEnv ["dji".toList, "tiff".toList]) Version.zero (fun _ l => l) none djiDoc).map
        (fun q => q.doc.roots.map (fun r => (r.node.name, lastStr r))) =
      some [("drone-dji".toList, some []), ("tiff".toList, some "FC300".toList)] := by
  constructor
  · exact unknown_prefix_not_written _ _ djiDoc _ (List.mem_singleton.2 rfl) _ rfl none _ _ _ rfl rfl 1 _ _ _ rfl rfl rfl rfl
      (by decide +kernel)
  · decide +kernel

end Xmp.Props
