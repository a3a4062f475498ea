import Verif.Props.Forms
import Verif.Props.DocGroups
import Verif.Props.DocEncode
import Mathlib.Logic.Function.Basic

/-! C76: the forms that XMP allows for a document are read alike. -/

namespace Xmp.Props

open GoStr

/-! ### Specification -/

/-- What the descriptions of a document say: their attributes, without `rdf:about` and other attributes of RDF and without marks,
and their child elements. -/
def docFacts (d : Dec) (l : List Node) : List Entry :=
  l.flatMap (fun n => ((n.attrs.filter (fun a => !decide (a.name.space = nsRDF.uri) && !decide ((Entry.attr a).Mark d))).map .attr) ++
    n.nodes.map .elem)

/-- The subject of a document: the last `rdf:about`. -/
def lastAbout (l : List Node) (about : Str) : Str :=
  ((l.flatMap Node.attrs).filter (fun a => decide (a.name.space = nsRDF.uri ∧ a.name.loc = "about".toList))).foldl (fun _ a => a.value) about

/-- Fields, types and values of a model. -/
def mdlInfos (m : Mdl) : List FieldInfo := match m.ty with | .struct _ infos _ => infos | _ => []
def mdlTys (m : Mdl) : List Ty := match m.ty with | .struct _ _ tys => tys | _ => []
def mdlVals (m : Mdl) : List Val := match m.val with | .struct vals => vals | _ => []

/-- A model for one prefix only. -/
structure Solo (m : Mdl) (p : Str) : Prop where
  name : ∃ ns rest, m.nss = ns :: rest ∧ stripPrefix (expandName ns.name []) = p
  can : ∀ q ∈ m.canNames, q = p
  ty : ∃ z, m.ty = .struct z (mdlInfos m) (mdlTys m)
  val : m.val = .struct (mdlVals m)

/-- The name under which the model of an entry is looked for. -/
def Entry.lookup (d : Dec) : Entry → QName
  | .attr a => d.translate a.name
  | .elem n => n.xmlName

/-- The entry stands for field `i` of the model for the prefix `p`. -/
structure Belongs (env : Env) (d : Dec) (dv : Version) (M : Str → Mdl) (e : Entry) (p : Str) (i : Nat) : Prop where
  ns : ∃ ns, d.findNs (e.lookup d) = some ns ∧ ns.name = p ∧
    env.newModel ns = some (M p)
  solo : Solo (M p) p
  field : findStructField dv (mdlInfos (M p)) (e.label d) = some i
  notMark : ¬ e.Mark d

/-- Two lists of descriptions say the same: the entries can be paired, in any order, such that both of a pair belong to the same
field and say the same; no field is mentioned twice. -/
def AlikeDocs (env : Env) (d : Dec) (dv : Version) (M : Str → Mdl) (l l' : List Node) : Prop :=
  ∃ L, L.Perm (docFacts d l') ∧
    List.Forall₂ (fun x y => ∃ p i, Belongs env d dv M x p i ∧ Belongs env d dv M y p i ∧ AlikeAt d dv (mdlTys (M p)) i x y)
      (docFacts d l) L ∧
    (docFacts d l).Pairwise (fun x y => ∀ p i, Belongs env d dv M x p i → ¬ Belongs env d dv M y p i)

/-! ### The decoder goes through the entries -/

/-- One entry of a description. -/
def decodeEntry (env : Env) (d : Dec) (dv : Version) (rs : List Root) : Entry → Res (List Root)
  | .attr a => Dec.decodeAttribute env d dv rs a
  | .elem n => Dec.decodeNode env d dv rs n

/-- All entries in turn. -/
def decodeAll (env : Env) (d : Dec) (dv : Version) : List Entry → List Root → Res (List Root)
  | [], rs => .ok rs
  | e :: es, rs =>
    match decodeEntry env d dv rs e with
    | .ok rs => decodeAll env d dv es rs
    | .err => .err
    | .panic => .panic

variable {env : Env} {d : Dec} {dv : Version}

theorem decodeAll_append (a b : List Entry) : ∀ rs, decodeAll env d dv (a ++ b) rs =
    (match decodeAll env d dv a rs with
    | .ok rs => decodeAll env d dv b rs
    | .err => .err
    | .panic => .panic) := by
  induction a with
  | nil => intro vals; rfl
  | cons e es ih =>
    intro vals
    simp only [List.cons_append, decodeAll]
    cases decodeEntry env d dv vals e with
    | ok v => exact ih v
    | err => rfl
    | panic => rfl

theorem nodes_decodeAll (ns : List Node) : ∀ rs, Dec.decodeNodes env d dv ns rs = decodeAll env d dv (ns.map .elem) rs := by
  induction ns with
  | nil => intro rs; rfl
  | cons n ns ih =>
    intro rs
    simp only [Dec.decodeNodes, List.map_cons, decodeAll, decodeEntry]
    cases Dec.decodeNode env d dv rs n with
    | ok v => exact ih v
    | err => rfl
    | panic => rfl

/-- The subject after some attributes. -/
def aboutOf (as : List Attr) (about : Str) : Str :=
  (as.filter (fun a => decide (a.name.space = nsRDF.uri ∧ a.name.loc = "about".toList))).foldl (fun _ a => a.value) about

theorem attrs_decodeAll (as : List Attr) : ∀ about rs, Dec.decodeAttributes env d dv as (about, rs) =
    (match decodeAll env d dv ((as.filter (fun a => !decide (a.name.space = nsRDF.uri) && !decide ((Entry.attr a).Mark d))).map .attr) rs with
    | .ok rs => .ok (aboutOf as about, rs)
    | .err => .err
    | .panic => .panic) := by
  induction as with
  | nil => intro about rs; rfl
  | cons a as ih =>
    intro about rs
    simp only [Dec.decodeAttributes]
    by_cases hr : a.name.space = nsRDF.uri
    · rw [if_pos hr, ih, List.filter_cons_of_neg (by simp [hr])]
      by_cases hb : a.name.loc = "about".toList
      · rw [if_pos hb]
        simp only [aboutOf]
        rw [List.filter_cons_of_pos (by simp only [hr, hb, and_self, decide_true]), List.foldl_cons]
      · rw [if_neg hb]
        simp only [aboutOf]
        rw [List.filter_cons_of_neg (by simp only [hb, and_false, decide_false, Bool.false_eq_true, not_false_eq_true])]
    · rw [if_neg hr]
      have hab : aboutOf (a :: as) about = aboutOf as about := by
        simp only [aboutOf]
        rw [List.filter_cons_of_neg (by simp only [hr, false_and, decide_false, Bool.false_eq_true, not_false_eq_true])]
      have hm : skipName (d.translate a.name) = true ↔ (Entry.attr a).Mark d := skipName_mark _
      by_cases hs : (Entry.attr a).Mark d
      · rw [List.filter_cons_of_neg (by simp [hs]), hab, ← ih]
        simp only [Dec.decodeAttribute, if_pos (hm.2 hs)]
      · rw [List.filter_cons_of_pos (by simp only [hr, hs, decide_false, Bool.not_false, Bool.and_self]), hab]
        simp only [List.map_cons, decodeAll, decodeEntry]
        cases Dec.decodeAttribute env d dv rs a with
        | ok v => exact ih about v
        | err => rfl
        | panic => rfl

theorem descriptions_decodeAll (l : List Node) (hn : ∀ n ∈ l, n.fullName d.reg = "rdf:Description".toList) : ∀ about rs,
    Dec.descriptions env d dv l (about, rs) = (match decodeAll env d dv (docFacts d l) rs with
    | .ok rs => .ok (lastAbout l about, rs)
    | .err => .err
    | .panic => .panic) := by
  induction l with
  | nil => intro about rs; rfl
  | cons n l ih =>
    intro about rs
    have hl : lastAbout (n :: l) about = lastAbout l (aboutOf n.attrs about) := by
      simp only [lastAbout, aboutOf, List.flatMap_cons, List.filter_append, List.foldl_append]
    simp only [Dec.descriptions]
    rw [if_neg (by simp only [ne_eq, not_not]; exact hn n List.mem_cons_self), hl]
    simp only [docFacts, List.flatMap_cons]
    rw [decodeAll_append, decodeAll_append, attrs_decodeAll]
    cases decodeAll env d dv ((n.attrs.filter _).map .attr) rs with
    | ok rs =>
      dsimp only
      rw [nodes_decodeAll]
      cases decodeAll env d dv (n.nodes.map .elem) rs with
      | ok rs => exact ih (fun x hx => hn x (List.mem_cons_of_mem _ hx)) _ _
      | err => rfl
      | panic => rfl
    | err => rfl
    | panic => rfl

/-! ### What the models become -/

/-- The top-level node of the model for a prefix with some values. -/
def soloRoot (M : Str → Mdl) (x : Str × List Val) : Root :=
  match (M x.1).nss with
  | [] => ⟨Node.new ⟨[], []⟩, none⟩
  | ns :: _ => ⟨Node.new ⟨[], expandName ns.name []⟩, some { M x.1 with val := .struct x.2 }⟩

/-- The top-level nodes hold, by prefix, these values. -/
def HoldsVals (M : Str → Mdl) (rs : List Root) (g : Str → Option (List Val)) : Prop :=
  ∃ ps : List (Str × List Val), rs = ps.map (soloRoot M) ∧ (ps.map (·.1)).Nodup ∧ (∀ x ∈ ps, Solo (M x.1) x.1) ∧
    ∀ p v, g p = some v ↔ (p, v) ∈ ps

/-- One entry, at the level of values by prefix. -/
def entryVals (d : Dec) (dv : Version) (M : Str → Mdl) (p : Str) (e : Entry) (g : Str → Option (List Val)) : Res (List Val) :=
  readEntry d dv (mdlInfos (M p)) (mdlTys (M p)) e ((g p).getD (mdlVals (M p)))

/-- All entries, at the level of values by prefix. -/
def allVals (d : Dec) (dv : Version) (M : Str → Mdl) : List (Str × Entry) → (Str → Option (List Val)) →
    Option (Str → Option (List Val))
  | [], g => some g
  | (p, e) :: es, g =>
    match entryVals d dv M p e g with
    | .ok r => allVals d dv M es (Function.update g p (some r))
    | _ => none

variable {M : Str → Mdl}

theorem soloRoot_name {x : Str × List Val} (h : Solo (M x.1) x.1) : (soloRoot M x).node.name = x.1 := by
  obtain ⟨ns, rest, hn, hp⟩ := h.name
  simp only [soloRoot, hn]
  exact hp

theorem soloRoot_model {x : Str × List Val} (h : Solo (M x.1) x.1) :
    (soloRoot M x).model = some { M x.1 with val := .struct x.2 } := by
  obtain ⟨ns, rest, hn, hp⟩ := h.name
  simp only [soloRoot, hn]

theorem soloRoot_matches {x : Str × List Val} (h : Solo (M x.1) x.1) (p : Str) :
    XDoc.rootMatches p (soloRoot M x) = decide (x.1 = p) := by
  simp only [XDoc.rootMatches, soloRoot_name h, soloRoot_model h, Mdl.can]
  by_cases he : x.1 = p
  · simp [he]
  · have : p ∉ (M x.1).canNames := fun hm => he (h.can p hm).symm
    simp [he, this]

/-- The step of the decoder once the node is found. -/
theorem decodeEntry_found {e : Entry} {p : Str} {i : Nat} (hb : Belongs env d dv M e p i) {rs rs' : List Root} {k : Nat}
    {vals : List Val}
    (hl : Dec.lookupNode env d rs (e.lookup d) = some (k, rs'))
    (hm : (rs'[k]?).bind (·.model) = some { M p with val := .struct vals }) :
    decodeEntry env d dv rs e = (match readEntry d dv (mdlInfos (M p)) (mdlTys (M p)) e vals with
      | .ok r => .ok (rs'.modify k (fun x => { x with model := some { M p with val := .struct r } }))
      | .err => .err
      | .panic => .panic) := by
  obtain ⟨z, hty⟩ := hb.solo.ty
  have hf := hb.field
  have hnm := hb.notMark
  cases e with
  | attr a =>
    have hs : skipName (d.translate a.name) ≠ true := fun hx => hnm ((skipName_mark _).1 hx)
    simp only [Entry.label] at hf
    simp only [Entry.lookup] at hl
    simp only [decodeEntry, Dec.decodeAttribute, if_neg hs, hl, hm, hty, hf, Dec.setField, readEntry, if_neg hnm, Entry.label]
    cases (mdlTys (M p))[i]? with
    | none => rfl
    | some t =>
      cases vals[i]? with
      | none => rfl
      | some v =>
        dsimp only
        cases unmarshalAttr t v a.value <;> rfl
  | elem n =>
    simp only [Entry.label] at hf
    simp only [Entry.lookup] at hl
    simp only [decodeEntry, Dec.decodeNode, hl, hm, hty, hf, Dec.setField, readEntry, if_neg hnm, Entry.label]
    cases (mdlTys (M p))[i]? with
    | none => rfl
    | some t =>
      cases vals[i]? with
      | none => rfl
      | some v =>
        dsimp only
        cases unmarshal d dv n true t v <;> rfl

theorem decodeEntry_step {e : Entry} {p : Str} {i : Nat} (hb : Belongs env d dv M e p i) {rs : List Root}
    {g : Str → Option (List Val)} (h : HoldsVals M rs g) :
    ∃ F : List Val → List Root, (decodeEntry env d dv rs e = match entryVals d dv M p e g with
      | .ok r => .ok (F r)
      | .err => .err
      | .panic => .panic) ∧ ∀ r, HoldsVals M (F r) (Function.update g p (some r)) := by
  obtain ⟨ns, hfind, hname, hnew⟩ := hb.ns
  obtain ⟨ps, rfl, hnd, hsolo, hg⟩ := h
  by_cases hp : ∃ v, (p, v) ∈ ps
  · obtain ⟨v, hv⟩ := hp
    obtain ⟨a, b, rfl⟩ := List.append_of_mem hv
    rw [List.map_append, List.map_cons, List.nodup_append] at hnd
    obtain ⟨hna, hnb, hdis⟩ := hnd
    have hpa : ∀ x ∈ a, x.1 ≠ p := fun x hx => hdis x.1 (List.mem_map_of_mem hx) p List.mem_cons_self
    have hpb : ∀ x ∈ b, x.1 ≠ p := by
      intro x hx he
      exact (List.nodup_cons.1 hnb).1 (List.mem_map.2 ⟨x, hx, he⟩)
    have hidx : ((a ++ (p, v) :: b).map (soloRoot M)).findIdx? (XDoc.rootMatches p) = some (a.map (soloRoot M)).length := by
      rw [List.map_append, List.map_cons]
      refine findIdx?_mid _ _ _ _ ?_ ?_
      · intro r hr
        obtain ⟨x, hx, rfl⟩ := List.mem_map.1 hr
        rw [soloRoot_matches (hsolo x (List.mem_append_left _ hx))]
        simp [hpa x hx]
      · rw [soloRoot_matches (hsolo (p, v) hv)]
        simp
    have hlook : Dec.lookupNode env d ((a ++ (p, v) :: b).map (soloRoot M))
        (e.lookup d) =
        some ((a.map (soloRoot M)).length, (a ++ (p, v) :: b).map (soloRoot M)) := by
      simp only [Dec.lookupNode, hfind, hname, hidx]
    have hgv : g p = some v := (hg p v).2 hv
    refine ⟨fun r => (a ++ (p, r) :: b).map (soloRoot M), ?_, ?_⟩
    · have hmod : (((a ++ (p, v) :: b).map (soloRoot M))[(a.map (soloRoot M)).length]?).bind (·.model) =
          some { M p with val := .struct v } := by
        rw [List.map_append, List.map_cons, List.getElem?_append_right (Nat.le_refl _), Nat.sub_self]
        exact soloRoot_model (hsolo (p, v) hv)
      rw [decodeEntry_found hb hlook hmod]
      simp only [entryVals, hgv, Option.getD_some]
      cases readEntry d dv (mdlInfos (M p)) (mdlTys (M p)) e v with
      | ok r =>
        dsimp only
        rw [List.map_append, List.map_cons, modify_mid, List.map_append, List.map_cons]
        obtain ⟨ns0, rest, hn, -⟩ := hb.solo.name
        simp only [soloRoot, hn]
      | err => rfl
      | panic => rfl
    · intro r
      refine ⟨_, rfl, ?_, ?_, ?_⟩
      · rw [List.map_append, List.map_cons, List.nodup_append]
        exact ⟨hna, hnb, hdis⟩
      · intro x hx
        rcases List.mem_append.1 hx with hx | hx
        · exact hsolo x (List.mem_append_left _ hx)
        · rcases List.mem_cons.1 hx with rfl | hx
          · exact hb.solo
          · exact hsolo x (List.mem_append_right _ (List.mem_cons_of_mem _ hx))
      · intro q w
        by_cases hq : q = p
        · subst hq
          rw [Function.update_self]
          constructor
          · intro hw
            cases hw
            simp
          · intro hw
            rcases List.mem_append.1 hw with hw | hw
            · exact absurd rfl (hpa _ hw)
            · rcases List.mem_cons.1 hw with hw | hw
              · cases hw; rfl
              · exact absurd rfl (hpb _ hw)
        · rw [Function.update_of_ne hq, hg]
          simp [hq]
  · have hnone : g p = none := by
      cases hgp : g p with
      | none => rfl
      | some v => exact absurd ⟨v, (hg p v).1 hgp⟩ hp
    have hne : ∀ x ∈ ps, x.1 ≠ p := fun x hx he => hp ⟨x.2, he ▸ hx⟩
    have hidx : (ps.map (soloRoot M)).findIdx? (XDoc.rootMatches p) = none := by
      refine findIdx?_no _ _ ?_
      intro r hr
      obtain ⟨x, hx, rfl⟩ := List.mem_map.1 hr
      rw [soloRoot_matches (hsolo x hx)]
      simp [hne x hx]
    obtain ⟨ns0, rest, hn, hns0⟩ := hb.solo.name
    have hval := hb.solo.val
    have hlook : Dec.lookupNode env d (ps.map (soloRoot M))
        (e.lookup d) =
        some ((ps.map (soloRoot M)).length, ps.map (soloRoot M) ++ [⟨Node.new ⟨[], expandName ns0.name []⟩, some (M p)⟩]) := by
      simp only [Dec.lookupNode, hfind, hname, hidx, hnew, hn]
    refine ⟨fun r => (ps ++ [(p, r)]).map (soloRoot M), ?_, ?_⟩
    · have hmod : ((ps.map (soloRoot M) ++ [(⟨Node.new ⟨[], expandName ns0.name []⟩, some (M p)⟩ : Root)])[(ps.map (soloRoot M)).length]?).bind
          (·.model) = some { M p with val := .struct (mdlVals (M p)) } := by
        rw [List.getElem?_append_right (Nat.le_refl _), Nat.sub_self, ← hval]
        rfl
      rw [decodeEntry_found hb hlook hmod]
      simp only [entryVals, hnone, Option.getD_none]
      cases readEntry d dv (mdlInfos (M p)) (mdlTys (M p)) e (mdlVals (M p)) with
      | ok r =>
        dsimp only
        rw [modify_mid, List.map_append, List.map_cons, List.map_nil]
        simp only [soloRoot, hn]
      | err => rfl
      | panic => rfl
    · intro r
      refine ⟨_, rfl, ?_, ?_, ?_⟩
      · rw [List.map_append, List.map_cons, List.map_nil, List.nodup_append]
        refine ⟨hnd, by simp, ?_⟩
        intro q hq q' hq'
        obtain ⟨x, hx, rfl⟩ := List.mem_map.1 hq
        rw [List.mem_singleton.1 hq']
        exact hne x hx
      · intro x hx
        rcases List.mem_append.1 hx with hx | hx
        · exact hsolo x hx
        · rw [List.mem_singleton.1 hx]; exact hb.solo
      · intro q w
        by_cases hq : q = p
        · subst hq
          rw [Function.update_self]
          constructor
          · intro hw
            cases hw
            simp
          · intro hw
            rcases List.mem_append.1 hw with hw | hw
            · exact absurd rfl (hne _ hw)
            · cases List.mem_singleton.1 hw; rfl
        · rw [Function.update_of_ne hq, hg]
          simp [hq]

theorem decodeAll_vals {l : List (Str × Entry)} (hb : ∀ x ∈ l, ∃ i, Belongs env d dv M x.2 x.1 i) :
    ∀ {rs : List Root} {g : Str → Option (List Val)}, HoldsVals M rs g →
    (∀ rs', decodeAll env d dv (l.map (·.2)) rs = .ok rs' → ∃ g', allVals d dv M l g = some g' ∧ HoldsVals M rs' g') ∧
    (∀ g', allVals d dv M l g = some g' → ∃ rs', decodeAll env d dv (l.map (·.2)) rs = .ok rs' ∧ HoldsVals M rs' g') := by
  induction l with
  | nil =>
    intro rs g h
    refine ⟨?_, ?_⟩
    · intro rs' hr
      cases hr
      exact ⟨g, rfl, h⟩
    · intro g' hg
      cases hg
      exact ⟨rs, rfl, h⟩
  | cons x l ih =>
    intro rs g h
    obtain ⟨p, e⟩ := x
    obtain ⟨i, hbe⟩ := hb (p, e) List.mem_cons_self
    obtain ⟨F, hF, hH⟩ := decodeEntry_step hbe h
    have ih := fun {rs g} => @ih (fun x hx => hb x (List.mem_cons_of_mem _ hx)) rs g
    simp only [List.map_cons, decodeAll, hF, allVals]
    cases entryVals d dv M p e g with
    | ok r => exact ih (hH r)
    | err => exact ⟨fun _ hx => by simp at hx, fun _ hx => by simp at hx⟩
    | panic => exact ⟨fun _ hx => by simp at hx, fun _ hx => by simp at hx⟩

theorem allVals_perm {l l' : List (Str × Entry)} (h : l.Perm l') (hm : ∀ x ∈ l, ¬ x.2.Mark d)
    (hn : l.Pairwise (fun x y => x.1 = y.1 → findStructField dv (mdlInfos (M x.1)) (x.2.label d) ≠
      findStructField dv (mdlInfos (M x.1)) (y.2.label d))) : ∀ {g g' : Str → Option (List Val)},
    allVals d dv M l g = some g' → allVals d dv M l' g = some g' := by
  induction h with
  | nil => intro g g' h; exact h
  | cons x _ ih =>
    intro g g' h
    obtain ⟨p, e⟩ := x
    simp only [allVals] at h ⊢
    cases hr : entryVals d dv M p e g with
    | ok r =>
      rw [hr] at h
      exact ih (fun y hy => hm y (List.mem_cons_of_mem _ hy)) (List.pairwise_cons.1 hn).2 h
    | err => rw [hr] at h; simp at h
    | panic => rw [hr] at h; simp at h
  | swap x y l =>
    intro g g' h
    obtain ⟨p, e⟩ := x
    obtain ⟨q, f⟩ := y
    simp only [allVals] at h ⊢
    have hne := (List.pairwise_cons.1 hn).1 (p, e) List.mem_cons_self
    cases hr : entryVals d dv M q f g with
    | ok r =>
      rw [hr] at h
      dsimp only at h
      by_cases hpq : q = p
      · subst hpq
        simp only [entryVals, Function.update_self, Option.getD_some] at h hr ⊢
        cases hs : readEntry d dv (mdlInfos (M q)) (mdlTys (M q)) e r with
        | ok s =>
          rw [hs] at h
          dsimp only at h
          obtain ⟨u, hu, hv⟩ := readEntry_swap (hm (q, f) List.mem_cons_self)
            (hm (q, e) (List.mem_cons_of_mem _ List.mem_cons_self)) (hne rfl) hr hs
          rw [hu]
          dsimp only
          rw [hv]
          simpa only [Function.update_idem] using h
        | err => rw [hs] at h; simp at h
        | panic => rw [hs] at h; simp at h
      · simp only [entryVals, Function.update_of_ne hpq, Function.update_of_ne (Ne.symm hpq)] at h hr ⊢
        cases hs : readEntry d dv (mdlInfos (M p)) (mdlTys (M p)) e ((g p).getD (mdlVals (M p))) with
        | ok s =>
          rw [hs] at h
          dsimp only at h ⊢
          rw [hr]
          dsimp only
          rw [Function.update_comm hpq]  at h
          exact h
        | err => rw [hs] at h; simp at h
        | panic => rw [hs] at h; simp at h
    | err => rw [hr] at h; simp at h
    | panic => rw [hr] at h; simp at h
  | trans h1 h2 ih1 ih2 =>
    intro g g' h
    refine ih2 (fun y hy => hm y (h1.mem_iff.2 hy)) ?_ (ih1 hm hn h)
    refine h1.pairwise hn ?_
    intro x y hxy he heq
    exact hxy he.symm (by rw [he] at heq; exact heq.symm)

theorem allVals_congr {l l' : List (Str × Entry)} (h : List.Forall₂ (fun x y => x.1 = y.1 ∧ ∃ i,
      findStructField dv (mdlInfos (M x.1)) (x.2.label d) = some i ∧ findStructField dv (mdlInfos (M x.1)) (y.2.label d) = some i ∧
      ¬ x.2.Mark d ∧ ¬ y.2.Mark d ∧ AlikeAt d dv (mdlTys (M x.1)) i x.2 y.2) l l') : ∀ {g g' : Str → Option (List Val)},
    allVals d dv M l g = some g' → allVals d dv M l' g = some g' := by
  induction h with
  | nil => intro g g' h; exact h
  | @cons x y l l' hxy _ ih =>
    intro g g' h
    obtain ⟨p, e⟩ := x
    obtain ⟨q, f⟩ := y
    obtain ⟨hpq, i, hi, hj, hme, hmf, ha⟩ := hxy
    dsimp only at hpq
    subst hpq
    dsimp only at hi hj hme hmf ha
    simp only [allVals] at h ⊢
    cases hr : entryVals d dv M p e g with
    | ok r =>
      rw [hr] at h
      obtain ⟨i', t, v, x, hi', ht, hv, hx, rfl⟩ := (readEntry_ok hme).1 hr
      rw [hi] at hi'
      cases hi'
      have : entryVals d dv M p f g = .ok (((g p).getD (mdlVals (M p))).set i x) :=
        (readEntry_ok hmf).2 ⟨i, t, v, x, hj, ht, hv, alikeAt_reads _ i t e f ha ht v x hx, rfl⟩
      rw [this]
      exact ih h
    | err => rw [hr] at h; simp at h
    | panic => rw [hr] at h; simp at h

theorem holds_perm {rs rs' : List Root} {g : Str → Option (List Val)} (h : HoldsVals M rs g) (h' : HoldsVals M rs' g) : rs.Perm rs' := by
  obtain ⟨ps, rfl, hnd, -, hg⟩ := h
  obtain ⟨ps', rfl, hnd', -, hg'⟩ := h'
  refine List.Perm.map _ ((List.perm_ext_iff_of_nodup (List.Nodup.of_map _ hnd) (List.Nodup.of_map _ hnd')).2 ?_)
  rintro ⟨p, v⟩
  rw [← hg, ← hg']

theorem holds_nil : HoldsVals M [] (fun _ => none) := ⟨[], rfl, by simp, by simp, by simp⟩

/-- With an entry, the prefix of its model. -/
theorem alikeDocs_labels {l L : List Entry} (h : List.Forall₂ (fun x y => ∃ p i, Belongs env d dv M x p i ∧ Belongs env d dv M y p i ∧
      AlikeAt d dv (mdlTys (M p)) i x y) l L) : ∃ a b : List (Str × Entry), a.map (·.2) = l ∧ b.map (·.2) = L ∧
    List.Forall₂ (fun x y => x.1 = y.1 ∧ ∃ i, Belongs env d dv M x.2 x.1 i ∧ Belongs env d dv M y.2 x.1 i ∧
      AlikeAt d dv (mdlTys (M x.1)) i x.2 y.2) a b := by
  induction h with
  | nil => exact ⟨[], [], rfl, rfl, .nil⟩
  | @cons x y l L hxy _ ih =>
    obtain ⟨p, i, h1, h2, h3⟩ := hxy
    obtain ⟨a, b, rfl, rfl, hab⟩ := ih
    exact ⟨(p, x) :: a, (p, y) :: b, rfl, rfl, .cons ⟨rfl, i, h1, h2, h3⟩ hab⟩

theorem perm_lift {α β : Type} {f : α → β} {b : List α} {L : List β} (h : (b.map f).Perm L) : ∃ c : List α, L = c.map f ∧ c.Perm b := by
  have := congrFun (congrFun (List.eq_map_comp_perm f) L) b
  exact this.mpr h.symm

theorem belongs_unique {e : Entry} {p q : Str} {i j : Nat} (h : Belongs env d dv M e p i) (h' : Belongs env d dv M e q j) :
    p = q ∧ i = j := by
  obtain ⟨ns, h1, h2, -⟩ := h.ns
  obtain ⟨ns', h1', h2', -⟩ := h'.ns
  rw [h1] at h1'
  cases h1'
  rw [h2] at h2'
  subst h2'
  have := h.field.symm.trans h'.field
  cases this
  exact ⟨rfl, rfl⟩

theorem alikeDocs_decode {l l' : List Node} (h : AlikeDocs env d dv M l l') {rs : List Root}
    (hd : decodeAll env d dv (docFacts d l) [] = .ok rs) : ∃ rs', decodeAll env d dv (docFacts d l') [] = .ok rs' ∧ rs.Perm rs' := by
  obtain ⟨L, hperm, hall, hpw⟩ := h
  obtain ⟨a, b, ha, hb, hab⟩ := alikeDocs_labels hall
  have hbel : ∀ x ∈ a, ∃ i, Belongs env d dv M x.2 x.1 i := by
    intro x hx
    obtain ⟨n, hn, rfl⟩ := List.mem_iff_getElem.1 hx
    obtain ⟨-, i, h1, -⟩ := (List.forall₂_iff_get.1 hab).2 n hn (by have := hab.length_eq; omega)
    exact ⟨i, h1⟩
  rw [← hb] at hperm
  obtain ⟨c, hc, hcb⟩ := perm_lift hperm
  obtain ⟨w, hcw, hwa⟩ := List.perm_comp_forall₂ hcb hab.flip
  have hbel' : ∀ y ∈ c, ∃ i, Belongs env d dv M y.2 y.1 i := by
    intro y hy
    obtain ⟨n, hn, rfl⟩ := List.mem_iff_getElem.1 hy
    obtain ⟨he, i, -, h2, -⟩ := (List.forall₂_iff_get.1 hcw).2 n hn (by have := hcw.length_eq; omega)
    simp only [List.get_eq_getElem] at he h2
    exact ⟨i, he ▸ h2⟩
  rw [← ha] at hd
  obtain ⟨g, hg, hH⟩ := (decodeAll_vals hbel holds_nil).1 rs hd
  have hg2 : allVals d dv M w (fun _ => none) = some g := by
    refine allVals_perm hwa.symm (fun x hx => (hbel x hx).elim (fun i h => h.notMark)) ?_ hg
    rw [← ha, List.pairwise_map] at hpw
    refine hpw.imp_of_mem ?_
    intro x y hx hy hxy he heq
    obtain ⟨i, hi⟩ := hbel x hx
    obtain ⟨j, hj⟩ := hbel y hy
    rw [← he] at hj
    rw [hi.field, hj.field] at heq
    cases heq
    exact hxy _ _ hi hj
  have hg3 : allVals d dv M c (fun _ => none) = some g := by
    refine allVals_congr (hcw.flip.imp ?_) hg2
    rintro x y ⟨he, i, h1, h2, h3⟩
    exact ⟨he, i, h1.field, h2.field, h1.notMark, h2.notMark, h3⟩
  obtain ⟨rs', hd', hH'⟩ := (decodeAll_vals hbel' holds_nil).2 g hg3
  exact ⟨rs', by rw [hc]; exact hd', holds_perm hH hH'⟩

theorem alikeDocs_symm {l l' : List Node} (h : AlikeDocs env d dv M l l') : AlikeDocs env d dv M l' l := by
  obtain ⟨L, hperm, hall, hpw⟩ := h
  obtain ⟨w, hw, hwp⟩ := List.perm_comp_forall₂ hperm.symm hall.flip
  have hw' : List.Forall₂ (fun x y => ∃ p i, Belongs env d dv M x p i ∧ Belongs env d dv M y p i ∧
      AlikeAt d dv (mdlTys (M p)) i x y) (docFacts d l') w := by
    refine hw.imp ?_
    rintro x y ⟨p, i, h1, h2, h3⟩
    exact ⟨p, i, h2, h1, alikeAt_symm _ i _ _ h3⟩
  refine ⟨w, hwp, hw', ?_⟩
  have hpw2 : w.Pairwise (fun x y => ∀ p i, Belongs env d dv M x p i → ¬ Belongs env d dv M y p i) :=
    hwp.symm.pairwise hpw (fun {x y} h p i h1 h2 => h p i h2 h1)
  rw [List.pairwise_iff_getElem] at hpw2 ⊢
  intro i j hi hj hij p k h1 h2
  have hlen := hw.length_eq
  obtain ⟨q, u, a1, a2, -⟩ := (List.forall₂_iff_get.1 hw').2 i hi (by omega)
  obtain ⟨q', u', b1, b2, -⟩ := (List.forall₂_iff_get.1 hw').2 j hj (by omega)
  simp only [List.get_eq_getElem] at a1 a2 b1 b2
  obtain ⟨rfl, rfl⟩ := belongs_unique a1 h1
  obtain ⟨rfl, rfl⟩ := belongs_unique b1 h2
  exact hpw2 i j (by omega) (by omega) hij _ _ a2 b2

/-! ### The theorem -/

/-- Two trees with the same namespaces, the same subject and descriptions that say the same. -/
structure AlikeTrees (env : Env) (dv : Version) (M : Str → Mdl) (t u : Node) : Prop where
  roots : ∃ a b, Dec.rdfRoot env.reg t = some a ∧ Dec.rdfRoot env.reg u = some b ∧
    Dec.declare env.reg (Dec.declared a.nodes) = Dec.declare env.reg (Dec.declared b.nodes) ∧
    lastAbout a.nodes [] = lastAbout b.nodes [] ∧
    (∀ n ∈ a.nodes ++ b.nodes, n.fullName env.reg = "rdf:Description".toList) ∧
    AlikeDocs env (Dec.declare env.reg (Dec.declared a.nodes)) dv M a.nodes b.nodes

theorem declare_reg (reg : Registry) (l : List (Str × Str)) : (Dec.declare reg l).reg = reg := by
  have : ∀ (l : List (Str × Str)) (d : Dec), (l.foldl (fun d x => d.addNamespace x.1 x.2) d).reg = d.reg := by
    intro l
    induction l with
    | nil => intro d; rfl
    | cons x l ih =>
      intro d
      rw [List.foldl_cons, ih]
      simp only [Dec.addNamespace]
      split
      · split <;> rfl
      · split <;> rfl
  exact this l _

/-- **C76.**  Two documents that say the same are read as the same document, up to the order of its models: the properties can be
spread over any number of `rdf:Description` elements, come in any order and, if plain, as attributes or as elements; inside of
the properties all forms of `forms_read_alike` can be used.  If one is refused, so is the other. -/
theorem document_forms_read_alike (env : Env) (dv : Version) (M : Str → Mdl) (t u : Node) (h : AlikeTrees env dv M t u) (p : Packet)
    (hp : Dec.decode env dv t = .ok p) : ∃ q, Dec.decode env dv u = .ok q ∧ q.doc.roots.Perm p.doc.roots ∧
      q.doc.intNs = p.doc.intNs ∧ q.doc.extNs = p.doc.extNs ∧ q.about = p.about := by
  obtain ⟨a, b, ha, hb, hdec, hab, hdesc, hal⟩ := h.roots
  have hreg := declare_reg env.reg (Dec.declared a.nodes)
  simp only [Dec.decode, ha] at hp
  simp only [Dec.decode, hb, ← hdec]
  rw [descriptions_decodeAll _ (fun n hn => by rw [hreg]; exact hdesc n (List.mem_append_left _ hn))] at hp
  rw [descriptions_decodeAll _ (fun n hn => by rw [hreg]; exact hdesc n (List.mem_append_right _ hn))]
  cases hd : decodeAll env (Dec.declare env.reg (Dec.declared a.nodes)) dv
      (docFacts (Dec.declare env.reg (Dec.declared a.nodes)) a.nodes) [] with
  | ok rs =>
    rw [hd] at hp
    cases hp
    obtain ⟨rs', hd', hperm⟩ := alikeDocs_decode hal hd
    rw [hd']
    exact ⟨_, rfl, hperm.symm, rfl, rfl, hab.symm⟩
  | err => rw [hd] at hp; cases hp
  | panic => rw [hd] at hp; cases hp

/-- The relation is symmetric, so that the theorem holds in both directions. -/
theorem alikeTrees_symm {t u : Node} (h : AlikeTrees env dv M t u) : AlikeTrees env dv M u t := by
  obtain ⟨a, b, ha, hb, hdec, hab, hdesc, hal⟩ := h.roots
  refine ⟨b, a, hb, ha, hdec.symm, hab.symm, ?_, ?_⟩
  · intro n hn
    rcases List.mem_append.1 hn with hn | hn
    · exact hdesc n (List.mem_append_right _ hn)
    · exact hdesc n (List.mem_append_left _ hn)
  · rw [← hdec]
    exact alikeDocs_symm hal

end Xmp.Props
