import Mathlib.Tactic.Common
import Mathlib.Data.List.Forall2
import Mathlib.Data.List.Chain
import Verif.Model.MediaMgmt
import Verif.Lemmas.GoStr

/-! C50: the version history of a document and its resource references. -/

namespace Xmp.Props

open GoStr Media

variable {D : Type}

/-! ### Specification -/

/-- What an application does: give the document a new version or instance ID, or record a change. -/
inductive MMStep (D : Type) where
  | version (id : Str)
  | instance_ (id : Str)
  | change (action modifier changed : Str) (date : D)

/-- A recorded change, with the version and instance it was made to. -/
structure ChangeRec (D : Type) where
  version : Str
  instanceID : Str
  action : Str
  modifier : Str
  changed : Str
  date : D

/-- The changes in a list of steps, starting with the given IDs. -/
def changesOf : Str → Str → List (MMStep D) → List (ChangeRec D)
  | _, _, [] => []
  | _, i, .version v :: r => changesOf v i r
  | v, _, .instance_ i :: r => changesOf v i r
  | v, i, .change a m c d :: r => ⟨v, i, a, m, c, d⟩ :: changesOf v i r

/-- The effect of a step on the model. -/
def MMStep.run (agent : Str) (x : XmpMM D) : MMStep D → XmpMM D
  | .version id => { x with versionID := id }
  | .instance_ id => { x with instanceID := id }
  | .change a m c d => x.appendVersionHistory agent a m c d

/-- A version entry describes a non-empty run of changes to one version: its data are those of the first change, its parts
are those of all changes, in order. -/
structure Describes (agent : Str) (v : StVersion D) (g : List (ChangeRec D)) : Prop where
  same : ∀ r ∈ g, r.version = v.version
  first : ∃ r rest, g = r :: rest ∧ v.event.action = r.action ∧ v.event.instanceID = r.instanceID ∧
    v.event.agent = agent ∧ v.event.at_ = r.date ∧ v.modifier = r.modifier ∧ v.modifyDate = r.date
  parts : v.event.changed.map (fun p => slashed p.path) = g.map (fun r => slashed r.changed)

/-- Entries describe the runs of a list of changes: nothing is left out, and neighbours are of different versions. -/
def DescribesRuns (agent : Str) (vs : List (StVersion D)) (log : List (ChangeRec D)) : Prop :=
  ∃ groups : List (List (ChangeRec D)), groups.flatten = log ∧ List.Forall₂ (Describes agent) vs groups ∧
    vs.IsChain (fun a b => a.version ≠ b.version)

/-! ### Helper lemmas -/

theorem slashed_slashed (s : Str) : slashed (slashed s) = slashed s := by
  unfold slashed
  by_cases h : hasPrefix s ['/'] = true
  · simp [h]
  · simp only [h, Bool.false_eq_true, if_false]
    simp [hasPrefix]

theorem lastVersion_nil {x : XmpMM D} (h : x.versions = []) : x.lastVersion = none := by
  unfold XmpMM.lastVersion; simp [h]

theorem lastVersion_concat {x : XmpMM D} {vs : List (StVersion D)} {v : StVersion D} (h : x.versions = vs ++ [v]) :
    x.lastVersion = some v := by
  unfold XmpMM.lastVersion
  simp [h]

theorem modify_last {α : Type} (l : List α) (a : α) (f : α → α) : (l ++ [a]).modify ((l ++ [a]).length - 1) f = l ++ [f a] := by
  induction l with
  | nil => rfl
  | cons b l ih => 
    have : (b :: l ++ [a]).length - 1 = ((l ++ [a]).length - 1) + 1 := by simp
    rw [this, List.cons_append, List.modify_succ_cons, ih]
    rfl

theorem describes_fresh (agent : Str) (x : XmpMM D) (a m c : Str) (d : D) :
    Describes agent ⟨[], ⟨a, newPartList c, x.instanceID, agent, d⟩, m, d, x.versionID⟩ [⟨x.versionID, x.instanceID, a, m, c, d⟩] := by
  refine ⟨by simp, ⟨_, [], rfl, rfl, rfl, rfl, rfl, rfl, rfl⟩, ?_⟩
  simp [newPartList, slashed_slashed]

theorem forall2_concat {α β : Type} {R : α → β → Prop} {l : List α} {m : List β} {a : α} {b : β} (h : List.Forall₂ R l m)
    (hab : R a b) : List.Forall₂ R (l ++ [a]) (m ++ [b]) := by
  induction h with
  | nil => exact .cons hab .nil
  | cons h1 _ ih => exact .cons h1 ih

theorem forall2_concat_inv {α β : Type} {R : α → β → Prop} {l : List α} {m : List β} {a : α} (h : List.Forall₂ R (l ++ [a]) m) :
    ∃ m' b, m = m' ++ [b] ∧ List.Forall₂ R l m' ∧ R a b := by
  induction l generalizing m with
  | nil =>
    cases h with
    | cons h1 h2 => cases h2; exact ⟨[], _, rfl, .nil, h1⟩
  | cons x xs ih =>
    cases h with
    | cons h1 h2 =>
      obtain ⟨m', b, rfl, h3, h4⟩ := ih h2
      exact ⟨_ :: m', b, rfl, .cons h1 h3, h4⟩

/-- One recorded change. -/
theorem change_step {agent : Str} {x : XmpMM D} {log : List (ChangeRec D)} (h : DescribesRuns agent x.versions log)
    (a m c : Str) (d : D) :
    DescribesRuns agent (x.appendVersionHistory agent a m c d).versions
      (log ++ [⟨x.versionID, x.instanceID, a, m, c, d⟩]) := by
  obtain ⟨groups, hg, h2, hc⟩ := h
  have hfresh := describes_fresh agent x a m c d
  rcases List.eq_nil_or_concat x.versions with e | ⟨vs, v, e⟩
  · unfold XmpMM.appendVersionHistory
    rw [lastVersion_nil e]
    rw [e] at h2
    cases h2
    simp only [List.flatten_nil] at hg
    subst hg
    refine ⟨[[⟨x.versionID, x.instanceID, a, m, c, d⟩]], by simp, ?_, ?_⟩
    · simp only [XmpMM.addVersion, e, List.nil_append]
      exact .cons hfresh .nil
    · simp [XmpMM.addVersion, e]
  · rw [List.concat_eq_append] at e
    unfold XmpMM.appendVersionHistory
    rw [lastVersion_concat e]
    dsimp only
    by_cases hv : v.version ≠ x.versionID
    · rw [if_pos hv]
      refine ⟨groups ++ [[⟨x.versionID, x.instanceID, a, m, c, d⟩]], by simp [hg], forall2_concat h2 hfresh, ?_⟩
      simp only [XmpMM.addVersion]
      rw [List.isChain_append]
      refine ⟨hc, by simp, ?_⟩
      intro y hy z hz
      rw [e] at hy
      simp only [List.getLast?_append, List.getLast?_singleton, Option.or_some, Option.some_or, Option.mem_def,
        Option.some.injEq, List.head?_cons] at hy hz
      subst hy hz
      exact hv
    · rw [if_neg hv]
      simp only [ne_eq, not_not] at hv
      rw [e] at h2
      obtain ⟨gs, g, rfl, h3, h4⟩ := forall2_concat_inv h2
      dsimp only
      rw [e, modify_last]
      refine ⟨gs ++ [g ++ [⟨x.versionID, x.instanceID, a, m, c, d⟩]], ?_, forall2_concat h3 ?_, ?_⟩
      · rw [← hg]; simp
      · obtain ⟨s1, ⟨r, rest, rfl, s2⟩, s3⟩ := h4
        refine ⟨?_, ⟨r, rest ++ [⟨x.versionID, x.instanceID, a, m, c, d⟩], by simp, s2⟩, ?_⟩
        · intro r' hr'
          rcases List.mem_append.mp hr' with hr' | hr'
          · exact s1 r' hr'
          · simp only [List.mem_singleton] at hr'; subst hr'; exact hv.symm
        · simp only [partListAdd, List.map_append, s3]; rfl
      · rw [e] at hc
        rw [List.isChain_append] at hc ⊢
        refine ⟨hc.1, by simp, ?_⟩
        intro y hy z hz
        simp only [List.head?_cons, Option.mem_def, Option.some.injEq] at hz
        subst hz
        exact hc.2.2 y hy v (by simp)

theorem run_versionID (agent : Str) (x : XmpMM D) (a m c : Str) (d : D) :
    (x.appendVersionHistory agent a m c d).versionID = x.versionID ∧
    (x.appendVersionHistory agent a m c d).instanceID = x.instanceID := by
  unfold XmpMM.appendVersionHistory
  dsimp only
  split
  · exact ⟨rfl, rfl⟩
  · split <;> exact ⟨rfl, rfl⟩

/-! ### Theorems -/

/-- C50: whatever an application does, the version list has one entry for each run of changes to the same version, in the
order of the changes; no change is missing, and neighbouring entries are of different versions. -/
theorem versions_describe_changes (agent : Str) (x : XmpMM D) (hx : x.versions = []) (steps : List (MMStep D)) :
    DescribesRuns agent (steps.foldl (MMStep.run agent) x).versions (changesOf x.versionID x.instanceID steps) := by
  have key : ∀ (steps : List (MMStep D)) (x : XmpMM D) (log : List (ChangeRec D)), DescribesRuns agent x.versions log →
      DescribesRuns agent (steps.foldl (MMStep.run agent) x).versions (log ++ changesOf x.versionID x.instanceID steps) := by
    intro steps
    induction steps with
    | nil => intro x log h; simpa [changesOf] using h
    | cons s steps ih =>
      intro x log h
      rw [List.foldl_cons]
      cases s with
      | version id => exact ih { x with versionID := id } log h
      | instance_ id => exact ih { x with instanceID := id } log h
      | change a m c d =>
        have h1 := ih _ _ (change_step h a m c d)
        rw [(run_versionID agent x a m c d).1, (run_versionID agent x a m c d).2] at h1
        simpa [MMStep.run, changesOf] using h1
  have := key steps x [] ⟨[], rfl, by rw [hx]; exact .nil, by rw [hx]; exact .nil⟩
  simpa using this

/-- An example with three versions, the first changed twice. -/
example : ((([.version "1".toList, .change "edited".toList "me".toList "a".toList 1, .change "saved".toList "you".toList "/b".toList 2,
      .version "2".toList, .change "edited".toList "me".toList "c".toList 3] : List (MMStep Nat)).foldl (MMStep.run []) {}).versions.map
    (fun v => (v.version, v.event.changed.map (·.path)))) =
    [("1".toList, ["/a".toList, "/b".toList]), ("2".toList, ["/c".toList])] := by decide

/-- C50: after a change the last version is the version of the document. -/
theorem last_version_current (agent : Str) (x : XmpMM D) (a m c : Str) (d : D) :
    (x.appendVersionHistory agent a m c d).lastVersionId = x.versionID := by
  unfold XmpMM.lastVersionId
  rcases List.eq_nil_or_concat x.versions with e | ⟨vs, v, e⟩
  · unfold XmpMM.appendVersionHistory
    rw [lastVersion_nil e]
    dsimp only
    rw [lastVersion_concat (x := XmpMM.addVersion _ _) (vs := x.versions) rfl]
  · rw [List.concat_eq_append] at e
    unfold XmpMM.appendVersionHistory
    rw [lastVersion_concat e]
    dsimp only
    by_cases hv : v.version ≠ x.versionID
    · rw [if_pos hv, lastVersion_concat (x := XmpMM.addVersion _ _) (vs := x.versions) rfl]
    · rw [if_neg hv]
      simp only [ne_eq, not_not] at hv
      rw [lastVersion_concat (vs := vs) (by dsimp only; rw [e, modify_last])]
      exact hv

/-- C50, finding: modifier, action and date of all but the first change to a version are lost. -/
theorem later_modifier_lost (agent : Str) (x : XmpMM D) (a m c : Str) (d : D) (v : StVersion D)
    (hl : x.lastVersion = some v) (hv : v.version = x.versionID) (a' m' : Str) (d' : D) :
    x.appendVersionHistory agent a m c d = x.appendVersionHistory agent a' m' c d' := by
  unfold XmpMM.appendVersionHistory
  simp only [hl, hv, ne_eq, not_true_eq_false, if_false]

/-- C50, finding: `SetPreviousVersionId` does not set what `GetPreviousVersionId` reads, but the last version. -/
theorem set_previous_sets_last (x : XmpMM D) (s : Str) :
    (x.setPreviousVersionId s).previousVersionId = x.previousVersionId ∧
    (x.versions ≠ [] → (x.setPreviousVersionId s).lastVersionId = s) := by
  rcases List.eq_nil_or_concat x.versions with e | ⟨vs, v, e⟩
  · unfold XmpMM.setPreviousVersionId; simp [e]
  · rw [List.concat_eq_append] at e
    have hs : x.setPreviousVersionId s = { x with versions := vs ++ [{ v with version := s }] } := by
      unfold XmpMM.setPreviousVersionId
      rw [if_pos (by simp [e])]
      rw [e, modify_last]
    rw [hs]
    constructor
    · unfold XmpMM.previousVersionId XmpMM.previousVersion
      dsimp only
      rw [e]
      simp only [List.length_append, List.length_singleton]
      by_cases h : vs.length + 1 > 1
      · rw [if_pos h, if_pos h, List.getElem?_append_left (by omega), List.getElem?_append_left (by omega)]
      · rw [if_neg h, if_neg h]
    · intro _
      unfold XmpMM.lastVersionId
      rw [lastVersion_concat (vs := vs) rfl]

example : (XmpMM.setPreviousVersionId { versions := [⟨[], ⟨[], [], [], [], 1⟩, [], 1, "1".toList⟩, ⟨[], ⟨[], [], [], [], 2⟩, [], 2, "2".toList⟩] }
    "x".toList).versions.map (·.version) = ["1".toList, "x".toList] := by decide
example : (XmpMM.lastVersion (D := Nat) { versionID := "1".toList, versions := [⟨[], ⟨[], [], [], [], 1⟩, [], 1, "1".toList⟩] }).map (·.version)
    = some "1".toList := rfl

/-- C50: a reference to the document itself has its IDs, the given version, and the time of the last event of its
history. -/
theorem self_ref (x : XmpMM D) (version : Str) :
    (x.selfRef version).documentID = x.documentID ∧ (x.selfRef version).instanceID = x.instanceID ∧
    (x.selfRef version).originalDocumentID = x.originalDocumentID ∧ (x.selfRef version).versionID = version ∧
    (x.selfRef version).lastModifyDate = x.history.getLast?.map (·.at_) := by
  refine ⟨rfl, rfl, rfl, rfl, ?_⟩
  unfold XmpMM.selfRef XmpMM.lastEvent
  dsimp only
  rw [List.getLast?_eq_getElem?]
  by_cases h : x.history.length > 0
  · rw [if_pos h]
  · have : x.history = [] := by simpa using h
    simp [this]

example : (XmpMM.selfRef { documentID := "d".toList, history := [⟨[], [], [], [], 4⟩, ⟨[], [], [], [], 7⟩] } "2".toList).lastModifyDate
    = some 7 := rfl

/-- C50: deleting the reference found for a document keeps all others in order; if each document has one reference, there is
none left for it. -/
theorem delete_found_ref (x : List (ResourceRef D)) (did : Str) (i : Nat) (h : refIndex x did = some i) :
    ∃ p r q, x = p ++ r :: q ∧ r.documentID = did ∧ (∀ v ∈ p, v.documentID ≠ did) ∧ refDeleteIndex x i = .ok (p ++ q) ∧
      ((x.map (·.documentID)).Nodup → refIndex (p ++ q) did = none) := by
  unfold refIndex at h
  rw [List.findIdx?_eq_some_iff_getElem] at h
  obtain ⟨hi, h1, h2⟩ := h
  have hx : x = x.take i ++ x[i] :: x.drop (i + 1) := by simp
  have hr : x[i].documentID = did := by simpa using h1
  have hp : ∀ v ∈ x.take i, v.documentID ≠ did := by
    intro v hv
    obtain ⟨j, hj, rfl⟩ := List.getElem_of_mem hv
    have hj' : j < i := by simp at hj; omega
    simpa using h2 j hj'
  refine ⟨x.take i, x[i], x.drop (i + 1), hx, hr, hp, ?_, ?_⟩
  · unfold refDeleteIndex
    rw [if_neg (by omega)]
    simp only [Int.toNat_natCast]
    rw [if_neg (by omega)]
  · intro hnd
    unfold refIndex
    rw [List.findIdx?_eq_none_iff]
    intro v hv
    simp only [decide_eq_false_iff_not]
    rcases List.mem_append.mp hv with hv | hv
    · exact hp v hv
    · intro e
      rw [hx, List.map_append, List.map_cons, List.nodup_append, List.nodup_cons] at hnd
      exact hnd.2.1.1 (List.mem_map.mpr ⟨v, hv, by rw [e, hr]⟩)

example : refIndex [(⟨[], "a".toList, [], none, [], []⟩ : ResourceRef Nat), ⟨[], "b".toList, [], none, [], []⟩] "b".toList = some 1 := by
  decide

/-- C50, finding: deleting the index just behind the last reference panics; other indexes out of range are ignored. -/
theorem delete_index_panics (x : List (ResourceRef D)) (i : Int) :
    (refDeleteIndex x i = .panic ↔ i = x.length) ∧ ((i < 0 ∨ i > x.length) → refDeleteIndex x i = .ok x) := by
  unfold refDeleteIndex
  constructor
  · constructor
    · intro h
      split at h
      · cases h
      · split at h
        · omega
        · cases h
    · rintro rfl
      rw [if_neg (by omega), if_pos (by simp)]
  · intro h; rw [if_pos h]

example : refDeleteIndex ([] : List (ResourceRef Nat)) 0 = .panic := rfl

end Xmp.Props
