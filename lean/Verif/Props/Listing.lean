import Verif.Model.Path
import Verif.Lemmas.GoStr

/-! Properties C07 (`Unique` listings) and C08 (`Diff`). -/

namespace Xmp.Props

open GoStr PathValueList

/-! ### C07 -/

/-- What `sort.Sort(byPath(l))` guarantees: no later element has a smaller path. -/
def Sorted (l : PathValueList) : Prop := l.Pairwise fun a b => less b a = false

theorem uniqueFrom_spec (last : Path) (l : PathValueList) (hs : Sorted l)
    (hl : ∀ v ∈ l, ¬ v.path < last) :
    List.Sublist (uniqueFrom last l) l ∧
    (uniqueFrom last l).Pairwise (fun a b => a.path < b.path) ∧
    (∀ w ∈ uniqueFrom last l, last < w.path) ∧
    (∀ v ∈ l, v.path ≠ last → ∃ w ∈ uniqueFrom last l, w.path = v.path) ∧
    (∀ w ∈ uniqueFrom last l, l.find? (fun v => v.path = w.path) = some w) := by
  induction l generalizing last with
  | nil => simp [uniqueFrom]
  | cons v vs ih =>
    have hv : ∀ w ∈ vs, ¬ w.path < v.path := by
      intro w hw
      have := (List.pairwise_cons.1 hs).1 w hw
      simpa [less] using this
    have hs' : Sorted vs := (List.pairwise_cons.1 hs).2
    by_cases h : last = v.path
    · subst h
      obtain ⟨a, b, c, d, e⟩ := ih v.path hs' hv
      simp only [uniqueFrom, ne_eq, not_true, if_false]
      refine ⟨a.trans (List.sublist_cons_self _ _), b, c, ?_, ?_⟩
      · intro w hw hne
        rcases List.mem_cons.1 hw with rfl | hw
        · exact absurd rfl hne
        · exact d w hw hne
      · intro w hw
        have hlt := c w hw
        rw [List.find?_cons_of_neg, e w hw]
        simp only [decide_eq_true_eq]
        intro hh
        rw [hh] at hlt
        exact List.lt_irrefl _ hlt
    · obtain ⟨a, b, c, d, e⟩ := ih v.path hs' hv
      have hlast : last < v.path := by
        have h1 := hl v (by simp)
        have h2 : last ≤ v.path := h1
        rcases List.le_iff_lt_or_eq.1 h2 with h3 | h3
        · exact h3
        · exact absurd h3 h
      simp only [uniqueFrom, ne_eq, h, not_false_iff, if_true]
      refine ⟨a.cons_cons _, ?_, ?_, ?_, ?_⟩
      · exact List.pairwise_cons.2 ⟨fun w hw => c w hw, b⟩
      · intro w hw
        rcases List.mem_cons.1 hw with rfl | hw
        · exact hlast
        · exact List.lt_trans hlast (c w hw)
      · intro w hw hne
        by_cases hwv : w.path = v.path
        · exact ⟨v, by simp, hwv.symm⟩
        · rcases List.mem_cons.1 hw with rfl | hw
          · exact absurd rfl hwv
          · obtain ⟨u, hu, hu'⟩ := d w hw hwv
            exact ⟨u, by simp [hu], hu'⟩
      · intro w hw
        rcases List.mem_cons.1 hw with rfl | hw
        · simp
        · have hlt := c w hw
          rw [List.find?_cons_of_neg, e w hw]
          simp only [decide_eq_true_eq]
          intro hh
          rw [hh] at hlt
          exact List.lt_irrefl _ hlt

/-- C07: `ListPaths` ends with an (unstable) sort by path followed by `Unique`.  For any raw
listing `raw` and any result `l` such a sort may give, the final listing is strictly increasing by
path (so no path occurs twice), lists exactly the non-empty paths of the raw listing, and each entry
is one of the raw entries, namely the first for its path in the sorted list. -/
theorem listing_unique (raw l : PathValueList) (hp : l.Perm raw) (hs : Sorted l) :
    (unique l).Pairwise (fun a b => a.path < b.path) ∧
    (∀ p : Path, (∃ w ∈ unique l, w.path = p) ↔ p ≠ [] ∧ ∃ v ∈ raw, v.path = p) ∧
    (∀ w ∈ unique l, w ∈ raw ∧ l.find? (fun v => v.path = w.path) = some w) := by
  obtain ⟨a, b, c, d, e⟩ := uniqueFrom_spec [] l hs (fun v _ h => by simp at h)
  refine ⟨b, ?_, fun w hw => ⟨hp.mem_iff.1 (a.subset hw), e w hw⟩⟩
  intro p
  constructor
  · rintro ⟨w, hw, rfl⟩
    refine ⟨?_, w, hp.mem_iff.1 (a.subset hw), rfl⟩
    intro h
    have := c w hw
    rw [h] at this
    exact List.lt_irrefl _ this
  · rintro ⟨hne, v, hv, rfl⟩
    exact d v (hp.mem_iff.2 hv) hne

/-- No path is listed twice. -/
theorem listing_nodup (l : PathValueList) (hs : Sorted l) : ((unique l).map (·.path)).Nodup := by
  have h := (listing_unique l l (List.Perm.refl _) hs).1
  rw [List.nodup_iff_pairwise_ne, List.pairwise_map]
  exact h.imp fun {a b} hab he => by rw [he] at hab; exact List.lt_irrefl _ hab

private def exList : PathValueList :=
  [⟨"dc:a".toList, [], "1".toList, 0⟩, ⟨"dc:a".toList, [], "2".toList, 0⟩, ⟨"dc:b".toList, [], "3".toList, 0⟩]

example : Sorted exList ∧ (unique exList).map (·.value) = ["1".toList, "3".toList] := by
  constructor
  · unfold Sorted; decide
  · decide

/-- `Unique` changes nothing on a listing it has already produced. -/
theorem unique_idem (l : PathValueList) (hs : Sorted l) : unique (unique l) = unique l := by
  have h := listing_unique l l (List.Perm.refl _) hs
  have key : ∀ (l : PathValueList) (last : Path), l.Pairwise (fun a b => a.path < b.path) →
      (∀ w ∈ l, last < w.path) → uniqueFrom last l = l := by
    intro l
    induction l with
    | nil => intros; rfl
    | cons v vs ih =>
      intro last hp hl
      have : last ≠ v.path := by
        intro e
        have := hl v (by simp)
        rw [e] at this
        exact List.lt_irrefl _ this
      simp only [uniqueFrom, ne_eq, this, not_false_iff, if_true]
      rw [ih v.path (List.pairwise_cons.1 hp).2 (fun w hw => (List.pairwise_cons.1 hp).1 w hw)]
  refine key _ _ h.1 ?_
  intro w hw
  have := ((h.2.1 w.path).1 ⟨w, hw, rfl⟩).1
  cases hc : w.path with
  | nil => exact absurd hc this
  | cons c cs => simp

example : Sorted exList := by unfold Sorted; decide

/-- C07, why the sort matters: without it a path may be listed twice. -/
theorem unique_needs_sort : ∃ l : PathValueList, ¬ ((unique l).map (·.path)).Nodup :=
  ⟨[⟨"a:x".toList, [], "1".toList, 0⟩, ⟨"a:y".toList, [], "1".toList, 0⟩, ⟨"a:x".toList, [], "1".toList, 0⟩],
    by decide⟩

/-! ### C08 -/

/-- The value listed for a path (the first one). -/
def valueAt (l : PathValueList) (p : Path) : Option Str :=
  (l.find? (fun v => v.path = p)).map (·.value)

/-- A listing as produced by `ListPaths`: each path once, no empty value. -/
def Listing (l : PathValueList) : Prop := (l.map (·.path)).Nodup ∧ ∀ v ∈ l, v.value ≠ []

theorem diffOld_eq (y acc xs : PathValueList) (hx : ∀ v ∈ xs, v.value ≠ []) :
    diffOld y acc xs = acc ++ xs.filterMap fun xv =>
      match find y xv.path with
      | none => some ⟨xv.path, [], xv.value, SyncFlags.DELETE⟩
      | some yv => if yv.value ≠ xv.value then some ⟨xv.path, [], xv.value, SyncFlags.REPLACE⟩ else none := by
  induction xs generalizing acc with
  | nil => simp [diffOld]
  | cons v vs ih =>
    have hv := hx v (by simp)
    have ih := fun acc => ih acc (fun w hw => hx w (by simp [hw]))
    cases h : find y v.path with
    | none => simp [diffOld, h, ih, addFlags, hv]
    | some yv =>
      by_cases hh : yv.value = v.value
      · simp [diffOld, h, ih, hh]
      · simp [diffOld, h, ih, addFlags, hv, hh]

theorem diffNew_eq (x acc ys : PathValueList) (hy : ∀ v ∈ ys, v.value ≠ []) :
    diffNew x acc ys = acc ++ ys.filterMap fun yv =>
      match find x yv.path with
      | none => some ⟨yv.path, [], yv.value, SyncFlags.CREATE⟩
      | some _ => none := by
  induction ys generalizing acc with
  | nil => simp [diffNew]
  | cons v vs ih =>
    have hv := hy v (by simp)
    have ih := fun acc => ih acc (fun w hw => hy w (by simp [hw]))
    cases h : find x v.path with
    | none => simp [diffNew, h, ih, addFlags, hv]
    | some yv => simp [diffNew, h, ih]

theorem find_of_mem {l : PathValueList} (h : (l.map (·.path)).Nodup) {v : PathValue} (hv : v ∈ l) :
    l.find? (fun w => w.path = v.path) = some v := by
  induction l with
  | nil => simp at hv
  | cons a t ih =>
    simp only [List.map_cons, List.nodup_cons] at h
    rcases List.mem_cons.1 hv with rfl | hv
    · simp
    · rw [List.find?_cons_of_neg, ih h.2 hv]
      simp only [decide_eq_true_eq]
      intro e
      exact h.1 (e ▸ List.mem_map_of_mem hv)

theorem valueAt_some {l : PathValueList} (h : (l.map (·.path)).Nodup) (p : Path) (s : Str) :
    valueAt l p = some s ↔ ∃ v ∈ l, v.path = p ∧ v.value = s := by
  constructor
  · intro hh
    unfold valueAt at hh
    rw [Option.map_eq_some_iff] at hh
    obtain ⟨v, hv, rfl⟩ := hh
    exact ⟨v, List.mem_of_find?_eq_some hv, by simpa using List.find?_some hv, rfl⟩
  · rintro ⟨v, hv, rfl, rfl⟩
    simp [valueAt, find_of_mem h hv]

theorem valueAt_none {l : PathValueList} (p : Path) : valueAt l p = none ↔ ∀ v ∈ l, v.path ≠ p := by
  simp [valueAt]

/-- Specification of one difference entry between the listings `x` (old) and `y` (new): the entry
for a path, if there is one, in terms of the values only. -/
def diffSpec (old new : Option Str) : Option (SyncFlags × Str) :=
  match old, new with
  | none, none => none
  | none, some v => some (SyncFlags.CREATE, v)
  | some v, none => some (SyncFlags.DELETE, v)
  | some v, some w => if v = w then none else some (SyncFlags.REPLACE, v)

/-- C08 (partial: only when both listings are non-empty, see `diff_from_empty_unflagged` for why the
full statement is false): the difference holds exactly one entry for each path whose value differs,
flagged CREATE, DELETE or REPLACE, and none for the others. -/
theorem diff_exact_partial (x y : PathValueList) (hx : Listing x) (hy : Listing y) (hx0 : x ≠ []) (hy0 : y ≠ []) :
    (∀ p f v, (∃ e ∈ diff x y, e.path = p ∧ e.flags = f ∧ e.value = v) ↔
      diffSpec (valueAt x p) (valueAt y p) = some (f, v)) ∧
    ((diff x y).map (·.path)).Nodup := by
  have hlx : x.length ≠ 0 := fun h => hx0 (List.length_eq_zero_iff.1 h)
  have hly : y.length ≠ 0 := fun h => hy0 (List.length_eq_zero_iff.1 h)
  have hd : diff x y = diffNew x (diffOld y [] x) y := by simp [diff, hlx, hly]
  rw [hd, diffOld_eq y [] x hx.2, diffNew_eq x _ y hy.2]
  constructor
  · intro p f v
    simp only [List.nil_append, List.mem_append, List.mem_filterMap]
    constructor
    · rintro ⟨e, (⟨xv, hxv, he⟩ | ⟨yv, hyv, he⟩), rfl, rfl, rfl⟩
      · have hvx : valueAt x xv.path = some xv.value := (valueAt_some hx.1 _ _).2 ⟨xv, hxv, rfl, rfl⟩
        cases hf : find y xv.path with
        | none =>
          simp only [hf, Option.some.injEq] at he
          subst he
          have : valueAt y xv.path = none := by
            unfold find at hf; simp [valueAt, hf]
          simp [diffSpec, hvx, this]
        | some yv =>
          simp only [hf] at he
          split at he
          · rename_i hne
            simp only [Option.some.injEq] at he
            subst he
            have : valueAt y xv.path = some yv.value := by
              unfold find at hf; simp [valueAt, hf]
            simp [diffSpec, hvx, this, Ne.symm hne]
          · simp at he
      · have hvy : valueAt y yv.path = some yv.value := (valueAt_some hy.1 _ _).2 ⟨yv, hyv, rfl, rfl⟩
        cases hf : find x yv.path with
        | none =>
          simp only [hf, Option.some.injEq] at he
          subst he
          have : valueAt x yv.path = none := by
            unfold find at hf; simp [valueAt, hf]
          simp [diffSpec, hvy, this]
        | some xv => simp [hf] at he
    · intro h
      unfold diffSpec at h
      cases hvx : valueAt x p with
      | none =>
        cases hvy : valueAt y p with
        | none => simp [hvx, hvy] at h
        | some w =>
          simp only [hvx, hvy, Option.some.injEq, Prod.mk.injEq] at h
          obtain ⟨rfl, rfl⟩ := h
          obtain ⟨yv, hyv, rfl, rfl⟩ := (valueAt_some hy.1 _ _).1 hvy
          refine ⟨⟨yv.path, [], yv.value, SyncFlags.CREATE⟩, Or.inr ⟨yv, hyv, ?_⟩, rfl, rfl, rfl⟩
          have : find x yv.path = none := by
            unfold find; unfold valueAt at hvx; simpa using hvx
          simp [this]
      | some u =>
        obtain ⟨xv, hxv, rfl, rfl⟩ := (valueAt_some hx.1 _ _).1 hvx
        cases hvy : valueAt y xv.path with
        | none =>
          simp only [hvx, hvy, Option.some.injEq, Prod.mk.injEq] at h
          obtain ⟨rfl, rfl⟩ := h
          refine ⟨⟨xv.path, [], xv.value, SyncFlags.DELETE⟩, Or.inl ⟨xv, hxv, ?_⟩, rfl, rfl, rfl⟩
          have : find y xv.path = none := by
            unfold find; unfold valueAt at hvy; simpa using hvy
          simp [this]
        | some w =>
          simp only [hvx, hvy] at h
          split at h
          · simp at h
          · rename_i hne
            simp only [Option.some.injEq, Prod.mk.injEq] at h
            obtain ⟨rfl, rfl⟩ := h
            obtain ⟨yv, hyv, hyp, rfl⟩ := (valueAt_some hy.1 _ _).1 hvy
            refine ⟨⟨xv.path, [], xv.value, SyncFlags.REPLACE⟩, Or.inl ⟨xv, hxv, ?_⟩, rfl, rfl, rfl⟩
            have : find y xv.path = some yv := by
              unfold find; rw [← hyp]; exact find_of_mem hy.1 hyv
            simp [this, Ne.symm hne]
  · rw [List.nil_append, List.map_append, List.nodup_append]
    have sub : ∀ (l : PathValueList) (g : PathValue → Option PathValue),
        (∀ v w, g v = some w → w.path = v.path) →
        List.Sublist ((l.filterMap g).map (·.path)) (l.map (·.path)) := by
      intro l g hg
      induction l with
      | nil => simp
      | cons a t ih =>
        cases h : g a with
        | none => simp only [List.filterMap_cons, h, List.map_cons]; exact ih.trans (List.sublist_cons_self _ _)
        | some b =>
          simp only [List.filterMap_cons, h, List.map_cons, hg a b h]
          exact ih.cons_cons _
    refine ⟨(sub x _ ?_).nodup hx.1, (sub y _ ?_).nodup hy.1, ?_⟩
    · intro v w h
      split at h
      · simp only [Option.some.injEq] at h; rw [← h]
      · split at h
        · simp only [Option.some.injEq] at h; rw [← h]
        · simp at h
    · intro v w h
      split at h
      · simp only [Option.some.injEq] at h; rw [← h]
      · simp at h
    · intro a ha b hb hab
      subst hab
      simp only [List.mem_map, List.mem_filterMap] at ha hb
      obtain ⟨e, ⟨xv, hxv, he⟩, rfl⟩ := ha
      obtain ⟨e', ⟨yv, hyv, he'⟩, hpe⟩ := hb
      have h1 : e.path = xv.path := by
        split at he
        · simp only [Option.some.injEq] at he; rw [← he]
        · split at he
          · simp only [Option.some.injEq] at he; rw [← he]
          · simp at he
      cases hf : find x yv.path with
      | some _ => simp [hf] at he'
      | none =>
        simp only [hf, Option.some.injEq] at he'
        subst he'
        unfold find at hf
        rw [List.find?_eq_none] at hf
        have := hf xv hxv
        simp only [decide_eq_true_eq] at this
        exact this (h1.symm.trans hpe.symm)

private def exOld : PathValueList :=
  [⟨"dc:a".toList, [], "1".toList, 0⟩, ⟨"dc:b".toList, [], "2".toList, 0⟩, ⟨"dc:c".toList, [], "3".toList, 0⟩]
private def exNew : PathValueList :=
  [⟨"dc:b".toList, [], "2".toList, 0⟩, ⟨"dc:c".toList, [], "4".toList, 0⟩, ⟨"dc:d".toList, [], "5".toList, 0⟩]

example : Listing exOld ∧ Listing exNew ∧ exOld ≠ [] ∧ exNew ≠ [] ∧
    (diff exOld exNew).map (fun e => (e.path, e.flags)) =
      [("dc:a".toList, SyncFlags.DELETE), ("dc:c".toList, SyncFlags.REPLACE), ("dc:d".toList, SyncFlags.CREATE)] := by
  refine ⟨⟨by decide, by decide⟩, ⟨by decide, by decide⟩, by decide, by decide, by decide⟩

/-- C08: a listing does not differ from itself, nor from any listing with the same values. -/
theorem diff_same (x y : PathValueList) (hx : Listing x) (hy : Listing y) (h : ∀ p, valueAt x p = valueAt y p) :
    diff x y = [] := by
  by_cases hx0 : x = []
  · subst hx0
    cases y with
    | nil => rfl
    | cons v vs =>
      have := h v.path
      simp [valueAt] at this
  · have hy0 : y ≠ [] := by
      rintro rfl
      cases x with
      | nil => exact hx0 rfl
      | cons v vs => have := h v.path; simp [valueAt] at this
    have hd := (diff_exact_partial x y hx hy hx0 hy0).1
    apply List.eq_nil_iff_forall_not_mem.2
    intro e he
    have := (hd e.path e.flags e.value).1 ⟨e, he, rfl, rfl, rfl⟩
    rw [h] at this
    unfold diffSpec at this
    cases hv : valueAt y e.path <;> simp [hv] at this

example : Listing exOld ∧ diff exOld exOld = [] := ⟨⟨by decide, by decide⟩, by decide⟩

/-- C08 finding: against an empty listing `Diff` returns the other listing as it is, with whatever
flags it carries (0 for the result of `ListPaths`) instead of CREATE or DELETE. -/
theorem diff_from_empty_unflagged (x : PathValueList) : diff [] x = x ∧ diff x [] = x := by
  constructor
  · simp [diff]
  · cases x <;> simp [diff]

/-- C08: the full statement (without the non-emptiness hypotheses) is false. -/
theorem diff_full_statement_false :
    ¬ ∀ x y : PathValueList, Listing x → Listing y → ∀ p f v,
      (∃ e ∈ diff x y, e.path = p ∧ e.flags = f ∧ e.value = v) ↔
        diffSpec (valueAt x p) (valueAt y p) = some (f, v) := by
  intro h
  have := (h [] [⟨"dc:a".toList, [], "1".toList, 0⟩] ⟨by decide, by decide⟩ ⟨by decide, by decide⟩
    "dc:a".toList 0 "1".toList).1 ⟨_, List.mem_singleton.2 rfl, rfl, rfl, rfl⟩
  revert this
  decide

end Xmp.Props
