import Verif.Model.TypeInfo
import Verif.Props.Semver
import Verif.Lemmas.GoStr
import Mathlib.Tactic.Common

/-! C44: struct tags.

Documented at xmp/typeinfo.go:221-226 and README: the text before the first comma is the name, options follow;
`v1.0`, `v1.0+`, `v1.0-` and `v1.0<1.2` restrict the versions for which a field is written. -/

namespace Xmp.Props

open GoStr

/-- A version text without the signs that separate versions. -/
def Bare (a : Str) : Prop := '+' ∉ a ∧ '-' ∉ a ∧ '<' ∉ a

/-- Specification of a version option (behind the `v`) and the bounds it stands for. -/
inductive VersionOpt : Str → Option Version → Option Version → Prop
  | exactly {a v} : Bare a → Reads a v → VersionOpt a (some v) (some v)
  | since {a v} : Bare a → Reads a v → VersionOpt (a ++ ['+']) (some v) none
  | upTo {a v} : Bare a → Reads a v → VersionOpt (a ++ ['-']) none (some v)
  | range {a b v w} : Bare a → Bare b → Reads a v → Reads b w → VersionOpt (a ++ '<' :: b) (some v) (some w)

theorem bare_ops {a : Str} (h : Bare a) : ∀ c ∈ a, isVersionOp c = false := by
  intro c hc
  cases e : isVersionOp c with
  | false => rfl
  | true =>
    exfalso
    simp only [isVersionOp, Bool.or_eq_true, decide_eq_true_eq] at e
    obtain ⟨h1, h2, h3⟩ := h
    rcases e with (e | e) | e
    · exact h1 (e ▸ hc)
    · exact h2 (e ▸ hc)
    · exact h3 (e ▸ hc)

theorem fieldsFuncAux_run {p : Char → Bool} {a : Str} (h : ∀ c ∈ a, p c = false) : ∀ (cur rest : Str),
    fieldsFuncAux p cur (a ++ rest) = fieldsFuncAux p (cur ++ a) rest := by
  induction a with
  | nil => intro cur rest; simp
  | cons x a ih =>
    intro cur rest
    simp only [List.cons_append, fieldsFuncAux]
    rw [h x (by simp)]
    simp only [Bool.false_eq_true, if_false]
    rw [ih (fun c hc => h c (by simp [hc]))]
    simp

theorem filter_bare {a : Str} (h : Bare a) : a.filter isVersionOp = [] := by
  rw [List.filter_eq_nil_iff]
  intro c hc
  rw [bare_ops h c hc]
  decide

theorem reads_ne_nil {a : Str} {v : Version} (h : Reads a v) : a ≠ [] := by
  intro e
  subst e
  have := (version_parse_iff [] v).2 h
  have hn : Version.parse [] = none := by decide
  rw [hn] at this
  cases this

theorem parseV_reads {a : Str} {v : Version} (h : Reads a v) : parseV a = .ok v := by
  unfold parseV
  rw [(version_parse_iff a v).2 h]

/-- C44: each documented form of a version option gives the documented bounds. -/
theorem version_option_documented {s : Str} {lo hi : Option Version} (h : VersionOpt s lo hi) :
    versionRange s = .ok (lo, hi) := by
  cases h with
  | exactly hb hr =>
    unfold versionRange lastOp
    rw [filter_bare hb]
    simp only [List.getLast?_nil]
    rw [parseV_reads hr]
  | @since a v hb hr =>
    have hf : fieldsFunc isVersionOp (a ++ ['+']) = [a] := by
      unfold fieldsFunc
      rw [fieldsFuncAux_run (bare_ops hb)]
      simp [fieldsFuncAux, isVersionOp, reads_ne_nil hr]
    have ho : lastOp (a ++ ['+']) = some '+' := by
      unfold lastOp
      rw [List.filter_append, filter_bare hb]
      rfl
    unfold versionRange
    rw [ho, hf]
    simp only
    rw [parseV_reads hr]
  | @upTo a v hb hr =>
    have hf : fieldsFunc isVersionOp (a ++ ['-']) = [a] := by
      unfold fieldsFunc
      rw [fieldsFuncAux_run (bare_ops hb)]
      simp [fieldsFuncAux, isVersionOp, reads_ne_nil hr]
    have ho : lastOp (a ++ ['-']) = some '-' := by
      unfold lastOp
      rw [List.filter_append, filter_bare hb]
      rfl
    unfold versionRange
    rw [ho, hf]
    simp only
    rw [parseV_reads hr]
  | @range a b v w hb hb' hr hr' =>
    have hf : fieldsFunc isVersionOp (a ++ '<' :: b) = [a, b] := by
      unfold fieldsFunc
      rw [fieldsFuncAux_run (bare_ops hb)]
      have : fieldsFuncAux isVersionOp [] b = [b] := by
        have := fieldsFuncAux_run (bare_ops hb') [] []
        rw [List.append_nil] at this
        rw [this]
        simp [fieldsFuncAux, reads_ne_nil hr']
      simp [fieldsFuncAux, isVersionOp, reads_ne_nil hr, this]
    have ho : lastOp (a ++ '<' :: b) = some '<' := by
      unfold lastOp
      rw [List.filter_append, filter_bare hb, List.filter_cons, filter_bare hb']
      rfl
    unfold versionRange
    rw [ho, hf]
    simp only
    rw [parseV_reads hr]
    simp only
    rw [parseV_reads hr']

/-- An option that is not a version. -/
def NoVersion (o : Str) : Prop := ∀ r, o ≠ 'v' :: r

theorem applyOption_plain {f : FInfo} {o : Str} (h : NoVersion o) : applyOption f o = .ok { f with
      attr := f.attr || o = "attr".toList, empty := f.empty || o = "empty".toList,
      omitted := f.omitted || o = "omit".toList, any := f.any || o = "any".toList,
      flat := f.flat || o = "flat".toList } := by
  have key : applyOption f o = .ok (setFlag f o) := by
    unfold applyOption
    split
    · exact absurd rfl (h _)
    · rfl
  rw [key]
  congr 1
  unfold setFlag
  by_cases h1 : o = "attr".toList
  · rw [if_pos h1]; subst h1; simp
  by_cases h2 : o = "empty".toList
  · rw [if_neg h1, if_pos h2]; subst h2; simp
  by_cases h3 : o = "omit".toList
  · rw [if_neg h1, if_neg h2, if_pos h3]; subst h3; simp
  by_cases h4 : o = "any".toList
  · rw [if_neg h1, if_neg h2, if_neg h3, if_pos h4]; subst h4; simp
  by_cases h5 : o = "flat".toList
  · rw [if_neg h1, if_neg h2, if_neg h3, if_neg h4, if_pos h5]; subst h5; simp
  · rw [if_neg h1, if_neg h2, if_neg h3, if_neg h4, if_neg h5]
    simp only [h1, h2, h3, h4, h5, decide_false, Bool.or_false]

theorem applyOptions_plain {os : List Str} (h : ∀ o ∈ os, NoVersion o) : ∀ (f : FInfo), applyOptions f os = .ok { f with
      attr := f.attr || "attr".toList ∈ os, empty := f.empty || "empty".toList ∈ os,
      omitted := f.omitted || "omit".toList ∈ os, any := f.any || "any".toList ∈ os,
      flat := f.flat || "flat".toList ∈ os } := by
  induction os with
  | nil => intro f; simp [applyOptions]
  | cons o os ih =>
    intro f
    rw [applyOptions, applyOption_plain (h o (by simp))]
    simp only
    rw [ih (fun o' ho => h o' (by simp [ho]))]
    simp only [List.mem_cons, Bool.or_assoc, Bool.decide_or, eq_comm (a := o)]

theorem applyOptions_append {os os' : List Str} : ∀ {f g : FInfo}, applyOptions f os = .ok g →
    applyOptions f (os ++ os') = applyOptions g os' := by
  induction os with
  | nil => intro f g h; simp only [applyOptions, Res.ok.injEq] at h; rw [h]; rfl
  | cons o os ih =>
    intro f g h
    rw [applyOptions] at h
    rw [List.cons_append, applyOptions]
    cases ho : applyOption f o with
    | ok f' => rw [ho] at h; exact ih h
    | err => rw [ho] at h; cases h
    | panic => rw [ho] at h; cases h

theorem setFlag_v (f : FInfo) (s : Str) : setFlag f ('v' :: s) = f := by
  unfold setFlag
  rw [if_neg (by intro h; injection h with h; revert h; decide),
    if_neg (by intro h; injection h with h; revert h; decide),
    if_neg (by intro h; injection h with h; revert h; decide),
    if_neg (by intro h; injection h with h; revert h; decide),
    if_neg (by intro h; injection h with h; revert h; decide)]

theorem applyOption_version {f : FInfo} {s : Str} {lo hi : Option Version} (h : versionRange s = .ok (lo, hi)) :
    applyOption f ('v' :: s) = .ok { f with minVersion := lo.getD f.minVersion, maxVersion := hi.getD f.maxVersion } := by
  show setVersion (setFlag f ('v' :: s)) (versionRange s) = _
  rw [h, setFlag_v]
  rfl

/-- What a tag says about a field: name, bounds and options. -/
def described (i : Nat) (f : GoField) (name : Str) (lo hi : Option Version) (opts : List Str) : FInfo :=
  ⟨[i], if name ≠ [] then name else f.name, bound lo, bound hi, decide ("attr".toList ∉ opts),
    decide ("attr".toList ∈ opts), decide ("empty".toList ∈ opts), decide ("omit".toList ∈ opts),
    decide ("any".toList ∈ opts), decide ("flat".toList ∈ opts), f.impls⟩

/-- C44: a tag without version option: the name is the text before the first comma or, if that is empty, the name of
the field; each option sets its flag; a field is an element unless it has the option `attr`; the versions are not
restricted. -/
theorem tag_plain {i : Nat} {f : GoField} {ns name : Str} {opts : List Str}
    (ht : f.tag ns = join [','] (name :: opts)) (hn : ',' ∉ name) (hc : ∀ o ∈ opts, ',' ∉ o)
    (hv : ∀ o ∈ opts, NoVersion o) : structFieldInfo i f ns = .ok (described i f name none none opts) := by
  unfold structFieldInfo
  have hs : split ',' (f.tag ns) = name :: opts := by
    rw [ht]
    apply split_join (by simp)
    intro s hs
    rcases List.mem_cons.1 hs with rfl | hs
    · exact hn
    · exact hc s hs
  simp only [hs, List.headD_cons]
  cases opts with
  | nil => simp [described, bound]
  | cons o os =>
    simp only
    rw [applyOptions_plain hv]
    simp [described, bound]

/-- C44: a tag with one version option among other options: as `tag_plain`, with the documented bounds. -/
theorem tag_version {i : Nat} {f : GoField} {ns name : Str} {before after : List Str} {s : Str}
    {lo hi : Option Version} (ht : f.tag ns = join [','] (name :: (before ++ ('v' :: s) :: after)))
    (hn : ',' ∉ name) (hc : ∀ o ∈ before ++ ('v' :: s) :: after, ',' ∉ o)
    (hv : ∀ o ∈ before ++ after, NoVersion o) (hs : VersionOpt s lo hi) :
    structFieldInfo i f ns = .ok (described i f name lo hi (before ++ after)) := by
  unfold structFieldInfo
  have hsp : split ',' (f.tag ns) = name :: (before ++ ('v' :: s) :: after) := by
    rw [ht]
    apply split_join (by simp)
    intro x hx
    rcases List.mem_cons.1 hx with rfl | hx
    · exact hn
    · exact hc x hx
  have hb : ∀ o ∈ before, NoVersion o := fun o ho => hv o (by simp [ho])
  have ha : ∀ o ∈ after, NoVersion o := fun o ho => hv o (by simp [ho])
  have key : ∀ f0 : FInfo, applyOptions f0 (before ++ ('v' :: s) :: after) = .ok { f0 with
      minVersion := lo.getD f0.minVersion, maxVersion := hi.getD f0.maxVersion,
      attr := f0.attr || "attr".toList ∈ before ++ after, empty := f0.empty || "empty".toList ∈ before ++ after,
      omitted := f0.omitted || "omit".toList ∈ before ++ after, any := f0.any || "any".toList ∈ before ++ after,
      flat := f0.flat || "flat".toList ∈ before ++ after } := by
    intro f0
    rw [applyOptions_append (applyOptions_plain hb f0), applyOptions,
      applyOption_version (version_option_documented hs)]
    simp only
    rw [applyOptions_plain ha]
    simp only [List.mem_append, Bool.or_assoc, Bool.decide_or]
  simp only [hsp, List.headD_cons]
  cases hl : before ++ ('v' :: s) :: after with
  | nil => simp at hl
  | cons o os =>
    simp only
    rw [← hl, key]
    simp [described, bound]

example : structFieldInfo 3 ⟨"Rating".toList, fun _ => "xmp:Rating,attr,v1.0<1.2,empty".toList, true, false, 7, []⟩ [] =
    .ok ⟨[3], "xmp:Rating".toList, ⟨1, 0, 0⟩, ⟨1, 2, 0⟩, false, true, true, false, false, false, []⟩ := by decide +kernel

example : VersionOpt "1.0<1.2".toList (some ⟨1, 0, 0⟩) (some ⟨1, 2, 0⟩) :=
  .range (a := "1.0".toList) (b := "1.2".toList) (by unfold Bare; decide) (by unfold Bare; decide)
    ((version_parse_iff _ _).1 (by decide)) ((version_parse_iff _ _).1 (by decide))

/-- C44: a version option without a version, or a range without its end, panics instead of reporting an error. -/
theorem tag_panics {i : Nat} {f : GoField} {ns name : Str} (hn : ',' ∉ name) {s : Str}
    (ht : f.tag ns = join [','] [name, 'v' :: s])
    (hs : s = "+".toList ∨ s = "-".toList ∨ s = "<".toList ∨ ∃ a v, Bare a ∧ ',' ∉ a ∧ Reads a v ∧ s = a ++ ['<']) :
    structFieldInfo i f ns = .panic := by
  have hr : versionRange s = .panic ∧ ',' ∉ s := by
    rcases hs with rfl | rfl | rfl | ⟨a, v, hb, hca, hra, rfl⟩
    · decide
    · decide
    · decide
    · have hf : fieldsFunc isVersionOp (a ++ ['<']) = [a] := by
        unfold fieldsFunc
        rw [fieldsFuncAux_run (bare_ops hb)]
        simp [fieldsFuncAux, isVersionOp, reads_ne_nil hra]
      have ho : lastOp (a ++ ['<']) = some '<' := by
        unfold lastOp
        rw [List.filter_append, filter_bare hb]
        rfl
      refine ⟨?_, by simp [hca]⟩
      unfold versionRange
      rw [ho, hf]
      simp only
      rw [parseV_reads hra]
  have hsp : split ',' (f.tag ns) = [name, 'v' :: s] := by
    rw [ht]
    apply split_join (by simp)
    intro x hx
    simp only [List.mem_cons, List.not_mem_nil, or_false] at hx
    rcases hx with rfl | rfl
    · exact hn
    · simp [hr.2]
  unfold structFieldInfo
  simp only [hsp]
  have : ∀ g : FInfo, applyOptions g ['v' :: s] = .panic := by
    intro g
    rw [applyOptions]
    have : applyOption g ('v' :: s) = .panic := by
      show setVersion (setFlag g ('v' :: s)) (versionRange s) = _
      rw [hr.1]
      rfl
    rw [this]
  rw [this]

example : structFieldInfo 0 ⟨"A".toList, fun _ => "a:b,v1.0<".toList, true, false, 7, []⟩ [] = .panic := by decide +kernel

/-! ### Fields with the same name -/

/-- The versions for which a field is meant to be written; unset bounds do not restrict. -/
def Covers (f : FInfo) (v : Version) : Prop :=
  (f.minVersion = Version.zero ∨ ¬ key v < key f.minVersion) ∧
  (f.maxVersion = Version.zero ∨ ¬ key f.maxVersion < key v)

/-- Proper bounds: small, not reversed. -/
def Proper (f : FInfo) : Prop :=
  Small f.minVersion ∧ Small f.maxVersion ∧
  (f.minVersion = Version.zero ∨ f.maxVersion = Version.zero ∨ ¬ key f.maxVersion < key f.minVersion)

/-- C44: a field without version option is refused when there is a field of that name, whatever its versions. -/
theorem conflict_unversioned {acc : TInfo} {newf oldf : FInfo} (ho : oldf ∈ acc) (hn : newf.name = oldf.name)
    (h1 : newf.minVersion = Version.zero) (h2 : newf.maxVersion = Version.zero) : addFieldInfo acc newf = none := by
  unfold addFieldInfo
  rw [if_pos]
  rw [List.any_eq_true]
  refine ⟨oldf, ho, ?_⟩
  have hz : ∀ a b, Version.zero.between a b = true := by intro a b; unfold Version.between; rw [if_pos (by decide)]
  simp [conflicts, hn, h1, h2, hz]

/-- C44: a field is refused only if there is a field of the same name with a common version. -/
theorem conflict_sound {acc : TInfo} {newf : FInfo} (hp : Proper newf) (ha : ∀ f ∈ acc, Proper f)
    (h : addFieldInfo acc newf = none) :
    ∃ oldf ∈ acc, oldf.name = newf.name ∧ ∃ v, Covers newf v ∧ Covers oldf v := by
  unfold addFieldInfo at h
  split at h
  · rename_i hany
    obtain ⟨oldf, ho, hc⟩ := List.any_eq_true.1 hany
    simp only [conflicts, Bool.and_eq_true, decide_eq_true_eq] at hc
    obtain ⟨⟨hname, h1⟩, h2⟩ := hc
    refine ⟨oldf, ho, hname.symm, ?_⟩
    obtain ⟨s1, s2, s3⟩ := hp
    obtain ⟨o1, o2, o3⟩ := ha oldf ho
    have irr : ∀ v : Version, ¬ key v < key v := fun v => List.lt_irrefl _
    have asym : ∀ v w : Version, key v < key w → ¬ key w < key v := by
      intro v w h h'
      have hb := (before_iff_lex v w).2 h
      have hb' := (before_iff_lex w v).2 h'
      have := version_total_order.2.2.2.2 v w v hb hb'
      rw [version_total_order.2.2.2.1 v] at this
      cases this
    have inside : ∀ v, Small v → v ≠ Version.zero → v.between oldf.minVersion oldf.maxVersion = true → Covers oldf v := by
      intro v hs hv hb
      have hvz : v.isZero = false := by
        cases e : v.isZero with
        | false => rfl
        | true => exact absurd ((isZero_iff hs).1 e) hv
      unfold Version.between at hb
      rw [hvz] at hb
      simp only [Bool.false_eq_true, if_false] at hb
      by_cases ea : oldf.minVersion.isZero = true
      · rw [if_pos ea] at hb
        have ez := (isZero_iff o1).1 ea
        rw [ez] at hb
        simp only [Bool.or_eq_true] at hb
        rcases hb with hb | hb
        · exact ⟨Or.inl ez, Or.inr (asym _ _ ((before_iff_lex _ _).1 hb))⟩
        · exact absurd ((equal_iff_eq _ _).1 hb) hv
      · rw [if_neg ea] at hb
        by_cases eb : oldf.maxVersion.isZero = true
        · rw [if_pos eb] at hb
          have ez := (isZero_iff o2).1 eb
          simp only [Bool.or_eq_true] at hb
          rcases hb with hb | hb
          · exact ⟨Or.inr (asym _ _ ((after_iff_lex _ _).1 hb)), Or.inl ez⟩
          · have := (equal_iff_eq _ _).1 hb
            exact ⟨Or.inr (by rw [this]; exact irr _), Or.inl ez⟩
        · rw [if_neg eb] at hb
          have n1 : oldf.minVersion ≠ Version.zero := fun e => ea ((isZero_iff o1).2 e)
          have n2 : oldf.maxVersion ≠ Version.zero := fun e => eb ((isZero_iff o2).2 e)
          have hord : ¬ key oldf.maxVersion < key oldf.minVersion := by
            rcases o3 with h | h | h
            · exact absurd h n1
            · exact absurd h n2
            · exact h
          simp only [Bool.or_eq_true, Bool.and_eq_true] at hb
          rcases hb with (hb | hb) | ⟨hb, hb'⟩
          · have := (equal_iff_eq _ _).1 hb
            exact ⟨Or.inr (by rw [this]; exact irr _), Or.inr (by rw [this]; exact hord)⟩
          · have := (equal_iff_eq _ _).1 hb
            exact ⟨Or.inr (by rw [this]; exact hord), Or.inr (by rw [this]; exact irr _)⟩
          · exact ⟨Or.inr (asym _ _ ((after_iff_lex _ _).1 hb)), Or.inr (asym _ _ ((before_iff_lex _ _).1 hb'))⟩
    by_cases hm : newf.minVersion = Version.zero
    · by_cases hx : newf.maxVersion = Version.zero
      · -- any version of the old field
        by_cases hom : oldf.minVersion = Version.zero
        · by_cases hox : oldf.maxVersion = Version.zero
          · exact ⟨Version.zero, ⟨Or.inl hm, Or.inl hx⟩, ⟨Or.inl hom, Or.inl hox⟩⟩
          · exact ⟨oldf.maxVersion, ⟨Or.inl hm, Or.inl hx⟩, ⟨Or.inl hom, Or.inr (irr _)⟩⟩
        · refine ⟨oldf.minVersion, ⟨Or.inl hm, Or.inl hx⟩, ⟨Or.inr (irr _), ?_⟩⟩
          rcases o3 with h | h | h
          · exact absurd h hom
          · exact Or.inl h
          · exact Or.inr h
      · exact ⟨newf.maxVersion, ⟨Or.inl hm, Or.inr (irr _)⟩, inside _ s2 hx h2⟩
    · refine ⟨newf.minVersion, ⟨Or.inr (irr _), ?_⟩, inside _ s1 hm h1⟩
      rcases s3 with h | h | h
      · exact absurd h hm
      · exact Or.inl h
      · exact Or.inr h
  · cases h

/-- C44 (partial): an overlap is found when the old field has a lower bound and both bounds of the new one are
inside the old range.  Missing from the full statement: all other overlaps, see `conflict_missed` and
`conflict_order`. -/
theorem conflict_found_partial {acc : TInfo} {newf oldf : FInfo} (ho : oldf ∈ acc) (hn : newf.name = oldf.name)
    (h1 : Small newf.minVersion) (h2 : Small newf.maxVersion) (hp : Proper oldf) (hl : oldf.minVersion ≠ Version.zero)
    (c1 : Covers oldf newf.minVersion) (c2 : Covers oldf newf.maxVersion) : addFieldInfo acc newf = none := by
  have key1 : ∀ v, Small v → Covers oldf v → v.between oldf.minVersion oldf.maxVersion = true := by
    intro v hs hc
    obtain ⟨o1, o2, o3⟩ := hp
    have ha := hc.1.resolve_left hl
    by_cases hx : oldf.maxVersion = Version.zero
    · have := (between_lower_partial v oldf.minVersion none hs o1 hl (by simp)).2 (Or.inr ⟨by simpa using ha, by simp⟩)
      rw [hx]; exact this
    · have hb := hc.2.resolve_left hx
      have := (between_lower_partial v oldf.minVersion (some oldf.maxVersion) hs o1 hl (by
        intro h hh
        have : oldf.maxVersion = h := by simpa using hh
        subst this
        refine ⟨o2, hx, ?_⟩
        rcases o3 with h | h | h
        · exact absurd h hl
        · exact absurd h hx
        · exact h)).2 (Or.inr ⟨by simpa using ha, by simpa using hb⟩)
      exact this
  unfold addFieldInfo
  rw [if_pos]
  rw [List.any_eq_true]
  refine ⟨oldf, ho, ?_⟩
  simp [conflicts, hn, key1 _ h1 c1, key1 _ h2 c2]

/-- A field of the name `a:x` with the given bounds. -/
def demoInfo (lo hi : Version) : FInfo := ⟨[0], "a:x".toList, lo, hi, true, false, false, false, false, false, []⟩

/-- C44: overlaps that are not noticed: a versioned field behind an unversioned one of the same name; a range that
encloses an older range; `v2.0+` behind `v2.0-`. -/
theorem conflict_missed :
    (∀ newf oldf : FInfo, newf.name = oldf.name → oldf.minVersion = Version.zero → oldf.maxVersion = Version.zero →
      Small newf.minVersion → newf.minVersion ≠ Version.zero → addFieldInfo [oldf] newf = some [oldf, newf]) ∧
    (addFieldInfo [demoInfo ⟨2, 0, 0⟩ ⟨2, 0, 0⟩] (demoInfo ⟨1, 0, 0⟩ ⟨3, 0, 0⟩)).isSome = true ∧
    (addFieldInfo [demoInfo Version.zero ⟨2, 0, 0⟩] (demoInfo ⟨2, 0, 0⟩ Version.zero)).isSome = true := by
  refine ⟨?_, by decide +kernel, by decide +kernel⟩
  intro newf oldf hn h1 h2 hs h0
  have := (between_unrestricted_rejects newf.minVersion hs h0).1
  have hb : newf.minVersion.between Version.zero Version.zero = false := this
  unfold addFieldInfo
  rw [if_neg]
  · rfl
  · simp [conflicts, hn, h1, h2, hb]

/-- C44: whether two fields are refused depends on their order. -/
theorem conflict_order : ∃ f g : FInfo, addFieldInfo [f] g = none ∧ addFieldInfo [g] f ≠ none :=
  ⟨demoInfo ⟨1, 0, 0⟩ ⟨1, 0, 0⟩, demoInfo Version.zero Version.zero, by decide +kernel, by decide +kernel⟩

example : Proper (demoInfo ⟨1, 0, 0⟩ ⟨3, 0, 0⟩) ∧ Covers (demoInfo ⟨1, 0, 0⟩ ⟨3, 0, 0⟩) ⟨2, 0, 0⟩ := by
  unfold Proper Covers; decide

end Xmp.Props
