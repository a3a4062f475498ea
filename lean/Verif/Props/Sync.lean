import Verif.Props.DocPathCases

/-! Properties of the synchronisation of properties between models (C27). -/

namespace Xmp.Props

open GoStr SyncFlags

/-! ### Specification -/

/-- Do the flags allow to copy the source value `s` over the target value `t`?  Equal values are not copied;
an empty source needs the delete flag, an empty target the create flag, an existing target one of replace,
delete, append and unique. -/
def SyncAllowed (flags : SyncFlags) (s t : Str) : Prop :=
  s ≠ t ∧ (s = [] → flags.has DELETE = true) ∧ (t = [] → flags.has CREATE = true) ∧
  (t ≠ [] → flags.has (REPLACE ||| DELETE ||| APPEND ||| UNIQUE) = true)

/-- The value after conversion. -/
def convert (f : Option (Str → Str)) (s : Str) : Str :=
  match f with
  | some g => g s
  | none => s

/-- Source and target of a synchronisation within a document: both models exist, at the positions `si` and
`ti`. -/
structure Pair (env : Env) (d : XDoc) (sPath dPath : Path) (si ti : Nat) (s t : Mdl) : Prop where
  sx : sPath.isXmpPath = true
  dx : dPath.isXmpPath = true
  sNs : ∃ ns, d.pathNs env sPath = some ns ∧ d.findModel ns = some si
  dNs : ∃ ns, d.pathNs env dPath = some ns ∧ d.findModel ns = some ti
  sm : (d.roots[si]?).bind (·.model) = some s
  tm : (d.roots[ti]?).bind (·.model) = some t

/-! ### Helper lemmas -/

theorem sync_pair {env : Env} {d : XDoc} {sPath dPath : Path} {si ti : Nat} {s t : Mdl}
    (h : Pair env d sPath dPath si ti s t) (flags : SyncFlags) (f : Option (Str → Str)) :
    d.sync env sPath dPath flags none f = d.syncValues s t ti sPath dPath (eff flags) f := by
  obtain ⟨sx, dx, ⟨sNs, h1, h2⟩, ⟨dNs, h3, h4⟩, sm, tm⟩ := h
  unfold XDoc.sync
  simp only [sx, dx, Bool.not_true, Bool.or_self, Bool.false_eq_true, if_false, h1, h3, h2]
  unfold XDoc.syncDest
  simp only [h4, sm, tm]
  rfl

theorem syncValues_denied {d : XDoc} {s t : Mdl} {ti : Nat} {sPath dPath : Path} {flags : SyncFlags}
    {f : Option (Str → Str)} {sv tv : Str} (h1 : getModelPath s.ty s.val sPath = .ok sv)
    (h2 : getModelPath t.ty t.val dPath = .ok tv) (hd : ¬ SyncAllowed flags sv tv) :
    d.syncValues s t ti sPath dPath flags f = (d, .ok) := by
  unfold XDoc.syncValues
  simp only [h1, h2]
  by_cases h3 : sv = tv
  · rw [if_pos h3]
  · rw [if_neg h3]
    by_cases h4 : sv = [] ∧ flags.has DELETE = false
    · rw [if_pos h4]
    · rw [if_neg h4]
      by_cases h5 : tv = [] ∧ flags.has CREATE = false
      · rw [if_pos h5]
      · rw [if_neg h5]
        by_cases h6 : tv ≠ [] ∧ flags.has (REPLACE ||| DELETE ||| APPEND ||| UNIQUE) = false
        · rw [if_pos h6]
        · exfalso
          apply hd
          refine ⟨h3, ?_, ?_, ?_⟩
          · intro h; cases hh : flags.has DELETE with
            | true => rfl
            | false => exact absurd ⟨h, hh⟩ h4
          · intro h; cases hh : flags.has CREATE with
            | true => rfl
            | false => exact absurd ⟨h, hh⟩ h5
          · intro h; cases hh : flags.has (REPLACE ||| DELETE ||| APPEND ||| UNIQUE) with
            | true => rfl
            | false => exact absurd ⟨h, hh⟩ h6

theorem syncValues_allowed {d : XDoc} {s t : Mdl} {ti : Nat} {sPath dPath : Path} {flags : SyncFlags}
    {f : Option (Str → Str)} {sv tv : Str} (h1 : getModelPath s.ty s.val sPath = .ok sv)
    (h2 : getModelPath t.ty t.val dPath = .ok tv) (hd : SyncAllowed flags sv tv) :
    ∃ b, (d.syncValues s t ti sPath dPath flags f).1 =
      { d.setVal ti (setModelPath t.ty t.val dPath (convert f sv) flags).1 with dirty := b } ∧
      ((setModelPath t.ty t.val dPath (convert f sv) flags).2 = .ok → b = true) ∧
      ((setModelPath t.ty t.val dPath (convert f sv) flags).2 = .ok →
        (d.syncValues s t ti sPath dPath flags f).2 = .ok) := by
  obtain ⟨h3, h4, h5, h6⟩ := hd
  unfold XDoc.syncValues
  simp only [h1, h2]
  rw [if_neg h3, if_neg (by rintro ⟨h, hh⟩; rw [h4 h] at hh; cases hh),
    if_neg (by rintro ⟨h, hh⟩; rw [h5 h] at hh; cases hh),
    if_neg (by rintro ⟨h, hh⟩; rw [h6 h] at hh; cases hh)]
  cases f <;> simp only [convert]
  all_goals
    generalize setModelPath t.ty t.val dPath _ flags = r
    obtain ⟨v, res⟩ := r
    cases res with
    | ok => exact ⟨true, rfl, fun _ => rfl, fun _ => rfl⟩
    | panic => exact ⟨d.dirty, rfl, fun h => (by cases h), fun h => (by cases h)⟩
    | err => exact ⟨d.dirty, rfl, fun h => (by cases h), fun h => (by cases h)⟩
    | notFound => exact ⟨d.dirty, rfl, fun h => (by cases h), fun h => (by cases h)⟩

theorem syncValues_other {d : XDoc} {s t : Mdl} {ti : Nat} {sPath dPath : Path} {flags : SyncFlags}
    {f : Option (Str → Str)} {k : Nat} (hk : k ≠ ti) :
    (d.syncValues s t ti sPath dPath flags f).1.roots[k]? = d.roots[k]? := by
  cases h1 : getModelPath s.ty s.val sPath with
  | ok sv =>
    cases h2 : getModelPath t.ty t.val dPath with
    | ok tv =>
      by_cases hd : SyncAllowed flags sv tv
      · obtain ⟨b, h, _⟩ := syncValues_allowed (d := d) (ti := ti) (f := f) h1 h2 hd
        rw [h]
        exact setVal_other d _ (Ne.symm hk)
      · rw [syncValues_denied h1 h2 hd]
    | _ => simp only [XDoc.syncValues, h1, h2]
  | _ => simp only [XDoc.syncValues, h1]

theorem setVal_model {d : XDoc} {i : Nat} {m : Mdl} (h : (d.roots[i]?).bind (·.model) = some m) (v : Val) (b : Bool) :
    (({ d.setVal i v with dirty := b } : XDoc).roots[i]?).bind (·.model) = some { m with val := v } := by
  unfold XDoc.setVal
  cases hr : d.roots[i]? with
  | none => rw [hr] at h; simp at h
  | some r =>
    rw [hr] at h
    simp only [Option.bind_some] at h
    simp only [List.getElem?_modify, hr, if_true, Option.map_eq_map, Option.map_some, Option.bind_some, h]

/-! ### Theorems -/

/-- C27: when source and target are equal or the flags do not allow the transition, nothing changes. -/
theorem sync_denied {env : Env} {d : XDoc} {sPath dPath : Path} {si ti : Nat} {s t : Mdl}
    (h : Pair env d sPath dPath si ti s t) {flags : SyncFlags} {f : Option (Str → Str)} {sv tv : Str}
    (h1 : getModelPath s.ty s.val sPath = .ok sv) (h2 : getModelPath t.ty t.val dPath = .ok tv)
    (hd : ¬ SyncAllowed (eff flags) sv tv) : d.sync env sPath dPath flags none f = (d, .ok) := by
  rw [sync_pair h]
  exact syncValues_denied h1 h2 hd

/-- C27: when the flags allow the transition, the model of the target becomes what `SetModelPath` makes of
it with the converted source value; nothing else of the document changes. -/
theorem sync_allowed {env : Env} {d : XDoc} {sPath dPath : Path} {si ti : Nat} {s t : Mdl}
    (h : Pair env d sPath dPath si ti s t) {flags : SyncFlags} {f : Option (Str → Str)} {sv tv : Str}
    (h1 : getModelPath s.ty s.val sPath = .ok sv) (h2 : getModelPath t.ty t.val dPath = .ok tv)
    (hd : SyncAllowed (eff flags) sv tv) :
    ∃ b, (d.sync env sPath dPath flags none f).1 =
      { d.setVal ti (setModelPath t.ty t.val dPath (convert f sv) (eff flags)).1 with dirty := b } := by
  rw [sync_pair h]
  obtain ⟨b, hb, _⟩ := syncValues_allowed (d := d) (ti := ti) (f := f) h1 h2 hd
  exact ⟨b, hb⟩

/-- C27: when the flags allow the transition (and to create and replace), and the target is a string, the
converted value is what is read from the target afterwards, the call succeeds and the document is marked as
changed. -/
theorem sync_writes_converted {env : Env} {d : XDoc} {sPath dPath : Path} {si ti : Nat} {s t : Mdl}
    (h : Pair env d sPath dPath si ti s t) {flags : SyncFlags} {f : Option (Str → Str)} {sv tv : Str} {k : Bool}
    (h1 : getModelPath s.ty s.val sPath = .ok sv) (h2 : getModelPath t.ty t.val dPath = .ok tv)
    (hd : SyncAllowed (eff flags) sv tv) (hR : (eff flags).has REPLACE = true) (hC : (eff flags).has CREATE = true)
    (ha : Addr t.ty dPath .str k) (hw : t.ty.Wf) (hz : ZeroLaw t.ty) (ht : HasTy t.ty t.val)
    (hne : convert f sv ≠ []) (htr : Trimmed (convert f sv)) :
    ∃ t', ((d.sync env sPath dPath flags none f).1.roots[ti]?).bind (·.model) = some { t with val := t' } ∧
      getModelPath t.ty t' dPath = .ok (convert f sv) ∧ (d.sync env sPath dPath flags none f).2 = .ok ∧
      (d.sync env sPath dPath flags none f).1.dirty = true := by
  have hparse : ∀ u, HasTy .str u → parseLeaf .str u (convert f sv) = some (.str (convert f sv)) := by
    intro u _
    simp [parseLeaf, setValue, trimSpace_of_trimmed htr]
  have hok := model_write_succeeds ha hw ht hparse hne (Or.inr ⟨hR, hC⟩)
  have hread := model_read_after_write ha hw hz ht hparse (s := convert f sv) rfl
    (by intro _; cases hc : convert f sv with | nil => exact absurd hc hne | cons c cs => rfl) hne
    (flags := eff flags) (v' := (setModelPath t.ty t.val dPath (convert f sv) (eff flags)).1) (Prod.ext rfl hok)
  rw [sync_pair h]
  obtain ⟨b, hb, hb1, hb2⟩ := syncValues_allowed (d := d) (ti := ti) (f := f) h1 h2 hd
  refine ⟨_, ?_, hread, hb2 hok, ?_⟩
  · rw [hb]; exact setVal_model h.tm _ _
  · rw [hb]; exact hb1 hok

/-- C27: the source is not modified when it belongs to another model than the target, whatever happens. -/
theorem sync_keeps_source {env : Env} {d : XDoc} {sPath dPath : Path} {si ti : Nat} {s t : Mdl}
    (h : Pair env d sPath dPath si ti s t) (flags : SyncFlags) (f : Option (Str → Str)) (hne : si ≠ ti) :
    (d.sync env sPath dPath flags none f).1.roots[si]? = d.roots[si]? := by
  rw [sync_pair h]
  exact syncValues_other hne

/-- C27: no model but the target is modified. -/
theorem sync_keeps_others {env : Env} {d : XDoc} {sPath dPath : Path} {si ti : Nat} {s t : Mdl}
    (h : Pair env d sPath dPath si ti s t) (flags : SyncFlags) (f : Option (Str → Str)) {k : Nat} (hne : k ≠ ti) :
    (d.sync env sPath dPath flags none f).1.roots[k]? = d.roots[k]? := by
  rw [sync_pair h]
  exact syncValues_other hne

/-- C27: within one model, a source property that parts from the target is not modified by copying a
value that is not empty. -/
theorem sync_keeps_source_same_model {env : Env} {d : XDoc} {sPath dPath : Path} {si : Nat} {s : Mdl}
    (h : Pair env d sPath dPath si si s s) {flags : SyncFlags} {f : Option (Str → Str)} {sv tv : Str}
    (h1 : getModelPath s.ty s.val sPath = .ok sv) (h2 : getModelPath s.ty s.val dPath = .ok tv)
    (ha : Apart s.ty dPath sPath) (hw : s.ty.Wf) (hz : ZeroLaw s.ty) (ht : HasTy s.ty s.val) (hs : sv ≠ [])
    (hne : convert f sv ≠ []) :
    ∃ v', ((d.sync env sPath dPath flags none f).1.roots[si]?).bind (·.model) = some { s with val := v' } ∧
      getModelPath s.ty v' sPath = .ok sv := by
  by_cases hd : SyncAllowed (eff flags) sv tv
  · rw [sync_pair h]
    obtain ⟨b, hb, _⟩ := syncValues_allowed (d := d) (ti := si) (f := f) h1 h2 hd
    refine ⟨_, ?_, model_frame ha hw hz ht hne hs (eff flags) h1⟩
    rw [hb]; exact setVal_model h.tm _ _
  · rw [sync_denied h h1 h2 hd]
    exact ⟨s.val, h.sm, h1⟩

/-- C27: with a given target model, a synchronisation changes nothing but that model, for all paths, flags
and converters. -/
theorem sync_given_target (env : Env) (d : XDoc) (sPath dPath : Path) (flags : SyncFlags) (i : Nat)
    (f : Option (Str → Str)) {k : Nat} (hk : k ≠ i) :
    (d.sync env sPath dPath flags (some i) f).1.roots[k]? = d.roots[k]? := by
  unfold XDoc.sync
  simp only
  by_cases h0 : (!sPath.isXmpPath || !dPath.isXmpPath) = true
  · rw [if_pos h0]
  · rw [if_neg h0]
    cases d.pathNs env sPath with
    | none => rfl
    | some sNs =>
      cases d.pathNs env dPath with
      | none => rfl
      | some dNs =>
        simp only
        cases d.findModel sNs with
        | none => rfl
        | some si =>
          unfold XDoc.syncDest
          simp only
          cases hm : (d.roots[i]?).bind (·.model) with
          | none => rfl
          | some m =>
            simp only
            cases hn : m.nss with
            | nil => rfl
            | cons ns0 rest =>
              simp only
              by_cases h1 : ns0.name = dPath.namespacePrefix
              · rw [if_pos h1]
                simp only [hm]
                cases (d.roots[si]?).bind (·.model) with
                | none => rfl
                | some s => exact syncValues_other hk
              · rw [if_neg h1]

/-- C27: the same for a list of synchronisations (`SyncMulti`), as the models use it. -/
theorem syncMulti_given_target (env : Env) (i : Nat) {k : Nat} (hk : k ≠ i) (l : List XDoc.SyncDesc) :
    ∀ d : XDoc, (d.syncMulti env (some i) l).1.roots[k]? = d.roots[k]? := by
  induction l with
  | nil => intro d; rfl
  | cons x xs ih =>
    intro d
    have h := sync_given_target env d x.source x.dest x.flags i x.convert hk
    unfold XDoc.syncMulti
    generalize hr : d.sync env x.source x.dest x.flags (some i) x.convert = r at h
    obtain ⟨d1, res⟩ := r
    cases res with
    | ok => simp only; rw [ih d1]; exact h
    | _ => exact h

/-! ### Cases -/

/-- A second namespace whose model has the same fields. -/
def nsZ : Namespace := ⟨"z".toList, "http://z".toList, some 1⟩

/-- The model of `z`. -/
def mdlZ (v : Val) : Mdl := ⟨[nsZ], ["z".toList], sampleTy refZero, v⟩

/-- A document with two models. -/
def docXZ (v w : Val) : XDoc :=
  { roots := [⟨Node.new ⟨[], "x".toList⟩, some (mdlX v)⟩, ⟨Node.new ⟨[], "z".toList⟩, some (mdlZ w)⟩]
    intNs := [(nsX.uri, nsX), (nsZ.uri, nsZ)] }

theorem docXZ_pair (v w : Val) : Pair envX (docXZ v w) "x:name".toList "z:name".toList 0 1 (mdlX v) (mdlZ w) :=
  ⟨rfl, rfl, ⟨nsX, rfl, rfl⟩, ⟨nsZ, rfl, rfl⟩, rfl, rfl⟩

/-- The sample with a name. -/
def named (s : String) : Val := (put refZero (sample0 refZero) "x:name" s).1

/-- Hypotheses of the theorems: with only the create flag an existing target is kept. -/
example : (docXZ (named "a") (named "b")).sync envX "x:name".toList "z:name".toList CREATE none none =
    (docXZ (named "a") (named "b"), .ok) :=
  sync_denied (docXZ_pair _ _) (sv := "a".toList) (tv := "b".toList) rfl rfl
    (by intro h; exact absurd (h.2.2.2 (by decide)) (by decide))

/-- Hypotheses of the theorems: a converter that puts text in front. -/
example : ∃ t', (((docXZ (named "a") (named "b")).sync envX "x:name".toList "z:name".toList 0 none
      (some ("by ".toList ++ ·))).1.roots[1]?).bind (·.model) = some { mdlZ (named "b") with val := t' } ∧
    getModelPath (sampleTy refZero) t' "z:name".toList = .ok "by a".toList := by
  have hn : HasTy (sampleTy refZero) (named "b") := by
    have : named "b" = .struct [.str "b".toList, .int 0, .slice [] [], .alt [], .slice [] [], .nil] := rfl
    rw [this]
    simp [sampleTy, HasTy, HasTys]
  have ha : Addr (sampleTy refZero) "z:name".toList .str false :=
    .leaf (i := 0) (idx := -1) (lang := []) (fi := { name := "x:name".toList, attr := true }) (fty := .str)
      ⟨by decide, by decide, ⟨"name".toList, by decide, by decide⟩, rfl, rfl⟩ rfl trivial
  obtain ⟨t', h1, h2, _⟩ := sync_writes_converted (docXZ_pair (named "a") (named "b")) (flags := 0)
    (f := some ("by ".toList ++ ·)) (sv := "a".toList) (tv := "b".toList) rfl rfl
    ⟨by decide, by decide, by decide, by decide⟩ (by decide) (by decide) ha (sampleTy_wf _) sampleTy_zeroLaw hn
    (by decide) (by decide)
  exact ⟨t', h1, h2⟩

/-- Hypotheses of `sync_keeps_source`, with a target that is changed. -/
example : ((docXZ (named "a") (named "b")).sync envX "x:name".toList "z:name".toList 0 none none).1.roots[0]? =
      (docXZ (named "a") (named "b")).roots[0]? ∧
    ((docXZ (named "a") (named "b")).sync envX "x:name".toList "z:name".toList 0 none none).1.getPath envX
      "z:name".toList = .ok "a".toList :=
  ⟨sync_keeps_source (docXZ_pair _ _) 0 none (by decide), rfl⟩

/-- Hypotheses of `sync_keeps_source_same_model`. -/
example (v : Val) (ht : HasTy (sampleTy refZero) v) (h1 : got refZero v "x:name" = .ok "me".toList)
    (h2 : got refZero v "x:ref/st:rank" = .ok "3".toList) :
    ∃ v', (((docX v).sync envX "x:name".toList "x:ref/st:rank".toList 0 none none).1.roots[0]?).bind (·.model) =
      some { mdlX v with val := v' } ∧ getModelPath (sampleTy refZero) v' "x:name".toList = .ok "me".toList :=
  sync_keeps_source_same_model (s := mdlX v) ⟨rfl, rfl, ⟨nsX, rfl, rfl⟩, ⟨nsX, rfl, rfl⟩, rfl, rfl⟩ h1 h2 sample_apart.1
    (sampleTy_wf _) sampleTy_zeroLaw ht (by decide) (by decide)

/-- `SyncMulti` with a given target, as the models call it. -/
example : ((docXZ (named "a") (named "b")).syncMulti envX (some 1)
      [⟨"x:name".toList, "z:name".toList, REPLACE, none⟩, ⟨"x:name".toList, "z:count".toList, CREATE, none⟩]).1.getPath
      envX "z:name".toList = .ok "a".toList := rfl

/-- C27 fails: values are compared before the conversion.  Here the converted value equals the target; it is
written all the same and the document marked as changed. -/
theorem sync_writes_equal_value :
    (docXZ (named "A") (named "a")).getPath envX "z:name".toList = .ok "a".toList ∧
    (docXZ (named "A") (named "a")).dirty = false ∧
    ((docXZ (named "A") (named "a")).sync envX "x:name".toList "z:name".toList REPLACE none
      (some fun _ => "a".toList)).1.dirty = true := ⟨rfl, rfl, rfl⟩

/-- C27 fails: the flags are tested before the conversion.  A converter that returns the empty string clears
the target although the delete flag is not given. -/
theorem sync_clears_without_delete :
    (((docXZ (named "a") (named "b")).sync envX "x:name".toList "z:name".toList REPLACE none (some fun _ => [])).1.getPath
      envX "z:name".toList) = .ok [] := rfl

/-- A namespace without a model as target with the create flag: `AddModel(nil)` fails, and reading from the nil
model panics. -/
theorem sync_panics_without_factory (v : Val) :
    ((docX v).sync envX "x:name".toList "y:name".toList 0 none none).2 = .panic := rfl

end Xmp.Props
