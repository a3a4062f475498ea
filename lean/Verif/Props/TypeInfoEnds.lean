import Verif.Props.TypeInfoFields

/-! C28, termination: lookups of types without a cycle of embedded structs come to an end under every schedule;
a struct that embeds itself is never finished. -/

namespace Xmp.Props

open GoStr

/-- `rank` falls along embedded structs: there is no cycle of embedded structs. -/
def Ranked (env : Nat → GoType) (rank : Nat → Nat) : Prop :=
  ∀ t fs f e, env t = .struct fs → f ∈ fs → embedded env f = some e → rank e < rank t

/-! ### A bound for the number of steps of a lookup -/

/-- The fields of a type. -/
def fieldsOf (env : Nat → GoType) (t : Nat) : List GoField :=
  match env t with
  | .struct fs => fs
  | _ => []

/-- Steps for one field, when the steps for embedded types are given. -/
def fieldCost (env : Nat → GoType) (w : Nat → Nat) (f : GoField) : Nat :=
  match embedded env f with
  | some e => 2 + w e
  | none => 2

/-- Steps for the fields. -/
def loopCost (env : Nat → GoType) (w : Nat → Nat) (fs : List GoField) : Nat := (fs.map (fieldCost env w)).sum

/-- Steps for a lookup, down to the given depth. -/
def costF (env : Nat → GoType) : Nat → Nat → Nat
  | 0, _ => 0
  | n + 1, t => 20 + loopCost env (costF env n) (fieldsOf env t)

/-- Steps for a lookup. -/
def cost (env : Nat → GoType) (rank : Nat → Nat) (t : Nat) : Nat := costF env (rank t + 1) t

theorem loopCost_congr {env : Nat → GoType} {w w' : Nat → Nat} {fs : List GoField}
    (h : ∀ f ∈ fs, ∀ e, embedded env f = some e → w e = w' e) : loopCost env w fs = loopCost env w' fs := by
  unfold loopCost
  congr 1
  apply List.map_congr_left
  intro f hf
  unfold fieldCost
  cases he : embedded env f with
  | none => rfl
  | some e => simp only; rw [h f hf e he]

theorem mem_fieldsOf {env : Nat → GoType} {t : Nat} {f : GoField} (h : f ∈ fieldsOf env t) :
    ∃ fs, env t = .struct fs ∧ f ∈ fs := by
  unfold fieldsOf at h
  cases e : env t with
  | struct fs => rw [e] at h; exact ⟨fs, rfl, h⟩
  | ptr _ => rw [e] at h; cases h
  | other => rw [e] at h; cases h

theorem costF_stable {env : Nat → GoType} {rank : Nat → Nat} (hr : Ranked env rank) : ∀ n k t, rank t < n →
    rank t < k → costF env n t = costF env k t := by
  intro n
  induction n with
  | zero => intro k t h; omega
  | succ n ih =>
    intro k t h h'
    obtain ⟨k, rfl⟩ : ∃ k', k = k' + 1 := ⟨k - 1, by omega⟩
    rw [costF, costF]
    congr 1
    apply loopCost_congr
    intro f hf e he
    obtain ⟨fs, h1, h2⟩ := mem_fieldsOf hf
    have hlt := hr t fs f e h1 h2 he
    exact ih k e (by omega) (by omega)

theorem cost_eq {env : Nat → GoType} {rank : Nat → Nat} (hr : Ranked env rank) (t : Nat) :
    cost env rank t = 20 + loopCost env (cost env rank) (fieldsOf env t) := by
  rw [cost, costF]
  congr 1
  apply loopCost_congr
  intro f hf e he
  obtain ⟨fs, h1, h2⟩ := mem_fieldsOf hf
  have hlt := hr t fs f e h1 h2 he
  exact costF_stable hr _ _ _ hlt (by omega)

/-- Steps that a call may still take, without the calls above it. -/
def callCost (env : Nat → GoType) (w : Nat → Nat) (c : Call) : Nat :=
  match c.pc with
  | .start => w c.typ
  | .inR1 => 15 + loopCost env w (fieldsOf env c.typ)
  | .missR _ => 14 + loopCost env w (fieldsOf env c.typ)
  | .wantW1 _ => 13 + loopCost env w (fieldsOf env c.typ)
  | .inW1 _ => 12 + loopCost env w (fieldsOf env c.typ)
  | .doneW1 _ => 11 + loopCost env w (fieldsOf env c.typ)
  | .wantR2 _ => 10 + loopCost env w (fieldsOf env c.typ)
  | .inR2 _ => 9 + loopCost env w (fieldsOf env c.typ)
  | .doneR2 _ _ => 8 + loopCost env w (fieldsOf env c.typ)
  | .fields _ i _ => 7 + loopCost env w ((fieldsOf env c.typ).drop i)
  | .waiting _ i _ => 8 + loopCost env w ((fieldsOf env c.typ).drop (i + 1))
  | .wantW2 _ _ => 5
  | .inW2 _ _ => 4
  | .doneW2 _ => 3
  | .ret _ => 1

/-- Steps that a goroutine may still take. -/
def threadCost (env : Nat → GoType) (w : Nat → Nat) (t : Thread) : Nat := (t.stack.map (callCost env w)).sum

/-- Steps that all goroutines together may still take. -/
def machineCost (env : Nat → GoType) (w : Nat → Nat) (m : Machine) : Nat := (m.threads.map (threadCost env w)).sum

theorem loopCost_drop {env : Nat → GoType} {w : Nat → Nat} {fs : List GoField} {i : Nat} {f : GoField}
    (h : fs[i]? = some f) : loopCost env w (fs.drop i) = fieldCost env w f + loopCost env w (fs.drop (i + 1)) := by
  obtain ⟨hi, he⟩ := List.getElem?_eq_some_iff.1 h
  rw [List.drop_eq_getElem_cons hi, he]
  rfl

theorem fieldStep_cost {env : Nat → GoType} {w : Nat → Nat} {ns : Str} {typ m i : Nat} {acc : TInfo} :
    match fieldStep env ns typ m i acc with
    | .inl pc => callCost env w ⟨typ, pc⟩ < callCost env w ⟨typ, .fields m i acc⟩
    | .inr t => w t + callCost env w ⟨typ, .waiting m i acc⟩ < callCost env w ⟨typ, .fields m i acc⟩ := by
  unfold fieldStep
  cases he : env typ with
  | struct fs =>
    simp only
    have hf : fieldsOf env typ = fs := by unfold fieldsOf; rw [he]
    cases hi : fs[i]? with
    | none => simp only [callCost]; omega
    | some f =>
      simp only
      have hd := loopCost_drop (env := env) (w := w) hi
      have h2 : 2 ≤ fieldCost env w f := by
        unfold fieldCost; cases embedded env f <;> simp only <;> omega
      by_cases hs : skipField f ns = true
      · rw [if_pos hs]
        simp only [callCost, hf, hd]
        omega
      · rw [if_neg hs]
        cases hem : embedded env f with
        | some t =>
          have : fieldCost env w f = 2 + w t := by unfold fieldCost; rw [hem]
          simp only [callCost, hf, hd, this]
          omega
        | none =>
          simp only
          cases structFieldInfo i f ns with
          | ok fi =>
            simp only
            cases addFieldInfo acc fi with
            | some a => simp only [callCost, hf, hd]; omega
            | none => simp only [callCost]; omega
          | err => simp only [callCost]; omega
          | panic => simp only [callCost]; omega
  | ptr _ => simp only [callCost]; omega
  | other => simp only [callCost]; omega

theorem threadStep_cost {env : Nat → GoType} {w : Nat → Nat}
    (hw : ∀ t, w t = 20 + loopCost env w (fieldsOf env t)) {s s' : Shared} {t t' : Thread}
    (h : threadStep env s t = some (s', t')) : threadCost env w t' < threadCost env w t := by
  obtain ⟨ns, typ, stack, res⟩ := t
  cases stack with
  | nil => cases h
  | cons c cs =>
    obtain ⟨ct, pc⟩ := c
    have fin : ∀ {s1 : Shared} {pc' : PC}, some (s1, (⟨ns, typ, ⟨ct, pc'⟩ :: cs, res⟩ : Thread)) = some (s', t') →
        callCost env w ⟨ct, pc'⟩ < callCost env w ⟨ct, pc⟩ →
        threadCost env w t' < threadCost env w ⟨ns, typ, ⟨ct, pc⟩ :: cs, res⟩ := by
      intro s1 pc' he hc
      injection he with he
      injection he with e1 e2
      subst e2
      simp only [threadCost, List.map_cons, List.sum_cons]
      omega
    have fin2 : ∀ {s1 : Shared} {t1 : Thread}, some (s1, t1) = some (s', t') →
        threadCost env w t1 < threadCost env w ⟨ns, typ, ⟨ct, pc⟩ :: cs, res⟩ →
        threadCost env w t' < threadCost env w ⟨ns, typ, ⟨ct, pc⟩ :: cs, res⟩ := by
      intro s1 t1 he hc
      injection he with he
      injection he with e1 e2
      subst e2
      exact hc
    cases pc with
    | start =>
      simp only [threadStep] at h
      split at h
      · cases h
      · exact fin h (by simp only [callCost, hw ct]; omega)
    | inR1 =>
      simp only [threadStep] at h
      split at h
      · exact fin h (by simp only [callCost]; omega)
      · exact fin h (by simp only [callCost]; omega)
    | missR m => exact fin h (by simp only [callCost]; omega)
    | wantW1 m =>
      simp only [threadStep] at h
      split at h
      · cases h
      · exact fin h (by simp only [callCost]; omega)
    | inW1 m => exact fin h (by simp only [callCost]; omega)
    | doneW1 m => exact fin h (by simp only [callCost]; omega)
    | wantR2 m =>
      simp only [threadStep] at h
      split at h
      · cases h
      · exact fin h (by simp only [callCost]; omega)
    | inR2 m => exact fin h (by simp only [callCost]; omega)
    | doneR2 m hit =>
      simp only [threadStep] at h
      cases hit with
      | some info => exact fin h (by simp only [callCost]; omega)
      | none =>
        simp only at h
        split at h
        · exact fin h (by simp only [callCost, List.drop_zero]; omega)
        · exact fin h (by simp only [callCost]; omega)
    | fields m i acc =>
      simp only [threadStep] at h
      have hc := fieldStep_cost (env := env) (w := w) (ns := ns) (typ := ct) (m := m) (i := i) (acc := acc)
      cases hst : fieldStep env ns ct m i acc with
      | inl pc =>
        rw [hst] at h hc
        exact fin h hc
      | inr ty =>
        rw [hst] at h hc
        refine fin2 h ?_
        simp only [threadCost, List.map_cons, List.sum_cons] at hc ⊢
        have : callCost env w ⟨ty, .start⟩ = w ty := rfl
        omega
    | waiting m i acc => cases h
    | wantW2 m info =>
      simp only [threadStep] at h
      split at h
      · cases h
      · exact fin h (by simp only [callCost]; omega)
    | inW2 m info => exact fin h (by simp only [callCost]; omega)
    | doneW2 info => exact fin h (by simp only [callCost]; omega)
    | ret r =>
      simp only [threadStep] at h
      cases cs with
      | nil => exact fin2 h (by simp [threadCost, callCost])
      | cons d ds =>
        simp only at h
        split at h
        · rename_i m i acc hp
          refine fin2 h ?_
          have hd : callCost env w d = 8 + loopCost env w ((fieldsOf env d.typ).drop (i + 1)) := by
            unfold callCost; rw [hp]
          have hre : callCost env w ⟨d.typ, resume m i acc r⟩ ≤ 7 + loopCost env w ((fieldsOf env d.typ).drop (i + 1)) := by
            cases r with
            | ok inner =>
              unfold resume
              simp only
              cases addInner i acc inner with
              | some a => exact Nat.le_refl _
              | none => show 1 ≤ _; omega
            | err => show 1 ≤ _; omega
            | panic => show 1 ≤ _; omega
          simp only [threadCost, List.map_cons, List.sum_cons]
          omega
        · cases h

theorem sum_set {g : Thread → Nat} {l : List Thread} {k : Nat} {t t' : Thread} (h : l[k]? = some t) :
    ((l.set k t').map g).sum + g t = (l.map g).sum + g t' := by
  induction l generalizing k with
  | nil => cases h
  | cons x l ih =>
    cases k with
    | zero =>
      have : x = t := by simpa using h
      subst this
      simp only [List.set_cons_zero, List.map_cons, List.sum_cons]
      omega
    | succ k =>
      have := ih (k := k) (by simpa using h)
      simp only [List.set_cons_succ, List.map_cons, List.sum_cons]
      omega

theorem step_cost {env : Nat → GoType} {w : Nat → Nat} (hw : ∀ t, w t = 20 + loopCost env w (fieldsOf env t))
    {m m' : Machine} {k : Nat} (hs : m.step env k = some m') : machineCost env w m' < machineCost env w m := by
  unfold Machine.step at hs
  cases ht : m.threads[k]? with
  | none => rw [ht] at hs; cases hs
  | some t =>
    rw [ht] at hs
    simp only at hs
    cases hst : threadStep env m.shared t with
    | none => rw [hst] at hs; cases hs
    | some st =>
      obtain ⟨s', t'⟩ := st
      rw [hst] at hs
      injection hs with hs
      subst hs
      have h1 := threadStep_cost hw hst
      have h2 := sum_set (g := threadCost env w) (t' := t') ht
      show ((m.threads.set k t').map (threadCost env w)).sum < (m.threads.map (threadCost env w)).sum
      omega

/-- The number of steps of a schedule that are not blocked. -/
def effective (env : Nat → GoType) (m : Machine) : List Nat → Nat
  | [] => 0
  | k :: ks =>
    match m.step env k with
    | some m' => 1 + effective env m' ks
    | none => effective env m ks

theorem effective_le {env : Nat → GoType} {w : Nat → Nat} (hw : ∀ t, w t = 20 + loopCost env w (fieldsOf env t)) :
    ∀ (ks : List Nat) (m : Machine), effective env m ks + machineCost env w (m.run env ks) ≤ machineCost env w m := by
  intro ks
  induction ks with
  | nil => intro m; simp [effective, Machine.run]
  | cons k ks ih =>
    intro m
    rw [effective, Machine.run]
    cases hs : m.step env k with
    | none => exact ih m
    | some m' =>
      have := ih m'
      have := step_cost hw hs
      simp only [Option.getD_some]
      omega

/-- C28: without cycles of embedded structs there is a bound on the steps that the lookups take together, whatever
the schedule. -/
theorem lookup_bounded (env : Nat → GoType) (rank : Nat → Nat) (hr : Ranked env rank) (l : List (Nat × Str)) :
    ∃ n, ∀ ks, effective env (Machine.init l) ks ≤ n :=
  ⟨machineCost env (cost env rank) (Machine.init l), fun ks => by
    have := effective_le (cost_eq hr) ks (Machine.init l)
    omega⟩

theorem run_append {env : Nat → GoType} : ∀ (ks ks' : List Nat) (m : Machine),
    m.run env (ks ++ ks') = (m.run env ks).run env ks' := by
  intro ks
  induction ks with
  | nil => intro ks' m; rfl
  | cons k ks ih => intro ks' m; exact ih ks' _

/-- C28: without cycles of embedded structs, whatever has happened so far, the lookups can all be finished; by
`lookup_no_deadlock` and `lookup_bounded` every schedule that keeps choosing goroutines that can go on does it. -/
theorem lookup_completes (env : Nat → GoType) (rank : Nat → Nat) (hr : Ranked env rank) (l : List (Nat × Str))
    (ks : List Nat) : ∃ ks', ∀ t ∈ ((Machine.init l).run env (ks ++ ks')).threads, t.result ≠ none := by
  have key : ∀ n m, MachineOK env l m → LockOK m → machineCost env (cost env rank) m ≤ n →
      ∃ ks', ∀ t ∈ (m.run env ks').threads, t.result ≠ none := by
    intro n
    induction n with
    | zero =>
      intro m hm hl hc
      refine ⟨[], ?_⟩
      intro t ht hn
      obtain ⟨k, hk⟩ := progress hm hl ht hn
      cases hs : m.step env k with
      | none => rw [hs] at hk; cases hk
      | some m' =>
        have := step_cost (cost_eq hr) hs
        omega
    | succ n ih =>
      intro m hm hl hc
      by_cases hf : ∀ t ∈ m.threads, t.result ≠ none
      · exact ⟨[], hf⟩
      · have : ∃ t ∈ m.threads, t.result = none := by
          by_contra hne
          apply hf
          intro t ht hn
          exact hne ⟨t, ht, hn⟩
        obtain ⟨t, ht, hn⟩ := this
        obtain ⟨k, hk⟩ := progress hm hl ht hn
        cases hs : m.step env k with
        | none => rw [hs] at hk; cases hk
        | some m' =>
          have := step_cost (cost_eq hr) hs
          obtain ⟨ks', h⟩ := ih m' (step_ok hm hs) (step_lock hl hs) (by omega)
          refine ⟨k :: ks', ?_⟩
          rw [Machine.run, hs]
          exact h
  obtain ⟨ks', h⟩ := key _ ((Machine.init l).run env ks) (run_ok ks (init_ok env l)) (run_lock ks (init_lock l))
    (Nat.le_refl _)
  exact ⟨ks', by rw [run_append]; exact h⟩

/-- A struct whose first field embeds the struct itself through a pointer has no metadata. -/
theorem self_no_info {env : Nat → GoType} {ns : Str} {t : Nat} {f : GoField} {fs : List GoField}
    (he : env t = .struct (f :: fs)) (hs : skipField f ns = false) (hem : embedded env f = some t) (r : Res TInfo) :
    ¬ Info env ns t r := by
  intro h
  unfold Info at h
  rw [he] at h
  simp only at h
  have key : ∀ gs i acc r, FieldsInfo env ns gs i acc r → gs ≠ f :: fs := by
    intro gs i acc r h
    induction h with
    | done => intro h; cases h
    | skip h1 _ _ => intro e; injection e with e _; rw [e, hs] at h1; cases h1
    | plain h1 h2 _ _ _ _ => intro e; injection e with e _; rw [e, hem] at h2; cases h2
    | conflict h1 h2 _ _ => intro e; injection e with e _; rw [e, hem] at h2; cases h2
    | badTag h1 h2 _ => intro e; injection e with e _; rw [e, hem] at h2; cases h2
    | panicTag h1 h2 _ => intro e; injection e with e _; rw [e, hem] at h2; cases h2
    | inner h1 h2 h3 _ _ _ ih _ =>
      intro e
      injection e with e _
      rw [e, hem] at h2
      have := Option.some.inj h2
      subst this
      rw [he] at h3
      exact ih (GoType.struct.inj h3).symm
    | innerConflict h1 h2 h3 _ _ ih =>
      intro e
      injection e with e _
      rw [e, hem] at h2
      have := Option.some.inj h2
      subst this
      rw [he] at h3
      exact ih (GoType.struct.inj h3).symm
    | innerErr h1 h2 h3 _ ih =>
      intro e
      injection e with e _
      rw [e, hem] at h2
      have := Option.some.inj h2
      subst this
      rw [he] at h3
      exact ih (GoType.struct.inj h3).symm
    | innerPanic h1 h2 h3 _ ih =>
      intro e
      injection e with e _
      rw [e, hem] at h2
      have := Option.some.inj h2
      subst this
      rw [he] at h3
      exact ih (GoType.struct.inj h3).symm
  exact key _ _ _ _ h rfl

/-- C28: a lookup of a struct whose first field embeds a pointer to the struct itself never finishes; in Go the
recursion overflows the stack. -/
theorem lookup_self_embedded (env : Nat → GoType) (l : List (Nat × Str)) (ks : List Nat) {k typ : Nat} {ns : Str}
    {f : GoField} {fs : List GoField} (he : env typ = .struct (f :: fs)) (hs : skipField f (nsOrDefault ns) = false)
    (hem : embedded env f = some typ) (hk : l[k]? = some (typ, ns)) {t : Thread}
    (ht : ((Machine.init l).run env ks).threads[k]? = some t) : t.result = none := by
  cases hr : t.result with
  | none => rfl
  | some r => exact absurd (lookup_result env l ks hk ht hr) (self_no_info he hs hem r)

/-! ### A concrete case -/

/-- Field without tags besides one for `xmp`. -/
def demoField (name tag : Str) (anonymous : Bool) (ty : Nat) : GoField :=
  ⟨name, fun ns => if ns = "xmp".toList then tag else [], true, anonymous, ty, []⟩

/-- Type 0 embeds a pointer (type 2) to type 1; type 3 is plain; type 5 embeds a pointer (type 6) to itself. -/
def demoEnv : Nat → GoType
  | 0 => .struct [demoField "Base".toList [] true 2, demoField "Title".toList "dc:title,attr".toList false 3]
  | 1 => .struct [demoField "ID".toList "xmp:id,v1.0+".toList false 3, demoField "Skip".toList "-".toList false 3]
  | 2 => .ptr 1
  | 5 => .struct [demoField "Self".toList [] true 6]
  | 6 => .ptr 5
  | _ => .other

example : FieldAt demoEnv "xmp".toList 0 [0, 0] (demoField "ID".toList "xmp:id,v1.0+".toList false 3) :=
  .there (e := 1) rfl rfl (by unfold Skips; decide) ⟨rfl, ⟨_, rfl⟩, Or.inl rfl⟩
    (.here rfl rfl (by unfold Skips; decide) (by intro e h; cases h.1))

/-- The depth of the types of `demoEnv` without the self embedding one. -/
def demoRank : Nat → Nat
  | 0 => 1
  | _ => 0

/-- `demoEnv` without type 5. -/
def demoEnv' : Nat → GoType := fun t => if t = 5 then .other else demoEnv t

example : Ranked demoEnv' demoRank := by
  intro t fs f e h hf hem
  match t, h with
  | 0, h =>
    injection h with h
    subst h
    have : f = demoField "Base".toList [] true 2 ∨ f = demoField "Title".toList "dc:title,attr".toList false 3 := by
      simpa using hf
    rcases this with rfl | rfl
    · have : some 1 = some e := hem
      injection this with this
      subst this
      decide
    · cases hem
  | 1, h =>
    injection h with h
    subst h
    have : f = demoField "ID".toList "xmp:id,v1.0+".toList false 3 ∨ f = demoField "Skip".toList "-".toList false 3 := by
      simpa using hf
    rcases this with rfl | rfl <;> cases hem
  | 2, h => cases h
  | 3, h => cases h
  | 4, h => cases h
  | 5, h => cases h
  | 6, h => cases h
  | n + 7, h =>
    have : (.other : GoType) = .struct fs := by
      rw [← h]
      simp [demoEnv', demoEnv]
    cases this

/-- Two goroutines that look up type 0 and one that looks up a type that is not a struct, taking turns. -/
def demoRun : Machine :=
  (Machine.init [(0, []), (0, "xmp".toList), (3, [])]).run demoEnv (List.replicate 50 [0, 1, 2]).flatten

example : demoRun.threads.map (fun t => t.result.map (fun r => match r with
    | .ok info => info.map (fun f => (f.idx, f.name, f.attr))
    | _ => [])) =
    [some [([0, 0], "xmp:id".toList, false), ([1], "dc:title".toList, true)],
     some [([0, 0], "xmp:id".toList, false), ([1], "dc:title".toList, true)], some []] := by decide +kernel

example : embedded demoEnv (demoField "Self".toList [] true 6) = some 5 := rfl

end Xmp.Props
