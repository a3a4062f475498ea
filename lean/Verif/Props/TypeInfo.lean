import Verif.Model.TypeInfo
import Verif.Lemmas.GoStr
import Mathlib.Tactic.Common

/-! C28: the cache of struct metadata under concurrency.

Specification: the metadata of a type, without any cache or lock, as a relation. -/

namespace Xmp.Props

open GoStr

/-- The metadata collected from the fields `fs`, the first of which has index `i`, when `acc` was collected before. -/
inductive FieldsInfo (env : Nat → GoType) (ns : Str) : List GoField → Nat → TInfo → Res TInfo → Prop
  | done {i acc} : FieldsInfo env ns [] i acc (.ok acc)
  | skip {f fs i acc r} : skipField f ns = true → FieldsInfo env ns fs (i + 1) acc r → FieldsInfo env ns (f :: fs) i acc r
  | plain {f fs i acc fi acc' r} : skipField f ns = false → embedded env f = none → structFieldInfo i f ns = .ok fi →
      addFieldInfo acc fi = some acc' → FieldsInfo env ns fs (i + 1) acc' r → FieldsInfo env ns (f :: fs) i acc r
  | conflict {f fs i acc fi} : skipField f ns = false → embedded env f = none → structFieldInfo i f ns = .ok fi →
      addFieldInfo acc fi = none → FieldsInfo env ns (f :: fs) i acc .err
  | badTag {f fs i acc} : skipField f ns = false → embedded env f = none → structFieldInfo i f ns = .err →
      FieldsInfo env ns (f :: fs) i acc .err
  | panicTag {f fs i acc} : skipField f ns = false → embedded env f = none → structFieldInfo i f ns = .panic →
      FieldsInfo env ns (f :: fs) i acc .panic
  | inner {f fs i acc t gs info acc' r} : skipField f ns = false → embedded env f = some t → env t = .struct gs →
      FieldsInfo env ns gs 0 [] (.ok info) → addInner i acc info = some acc' → FieldsInfo env ns fs (i + 1) acc' r →
      FieldsInfo env ns (f :: fs) i acc r
  | innerConflict {f fs i acc t gs info} : skipField f ns = false → embedded env f = some t → env t = .struct gs →
      FieldsInfo env ns gs 0 [] (.ok info) → addInner i acc info = none → FieldsInfo env ns (f :: fs) i acc .err
  | innerErr {f fs i acc t gs} : skipField f ns = false → embedded env f = some t → env t = .struct gs →
      FieldsInfo env ns gs 0 [] .err → FieldsInfo env ns (f :: fs) i acc .err
  | innerPanic {f fs i acc t gs} : skipField f ns = false → embedded env f = some t → env t = .struct gs →
      FieldsInfo env ns gs 0 [] .panic → FieldsInfo env ns (f :: fs) i acc .panic

/-- The metadata of a type: that of its fields if it is a struct, an error otherwise. -/
def Info (env : Nat → GoType) (ns : Str) (t : Nat) (r : Res TInfo) : Prop :=
  match env t with
  | .struct fs => FieldsInfo env ns fs 0 [] r
  | _ => r = .err

theorem fieldsInfo_det {env : Nat → GoType} {ns : Str} {fs : List GoField} {i : Nat} {acc : TInfo} {r r' : Res TInfo}
    (h : FieldsInfo env ns fs i acc r) (h' : FieldsInfo env ns fs i acc r') : r = r' := by
  induction h generalizing r' with
  | done => cases h'; rfl
  | skip h1 h2 ih =>
    cases h' <;> first | (rename_i a b; exact ih b) | simp_all
  | plain h1 h2 h3 h4 h5 ih =>
    cases h' <;> simp_all
    exact ih (by assumption)
  | conflict h1 h2 h3 h4 => cases h' <;> simp_all
  | badTag h1 h2 h3 => cases h' <;> simp_all
  | panicTag h1 h2 h3 => cases h' <;> simp_all
  | inner h1 h2 h3 h4 h5 h6 ih1 ih2 =>
    cases h' with
    | skip a _ => exact absurd (h1.symm.trans a) (by simp)
    | plain a b _ _ _ => exact absurd (h2.symm.trans b) (by simp)
    | conflict a b _ _ => exact absurd (h2.symm.trans b) (by simp)
    | badTag a b _ => exact absurd (h2.symm.trans b) (by simp)
    | panicTag a b _ => exact absurd (h2.symm.trans b) (by simp)
    | inner a b c d e f =>
      have e1 := Option.some.inj (h2.symm.trans b)
      subst e1
      have e2 := GoType.struct.inj (h3.symm.trans c)
      subst e2
      have e3 := Res.ok.inj (ih1 d)
      subst e3
      rw [h5] at e
      have e4 := Option.some.inj e
      subst e4
      exact ih2 f
    | innerConflict a b c d e =>
      have e1 := Option.some.inj (h2.symm.trans b)
      subst e1
      have e2 := GoType.struct.inj (h3.symm.trans c)
      subst e2
      have e3 := Res.ok.inj (ih1 d)
      subst e3
      rw [h5] at e
      cases e
    | innerErr a b c d =>
      have e1 := Option.some.inj (h2.symm.trans b)
      subst e1
      have e2 := GoType.struct.inj (h3.symm.trans c)
      subst e2
      cases ih1 d
    | innerPanic a b c d =>
      have e1 := Option.some.inj (h2.symm.trans b)
      subst e1
      have e2 := GoType.struct.inj (h3.symm.trans c)
      subst e2
      cases ih1 d
  | innerConflict h1 h2 h3 h4 h5 ih1 =>
    cases h' with
    | skip a _ => exact absurd (h1.symm.trans a) (by simp)
    | plain a b _ _ _ => exact absurd (h2.symm.trans b) (by simp)
    | conflict a b _ _ => exact absurd (h2.symm.trans b) (by simp)
    | badTag a b _ => exact absurd (h2.symm.trans b) (by simp)
    | panicTag a b _ => exact absurd (h2.symm.trans b) (by simp)
    | inner a b c d e f =>
      have e1 := Option.some.inj (h2.symm.trans b)
      subst e1
      have e2 := GoType.struct.inj (h3.symm.trans c)
      subst e2
      have e3 := Res.ok.inj (ih1 d)
      subst e3
      rw [h5] at e
      cases e
    | innerConflict a b c d e => rfl
    | innerErr a b c d => rfl
    | innerPanic a b c d =>
      have e1 := Option.some.inj (h2.symm.trans b)
      subst e1
      have e2 := GoType.struct.inj (h3.symm.trans c)
      subst e2
      cases ih1 d
  | innerErr h1 h2 h3 h4 ih1 =>
    cases h' with
    | skip a _ => exact absurd (h1.symm.trans a) (by simp)
    | plain a b _ _ _ => exact absurd (h2.symm.trans b) (by simp)
    | conflict a b _ _ => exact absurd (h2.symm.trans b) (by simp)
    | badTag a b _ => exact absurd (h2.symm.trans b) (by simp)
    | panicTag a b _ => exact absurd (h2.symm.trans b) (by simp)
    | inner a b c d e f =>
      have e1 := Option.some.inj (h2.symm.trans b)
      subst e1
      have e2 := GoType.struct.inj (h3.symm.trans c)
      subst e2
      cases ih1 d
    | innerConflict a b c d e =>
      have e1 := Option.some.inj (h2.symm.trans b)
      subst e1
      have e2 := GoType.struct.inj (h3.symm.trans c)
      subst e2
      cases ih1 d
    | innerErr a b c d => rfl
    | innerPanic a b c d =>
      have e1 := Option.some.inj (h2.symm.trans b)
      subst e1
      have e2 := GoType.struct.inj (h3.symm.trans c)
      subst e2
      cases ih1 d
  | innerPanic h1 h2 h3 h4 ih1 =>
    cases h' with
    | skip a _ => exact absurd (h1.symm.trans a) (by simp)
    | plain a b _ _ _ => exact absurd (h2.symm.trans b) (by simp)
    | conflict a b _ _ => exact absurd (h2.symm.trans b) (by simp)
    | badTag a b _ => exact absurd (h2.symm.trans b) (by simp)
    | panicTag a b _ => exact absurd (h2.symm.trans b) (by simp)
    | inner a b c d e f =>
      have e1 := Option.some.inj (h2.symm.trans b)
      subst e1
      have e2 := GoType.struct.inj (h3.symm.trans c)
      subst e2
      cases ih1 d
    | innerConflict a b c d e =>
      have e1 := Option.some.inj (h2.symm.trans b)
      subst e1
      have e2 := GoType.struct.inj (h3.symm.trans c)
      subst e2
      cases ih1 d
    | innerErr a b c d =>
      have e1 := Option.some.inj (h2.symm.trans b)
      subst e1
      have e2 := GoType.struct.inj (h3.symm.trans c)
      subst e2
      cases ih1 d
    | innerPanic a b c d => rfl

theorem info_det {env : Nat → GoType} {ns : Str} {t : Nat} {r r' : Res TInfo} (h : Info env ns t r)
    (h' : Info env ns t r') : r = r' := by
  unfold Info at h h'
  cases e : env t with
  | struct fs => rw [e] at h h'; exact fieldsInfo_det h h'
  | ptr _ => rw [e] at h h'; rw [h, h']
  | other => rw [e] at h h'; rw [h, h']

/-! ### Invariant of the shared state -/

/-- `owner` says for which namespace each map was made. -/
def SharedOK (env : Nat → GoType) (owner : Nat → Str) (s : Shared) : Prop :=
  (∀ ns m, s.nsMap ns = some m → owner m = ns ∧ m < s.next) ∧
  (∀ m t info, s.heap m t = some info → m < s.next ∧ Info env (owner m) t (.ok info))

/-- A call in the loop: whatever the rest of the fields gives is the metadata of the type. -/
def LoopOK (env : Nat → GoType) (ns : Str) (typ i : Nat) (acc : TInfo) : Prop :=
  ∃ fs, env typ = .struct fs ∧ ∀ r, FieldsInfo env ns (fs.drop i) i acc r → Info env ns typ r

/-- What is known about a call. -/
def CallOK (env : Nat → GoType) (owner : Nat → Str) (next : Nat) (ns : Str) (c : Call) : Prop :=
  match c.pc with
  | .start | .inR1 => True
  | .missR m | .wantW1 m | .inW1 m | .doneW1 m | .wantR2 m | .inR2 m => owner m = ns ∧ m < next
  | .doneR2 m hit => (owner m = ns ∧ m < next) ∧ ∀ info, hit = some info → Info env ns c.typ (.ok info)
  | .fields m i acc | .waiting m i acc => (owner m = ns ∧ m < next) ∧ LoopOK env ns c.typ i acc
  | .wantW2 m info | .inW2 m info => (owner m = ns ∧ m < next) ∧ Info env ns c.typ (.ok info)
  | .doneW2 info => Info env ns c.typ (.ok info)
  | .ret r => Info env ns c.typ r

/-- The call `d` waits for a call for the type `t`. -/
def WaitsFor (env : Nat → GoType) (ns : Str) (t : Nat) (d : Call) : Prop :=
  ∃ m i acc fs f, d.pc = .waiting m i acc ∧ env d.typ = .struct fs ∧ fs[i]? = some f ∧ skipField f ns = false ∧
    embedded env f = some t

/-- What is known about the calls below a call for the type `t`, down to the call for `top`. -/
def BelowOK (env : Nat → GoType) (owner : Nat → Str) (next : Nat) (ns : Str) (top : Nat) : Nat → List Call → Prop
  | t, [] => t = top
  | t, d :: ds => CallOK env owner next ns d ∧ WaitsFor env ns t d ∧ BelowOK env owner next ns top d.typ ds

/-- What is known about a goroutine. -/
def ThreadOK (env : Nat → GoType) (owner : Nat → Str) (next : Nat) (t : Thread) : Prop :=
  (∀ r, t.result = some r → Info env t.ns t.typ r ∧ t.stack = []) ∧
  (t.stack = [] → t.result ≠ none) ∧
  match t.stack with
  | [] => True
  | c :: cs => CallOK env owner next t.ns c ∧ (∀ m i acc, c.pc ≠ .waiting m i acc) ∧
      BelowOK env owner next t.ns t.typ c.typ cs

theorem embedded_struct {env : Nat → GoType} {f : GoField} {t : Nat} (h : embedded env f = some t) :
    ∃ gs, env t = .struct gs := by
  unfold embedded at h
  split at h
  · simp only at h
    split at h
    · rename_i hs
      have := Option.some.inj h
      subst this
      exact ⟨_, hs⟩
    · cases h
  · cases h

theorem callOK_mono {env : Nat → GoType} {owner owner' : Nat → Str} {next next' : Nat} {ns : Str} {c : Call}
    (hn : next ≤ next') (ho : ∀ m, m < next → owner' m = owner m) (h : CallOK env owner next ns c) :
    CallOK env owner' next' ns c := by
  have key : ∀ m, owner m = ns ∧ m < next → owner' m = ns ∧ m < next' := fun m hm =>
    ⟨by rw [ho m hm.2]; exact hm.1, by omega⟩
  obtain ⟨t, pc⟩ := c
  unfold CallOK at h ⊢
  cases pc <;> simp only at h ⊢ <;> first
    | exact h
    | exact key _ h
    | exact ⟨key _ h.1, h.2⟩

theorem belowOK_mono {env : Nat → GoType} {owner owner' : Nat → Str} {next next' : Nat} {ns : Str} {top : Nat}
    (hn : next ≤ next') (ho : ∀ m, m < next → owner' m = owner m) : ∀ {cs : List Call} {t : Nat},
    BelowOK env owner next ns top t cs → BelowOK env owner' next' ns top t cs := by
  intro cs
  induction cs with
  | nil => intro t h; exact h
  | cons d ds ih =>
    intro t h
    exact ⟨callOK_mono hn ho h.1, h.2.1, ih h.2.2⟩

theorem threadOK_mono {env : Nat → GoType} {owner owner' : Nat → Str} {next next' : Nat} {t : Thread}
    (hn : next ≤ next') (ho : ∀ m, m < next → owner' m = owner m) (h : ThreadOK env owner next t) :
    ThreadOK env owner' next' t := by
  obtain ⟨h1, h2, h3⟩ := h
  refine ⟨h1, h2, ?_⟩
  cases hs : t.stack with
  | nil => trivial
  | cons c cs =>
    rw [hs] at h3
    exact ⟨callOK_mono hn ho h3.1, h3.2.1, belowOK_mono hn ho h3.2.2⟩

theorem go_ok {env : Nat → GoType} {owner : Nat → Str} {next : Nat} {ns : Str} {typ : Nat} {c : Call} {cs : List Call}
    {res : Option (Res TInfo)} (h : ThreadOK env owner next ⟨ns, typ, c :: cs, res⟩) {pc : PC}
    (hc : CallOK env owner next ns ⟨c.typ, pc⟩) (hw : ∀ m i acc, pc ≠ .waiting m i acc) :
    ThreadOK env owner next ⟨ns, typ, ⟨c.typ, pc⟩ :: cs, res⟩ := by
  obtain ⟨h1, h2, h3⟩ := h
  refine ⟨?_, ?_, hc, hw, h3.2.2⟩
  · intro r hr
    have := (h1 r hr).2
    cases this
  · intro h; cases h

theorem info_of_not_struct {env : Nat → GoType} {ns : Str} {t : Nat} (h : ∀ fs, env t ≠ .struct fs) :
    Info env ns t .err := by
  unfold Info
  cases e : env t with
  | struct fs => exact absurd e (h fs)
  | ptr _ => rfl
  | other => rfl

theorem fieldStep_ok {env : Nat → GoType} {owner : Nat → Str} {next : Nat} {ns : Str} {typ m i : Nat} {acc : TInfo}
    (hm : owner m = ns ∧ m < next) (hl : LoopOK env ns typ i acc) :
    match fieldStep env ns typ m i acc with
    | .inl pc => CallOK env owner next ns ⟨typ, pc⟩ ∧ ∀ m i acc, pc ≠ .waiting m i acc
    | .inr t => WaitsFor env ns t ⟨typ, .waiting m i acc⟩ := by
  obtain ⟨fs, he, hk⟩ := hl
  unfold fieldStep
  rw [he]
  simp only
  cases hf : fs[i]? with
  | none =>
    simp only
    have hd : fs.drop i = [] := List.drop_eq_nil_of_le (by simpa using hf)
    refine ⟨⟨hm, hk _ ?_⟩, by intro _ _ _ h; cases h⟩
    rw [hd]; exact .done
  | some f =>
    simp only
    have hi : i < fs.length := by
      by_contra hge
      rw [List.getElem?_eq_none (by omega)] at hf; cases hf
    have hd : fs.drop i = f :: fs.drop (i + 1) := by
      rw [List.drop_eq_getElem_cons hi]
      rw [List.getElem?_eq_getElem hi] at hf
      rw [Option.some.inj hf]
    rw [hd] at hk
    by_cases hsk : skipField f ns = true
    · rw [if_pos hsk]
      exact ⟨⟨hm, fs, he, fun r hr => hk r (.skip hsk hr)⟩, by intro _ _ _ h; cases h⟩
    · rw [if_neg hsk]
      have hsk : skipField f ns = false := by simpa using hsk
      cases hem : embedded env f with
      | some t => exact ⟨m, i, acc, fs, f, rfl, he, hf, hsk, hem⟩
      | none =>
        simp only
        cases hsf : structFieldInfo i f ns with
        | ok fi =>
          simp only
          cases ha : addFieldInfo acc fi with
          | some acc' => exact ⟨⟨hm, fs, he, fun r hr => hk r (.plain hsk hem hsf ha hr)⟩, by intro _ _ _ h; cases h⟩
          | none => exact ⟨hk _ (.conflict hsk hem hsf ha), by intro _ _ _ h; cases h⟩
        | err => exact ⟨hk _ (.badTag hsk hem hsf), by intro _ _ _ h; cases h⟩
        | panic => exact ⟨hk _ (.panicTag hsk hem hsf), by intro _ _ _ h; cases h⟩

theorem resume_ok {env : Nat → GoType} {owner : Nat → Str} {next : Nat} {ns : Str} {t : Nat} {d : Call} {m i : Nat}
    {acc : TInfo} {r : Res TInfo} (hp : d.pc = .waiting m i acc) (hd : CallOK env owner next ns d)
    (hw : WaitsFor env ns t d) (hr : Info env ns t r) :
    CallOK env owner next ns ⟨d.typ, resume m i acc r⟩ ∧ ∀ a b c, resume m i acc r ≠ .waiting a b c := by
  obtain ⟨m', i', acc', fs, f, h1, he, hf, hsk, hem⟩ := hw
  rw [hp] at h1
  injection h1 with e1 e2 e3
  subst e1 e2 e3
  unfold CallOK at hd
  rw [hp] at hd
  obtain ⟨hm, fs', he', hk⟩ := hd
  rw [he] at he'
  injection he' with e4
  subst e4
  have hi : i < fs.length := by
    by_contra hge
    rw [List.getElem?_eq_none (by omega)] at hf; cases hf
  have hd : fs.drop i = f :: fs.drop (i + 1) := by
    rw [List.drop_eq_getElem_cons hi]
    rw [List.getElem?_eq_getElem hi] at hf
    rw [Option.some.inj hf]
  rw [hd] at hk
  obtain ⟨gs, hgs⟩ := embedded_struct hem
  unfold Info at hr
  rw [hgs] at hr
  simp only at hr
  unfold resume
  cases r with
  | ok inner =>
    simp only
    cases ha : addInner i acc inner with
    | some acc' => exact ⟨⟨hm, fs, he, fun r h => hk r (.inner hsk hem hgs hr ha h)⟩, by intro _ _ _ h; cases h⟩
    | none => exact ⟨hk _ (.innerConflict hsk hem hgs hr ha), by intro _ _ _ h; cases h⟩
  | err => exact ⟨hk _ (.innerErr hsk hem hgs hr), by intro _ _ _ h; cases h⟩
  | panic => exact ⟨hk _ (.innerPanic hsk hem hgs hr), by intro _ _ _ h; cases h⟩

/-- A step keeps the invariant, with a possibly larger `owner`. -/
theorem threadStep_ok {env : Nat → GoType} {owner : Nat → Str} {s s' : Shared} {t t' : Thread}
    (hs : SharedOK env owner s) (ht : ThreadOK env owner s.next t) (h : threadStep env s t = some (s', t')) :
    ∃ owner', (∀ m, m < s.next → owner' m = owner m) ∧ s.next ≤ s'.next ∧ SharedOK env owner' s' ∧
      ThreadOK env owner' s'.next t' ∧ t'.ns = t.ns ∧ t'.typ = t.typ := by
  obtain ⟨ns, typ, stack, res⟩ := t
  cases stack with
  | nil => cases h
  | cons c cs =>
    obtain ⟨ct, pc⟩ := c
    have ht0 := ht
    obtain ⟨h1, h2, hc, hw, hb⟩ := ht
    simp only at hc hw hb h1
    -- a step that keeps the maps
    have keep : ∀ (s1 : Shared) (pc' : PC), some (s1, (⟨ns, typ, ⟨ct, pc'⟩ :: cs, res⟩ : Thread)) = some (s', t') →
        s1.nsMap = s.nsMap → s1.heap = s.heap → s1.next = s.next →
        CallOK env owner s.next ns ⟨ct, pc'⟩ → (∀ m i acc, pc' ≠ .waiting m i acc) →
        ∃ owner', (∀ m, m < s.next → owner' m = owner m) ∧ s.next ≤ s'.next ∧ SharedOK env owner' s' ∧
          ThreadOK env owner' s'.next t' ∧ t'.ns = ns ∧ t'.typ = typ := by
      intro s1 pc' he e1 e2 e3 hc' hw'
      injection he with he
      injection he with he1 he2
      subst he1 he2
      refine ⟨owner, fun _ _ => rfl, by omega, ?_, ?_, rfl, rfl⟩
      · unfold SharedOK; rw [e1, e2, e3]; exact hs
      · rw [e3]; exact go_ok ht0 hc' hw'
    cases pc with
    | start =>
      simp only [threadStep] at h
      split at h
      · cases h
      · exact keep _ .inR1 h rfl rfl rfl trivial (by intro _ _ _ h; cases h)
    | inR1 =>
      simp only [threadStep] at h
      cases hm : s.nsMap ns with
      | some m =>
        rw [hm] at h
        exact keep _ (.inR2 m) h rfl rfl rfl (hs.1 ns m hm) (by intro _ _ _ h; cases h)
      | none =>
        rw [hm] at h
        injection h with h
        injection h with he1 he2
        subst he1 he2
        have ho : ∀ m, m < s.next → (fun m => if m = s.next then ns else owner m) m = owner m := by
          intro m hlt
          simp only
          rw [if_neg (by omega)]
        refine ⟨fun m => if m = s.next then ns else owner m, ho, Nat.le_succ _, ⟨?_, ?_⟩, ?_, rfl, rfl⟩
        · intro n m hnm
          have := hs.1 n m hnm
          simp only
          rw [if_neg (by omega)]
          exact ⟨this.1, by omega⟩
        · intro m t info hi
          have := hs.2 m t info hi
          simp only
          rw [if_neg (by omega)]
          exact ⟨by omega, this.2⟩
        · refine go_ok (c := ⟨ct, .inR1⟩) (threadOK_mono (Nat.le_succ _) ho ht0) ?_ (by intro _ _ _ h; cases h)
          show (if s.next = s.next then ns else owner s.next) = ns ∧ s.next < s.next + 1
          rw [if_pos rfl]
          exact ⟨rfl, Nat.lt_succ_self _⟩
    | missR m =>
      simp only [threadStep] at h
      exact keep _ (.wantW1 m) h rfl rfl rfl hc (by intro _ _ _ h; cases h)
    | wantW1 m =>
      simp only [threadStep] at h
      split at h
      · cases h
      · exact keep _ (.inW1 m) h rfl rfl rfl hc (by intro _ _ _ h; cases h)
    | inW1 m =>
      simp only [threadStep] at h
      injection h with h
      injection h with he1 he2
      subst he1 he2
      have hcm : owner m = ns ∧ m < s.next := hc
      refine ⟨owner, fun _ _ => rfl, Nat.le_refl _, ⟨?_, hs.2⟩, go_ok ht0 hcm (by intro _ _ _ h; cases h), rfl, rfl⟩
      intro n k hnk
      simp only at hnk
      split at hnk
      · rename_i e
        have := Option.some.inj hnk
        subst this e
        exact hcm
      · exact hs.1 n k hnk
    | doneW1 m =>
      simp only [threadStep] at h
      exact keep _ (.wantR2 m) h rfl rfl rfl hc (by intro _ _ _ h; cases h)
    | wantR2 m =>
      simp only [threadStep] at h
      split at h
      · cases h
      · exact keep _ (.inR2 m) h rfl rfl rfl hc (by intro _ _ _ h; cases h)
    | inR2 m =>
      simp only [threadStep] at h
      have hcm : owner m = ns ∧ m < s.next := hc
      refine keep _ (.doneR2 m (s.heap m ct)) h rfl rfl rfl ⟨hcm, ?_⟩ (by intro _ _ _ h; cases h)
      intro info hi
      have := (hs.2 m ct info hi).2
      rw [hcm.1] at this
      exact this
    | doneR2 m hit =>
      simp only [threadStep] at h
      obtain ⟨hcm, hh⟩ := hc
      cases hit with
      | some info => exact keep _ (.ret (.ok info)) h rfl rfl rfl (hh info rfl) (by intro _ _ _ h; cases h)
      | none =>
        simp only at h
        cases he : env ct with
        | struct fs =>
          rw [he] at h
          refine keep _ (.fields m 0 []) h rfl rfl rfl ⟨hcm, fs, he, ?_⟩ (by intro _ _ _ h; cases h)
          intro r hr
          unfold Info
          rw [he]
          exact hr
        | ptr e =>
          rw [he] at h
          exact keep _ (.ret .err) h rfl rfl rfl (info_of_not_struct (by rw [he]; intro fs h; cases h))
            (by intro _ _ _ h; cases h)
        | other =>
          rw [he] at h
          exact keep _ (.ret .err) h rfl rfl rfl (info_of_not_struct (by rw [he]; intro fs h; cases h))
            (by intro _ _ _ h; cases h)
    | fields m i acc =>
      simp only [threadStep] at h
      obtain ⟨hcm, hl⟩ := hc
      have hf := fieldStep_ok (owner := owner) (next := s.next) hcm hl
      cases hst : fieldStep env ns ct m i acc with
      | inl pc =>
        rw [hst] at h hf
        exact keep _ pc h rfl rfl rfl hf.1 hf.2
      | inr t =>
        rw [hst] at h hf
        injection h with h
        injection h with he1 he2
        subst he1 he2
        refine ⟨owner, fun _ _ => rfl, Nat.le_refl _, hs, ?_, rfl, rfl⟩
        refine ⟨?_, ?_, trivial, (by intro _ _ _ h; cases h), ⟨hcm, hl⟩, hf, hb⟩
        · intro r hr
          have := (h1 r hr).2
          cases this
        · intro h; cases h
    | waiting m i acc => exact absurd rfl (hw m i acc)
    | wantW2 m info =>
      simp only [threadStep] at h
      split at h
      · cases h
      · exact keep _ (.inW2 m info) h rfl rfl rfl hc (by intro _ _ _ h; cases h)
    | inW2 m info =>
      simp only [threadStep] at h
      injection h with h
      injection h with he1 he2
      subst he1 he2
      obtain ⟨hcm, hi⟩ := hc
      refine ⟨owner, fun _ _ => rfl, Nat.le_refl _, ⟨hs.1, ?_⟩, go_ok ht0 hi (by intro _ _ _ h; cases h), rfl, rfl⟩
      intro a b inf hab
      simp only at hab
      split at hab
      · rename_i e
        obtain ⟨rfl, rfl⟩ := e
        have := Option.some.inj hab
        subst this
        refine ⟨hcm.2, ?_⟩
        rw [hcm.1]; exact hi
      · exact hs.2 a b inf hab
    | doneW2 info =>
      simp only [threadStep] at h
      exact keep _ (.ret (.ok info)) h rfl rfl rfl hc (by intro _ _ _ h; cases h)
    | ret r =>
      simp only [threadStep] at h
      cases cs with
      | nil =>
        injection h with h
        injection h with he1 he2
        subst he1 he2
        refine ⟨owner, fun _ _ => rfl, Nat.le_refl _, hs, ⟨?_, ?_, trivial⟩, rfl, rfl⟩
        · intro r' hr'
          have := Option.some.inj hr'
          subst this
          refine ⟨?_, rfl⟩
          have hbt : ct = typ := hb
          subst hbt
          exact hc
        · intro _ h; cases h
      | cons d ds =>
        obtain ⟨hd, hwf, hbb⟩ := hb
        have hwf0 := hwf
        obtain ⟨m, i, acc, fs, f, hp, -⟩ := hwf0
        simp only [hp] at h
        injection h with h
        injection h with he1 he2
        subst he1 he2
        obtain ⟨k1, k2⟩ := resume_ok hp hd hwf hc
        refine ⟨owner, fun _ _ => rfl, Nat.le_refl _, hs, ⟨?_, ?_, k1, k2, hbb⟩, rfl, rfl⟩
        · intro r hr
          have := (h1 r hr).2
          cases this
        · intro h; cases h

/-- The invariant of the machine. -/
def MachineOK (env : Nat → GoType) (l : List (Nat × Str)) (m : Machine) : Prop :=
  (∃ owner, SharedOK env owner m.shared ∧ ∀ t ∈ m.threads, ThreadOK env owner m.shared.next t) ∧
  m.threads.map (fun t => (t.typ, t.ns)) = l.map (fun x => (x.1, nsOrDefault x.2))

theorem init_ok (env : Nat → GoType) (l : List (Nat × Str)) : MachineOK env l (Machine.init l) := by
  refine ⟨⟨fun _ => [], ⟨?_, ?_⟩, ?_⟩, ?_⟩
  · intro ns m h; cases h
  · intro m t info h; cases h
  · intro t ht
    obtain ⟨x, -, rfl⟩ := List.mem_map.1 ht
    exact ⟨by intro r h; (cases h), by intro h; (cases h), trivial, by intro _ _ _ h; (cases h), rfl⟩
  · unfold Machine.init
    simp only [List.map_map]
    rfl

theorem step_ok {env : Nat → GoType} {l : List (Nat × Str)} {m m' : Machine} {k : Nat} (h : MachineOK env l m)
    (hs : m.step env k = some m') : MachineOK env l m' := by
  obtain ⟨⟨owner, h1, h2⟩, h3⟩ := h
  unfold Machine.step at hs
  cases ht : m.threads[k]? with
  | none => rw [ht] at hs; cases hs
  | some t =>
    rw [ht] at hs
    simp only at hs
    cases hst : threadStep env m.shared t with
    | none => rw [hst] at hs; cases hs
    | some st =>
      obtain ⟨s', t'⟩ := st
      rw [hst] at hs
      injection hs with hs
      subst hs
      have hmem : t ∈ m.threads := List.mem_of_getElem? ht
      obtain ⟨owner', ho, hn, hsh, hth, e1, e2⟩ := threadStep_ok h1 (h2 t hmem) hst
      refine ⟨⟨owner', hsh, ?_⟩, ?_⟩
      · intro u hu
        rcases List.mem_or_eq_of_mem_set hu with hu | rfl
        · exact threadOK_mono hn ho (h2 u hu)
        · exact hth
      · rw [← h3]
        show List.map _ (m.threads.set k t') = _
        apply List.ext_getElem?
        intro j
        simp only [List.getElem?_map, List.getElem?_set]
        split
        · rename_i e
          subst e
          rw [ht]
          obtain ⟨hlt, -⟩ := List.getElem?_eq_some_iff.1 ht
          rw [if_pos hlt]
          simp [e1, e2]
        · rfl

theorem run_ok {env : Nat → GoType} {l : List (Nat × Str)} : ∀ (ks : List Nat) {m : Machine}, MachineOK env l m →
    MachineOK env l (m.run env ks) := by
  intro ks
  induction ks with
  | nil => intro m h; exact h
  | cons k ks ih =>
    intro m h
    rw [Machine.run]
    apply ih
    cases hs : m.step env k with
    | none => exact h
    | some m' => exact step_ok h hs

/-- C28: in every interleaving of any number of lookups, a lookup that has finished returned the metadata of the
requested type and namespace. -/
theorem lookup_result (env : Nat → GoType) (l : List (Nat × Str)) (ks : List Nat) {k : Nat} {typ : Nat} {ns : Str}
    {t : Thread} {r : Res TInfo} (hk : l[k]? = some (typ, ns)) (ht : ((Machine.init l).run env ks).threads[k]? = some t)
    (hr : t.result = some r) : Info env (nsOrDefault ns) typ r := by
  obtain ⟨⟨owner, h1, h2⟩, h3⟩ := run_ok ks (init_ok env l)
  have h4 := congrArg (fun x => x[k]?) h3
  simp only [List.getElem?_map, hk, ht, Option.map_some, Option.some.injEq, Prod.mk.injEq] at h4
  have := ((h2 t (List.mem_of_getElem? ht)).1 r hr).1
  rw [h4.1, h4.2] at this
  exact this

/-! ### The lock -/

/-- The goroutine holds the read lock. -/
def holdsR (t : Thread) : Bool :=
  match t.stack with
  | [] => false
  | c :: _ =>
    match c.pc with
    | .inR1 | .missR _ | .inR2 _ | .doneR2 _ _ => true
    | _ => false

/-- The goroutine holds the write lock. -/
def holdsW (t : Thread) : Bool :=
  match t.stack with
  | [] => false
  | c :: _ =>
    match c.pc with
    | .inW1 _ | .doneW1 _ | .inW2 _ _ | .doneW2 _ => true
    | _ => false

/-- The next step of the goroutine reads one of the shared maps. -/
def reads (t : Thread) : Bool :=
  match t.stack with
  | [] => false
  | c :: _ =>
    match c.pc with
    | .inR1 | .inR2 _ => true
    | _ => false

/-- The next step of the goroutine writes one of the shared maps. -/
def writes (t : Thread) : Bool :=
  match t.stack with
  | [] => false
  | c :: _ =>
    match c.pc with
    | .inW1 _ | .inW2 _ _ => true
    | _ => false

/-- The state of the lock agrees with what the goroutines hold. -/
def LockOK (m : Machine) : Prop :=
  m.shared.readers = m.threads.countP holdsR ∧ m.threads.countP holdsW = m.shared.writer.toNat ∧
  (m.shared.writer = true → m.shared.readers = 0)

theorem countP_set {p : Thread → Bool} {l : List Thread} {k : Nat} {t t' : Thread} (h : l[k]? = some t) :
    (l.set k t').countP p + (p t).toNat = l.countP p + (p t').toNat := by
  induction l generalizing k with
  | nil => cases h
  | cons x l ih =>
    cases k with
    | zero =>
      have : x = t := by simpa using h
      subst this
      simp only [List.set_cons_zero, List.countP_cons]
      cases p x <;> cases p t' <;> simp
    | succ k =>
      have := ih (k := k) (by simpa using h)
      simp only [List.set_cons_succ, List.countP_cons]
      omega

theorem countP_two {p : Thread → Bool} {l : List Thread} {i j : Nat} {t u : Thread} (hi : l[i]? = some t)
    (hj : l[j]? = some u) (hij : i ≠ j) (ht : p t = true) (hu : p u = true) (hp : p ⟨[], 0, [], none⟩ = false) :
    2 ≤ l.countP p := by
  have h1 := countP_set (p := p) (t' := ⟨[], 0, [], none⟩) hi
  have h2 : (l.set i ⟨[], 0, [], none⟩)[j]? = some u := by
    rw [List.getElem?_set, if_neg hij]; exact hj
  have h3 := countP_set (p := p) (t' := ⟨[], 0, [], none⟩) h2
  rw [ht, hp] at h1
  rw [hu, hp] at h3
  simp at h1 h3
  omega

theorem countP_one {p : Thread → Bool} {l : List Thread} {i : Nat} {t : Thread} (hi : l[i]? = some t)
    (ht : p t = true) : 1 ≤ l.countP p :=
  List.countP_pos_iff.2 ⟨t, List.mem_of_getElem? hi, ht⟩

/-- Effect of one step of a goroutine on the lock. -/
theorem threadStep_lock {env : Nat → GoType} {s s' : Shared} {t t' : Thread}
    (h : threadStep env s t = some (s', t')) (hr : holdsR t = true → 1 ≤ s.readers)
    (hw : holdsW t = true → s.writer = true) (hx : s.writer = true → s.readers = 0) :
    s'.readers + (holdsR t).toNat = s.readers + (holdsR t').toNat ∧
    s'.writer.toNat + (holdsW t).toNat = s.writer.toNat + (holdsW t').toNat ∧
    (s'.writer = true → s'.readers = 0) := by
  obtain ⟨ns, typ, stack, res⟩ := t
  cases stack with
  | nil => cases h
  | cons c cs =>
    obtain ⟨ct, pc⟩ := c
    have fin : ∀ {s1 : Shared} {t1 : Thread}, some (s1, t1) = some (s', t') →
        (s1.readers + (holdsR ⟨ns, typ, ⟨ct, pc⟩ :: cs, res⟩).toNat = s.readers + (holdsR t1).toNat ∧
        s1.writer.toNat + (holdsW ⟨ns, typ, ⟨ct, pc⟩ :: cs, res⟩).toNat = s.writer.toNat + (holdsW t1).toNat ∧
        (s1.writer = true → s1.readers = 0)) →
        s'.readers + (holdsR ⟨ns, typ, ⟨ct, pc⟩ :: cs, res⟩).toNat = s.readers + (holdsR t').toNat ∧
        s'.writer.toNat + (holdsW ⟨ns, typ, ⟨ct, pc⟩ :: cs, res⟩).toNat = s.writer.toNat + (holdsW t').toNat ∧
        (s'.writer = true → s'.readers = 0) := by
      intro s1 t1 he hc
      injection he with he
      injection he with e1 e2
      subst e1 e2
      exact hc
    cases pc with
    | start =>
      simp only [threadStep] at h
      split at h
      · cases h
      · rename_i hwr
        refine fin h ⟨rfl, rfl, ?_⟩
        intro h'; exact absurd h' hwr
    | inR1 =>
      simp only [threadStep] at h
      split at h
      · exact fin h ⟨rfl, rfl, hx⟩
      · exact fin h ⟨rfl, rfl, hx⟩
    | missR m =>
      simp only [threadStep] at h
      have := hr rfl
      refine fin h ⟨?_, rfl, ?_⟩
      · show s.readers - 1 + 1 = s.readers + 0
        omega
      · intro h'
        show s.readers - 1 = 0
        rw [hx h']
    | wantW1 m =>
      simp only [threadStep] at h
      split at h
      · cases h
      · rename_i hc
        simp only [Bool.or_eq_true, bne_iff_ne, ne_eq, not_or, not_not, Bool.not_eq_true] at hc
        refine fin h ⟨rfl, ?_, ?_⟩
        · rw [hc.1]; rfl
        · intro _; exact hc.2
    | inW1 m =>
      simp only [threadStep] at h
      exact fin h ⟨rfl, rfl, hx⟩
    | doneW1 m =>
      simp only [threadStep] at h
      refine fin h ⟨rfl, ?_, by intro h'; cases h'⟩
      rw [hw rfl]; rfl
    | wantR2 m =>
      simp only [threadStep] at h
      split at h
      · cases h
      · rename_i hwr
        refine fin h ⟨rfl, rfl, ?_⟩
        intro h'; exact absurd h' hwr
    | inR2 m =>
      simp only [threadStep] at h
      exact fin h ⟨rfl, rfl, hx⟩
    | doneR2 m hit =>
      simp only [threadStep] at h
      have := hr rfl
      have key : ∀ pc', holdsR ⟨ns, typ, ⟨ct, pc'⟩ :: cs, res⟩ = false → holdsW ⟨ns, typ, ⟨ct, pc'⟩ :: cs, res⟩ = false →
          some ({ s with readers := s.readers - 1 }, (⟨ns, typ, ⟨ct, pc'⟩ :: cs, res⟩ : Thread)) = some (s', t') →
          s'.readers + 1 = s.readers + (holdsR t').toNat ∧
          s'.writer.toNat + 0 = s.writer.toNat + (holdsW t').toNat ∧ (s'.writer = true → s'.readers = 0) := by
        intro pc' k1 k2 he
        refine fin he ⟨?_, ?_, ?_⟩
        · rw [k1]
          show s.readers - 1 + 1 = s.readers + 0
          omega
        · rw [k2]; rfl
        · intro h'
          show s.readers - 1 = 0
          rw [hx h']
      cases hit with
      | some info => exact key _ rfl rfl h
      | none =>
        simp only at h
        split at h
        · exact key _ rfl rfl h
        · exact key _ rfl rfl h
    | fields m i acc =>
      simp only [threadStep] at h
      split at h
      · rename_i pc hst
        have hpc : holdsR ⟨ns, typ, ⟨ct, pc⟩ :: cs, res⟩ = false ∧ holdsW ⟨ns, typ, ⟨ct, pc⟩ :: cs, res⟩ = false := by
          unfold fieldStep at hst
          repeat' split at hst
          all_goals first
            | (injection hst with hst; subst hst; exact ⟨rfl, rfl⟩)
            | cases hst
        exact fin h ⟨by rw [hpc.1]; rfl, by rw [hpc.2]; rfl, hx⟩
      · exact fin h ⟨rfl, rfl, hx⟩
    | waiting m i acc => cases h
    | wantW2 m info =>
      simp only [threadStep] at h
      split at h
      · cases h
      · rename_i hc
        simp only [Bool.or_eq_true, bne_iff_ne, ne_eq, not_or, not_not, Bool.not_eq_true] at hc
        refine fin h ⟨rfl, ?_, ?_⟩
        · rw [hc.1]; rfl
        · intro _; exact hc.2
    | inW2 m info =>
      simp only [threadStep] at h
      exact fin h ⟨rfl, rfl, hx⟩
    | doneW2 info =>
      simp only [threadStep] at h
      refine fin h ⟨rfl, ?_, by intro h'; cases h'⟩
      rw [hw rfl]; rfl
    | ret r =>
      simp only [threadStep] at h
      cases cs with
      | nil => exact fin h ⟨rfl, rfl, hx⟩
      | cons d ds =>
        simp only at h
        split at h
        · rename_i m i acc hp
          have hpc : holdsR ⟨ns, typ, ⟨d.typ, resume m i acc r⟩ :: ds, res⟩ = false ∧
              holdsW ⟨ns, typ, ⟨d.typ, resume m i acc r⟩ :: ds, res⟩ = false := by
            cases r with
            | ok inner =>
              unfold resume
              simp only
              cases addInner i acc inner <;> exact ⟨rfl, rfl⟩
            | err => exact ⟨rfl, rfl⟩
            | panic => exact ⟨rfl, rfl⟩
          exact fin h ⟨by rw [hpc.1]; rfl, by rw [hpc.2]; rfl, hx⟩
        · cases h

theorem step_lock {env : Nat → GoType} {m m' : Machine} {k : Nat} (h : LockOK m) (hs : m.step env k = some m') :
    LockOK m' := by
  obtain ⟨h1, h2, h3⟩ := h
  unfold Machine.step at hs
  cases ht : m.threads[k]? with
  | none => rw [ht] at hs; cases hs
  | some t =>
    rw [ht] at hs
    simp only at hs
    cases hst : threadStep env m.shared t with
    | none => rw [hst] at hs; cases hs
    | some st =>
      obtain ⟨s', t'⟩ := st
      rw [hst] at hs
      injection hs with hs
      subst hs
      obtain ⟨a, b, c⟩ := threadStep_lock hst (by
          intro hh; rw [h1]; exact countP_one ht hh) (by
          intro hh
          have := countP_one ht hh
          cases hw : m.shared.writer with
          | true => rfl
          | false => rw [h2, hw] at this; simp at this) h3
      have e1 := countP_set (p := holdsR) (t' := t') ht
      have e2 := countP_set (p := holdsW) (t' := t') ht
      refine ⟨?_, ?_, c⟩
      · show s'.readers = (m.threads.set k t').countP holdsR
        omega
      · show (m.threads.set k t').countP holdsW = s'.writer.toNat
        omega

theorem run_lock {env : Nat → GoType} : ∀ (ks : List Nat) {m : Machine}, LockOK m → LockOK (m.run env ks) := by
  intro ks
  induction ks with
  | nil => intro m h; exact h
  | cons k ks ih =>
    intro m h
    rw [Machine.run]
    apply ih
    cases hs : m.step env k with
    | none => exact h
    | some m' => exact step_lock h hs

theorem init_lock (l : List (Nat × Str)) : LockOK (Machine.init l) := by
  have : ∀ p : Thread → Bool, (∀ a b, p (Thread.init a b) = false) →
      (l.map (fun x => Thread.init x.1 x.2)).countP p = 0 := by
    intro p hp
    rw [List.countP_eq_zero]
    intro t ht
    obtain ⟨x, -, rfl⟩ := List.mem_map.1 ht
    rw [hp]; decide
  exact ⟨(this holdsR (fun _ _ => rfl)).symm, this holdsW (fun _ _ => rfl), by intro h; cases h⟩

/-- C28: in every interleaving, a goroutine that is about to write one of the shared maps is the only one about
to access them. -/
theorem lookup_no_race (env : Nat → GoType) (l : List (Nat × Str)) (ks : List Nat) {i j : Nat} {t u : Thread}
    (hij : i ≠ j) (hi : ((Machine.init l).run env ks).threads[i]? = some t)
    (hj : ((Machine.init l).run env ks).threads[j]? = some u) (hw : writes t = true) :
    reads u = false ∧ writes u = false := by
  obtain ⟨h1, h2, h3⟩ := run_lock (env := env) ks (init_lock l)
  have hwt : holdsW t = true := by
    revert hw
    unfold writes holdsW
    cases t.stack with
    | nil => intro h; exact h
    | cons c cs => simp only; cases c.pc <;> simp
  have hwr : ((Machine.init l).run env ks).shared.writer = true := by
    have := countP_one hi hwt
    cases hc : ((Machine.init l).run env ks).shared.writer with
    | true => rfl
    | false => rw [h2, hc] at this; simp at this
  constructor
  · cases hr : reads u with
    | false => rfl
    | true =>
      exfalso
      have hru : holdsR u = true := by
        revert hr
        unfold reads holdsR
        cases u.stack with
        | nil => intro h; exact h
        | cons c cs => simp only; cases c.pc <;> simp
      have := countP_one hj hru
      rw [← h1, h3 hwr] at this
      omega
  · cases hr : writes u with
    | false => rfl
    | true =>
      exfalso
      have hru : holdsW u = true := by
        revert hr
        unfold writes holdsW
        cases u.stack with
        | nil => intro h; exact h
        | cons c cs => simp only; cases c.pc <;> simp
      have := countP_two hi hj hij hwt hru rfl
      rw [h2, hwr] at this
      simp at this

/-! ### Progress -/

/-- A goroutine that holds the lock can go on; without holders every unfinished goroutine can. -/
theorem threadStep_some {env : Nat → GoType} {owner : Nat → Str} {s : Shared} {t : Thread} {next : Nat}
    (ht : ThreadOK env owner next t) (hn : t.stack ≠ [])
    (h : holdsR t = true ∨ holdsW t = true ∨ (s.readers = 0 ∧ s.writer = false)) :
    (threadStep env s t).isSome = true := by
  obtain ⟨ns, typ, stack, res⟩ := t
  cases stack with
  | nil => exact absurd rfl hn
  | cons c cs =>
    obtain ⟨ct, pc⟩ := c
    obtain ⟨-, -, hc, hw, hb⟩ := ht
    simp only at hc hw hb
    cases pc <;> simp only [threadStep]
    case start =>
      rcases h with h | h | ⟨h, h'⟩
      · cases h
      · cases h
      · simp [h']
    case inR1 => split <;> rfl
    case missR => rfl
    case wantW1 =>
      rcases h with h | h | ⟨h, h'⟩
      · cases h
      · cases h
      · simp [h, h']
    case inW1 => rfl
    case doneW1 => rfl
    case wantR2 =>
      rcases h with h | h | ⟨h, h'⟩
      · cases h
      · cases h
      · simp [h']
    case inR2 => rfl
    case doneR2 m hit => cases hit <;> simp only <;> first | rfl | (split <;> rfl)
    case fields => split <;> rfl
    case waiting m i acc => exact absurd rfl (hw m i acc)
    case wantW2 =>
      rcases h with h | h | ⟨h, h'⟩
      · cases h
      · cases h
      · simp [h, h']
    case inW2 => rfl
    case doneW2 => rfl
    case ret r =>
      cases cs with
      | nil => rfl
      | cons d ds =>
        obtain ⟨-, ⟨m, i, acc, fs, f, hp, -⟩, -⟩ := hb
        simp only [hp]
        rfl

theorem step_isSome {env : Nat → GoType} {m : Machine} {k : Nat} {t : Thread} (ht : m.threads[k]? = some t)
    (h : (threadStep env m.shared t).isSome = true) : (m.step env k).isSome = true := by
  unfold Machine.step
  rw [ht]
  simp only
  cases hs : threadStep env m.shared t with
  | none => rw [hs] at h; cases h
  | some st => rfl

theorem progress {env : Nat → GoType} {l : List (Nat × Str)} {m : Machine} (hm : MachineOK env l m) (hl : LockOK m)
    {t : Thread} (ht : t ∈ m.threads) (hn : t.result = none) : ∃ k, (m.step env k).isSome = true := by
  obtain ⟨⟨owner, h1, h2⟩, -⟩ := hm
  obtain ⟨l1, l2, l3⟩ := hl
  have hne : ∀ u ∈ m.threads, holdsR u = true ∨ holdsW u = true → u.stack ≠ [] := by
    intro u _ hu he
    unfold holdsR holdsW at hu
    rw [he] at hu
    rcases hu with hu | hu <;> cases hu
  by_cases hh : ∃ u ∈ m.threads, holdsR u = true ∨ holdsW u = true
  · obtain ⟨u, hu, hhold⟩ := hh
    obtain ⟨k, hk⟩ := List.mem_iff_getElem?.1 hu
    refine ⟨k, step_isSome hk (threadStep_some (h2 u hu) (hne u hu hhold) ?_)⟩
    rcases hhold with h | h
    · exact Or.inl h
    · exact Or.inr (Or.inl h)
  · obtain ⟨k, hk⟩ := List.mem_iff_getElem?.1 ht
    have hr0 : m.threads.countP holdsR = 0 := by
      rw [List.countP_eq_zero]
      intro u hu h
      exact hh ⟨u, hu, Or.inl h⟩
    have hw0 : m.threads.countP holdsW = 0 := by
      rw [List.countP_eq_zero]
      intro u hu h
      exact hh ⟨u, hu, Or.inr h⟩
    refine ⟨k, step_isSome hk (threadStep_some (h2 t ht) ?_ (Or.inr (Or.inr ⟨by omega, ?_⟩)))⟩
    · intro he
      exact (h2 t ht).2.1 he hn
    · cases hw : m.shared.writer with
      | false => rfl
      | true => rw [hw0, hw] at l2; cases l2

/-- C28: the lookups never block each other for good: while one is unfinished, some goroutine can go on. -/
theorem lookup_no_deadlock (env : Nat → GoType) (l : List (Nat × Str)) (ks : List Nat) {t : Thread}
    (ht : t ∈ ((Machine.init l).run env ks).threads) (hn : t.result = none) :
    ∃ k, (((Machine.init l).run env ks).step env k).isSome = true :=
  progress (run_ok ks (init_ok env l)) (run_lock ks (init_lock l)) ht hn

end Xmp.Props
