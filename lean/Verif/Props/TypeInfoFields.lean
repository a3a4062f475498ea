import Verif.Props.TypeInfo

/-! C28, C44: which fields the metadata of a type lists, stated without the helpers of the model. -/

namespace Xmp.Props

open GoStr

/-- A field that is left out: not exported and not embedded, or tagged `-`. -/
def Skips (f : GoField) (ns : Str) : Prop := (f.exported = false ∧ f.anonymous = false) ∨ f.tag ns = "-".toList

/-- An embedded field that stands for the fields of the struct type `e`, directly or through a pointer. -/
def Embeds (env : Nat → GoType) (f : GoField) (e : Nat) : Prop :=
  f.anonymous = true ∧ (∃ fs, env e = .struct fs) ∧ (env f.ty = .ptr e ∨ f.ty = e)

/-- `f` is reached from the type `t` along the field indexes `idx`, through embedded structs. -/
inductive FieldAt (env : Nat → GoType) (ns : Str) : Nat → List Nat → GoField → Prop
  | here {t fs i f} : env t = .struct fs → fs[i]? = some f → ¬ Skips f ns → (∀ e, ¬ Embeds env f e) →
      FieldAt env ns t [i] f
  | there {t fs i g e idx f} : env t = .struct fs → fs[i]? = some g → ¬ Skips g ns → Embeds env g e →
      FieldAt env ns e idx f → FieldAt env ns t (i :: idx) f

theorem skipField_iff (f : GoField) (ns : Str) : skipField f ns = true ↔ Skips f ns := by
  unfold skipField Skips
  simp only [Bool.or_eq_true, Bool.and_eq_true, Bool.not_eq_true', decide_eq_true_eq]
  rfl

theorem embedded_iff (env : Nat → GoType) (f : GoField) (e : Nat) : embedded env f = some e ↔ Embeds env f e := by
  unfold embedded Embeds
  cases ha : f.anonymous with
  | false => simp
  | true =>
    simp only [if_true, true_and]
    cases ht : env f.ty with
    | struct fs =>
      simp only [ht, Option.some.injEq, reduceCtorEq, false_or]
      constructor
      · rintro rfl; exact ⟨⟨fs, ht⟩, rfl⟩
      · exact fun h => h.2
    | ptr x =>
      simp only [GoType.ptr.injEq]
      constructor
      · intro h
        split at h
        · rename_i fs hs
          have := Option.some.inj h
          subst this
          exact ⟨⟨fs, hs⟩, Or.inl rfl⟩
        · cases h
      · rintro ⟨⟨fs, hs⟩, rfl | rfl⟩
        · rw [hs]
        · rw [ht] at hs; cases hs
    | other =>
      simp only [ht, reduceCtorEq, false_or, false_iff]
      rintro ⟨⟨fs, hs⟩, rfl⟩
      rw [ht] at hs; cases hs

theorem addFieldInfo_some {acc acc' : TInfo} {fi : FInfo} (h : addFieldInfo acc fi = some acc') : acc' = acc ++ [fi] := by
  unfold addFieldInfo at h
  split at h
  · cases h
  · exact (Option.some.inj h).symm

theorem addInner_some {i : Nat} : ∀ {fs acc acc' : TInfo}, addInner i acc fs = some acc' →
    acc' = acc ++ fs.map (fun f => { f with idx := i :: f.idx }) := by
  intro fs
  induction fs with
  | nil => intro acc acc' h; simp only [addInner, Option.some.injEq] at h; simp [h]
  | cons f fs ih =>
    intro acc acc' h
    rw [addInner] at h
    cases ha : addFieldInfo acc { f with idx := i :: f.idx } with
    | none => rw [ha] at h; cases h
    | some a =>
      rw [ha] at h
      rw [ih h, addFieldInfo_some ha]
      simp

/-- The metadata of a field but for its index does not depend on the position. -/
theorem structFieldInfo_idx {i j : Nat} {f : GoField} {ns : Str} {fi : FInfo} (h : structFieldInfo i f ns = .ok fi) :
    fi.idx = [i] ∧ structFieldInfo j f ns = .ok { fi with idx := [j] } := by
  have key : ∀ os (g g' : FInfo), applyOptions g os = .ok g' →
      g'.idx = g.idx ∧ ∀ x, applyOptions { g with idx := x } os = .ok { g' with idx := x } := by
    intro os
    induction os with
    | nil => intro g g' h; simp only [applyOptions, Res.ok.injEq] at h; subst h; exact ⟨rfl, fun x => rfl⟩
    | cons o os ih =>
      intro g g' h
      have hflag : (setFlag g o).idx = g.idx ∧ ∀ x, setFlag { g with idx := x } o = { setFlag g o with idx := x } := by
        unfold setFlag
        refine ⟨?_, fun x => ?_⟩
        · repeat' split
          all_goals rfl
        · repeat' split
          all_goals rfl
      have hopt : ∀ g1, applyOption g o = .ok g1 →
          g1.idx = g.idx ∧ ∀ x, applyOption { g with idx := x } o = .ok { g1 with idx := x } := by
        intro g1 h1
        unfold applyOption at h1 ⊢
        split at h1
        · rename_i rest
          cases hr : versionRange rest with
          | ok p =>
            obtain ⟨lo, hi⟩ := p
            rw [hr] at h1
            simp only [setVersion, Res.ok.injEq] at h1
            subst h1
            refine ⟨hflag.1, fun x => ?_⟩
            simp only [setVersion, hflag.2 x]
          | err => rw [hr] at h1; cases h1
          | panic => rw [hr] at h1; cases h1
        · simp only [Res.ok.injEq] at h1
          subst h1
          refine ⟨hflag.1, fun x => ?_⟩
          simp only [hflag.2 x]
      rw [applyOptions] at h
      cases ho : applyOption g o with
      | ok g1 =>
        rw [ho] at h
        obtain ⟨a, b⟩ := hopt g1 ho
        obtain ⟨c, d⟩ := ih g1 g' h
        refine ⟨c.trans a, fun x => ?_⟩
        rw [applyOptions, b x]
        exact d x
      | err => rw [ho] at h; cases h
      | panic => rw [ho] at h; cases h
  unfold structFieldInfo at h ⊢
  simp only at h ⊢
  split at h
  · rename_i o os hs
    generalize hg : (⟨[i], _, .zero, .zero, false, false, false, false, false, false, f.impls⟩ : FInfo) = g at h
    cases ha : applyOptions g (o :: os) with
    | ok g1 =>
      rw [ha] at h
      simp only [Res.ok.injEq] at h
      subst h
      obtain ⟨a, b⟩ := key _ g g1 ha
      have hx := b [j]
      subst hg
      refine ⟨a, ?_⟩
      simp only at hx
      rw [hx]
    | err => rw [ha] at h; cases h
    | panic => rw [ha] at h; cases h
  · simp only [Res.ok.injEq] at h
    subst h
    exact ⟨rfl, rfl⟩

/-- The fields from `fs`, the first of which has index `i`. -/
def FromFields (env : Nat → GoType) (ns : Str) (fs : List GoField) (i : Nat) (idx : List Nat) (f : GoField) : Prop :=
  ∃ k g, fs[k]? = some g ∧ ¬ Skips g ns ∧
    ((idx = [i + k] ∧ (∀ e, ¬ Embeds env g e) ∧ f = g) ∨
     ∃ e rest, Embeds env g e ∧ idx = (i + k) :: rest ∧ FieldAt env ns e rest f)

theorem fromFields_cons {env : Nat → GoType} {ns : Str} {g : GoField} {fs : List GoField} {i : Nat} {idx : List Nat}
    {f : GoField} (h : FromFields env ns fs (i + 1) idx f) : FromFields env ns (g :: fs) i idx f := by
  obtain ⟨k, g', h1, h2, h3⟩ := h
  refine ⟨k + 1, g', by simpa using h1, h2, ?_⟩
  rw [show i + (k + 1) = i + 1 + k by omega]
  exact h3

theorem fromFields_zero {env : Nat → GoType} {ns : Str} {t : Nat} {fs : List GoField} (he : env t = .struct fs)
    {idx : List Nat} {f : GoField} : FromFields env ns fs 0 idx f ↔ FieldAt env ns t idx f := by
  constructor
  · rintro ⟨k, g, h1, h2, ⟨rfl, h3, rfl⟩ | ⟨e, rest, h3, rfl, h4⟩⟩
    · rw [Nat.zero_add]; exact .here he h1 h2 h3
    · rw [Nat.zero_add]; exact .there he h1 h2 h3 h4
  · intro h
    cases h with
    | @here _ fs' i _ h1 h2 h3 h4 =>
      rw [he] at h1
      have := GoType.struct.inj h1
      subst this
      exact ⟨i, f, h2, h3, Or.inl ⟨by rw [Nat.zero_add], h4, rfl⟩⟩
    | @there _ fs' i g e rest _ h1 h2 h3 h4 h5 =>
      rw [he] at h1
      have := GoType.struct.inj h1
      subst this
      exact ⟨i, g, h2, h3, Or.inr ⟨e, rest, h4, by rw [Nat.zero_add], h5⟩⟩

/-- What the collected entries are. -/
def Collected (env : Nat → GoType) (ns : Str) (fs : List GoField) (i : Nat) (more : TInfo) : Prop :=
  (∀ fi ∈ more, ∃ f, FromFields env ns fs i fi.idx f ∧ ∀ j, structFieldInfo j f ns = .ok { fi with idx := [j] }) ∧
  (∀ idx f, FromFields env ns fs i idx f → ∃ fi ∈ more, fi.idx = idx)

theorem collected {env : Nat → GoType} {ns : Str} {fs : List GoField} {i : Nat} {acc : TInfo} {r : Res TInfo}
    (h : FieldsInfo env ns fs i acc r) : ∀ info, r = .ok info → ∃ more, info = acc ++ more ∧ Collected env ns fs i more := by
  induction h with
  | @done i acc =>
    intro info hi
    have := Res.ok.inj hi
    subst this
    refine ⟨[], by simp, by simp, ?_⟩
    rintro idx f ⟨k, g, h1, -⟩
    simp at h1
  | @skip f fs i acc r h1 h2 ih =>
    intro info hi
    obtain ⟨more, e, a, b⟩ := ih info hi
    refine ⟨more, e, ?_, ?_⟩
    · intro fi hfi
      obtain ⟨g, hg, hs⟩ := a fi hfi
      exact ⟨g, fromFields_cons hg, hs⟩
    · rintro idx g ⟨k, g', k1, k2, k3⟩
      cases k with
      | zero =>
        have : f = g' := by simpa using k1
        subst this
        exact absurd ((skipField_iff f ns).1 h1) k2
      | succ k =>
        refine b idx g ⟨k, g', by simpa using k1, k2, ?_⟩
        rw [show i + 1 + k = i + (k + 1) by omega]
        exact k3
  | @plain f fs i acc fi acc' r h1 h2 h3 h4 h5 ih =>
    intro info hi
    obtain ⟨more, e, a, b⟩ := ih info hi
    have hns : ¬ Skips f ns := fun hs => by
      rw [(skipField_iff f ns).2 hs] at h1; cases h1
    have hne : ∀ x, ¬ Embeds env f x := fun x hx => by
      rw [(embedded_iff env f x).2 hx] at h2; cases h2
    refine ⟨fi :: more, by rw [e, addFieldInfo_some h4]; simp, ?_, ?_⟩
    · intro g hg
      rcases List.mem_cons.1 hg with rfl | hg
      · refine ⟨f, ⟨0, f, rfl, hns, Or.inl ⟨?_, hne, rfl⟩⟩, fun j => (structFieldInfo_idx h3).2⟩
        exact (structFieldInfo_idx (j := 0) h3).1
      · obtain ⟨g', hg', hs⟩ := a g hg
        exact ⟨g', fromFields_cons hg', hs⟩
    · rintro idx g ⟨k, g', k1, k2, k3⟩
      cases k with
      | zero =>
        have : f = g' := by simpa using k1
        subst this
        rcases k3 with ⟨rfl, -, -⟩ | ⟨x, rest, hx, -⟩
        · exact ⟨fi, by simp, (structFieldInfo_idx (j := 0) h3).1⟩
        · exact absurd hx (hne x)
      | succ k =>
        obtain ⟨y, hy, hyi⟩ := b idx g ⟨k, g', by simpa using k1, k2, by
          rw [show i + 1 + k = i + (k + 1) by omega]; exact k3⟩
        exact ⟨y, by simp [hy], hyi⟩
  | conflict => intro info hi; cases hi
  | badTag => intro info hi; cases hi
  | panicTag => intro info hi; cases hi
  | @inner f fs i acc t gs inf acc' r h1 h2 h3 h4 h5 h6 ih1 ih2 =>
    intro info hi
    obtain ⟨more, e, a, b⟩ := ih2 info hi
    obtain ⟨im, e', a', b'⟩ := ih1 inf rfl
    rw [List.nil_append] at e'
    subst e'
    have hns : ¬ Skips f ns := fun hs => by
      rw [(skipField_iff f ns).2 hs] at h1; cases h1
    have hem := (embedded_iff env f t).1 h2
    refine ⟨inf.map (fun f => { f with idx := i :: f.idx }) ++ more, by rw [e, addInner_some h5]; simp, ?_, ?_⟩
    · intro g hg
      rcases List.mem_append.1 hg with hg | hg
      · obtain ⟨y, hy, rfl⟩ := List.mem_map.1 hg
        obtain ⟨z, hz, hs⟩ := a' y hy
        refine ⟨z, ⟨0, f, rfl, hns, Or.inr ⟨t, y.idx, hem, rfl, (fromFields_zero h3).1 hz⟩⟩, ?_⟩
        exact hs
      · obtain ⟨g', hg', hs⟩ := a g hg
        exact ⟨g', fromFields_cons hg', hs⟩
    · rintro idx g ⟨k, g', k1, k2, k3⟩
      cases k with
      | zero =>
        have : f = g' := by simpa using k1
        subst this
        rcases k3 with ⟨rfl, hn, -⟩ | ⟨x, rest, hx, rfl, hat⟩
        · exact absurd hem (hn t)
        · have hxt : x = t := by
            have := (embedded_iff env f x).2 hx
            rw [h2] at this
            exact (Option.some.inj this).symm
          subst hxt
          obtain ⟨y, hy, hyi⟩ := b' rest g ((fromFields_zero h3).2 hat)
          refine ⟨{ y with idx := i :: y.idx }, List.mem_append_left _ (List.mem_map.2 ⟨y, hy, rfl⟩), ?_⟩
          simp [hyi]
      | succ k =>
        obtain ⟨y, hy, hyi⟩ := b idx g ⟨k, g', by simpa using k1, k2, by
          rw [show i + 1 + k = i + (k + 1) by omega]; exact k3⟩
        exact ⟨y, List.mem_append_right _ hy, hyi⟩
  | innerConflict => intro info hi; cases hi
  | innerErr => intro info hi; cases hi
  | innerPanic => intro info hi; cases hi

/-- C28, C44: the metadata of a type lists exactly the fields that are reached through embedded structs and not left
out: every entry has the index path of such a field and says what the tag of that field says, and every such field
has an entry. -/
theorem metadata_fields {env : Nat → GoType} {ns : Str} {t : Nat} {info : TInfo} (h : Info env ns t (.ok info)) :
    (∀ fi ∈ info, ∃ f, FieldAt env ns t fi.idx f ∧ ∀ j, structFieldInfo j f ns = .ok { fi with idx := [j] }) ∧
    (∀ idx f, FieldAt env ns t idx f → ∃ fi ∈ info, fi.idx = idx) := by
  unfold Info at h
  cases he : env t with
  | struct fs =>
    rw [he] at h
    obtain ⟨more, e, a, b⟩ := collected h info rfl
    rw [List.nil_append] at e
    subst e
    constructor
    · intro fi hfi
      obtain ⟨f, hf, hs⟩ := a fi hfi
      exact ⟨f, (fromFields_zero he).1 hf, hs⟩
    · intro idx f hf
      exact b idx f ((fromFields_zero he).2 hf)
  | ptr _ => rw [he] at h; cases h
  | other => rw [he] at h; cases h

end Xmp.Props
