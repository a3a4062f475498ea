import Verif.Props.ListPaths

/-! C47: the listing of a typed model (`ListModelPaths`) against its texts and against reading (`GetModelPath`). -/

namespace Xmp.Props

open GoStr

/-- C47: a listing without error names only texts that the model holds, each under the path of its field; and none of
them is empty. -/
theorem listed_is_held {sort : PathValueList → PathValueList} (hsort : ∀ l, (sort l).Perm l)
    {z : Option (List Val → Bool)} {infos : List FieldInfo} {tys : List Ty} {v : Val} {pre : Str} (hp : ':' ∉ pre)
    (hw : (Ty.struct z infos tys).Wf) (hk : NamesOk (.struct z infos tys)) (hv : HasTy (.struct z infos tys) v)
    {l : PathValueList} (h : listPaths sort (.struct z infos tys) v (Path.new pre []) = some l) :
    ∀ e ∈ l, e = { path := e.path, value := e.value } ∧ e.value ≠ [] ∧
      ModelHolds (.struct z infos tys) v e.path (some (some e.value)) := by
  cases v with
  | struct vals =>
    have hx := exact_model hsort z infos tys vals hp hw hk hv
    rw [h] at hx
    intro e he
    obtain ⟨p, s, rfl, h2, h3⟩ := hx.1 l rfl e he
    exact ⟨rfl, h2, h3⟩
  | _ => simp [HasTy] at hv

/-- C47: if every text the model holds can be written, the listing succeeds and names all texts that are not empty. -/
theorem held_is_listed {sort : PathValueList → PathValueList} (hsort : ∀ l, (sort l).Perm l)
    {z : Option (List Val → Bool)} {infos : List FieldInfo} {tys : List Ty} {v : Val} {pre : Str} (hp : ':' ∉ pre)
    (hw : (Ty.struct z infos tys).Wf) (hk : NamesOk (.struct z infos tys)) (hv : HasTy (.struct z infos tys) v)
    (ht : ∀ p x, ModelHolds (.struct z infos tys) v p x → ∃ s, x = some (some s)) :
    ∃ l, listPaths sort (.struct z infos tys) v (Path.new pre []) = some l ∧
      ∀ p s, s ≠ [] → ModelHolds (.struct z infos tys) v p (some (some s)) → { path := p, value := s } ∈ l := by
  cases v with
  | struct vals =>
    have hx := exact_model hsort z infos tys vals hp hw hk hv
    obtain ⟨l, h1, h2⟩ := hx.2 ht
    cases hl : listPaths sort (.struct z infos tys) (.struct vals) (Path.new pre []) with
    | none => rw [hl] at h1; cases h1
    | some l' =>
      rw [hl] at h1
      simp only [listSub, Option.some.injEq] at h1
      subst h1
      exact ⟨l', rfl, h2⟩
  | _ => simp [HasTy] at hv

/-- C47: every text a model holds is what reading its path gives. -/
theorem held_is_readable {z : Option (List Val → Bool)} {infos : List FieldInfo} {tys : List Ty} {v : Val}
    (hw : (Ty.struct z infos tys).Wf) (hk : NamesOk (.struct z infos tys)) (ha : NamesApart (.struct z infos tys))
    (had : Addressable (.struct z infos tys) v) (hv : HasTy (.struct z infos tys) v) {p : Path} {s : Str}
    (h : ModelHolds (.struct z infos tys) v p (some (some s))) :
    getModelPath (.struct z infos tys) v p = .ok s := by
  obtain ⟨z', infos', tys', vals, f, t, fv, suf, segs, e1, rfl, -, hf, hb, rfl⟩ := h
  cases e1
  rw [NamesOk] at hk
  rw [NamesApart] at ha
  rw [Addressable] at had
  rw [HasTy] at hv
  obtain ⟨i, h1, h2, h3, h4⟩ := hf
  have hr := reads_below hb rfl (wf_get (wf_struct_field hw) h2) (namesOk_get hk.2 h2) (namesApart_get ha.2 h2)
    (addressable_get had h2 h3) (hasTys_get hv h2 h3)
  unfold getModelPath
  have hn := hk.1 f (List.mem_of_getElem? h1)
  have hlen : (Path.new (getPrefix f.name) ((stripPrefix f.name ++ suf) :: segs)).len = segs.length + 1 := by
    rw [len_new (colon_getPrefix _)]
    · rfl
    · intro y hy
      rcases List.mem_cons.1 hy with rfl | hy
      · exact ⟨by simp [hn.1], by simp [stripPrefix_sub hn.2.2.1, hr.2.1]⟩
      · exact hr.2.2.1 y hy
  rw [hlen, ← shownName_self f.name]
  exact read_step hk.1 ha.1 ⟨i, h1, h2, h3, h4⟩ hr (by omega) (colon_getPrefix _)

/-- C47: every entry of the listing of a model reads back as its value. -/
theorem listed_is_readable {sort : PathValueList → PathValueList} (hsort : ∀ l, (sort l).Perm l)
    {z : Option (List Val → Bool)} {infos : List FieldInfo} {tys : List Ty} {v : Val} {pre : Str} (hp : ':' ∉ pre)
    (hw : (Ty.struct z infos tys).Wf) (hk : NamesOk (.struct z infos tys)) (ha : NamesApart (.struct z infos tys))
    (had : Addressable (.struct z infos tys) v) (hv : HasTy (.struct z infos tys) v)
    {l : PathValueList} (h : listPaths sort (.struct z infos tys) v (Path.new pre []) = some l) :
    ∀ e ∈ l, getModelPath (.struct z infos tys) v e.path = .ok e.value := by
  intro e he
  exact held_is_readable hw hk ha had hv (listed_is_held hsort hp hw hk hv h e he).2.2

/-! ### A model with all kinds of fields -/

/-- A struct in another namespace. -/
def listRefTy : Ty := .struct none [⟨"stRef:documentID".toList, false, false, false, false, Version.zero, Version.zero⟩,
  ⟨"stRef:parts".toList, false, false, false, false, Version.zero, Version.zero⟩] [.str, .slice .ordered (.int 64)]

def fld (s : String) : FieldInfo := { name := s.toList }

/-- A model with texts, a language alternative, arrays and structs. -/
def listTy : Ty := .struct none
  [fld "a:name", fld "a:title", fld "a:list", fld "a:ref", fld "b:refs", fld "a:count", { fld "a:gone" with omitted := true }]
  [.str, .alt, .slice .unordered .str, .ptr listRefTy, .slice .ordered listRefTy, .int 64, .str]

def listVal : Val := .struct [.str "n".toList,
  .alt [⟨"T".toList, "en".toList, true⟩, ⟨"U".toList, "de".toList, false⟩],
  .slice [.str "x".toList, .str [], .str "y".toList] [],
  .ptr (.struct [.str "id".toList, .slice [.int 7] []]),
  .slice [.struct [.str "id2".toList, .slice [] []]] [], .int 0, .str "unseen".toList]

/-- Sorting by insertion, for examples. -/
def sortPv : PathValueList → PathValueList
  | [] => []
  | x :: xs => ins x (sortPv xs)
where
  ins (x : PathValue) : PathValueList → PathValueList
  | [] => [x]
  | y :: ys => if PathValueList.less y x then y :: ins x ys else x :: y :: ys

theorem sortPv_perm (l : PathValueList) : (sortPv l).Perm l := by
  have hi : ∀ x l, (sortPv.ins x l).Perm (x :: l) := by
    intro x l
    induction l with
    | nil => exact List.Perm.refl _
    | cons y ys ih =>
      rw [sortPv.ins]
      split
      · exact (ih.cons y).trans (List.Perm.swap x y ys)
      · exact List.Perm.refl _
  induction l with
  | nil => exact List.Perm.refl _
  | cons x xs ih => exact (hi x _).trans (ih.cons x)

/-- A list of paths and values. -/
def pvs (l : List (String × String)) : PathValueList := l.map (fun e => { path := e.1.toList, value := e.2.toList })

example : listPaths sortPv listTy listVal "a:".toList =
    some (pvs [("a:list[0]", "x"), ("a:list[2]", "y"), ("a:name", "n"), ("a:ref/stRef:documentID", "id"),
      ("a:ref/stRef:parts[0]", "7"), ("a:title[de]", "U"), ("a:title[en]", "T"),
      ("b:refs[0]/stRef:documentID", "id2")]) := by decide +kernel

/-- The sample meets the conditions of the theorems. -/
theorem sample_meets : listTy.Wf ∧ NamesOk listTy ∧ NamesApart listTy ∧ HasTy listTy listVal ∧
    Addressable listTy listVal := by
  refine ⟨?_, ?_, ?_, ?_, ?_⟩
  · simp [listTy, listRefTy, Ty.Wf, Ty.WfAll, Ty.deref]
  · simp only [listTy, listRefTy, NamesOk, NamesOkAll, FieldNameOk, fld, and_true, true_and]
    decide +kernel
  · simp only [listTy, listRefTy, NamesApart, NamesApartAll, fld, and_true, true_and]
    decide +kernel
  · simp [listTy, listRefTy, listVal, HasTy, HasTys]
  · have : LangsOk [⟨"T".toList, "en".toList, true⟩, ⟨"U".toList, "de".toList, false⟩] := by
      constructor <;> decide +kernel
    simp [listTy, listRefTy, listVal, Addressable, AddressableAll]
    exact this

example : getModelPath listTy listVal "b:refs[0]/stRef:documentID".toList = .ok "id2".toList := by decide +kernel

end Xmp.Props
