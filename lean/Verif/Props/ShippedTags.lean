import Verif.Model.ShippedTags
import Verif.Props.Native
import Verif.Props.ShippedSpec
import Verif.Props.TypeInfoFields

/-! C73: the shipped models by the tags of file formats. -/

namespace Xmp.Props

open GoStr Shipped

/-! ### Specification -/

/-- The tag of a field for a namespace: the struct tag of the namespace up to a comma, or the name of the field without one. -/
def ownTag (ns : Str) (r : Row) : Str :=
  match (r.tags.find? (fun t => t.1 = ns)).map (fun t => t.2.takeWhile (· ≠ ',')) with
  | some (c :: cs) => c :: cs
  | _ => r.field

/-- Is the field marked as the one for all other tags? -/
def forOthers (ns : Str) (r : Row) : Bool :=
  match r.tags.find? (fun t => t.1 = ns) with
  | some t => decide (t.2 = chars!",any")
  | none => false

/-- The models whose tags can be looked up at all.  (`RiffInfo` names two tags twice, C59.) -/
def Works (m : TagModel) : Prop := m ∈ tagModels ∧ m.typ ≠ chars!"riff.RiffInfo"

/-- `tag` is a way to write the tag of field `i`, which is `r`: for Exif letters may be upper case, for ID3 there are older
names. -/
structure TagOf (m : TagModel) (tag : Str) (i : Nat) (r : Row) : Prop where
  works : Works m
  row : m.kept[i]? = some r
  name : m.name tag = some (ownTag m.ns r)

/-! ### The table -/

/-- The metadata of one field. -/
def rowInfo (ns : Str) (r : Row) : Option FieldInfo :=
  match structFieldInfo 0 r.goField ns with
  | .ok fi => some (Riff.toField fi)
  | _ => none

/-- If the fields have metadata with different names, the struct has that of all fields. -/
theorem tagStruct_distinct (ns : Str) : ∀ (rs : List Row) (i : Nat) (acc : TInfo) (l : List FieldInfo),
    (rs.filter fun r => !skipField r.goField ns).map (rowInfo ns) = l.map some →
    (acc.map (·.name) ++ l.map (·.name)).Nodup →
    ∃ l', Riff.structInfo ns (rs.map Row.goField) i acc = .ok (acc ++ l') ∧ l'.map Riff.toField = l
  | [], i, acc, l, h, _ => by
    cases l with
    | nil => exact ⟨[], by simp [Riff.structInfo], rfl⟩
    | cons x l => simp at h
  | r :: rs, i, acc, l, h, hn => by
    rw [List.map_cons, Riff.structInfo]
    cases hs : skipField r.goField ns with
    | true =>
      rw [List.filter_cons_of_neg (by simp [hs])] at h
      exact tagStruct_distinct ns rs (i + 1) acc l h hn
    | false =>
      rw [List.filter_cons_of_pos (by simp [hs])] at h
      cases l with
      | nil => simp at h
      | cons x l =>
        rw [List.map_cons, List.map_cons, List.cons.injEq] at h
        obtain ⟨h1, h2⟩ := h
        unfold rowInfo at h1
        cases hf : structFieldInfo 0 r.goField ns with
        | err => rw [hf] at h1; cases h1
        | panic => rw [hf] at h1; cases h1
        | ok fi =>
          rw [hf] at h1
          have h1' := Option.some.inj h1
          have hi := (structFieldInfo_idx (j := i) hf).2
          have hname : fi.name = x.name := by rw [← h1']; rfl
          have hnc : acc.any (conflicts { fi with idx := [i] }) = false := by
            rw [List.any_eq_false]
            intro o ho hc
            unfold conflicts at hc
            simp only [Bool.and_eq_true, decide_eq_true_eq] at hc
            have : o.name ∈ acc.map (·.name) := List.mem_map_of_mem ho
            have hd := (List.nodup_append.1 hn).2.2 o.name this x.name (by simp)
            exact hd (by rw [← hname]; exact hc.1.1.symm)
          obtain ⟨l', e1, e2⟩ := tagStruct_distinct ns rs (i + 1) (acc ++ [{ fi with idx := [i] }]) l h2 (by
            simpa [hname] using hn)
          refine ⟨{ fi with idx := [i] } :: l', ?_, ?_⟩
          · simp only [Bool.false_eq_true, if_false, hi, addFieldInfo, hnc]
            rw [e1]; simp
          · rw [List.map_cons, e2, ← h1']; rfl

/-- The name can be found. -/
def tagNameOk (n : Str) : Bool :=
  decide (stripPrefix n ≠ []) && decide (':' ∉ stripPrefix n) && decide ('/' ∉ n) && decide ('[' ∉ n) && decide (']' ∉ n) &&
    (hasNsPrefix n || decide (':' ∉ n))

/-- The metadata of a field is that of its tag. -/
def rowCheck (ns : Str) (r : Row) : Bool :=
  match rowInfo ns r with
  | none => false
  | some f =>
    decide (f.name = ownTag ns r) && decide (f.any = forOthers ns r) && !f.empty && tagNameOk f.name

theorem rows_check : (tagModels.all fun m => m.kept.all (rowCheck m.ns)) = true := by decide +kernel

theorem names_check : (tagModels.all fun m => decide (m.typ = chars!"riff.RiffInfo") ||
    distinctNames (m.kept.map fun r => stripPrefix (ownTag m.ns r))) = true := by decide +kernel

theorem works_infos {m : TagModel} (h : Works m) : ∃ l, m.infos = some l ∧ TagNames l ∧ l.length = m.kept.length ∧
    ∀ (i : Nat) r, m.kept[i]? = some r →
      ∃ f, l[i]? = some f ∧ f.name = ownTag m.ns r ∧ f.any = forOthers m.ns r ∧ f.empty = false := by
  have hr := List.all_eq_true.1 rows_check m h.1
  have hn := List.all_eq_true.1 names_check m h.1
  simp only [Bool.or_eq_true, decide_eq_true_eq, h.2, false_or] at hn
  have hrow : ∀ r ∈ m.kept, ∃ f, rowInfo m.ns r = some f ∧ f.name = ownTag m.ns r ∧ f.any = forOthers m.ns r ∧
      f.empty = false ∧ tagNameOk f.name = true := by
    intro r hm
    have := List.all_eq_true.1 hr r hm
    unfold rowCheck at this
    cases hi : rowInfo m.ns r with
    | none => rw [hi] at this; cases this
    | some f =>
      rw [hi] at this
      simp only [Bool.and_eq_true, decide_eq_true_eq, Bool.not_eq_true'] at this
      exact ⟨f, rfl, this.1.1.1, this.1.1.2, this.1.2, this.2⟩
  have hl : ∃ l : List FieldInfo, m.kept.map (rowInfo m.ns) = l.map some := by
    have : ∀ ks : List Row, (∀ r ∈ ks, ∃ f, rowInfo m.ns r = some f) → ∃ l : List FieldInfo, ks.map (rowInfo m.ns) = l.map some := by
      intro ks
      induction ks with
      | nil => intro _; exact ⟨[], rfl⟩
      | cons r ks ih =>
        intro hk
        obtain ⟨f, hf⟩ := hk r (by simp)
        obtain ⟨l, hl⟩ := ih (fun r hr => hk r (List.mem_cons_of_mem _ hr))
        exact ⟨f :: l, by rw [List.map_cons, List.map_cons, hf, hl]⟩
    exact this _ (fun r hr => (hrow r hr).imp fun f hf => hf.1)
  obtain ⟨l, hl⟩ := hl
  have hlen : l.length = m.kept.length := by simpa using (congrArg List.length hl).symm
  have hget : ∀ (i : Nat) r, m.kept[i]? = some r → ∃ f, l[i]? = some f ∧ rowInfo m.ns r = some f := by
    intro i r hi
    have e := congrArg (fun x : List (Option FieldInfo) => x[i]?) hl
    simp only [List.getElem?_map, hi, Option.map_some] at e
    cases hx : l[i]? with
    | none => rw [hx] at e; cases e
    | some f => rw [hx] at e; exact ⟨f, rfl, Option.some.inj e⟩
  have hinfo : ∀ (i : Nat) r, m.kept[i]? = some r → ∃ f, l[i]? = some f ∧ f.name = ownTag m.ns r ∧
      f.any = forOthers m.ns r ∧ f.empty = false ∧ tagNameOk f.name = true := by
    intro i r hi
    obtain ⟨f, hf, hr'⟩ := hget i r hi
    obtain ⟨g, hg, h1⟩ := hrow r (List.mem_of_getElem? hi)
    rw [hr'] at hg
    cases Option.some.inj hg
    exact ⟨f, hf, h1⟩
  have hmem : ∀ f ∈ l, tagNameOk f.name = true := by
    intro f hf
    obtain ⟨i, hi⟩ := List.mem_iff_getElem?.1 hf
    have hlt : i < m.kept.length := by rw [← hlen]; exact (List.getElem?_eq_some_iff.1 hi).1
    obtain ⟨g, hg, h1⟩ := hinfo i _ (List.getElem?_eq_getElem hlt)
    rw [hi] at hg
    cases Option.some.inj hg
    exact h1.2.2.2
  have hstrip : l.map (fun f => stripPrefix f.name) = m.kept.map (fun r => stripPrefix (ownTag m.ns r)) := by
    apply List.ext_getElem?
    intro i
    rw [List.getElem?_map, List.getElem?_map]
    cases hi : m.kept[i]? with
    | none =>
      have : l[i]? = none := by rw [List.getElem?_eq_none_iff] at hi ⊢; omega
      rw [this]; rfl
    | some r =>
      obtain ⟨g, hg, h1, -⟩ := hinfo i r hi
      rw [hg, Option.map_some, Option.map_some, h1]
  have hd : (l.map (fun f => stripPrefix f.name)).Nodup := by rw [hstrip]; exact distinctNames_nodup _ hn
  have htn : TagNames l := by
    refine ⟨fun f hf => ?_, hd⟩
    have := hmem f hf
    unfold tagNameOk at this
    simp only [Bool.and_eq_true, Bool.or_eq_true, decide_eq_true_eq] at this
    exact ⟨⟨this.1.1.1.1.1, this.1.1.1.1.2, this.1.1.1.2, this.1.1.2, this.1.2⟩, this.2⟩
  refine ⟨l, ?_, htn, hlen, fun i r hi => ?_⟩
  · obtain ⟨l', e1, e2⟩ := tagStruct_distinct m.ns m.rows 0 [] l hl (by simpa using tagNames_nodup htn)
    unfold TagModel.infos TagModel.goFields
    rw [e1]
    simp [e2]
  · obtain ⟨f, h1, h2, h3, h4, -⟩ := hinfo i r hi
    exact ⟨f, h1, h2, h3, h4⟩

theorem getTag_eq {m : TagModel} {l : List FieldInfo} (hl : m.infos = some l) {tag t : Str} (ht : m.name tag = some t)
    (K : Str → Codec) (v : Val) : m.getTag K v tag = getNative (.struct none l (m.tys K)) v t := by
  unfold TagModel.getTag Riff.getTag
  rw [ht]
  unfold TagModel.infos at hl
  cases hs : Riff.structInfo m.ns m.goFields 0 [] with
  | ok x => rw [hs] at hl; cases Option.some.inj hl; rfl
  | err => rw [hs] at hl; cases hl
  | panic => rw [hs] at hl; cases hl

theorem rawTag_eq {m : TagModel} {l : List FieldInfo} (hl : m.infos = some l) (K : Str → Codec) (v : Val) (t : Str) :
    Riff.getTag m.ns m.goFields (m.tys K) v t = getNative (.struct none l (m.tys K)) v t := by
  unfold Riff.getTag
  unfold TagModel.infos at hl
  cases hs : Riff.structInfo m.ns m.goFields 0 [] with
  | ok x => rw [hs] at hl; cases Option.some.inj hl; rfl
  | err => rw [hs] at hl; cases hl
  | panic => rw [hs] at hl; cases hl

theorem setTag_eq {m : TagModel} {l : List FieldInfo} (hl : m.infos = some l) {tag t : Str} (ht : m.name tag = some t)
    (K : Str → Codec) (v : Val) (s : Str) : m.setTag K v tag s = setNative (.struct none l (m.tys K)) v t s := by
  unfold TagModel.setTag Riff.setTag
  rw [ht]
  unfold TagModel.infos at hl
  cases hs : Riff.structInfo m.ns m.goFields 0 [] with
  | ok x => rw [hs] at hl; cases Option.some.inj hl; rfl
  | err => rw [hs] at hl; cases hl
  | panic => rw [hs] at hl; cases hl

theorem listTags_eq {m : TagModel} {l : List FieldInfo} (hl : m.infos = some l) (K : Str → Codec) (v : Val) :
    m.listTags K v = listNative (.struct none l (m.tys K)) v := by
  unfold TagModel.listTags Riff.listTags
  unfold TagModel.infos at hl
  cases hs : Riff.structInfo m.ns m.goFields 0 [] with
  | ok x => rw [hs] at hl; cases Option.some.inj hl; rfl
  | err => rw [hs] at hl; cases hl
  | panic => rw [hs] at hl; cases hl

theorem tagTys_get {m : TagModel} {i : Nat} {r : Row} (h : m.kept[i]? = some r) (K : Str → Codec) :
    (m.tys K)[i]? = some (r.ty.ty K) := by
  unfold TagModel.tys
  rw [List.getElem?_map, h]
  rfl

theorem tag_access {m : TagModel} {tag : Str} {i : Nat} {r : Row} (h : TagOf m tag i r) {K : Str → Codec} {vals : List Val}
    (hv : HasTys (m.tys K) vals) {v : Val} (hx : vals[i]? = some v) :
    ∃ l f, m.infos = some l ∧ f.name = ownTag m.ns r ∧ f.empty = false ∧
      Access l (m.tys K) vals (ownTag m.ns r) i f (r.ty.ty K) v := by
  obtain ⟨l, hl, hn, -, hg⟩ := works_infos h.works
  obtain ⟨f, hf, h1, -, h3⟩ := hg i r h.row
  exact ⟨l, f, hl, h1, h3, hn, hv, ⟨f, hf, .inl h1.symm⟩, hf, tagTys_get h.row K, hx⟩

/-! ### Setting and reading -/

section
variable {m : TagModel} {tag : Str} {i : Nat} {r : Row} {K : Str → Codec} {vals : List Val} {v : Val}

/-- **C73.**  A tag of a shipped model can be set to a text exactly if the text means a value of its field; then this field gets
the value and no other field changes.  (All models but `RiffInfo`; fields that hold one text.) -/
theorem shipped_tag_set (h : TagOf m tag i r) (hv : HasTys (m.tys K) vals) (hx : vals[i]? = some v)
    (ht : OneText (r.ty.ty K).deref) (s : Str) :
    ((m.setTag K (.struct vals) tag s).2 = true ↔ ∃ w, TagDenotes (r.ty.ty K).deref (derefVal (r.ty.ty K) v).2 s w) ∧
    ∀ w, TagDenotes (r.ty.ty K).deref (derefVal (r.ty.ty K) v).2 s w →
      m.setTag K (.struct vals) tag s = (.struct (vals.set i (rewrap (r.ty.ty K) w)), true) := by
  obtain ⟨l, f, hl, -, -, ha⟩ := tag_access h hv hx
  rw [setTag_eq hl h.name]
  exact tag_set ha none ht s

/-- **C73.**  A text that is the usual text of the value it means can be read again after setting it, unless the value counts as
empty. -/
theorem shipped_tag_set_get (h : TagOf m tag i r) (hv : HasTys (m.tys K) vals) (hx : vals[i]? = some v)
    (ht : OneText (r.ty.ty K).deref) (hb : r.ty.ty K ≠ .ptr .bytes) {s : Str} {w : Val}
    (hd : TagDenotes (r.ty.ty K).deref (derefVal (r.ty.ty K) v).2 s w) (hu : UsualText (r.ty.ty K).deref w s)
    (he : isEmptyValue (r.ty.ty K) (rewrap (r.ty.ty K) w) = false) :
    (m.setTag K (.struct vals) tag s).2 = true ∧ m.getTag K (m.setTag K (.struct vals) tag s).1 tag = some s := by
  obtain ⟨l, f, hl, -, -, ha⟩ := tag_access h hv hx
  rw [setTag_eq hl h.name, getTag_eq hl h.name]
  exact tag_set_get ha none ht hb hd hu (fun hh => by have := hh.2; rw [he] at this; cases this)

/-- **C73.**  Setting a tag does not change what the other tags of the model say. -/
theorem shipped_tag_frame (h : TagOf m tag i r) {other : Str} {j : Nat} {r' : Row} (h' : TagOf m other j r') (hij : i ≠ j)
    (v : Val) (s : Str) : m.getTag K (m.setTag K v tag s).1 other = m.getTag K v other := by
  obtain ⟨l, hl, hn, -, hg⟩ := works_infos h.works
  obtain ⟨f, hf, h1, -⟩ := hg i r h.row
  obtain ⟨f', hf', h1', -⟩ := hg j r' h'.row
  rw [setTag_eq hl h.name, getTag_eq hl h'.name, getTag_eq hl h'.name]
  cases v with
  | struct vals => exact tag_frame none hn ⟨f, hf, .inl h1.symm⟩ ⟨f', hf', .inl h1'.symm⟩ hij s
  | _ => rfl

/-- **C73.**  Setting the tag of a list of strings adds the lines of the text to the list. -/
theorem shipped_tag_strings (h : TagOf m tag i r) (hv : HasTys (m.tys K) vals) {a : ArrayType} (ht : r.ty = .strs a)
    {k sp : List Val} (hx : vals[i]? = some (.slice k sp)) {s : Str} (hs : '\r' ∉ s) :
    ∃ lines : List Str, lines ≠ [] ∧ (∀ x ∈ lines, '\n' ∉ x) ∧ join ['\n'] lines = s ∧
      m.setTag K (.struct vals) tag s = (.struct (vals.set i (.slice (k ++ lines.map .str) [])), true) ∧
      m.getTag K (m.setTag K (.struct vals) tag s).1 tag = some (if k = [] then s else join ['\n'] (strsOf k) ++ '\n' :: s) := by
  obtain ⟨l, f, hl, -, -, ha⟩ := tag_access h hv hx
  have e : r.ty.ty K = .slice a .str := by rw [ht]; rfl
  rw [setTag_eq hl h.name, getTag_eq hl h.name]
  rw [e] at ha
  obtain ⟨lines, h1, h2, h3, h4⟩ := tag_strings_set ha none rfl rfl hs
  exact ⟨lines, h1, h2, h3, h4, (tag_strings_get ha none rfl rfl hs).1⟩

end

end Xmp.Props
