import Verif.Model.Riff
import Verif.Props.TypeInfo
import Verif.Props.Native

/-! C59: the metadata of RIFF files. -/

namespace Xmp.Props

open Xmp Xmp.GoStr

/-! ### Tags that occur twice -/

/-- A field with a tag and no options that takes part in a namespace. -/
def PlainTag (ns : Str) (f : GoField) (tag : Str) : Prop :=
  f.exported = true ∧ f.tag ns = tag ∧ ',' ∉ tag ∧ tag ≠ [] ∧ tag ≠ ['-']

theorem plainTag_info {ns : Str} {f : GoField} {tag : Str} (h : PlainTag ns f tag) (i : Nat) :
    skipField f ns = false ∧
      structFieldInfo i f ns = .ok ⟨[i], tag, .zero, .zero, true, false, false, false, false, false, f.impls⟩ := by
  obtain ⟨h1, h2, h3, h4, h5⟩ := h
  constructor
  · unfold skipField
    simp [h1, h2, h5]
  · unfold structFieldInfo
    rw [h2, split_no_sep h3]
    simp [h4]

theorem conflicts_zero {a b : FInfo} (h : a.name = b.name) (h1 : a.minVersion = .zero) (h2 : a.maxVersion = .zero) :
    conflicts a b = true := by
  have hz : ∀ x y, Version.zero.between x y = true := fun x y => rfl
  unfold conflicts
  simp only [h1, h2, hz, h]
  simp

/-- Once a name is in the list, it stays there, and another field with the same tag is an error. -/
theorem structInfo_twice {ns : Str} : ∀ (fs : List GoField) (i : Nat) (acc : TInfo) {tag : Str},
    (∃ f ∈ fs, PlainTag ns f tag) → (∃ fi ∈ acc, fi.name = tag) → ∀ l, Riff.structInfo ns fs i acc ≠ .ok l := by
  intro fs
  induction fs with
  | nil => intro i acc tag h; obtain ⟨f, hf, -⟩ := h; cases hf
  | cons g gs ih =>
    intro i acc tag h ha l
    have more : ∀ acc' : TInfo, (∃ ys, acc' = acc ++ ys) → (∃ f ∈ gs, PlainTag ns f tag) →
        Riff.structInfo ns gs (i + 1) acc' ≠ .ok l := by
      rintro _ ⟨ys, rfl⟩ hg
      obtain ⟨fi, hfi, e⟩ := ha
      exact ih _ _ hg ⟨fi, List.mem_append_left _ hfi, e⟩ l
    obtain ⟨f, hf, hp⟩ := h
    rcases List.mem_cons.mp hf with rfl | hf
    · obtain ⟨h1, h2⟩ := plainTag_info hp i
      unfold Riff.structInfo
      rw [h1, h2]
      obtain ⟨fi, hfi, e⟩ := ha
      have : addFieldInfo acc ⟨[i], tag, .zero, .zero, true, false, false, false, false, false, f.impls⟩ = none := by
        unfold addFieldInfo
        rw [if_pos]
        rw [List.any_eq_true]
        exact ⟨fi, hfi, conflicts_zero e.symm rfl rfl⟩
      simp [this]
    · unfold Riff.structInfo
      split
      · exact more acc ⟨[], by simp⟩ ⟨f, hf, hp⟩
      · split
        · next fi _ =>
          split
          · next acc' hacc =>
            unfold addFieldInfo at hacc
            split at hacc
            · cases hacc
            · exact more acc' ⟨[fi], (Option.some.inj hacc).symm⟩ ⟨f, hf, hp⟩
          · simp
        · simp
        · simp

theorem structInfo_dup {ns : Str} : ∀ (fs : List GoField) (i : Nat) (acc : TInfo) {tag : Str} {a b : Nat} {f g : GoField},
    a < b → fs[a]? = some f → fs[b]? = some g → PlainTag ns f tag → PlainTag ns g tag → ∀ l, Riff.structInfo ns fs i acc ≠ .ok l := by
  intro fs
  induction fs with
  | nil => intro i acc tag a b f g _ h; simp at h
  | cons h hs ih =>
    intro i acc tag a b f g hab ha hb hf hg l
    cases b with
    | zero => omega
    | succ b =>
      have hb' : hs[b]? = some g := by simpa using hb
      cases a with
      | succ a =>
        have ha' : hs[a]? = some f := by simpa using ha
        have rest : ∀ acc', Riff.structInfo ns hs (i + 1) acc' ≠ .ok l := fun acc' => ih _ _ (by omega) ha' hb' hf hg l
        unfold Riff.structInfo
        split
        · exact rest acc
        · split
          · split
            · exact rest _
            · simp
          · simp
          · simp
      | zero =>
        have : h = f := by simpa using ha
        subst this
        obtain ⟨h1, h2⟩ := plainTag_info hf i
        unfold Riff.structInfo
        rw [h1, h2]
        simp only [Bool.false_eq_true, if_false]
        split
        · next acc' hacc =>
          unfold addFieldInfo at hacc
          split at hacc
          · cases hacc
          · rw [← Option.some.inj hacc]
            exact structInfo_twice hs _ _ ⟨g, List.mem_of_getElem? hb', hg⟩ ⟨_, List.mem_append_right _ (List.mem_singleton.mpr rfl), rfl⟩ l
        · simp

/-- **C59**, finding: if a struct names the same tag twice, none of its tags works: all are unknown, reading and setting are errors, and so
is listing. -/
theorem dup_tags_fail {ns tag : Str} {fs : List GoField} {a b : Nat} {f g : GoField} (hab : a < b) (ha : fs[a]? = some f)
    (hb : fs[b]? = some g) (hf : PlainTag ns f tag) (hg : PlainTag ns g tag) (tys : List Ty) (v : Val) (any value : Str) :
    Riff.canTag ns fs tys v any = false ∧ Riff.getTag ns fs tys v any = none ∧ Riff.setTag ns fs tys v any value = (v, false) ∧
      Riff.listTags ns fs tys v = .err := by
  have h := structInfo_dup fs 0 [] hab ha hb hf hg
  have h1 : Riff.getTag ns fs tys v any = none := by
    unfold Riff.getTag
    split
    · next l hl => exact absurd hl (h l)
    · rfl
  refine ⟨by unfold Riff.canTag; rw [h1]; rfl, h1, ?_, ?_⟩
  · unfold Riff.setTag
    split
    · next l hl => exact absurd hl (h l)
    · rfl
  · unfold Riff.listTags
    split
    · next l hl => exact absurd hl (h l)
    · rfl

/-- **C59**, finding: `RiffInfo` names the tag `IARL` twice (and `ICMS`), so no RIFF tag can be read, set or listed. -/
theorem riff_tags_fail (tys : List Ty) (v : Val) (tag value : Str) :
    Riff.canTag "riffinfo".toList Riff.fields tys v tag = false ∧ Riff.getTag "riffinfo".toList Riff.fields tys v tag = none ∧
      Riff.setTag "riffinfo".toList Riff.fields tys v tag value = (v, false) ∧
      Riff.listTags "riffinfo".toList Riff.fields tys v = .err := by
  have h : ∀ (k : Nat) r, Riff.fieldTable[k]? = some r → Riff.fields[k]? = some (Riff.mkField r) := by
    intro k r hk; unfold Riff.fields; rw [List.getElem?_map, hk]; rfl
  refine dup_tags_fail (tag := "IARL".toList) (a := 0) (b := 25) (by omega) (h 0 ("ArchiveLocation", "IARL", "riffinfo:archivalLocation") rfl)
    (h 25 ("ArchivalLocation", "IARL", "riffinfo:ArchivalLocation") rfl) ?_ ?_ tys v tag value
  · exact ⟨rfl, rfl, by decide, by decide, by decide⟩
  · exact ⟨rfl, rfl, by decide, by decide, by decide⟩

/-- The pure loop computes what the lookup of Model/TypeInfo.lean finds. -/
theorem structInfo_info {env : Nat → GoType} {ns : Str} : ∀ (fs : List GoField) (i : Nat) (acc : TInfo),
    (∀ f ∈ fs, f.anonymous = false) → FieldsInfo env ns fs i acc (Riff.structInfo ns fs i acc) := by
  intro fs
  induction fs with
  | nil => intro i acc _; exact .done
  | cons f fs ih =>
    intro i acc h
    have he : embedded env f = none := by unfold embedded; rw [h f (by simp)]; rfl
    have hr := fun acc' => ih (i + 1) acc' (fun g hg => h g (List.mem_cons_of_mem _ hg))
    unfold Riff.structInfo
    cases hs : skipField f ns with
    | true => exact .skip hs (hr acc)
    | false =>
      simp only [Bool.false_eq_true, if_false]
      cases hi : structFieldInfo i f ns with
      | ok fi =>
        simp only
        cases ha : addFieldInfo acc fi with
        | some acc' => exact .plain hs he hi ha (hr acc')
        | none => exact .conflict hs he hi ha
      | err => exact .badTag hs he hi
      | panic => exact .panicTag hs he hi

/-- **C59**, finding: in every interleaving of lookups, each finished lookup of the RIFF tags is an error. -/
theorem riff_lookup_fails (env : Nat → GoType) {typ : Nat} (he : env typ = .struct Riff.fields) (l : List (Nat × Str)) (ks : List Nat)
    {k : Nat} {th : Thread} {r : Res TInfo} (hk : l[k]? = some (typ, "riffinfo".toList))
    (ht : ((Machine.init l).run env ks).threads[k]? = some th) (hr : th.result = some r) : r = .err := by
  have h1 := lookup_result env l ks hk ht hr
  have h2 : nsOrDefault "riffinfo".toList = "riffinfo".toList := by decide
  rw [h2] at h1
  have h3 : Info env "riffinfo".toList typ (Riff.structInfo "riffinfo".toList Riff.fields 0 []) := by
    unfold Info
    rw [he]
    refine structInfo_info _ _ _ ?_
    intro f hf
    obtain ⟨r, -, rfl⟩ := List.mem_map.mp hf
    rfl
  rw [info_det h1 h3]
  decide +kernel

theorem structInfo_distinct {ns : Str} : ∀ (fs : List GoField) (i : Nat) (acc : TInfo) (tags : List Str),
    List.Forall₂ (PlainTag ns) fs tags → (acc.map (·.name) ++ tags).Nodup →
    ∃ l, Riff.structInfo ns fs i acc = .ok (acc ++ l) ∧ l.map (·.name) = tags ∧
      ∀ fi ∈ l, Riff.toField fi = { name := fi.name } := by
  intro fs
  induction fs with
  | nil => intro i acc tags h _; cases h; exact ⟨[], by simp [Riff.structInfo], rfl, by simp⟩
  | cons f fs ih =>
    intro i acc tags h hn
    cases h with
    | cons hf hfs =>
      rename_i tag tags
      obtain ⟨h1, h2⟩ := plainTag_info hf i
      unfold Riff.structInfo
      rw [h1, h2]
      let fi : FInfo := ⟨[i], tag, .zero, .zero, true, false, false, false, false, false, f.impls⟩
      have ha : addFieldInfo acc fi = some (acc ++ [fi]) := by
        unfold addFieldInfo
        rw [if_neg]
        rw [List.any_eq_true]
        rintro ⟨o, ho, hc⟩
        unfold conflicts at hc
        have e : tag = o.name := by
          have := (Bool.and_eq_true _ _).mp ((Bool.and_eq_true _ _).mp hc).1
          exact of_decide_eq_true this.1
        exact (List.nodup_append.mp hn).2.2 o.name (List.mem_map_of_mem ho) tag (by simp) e.symm
      have ha' : addFieldInfo acc ⟨[i], tag, .zero, .zero, true, false, false, false, false, false, f.impls⟩ = some (acc ++ [fi]) := ha
      simp only [ha', Bool.false_eq_true, if_false]
      obtain ⟨l, e1, e2, e3⟩ := ih (i + 1) (acc ++ [fi]) tags hfs (by simpa [fi] using hn)
      refine ⟨fi :: l, by rw [e1]; simp, by simp [e2, fi], ?_⟩
      intro o ho
      rcases List.mem_cons.mp ho with rfl | ho
      · rfl
      · exact e3 o ho

/-- **C59.** If the tags of a struct are different, then all tags work: reading, setting and listing are those of a struct whose fields have
these names. -/
theorem tags_distinct_partial {ns : Str} {fs : List GoField} {tags : List Str} (h : List.Forall₂ (PlainTag ns) fs tags) (hn : tags.Nodup)
    (tys : List Ty) (v : Val) (tag value : Str) :
    Riff.getTag ns fs tys v tag = getNative (.struct none (tags.map (fun n => { name := n })) tys) v tag ∧
      Riff.setTag ns fs tys v tag value = setNative (.struct none (tags.map (fun n => { name := n })) tys) v tag value ∧
      Riff.listTags ns fs tys v = listNative (.struct none (tags.map (fun n => { name := n })) tys) v := by
  obtain ⟨l, e1, e2, e3⟩ := structInfo_distinct fs 0 [] tags h (by simpa using hn)
  have e : l.map Riff.toField = tags.map (fun n => { name := n }) := by
    rw [← e2, List.map_map]
    exact List.map_congr_left e3
  unfold Riff.getTag Riff.setTag Riff.listTags
  rw [e1]
  simp [e]

/-- **C59.** The same struct has metadata for XMP, where all names differ. -/
theorem riff_xmp_ok : ∃ l, Riff.structInfo "xmp".toList Riff.fields 0 [] = .ok l ∧ l.length = 85 := by
  have h : (match Riff.structInfo "xmp".toList Riff.fields 0 [] with | .ok l => l.length | _ => 0) = 85 := by decide +kernel
  cases e : Riff.structInfo "xmp".toList Riff.fields 0 [] with
  | ok l => rw [e] at h; exact ⟨l, rfl, h⟩
  | err => rw [e] at h; cases h
  | panic => rw [e] at h; cases h

end Xmp.Props
