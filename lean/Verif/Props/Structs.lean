import Verif.Model.Structs
import Verif.Props.TypedXmpCases

/-! C65: structs are written exactly when a field is set. -/

namespace Xmp.Props

open GoStr Xmp.Structs

/-! ### Specification -/

/-- All fields are empty. -/
def AllEmpty (tys : List Ty) (vals : List Val) : Prop :=
  ∀ (i : Nat) t v, tys[i]? = some t → vals[i]? = some v → isEmptyValue t v = true

/-- All fields but field `k` are empty. -/
def AllEmptyBut (k : Nat) (tys : List Ty) (vals : List Val) : Prop :=
  ∀ (i : Nat) t v, i ≠ k → tys[i]? = some t → vals[i]? = some v → isEmptyValue t v = true

/-- The structs that test all of their fields and have no fields to be written if empty. -/
def complete (c : Codecs) : List GTy := [job, thumbnail, area c, dimensions c, colorant c]

/-! ### Helpers -/

theorem emptyAt_iff (tys : List Ty) (vals : List Val) (k : Nat) :
    emptyAt tys vals k = true ↔ ∀ t v, tys[k]? = some t → vals[k]? = some v → isEmptyValue t v = true := by
  unfold emptyAt
  cases tys[k]? <;> cases vals[k]? <;> simp

theorem testAll_iff {tys : List Ty} {ks : List Nat} {vals : List Val} :
    testAll tys ks vals = true ↔ ∀ k ∈ ks, ∀ t v, tys[k]? = some t → vals[k]? = some v → isEmptyValue t v = true := by
  unfold testAll
  rw [List.all_eq_true]
  exact ⟨fun h k hk => (emptyAt_iff _ _ _).1 (h k hk), fun h k hk => (emptyAt_iff _ _ _).2 (h k hk)⟩

theorem testAll_all {tys : List Ty} {ks : List Nat} (hk : ∀ k < tys.length, k ∈ ks) (vals : List Val) :
    testAll tys ks vals = true ↔ AllEmpty tys vals := by
  rw [testAll_iff]
  refine ⟨fun h i t v h1 h2 => h i (hk i ?_) t v h1 h2, fun h k _ t v h1 h2 => h k t v h1 h2⟩
  exact (List.getElem?_eq_some_iff.1 h1).1

theorem unwritten_parts {infos : List FieldInfo} {tys : List Ty} {vals : List Val} (he : ∀ f ∈ infos, f.empty = false)
    (h : AllEmpty tys vals) (node : Node) :
    marshalAttrs infos tys vals node = some node ∧ marshalFields tys infos vals node = some (node, false) := by
  have key : ∀ (tys : List Ty) (infos : List FieldInfo) (vals : List Val), (∀ f ∈ infos, f.empty = false) → AllEmpty tys vals →
      marshalAttrs infos tys vals node = some node ∧ marshalFields tys infos vals node = some (node, false) := by
    intro tys
    induction tys with
    | nil =>
      intro infos vals _ _
      exact ⟨by cases infos <;> simp [marshalAttrs], by simp [marshalFields]⟩
    | cons t ts ih =>
      intro infos vals he h
      cases infos with
      | nil => exact ⟨by simp [marshalAttrs], by simp [marshalFields]⟩
      | cons f fs =>
        cases vals with
        | nil => exact ⟨by simp [marshalAttrs], by simp [marshalFields]⟩
        | cons v vs =>
          have hw : fieldWritten f t v = false := by
            unfold fieldWritten
            rw [he f (by simp), h 0 t v rfl rfl]
            simp
          have := ih fs vs (fun g hg => he g (by simp [hg])) (fun i t v h1 h2 => h (i + 1) t v (by simpa using h1) (by simpa using h2))
          rw [marshalAttrs, marshalFields, hw]
          simpa using this
  exact key tys infos vals he h

theorem unwritten {infos : List FieldInfo} {tys : List Ty} {vals : List Val} (he : ∀ f ∈ infos, f.empty = false)
    (h : AllEmpty tys vals) (node : Node) : marshalValue (.struct none infos tys) (.struct vals) node = some node := by
  obtain ⟨h1, h2⟩ := unwritten_parts he h node
  rw [marshalValue]
  simp [h1, h2]

/-! ### Properties -/

/-- **C65.** The structs that test all of their fields count as zero exactly if all of their fields are empty. -/
theorem struct_zero_iff (c : Codecs) (g : GTy) (hg : g ∈ flash c :: complete c) (vals : List Val) :
    g.isZero vals = true ↔ AllEmpty g.tys vals := by
  simp only [complete, List.mem_cons, List.not_mem_nil, or_false] at hg
  rcases hg with rfl | rfl | rfl | rfl | rfl | rfl
  all_goals
    refine testAll_all ?_ vals
    intro k hk
    simp only [List.length_cons, List.length_nil] at hk
    simp only [List.mem_cons, List.not_mem_nil, or_false]
    omega

/-- **C65.** For these structs the test changes nothing: what is written is what the fields alone would give, in
particular nothing for a struct without values. -/
theorem struct_guard_invisible (c : Codecs) (g : GTy) (hg : g ∈ complete c) (vals : List Val) (node : Node) :
    g.write vals node = marshalValue g.plain (.struct vals) node := by
  unfold GTy.write
  split
  · rename_i hz
    have hz' := (struct_zero_iff c g (List.mem_cons_of_mem _ hg) vals).1 hz
    refine (unwritten ?_ hz' node).symm
    simp only [complete, List.mem_cons, List.not_mem_nil, or_false] at hg
    rcases hg with rfl | rfl | rfl | rfl | rfl <;>
      simp [job, thumbnail, area, dimensions, colorant, attr, elem]
  · rfl

/-- **C65.** A faithful value of one of these structs that is not empty is written into a fresh node and read back, after
a round through XML, as the same value. -/
theorem struct_roundtrip (c : Codecs) (d : Dec) (dv : Version) (uri : Str → Str) (hr : RdfOK d uri) (g : GTy)
    (hg : g ∈ complete c) (hn : TyNames (fun nm => nm ∉ markupNames ∧ NameOK d uri nm) g.plain) (vals : List Val)
    (hf : Faithful dv g.plain (.struct vals)) (name : QName) :
    ∃ n, g.write vals (Node.new name) = some n ∧ decodeElement d dv (n.reparse uri) g.plain g.plain.zero = .ok (.struct vals) := by
  rw [struct_guard_invisible c g hg]
  exact model_roundtrip d dv uri hr g.plain hn (.struct vals) hf name

/-- **C65.** All jobs survive: three texts without surrounding white space, empty or not, and whether or not the job is
empty. -/
theorem job_roundtrip (d : Dec) (uri : Str → Str) (hr : RdfOK d uri)
    (hn : ∀ nm ∈ ["stJob:id", "stJob:name", "stJob:url"], NameOK d uri nm.toList) (id nm url : Str)
    (h1 : Trimmed id) (h2 : Trimmed nm) (h3 : Trimmed url) (name : QName) :
    ∃ n, job.write [.str id, .str nm, .str url] (Node.new name) = some n ∧
      decodeElement d Version.zero (n.reparse uri) job.plain job.plain.zero = .ok (.struct [.str id, .str nm, .str url]) := by
  let c0 : Codec := ⟨fun _ => none, fun _ _ => none, fun _ => true, false⟩
  have str : ∀ (k : Nat) (f : FieldInfo) (s : Str), Trimmed s → f.attr = true → f.empty = false → job.infos[k]? = some f →
      f.omitted = false → f.minVersion = Version.zero →
      (if fieldWritten f .str (.str s) then findStructField Version.zero job.infos f.name = some k ∧
        (if f.attr then AttrFaithful .str (.str s) else Faithful Version.zero .str (.str s)) else Val.str s = Ty.str.zero) := by
    intro k f s hs ha he hf ho hm
    split
    · exact ⟨field_found (by decide) hf, by simpa [AttrFaithful, LeafFaithful] using hs⟩
    · rename_i h
      unfold fieldWritten at h
      rw [ho, he, zero_between] at h
      simp only [Val.isNil, isEmptyValue, Bool.not_false, Bool.false_or, Bool.true_and, Bool.not_eq_true', Bool.not_eq_false,
        List.isEmpty_iff] at h
      rw [h, Ty.zero]
  refine struct_roundtrip ⟨c0, c0, c0, c0, c0, c0⟩ d _ uri hr job (by simp [complete]) ?_ _ ?_ name
  · simp only [GTy.plain, job, TyNames, TysNames, List.mem_cons, List.not_mem_nil, or_false, forall_eq_or_imp, forall_eq, and_true]
    exact ⟨⟨by decide, hn _ (by simp)⟩, ⟨by decide, hn _ (by simp)⟩, ⟨by decide, hn _ (by simp)⟩⟩
  · rw [GTy.plain, Faithful]
    refine ⟨_, rfl, ?_⟩
    show FaithfulFields _ [.str, .str, .str] job.infos 0 [attr "stJob:id", attr "stJob:name", attr "stJob:url"] _
    simp only [FaithfulFields]
    exact ⟨_, _, _, _, rfl, rfl, str 0 _ id h1 rfl rfl rfl rfl rfl, _, _, _, _, rfl, rfl, str 1 _ nm h2 rfl rfl rfl rfl rfl,
      _, _, _, _, rfl, rfl, str 2 _ url h3 rfl rfl rfl rfl rfl, rfl, rfl⟩

/-- **C65, finding.** The width of a thumbnail is written as its height and the height as its width
(models/xmp_base/types.go:172-173). -/
theorem thumbnail_swapped (fmt img : Str) (w h : Int) (hf : fmt ≠ []) (hi : img ≠ []) (hw : w ≠ 0) (hh : h ≠ 0) (name : QName)
    (hd : name ≠ rdfDescription) :
    thumbnail.write [.str fmt, .int w, .int h, .bytes img] (Node.new name) =
      some (.mk name [rdfResourceAttr] [] [.mk ⟨[], "xmpGImg:format".toList⟩ [] fmt [],
        .mk ⟨[], "xmpGImg:height".toList⟩ [] (itoa w) [], .mk ⟨[], "xmpGImg:width".toList⟩ [] (itoa h) [],
        .mk ⟨[], "xmpGImg:image".toList⟩ [] img []]) := by
  have e1 : fmt.isEmpty = false := by cases fmt <;> simp_all
  have e2 : img.isEmpty = false := by cases img <;> simp_all
  simp [GTy.write, thumbnail, testAll, emptyAt, isEmptyValue, e1, e2, hw, hh, GTy.plain, marshalValue, marshalAttrs, marshalFields,
    fieldWritten, elem, zero_between, Val.isNil, marshalSimple, Node.new, Node.setValue, Node.addNode,
    Node.addAttr, Node.setNodes, Node.nodes, Node.setAttrs, Node.attrs, Node.xmlName, NodeList.addNode,
    AttrList.addAttr, hd]

/-- **C65.** A reference to a resource counts as zero if all of its fields but `ManageUI` are empty. -/
theorem ref_zero_iff (c : Codecs) (vals : List Val) :
    (resourceRef c).isZero vals = true ↔ AllEmptyBut 10 (resourceRef c).tys vals := by
  show testAll _ _ vals = true ↔ _
  rw [testAll_iff]
  constructor
  · intro h i t v hi h1 h2
    refine h i ?_ t v h1 h2
    have := (List.getElem?_eq_some_iff.1 h1).1
    simp only [resourceRef, List.length_cons, List.length_nil] at this
    simp only [List.mem_cons, List.not_mem_nil, or_false]
    omega
  · intro h k hk t v h1 h2
    refine h k t v ?_ h1 h2
    rintro rfl
    simp at hk

/-- If just one field is set, and that is a string written as attribute, the attribute is all that is written. -/
theorem only_attr : ∀ (tys : List Ty) (infos : List FieldInfo) (vals : List Val) (k : Nat) (f : FieldInfo) (s : Str) (node : Node),
    (∀ g ∈ infos, g.empty = false) → AllEmptyBut k tys vals → infos[k]? = some f → tys[k]? = some .str → vals[k]? = some (.str s) →
    f.attr = true → f.omitted = false → s ≠ [] →
    marshalAttrs infos tys vals node = some (node.addAttr ⟨⟨[], f.name⟩, s⟩) ∧
      ∀ n, marshalFields tys infos vals n = some (n, false) := by
  intro tys
  induction tys with
  | nil => intro infos vals k f s node _ _ _ ht; simp at ht
  | cons t ts ih =>
    intro infos vals k f s node he h hf ht hv ha ho hs
    cases infos with
    | nil => simp at hf
    | cons g gs =>
      cases vals with
      | nil => simp at hv
      | cons v vs =>
        cases k with
        | zero =>
          simp only [List.getElem?_cons_zero, Option.some.injEq] at hf ht hv
          subst hf; subst ht; subst hv
          have hw : fieldWritten g .str (.str s) = true := by
            rw [written_iff]
            exact ⟨ho, by simp, Or.inr (by cases s <;> simp_all [isEmptyValue])⟩
          have hrest : AllEmpty ts vs := fun i t v h1 h2 => h (i + 1) t v (by omega) (by simpa using h1) (by simpa using h2)
          have he' : ∀ g ∈ gs, g.empty = false := fun g hg => he g (by simp [hg])
          have tail : ∀ n, marshalAttrs gs ts vs n = some n ∧ marshalFields ts gs vs n = some (n, false) := by
            intro n
            exact unwritten_parts he' hrest n
          rw [marshalAttrs, ha, hw]
          simp only [Bool.and_self, if_true, marshalAttr, attrText, leafText, marshalSimple]
          refine ⟨?_, ?_⟩
          · exact (tail _).1
          · intro n
            rw [marshalFields, ha]
            simpa using (tail n).2
        | succ k =>
          simp only [List.getElem?_cons_succ] at hf ht hv
          have hw : fieldWritten g t v = false := by
            unfold fieldWritten
            rw [he g (by simp), h 0 t v (by omega) rfl rfl]
            simp
          obtain ⟨i1, i2⟩ := ih gs vs k f s node (fun g hg => he g (by simp [hg]))
            (fun i t v hi h1 h2 => h (i + 1) t v (by omega) (by simpa using h1) (by simpa using h2)) hf ht hv ha ho hs
          rw [marshalAttrs, hw]
          refine ⟨by simpa using i1, fun n => ?_⟩
          rw [marshalFields, hw]
          simpa using i2 n

/-- **C65, finding.** A reference that has nothing but a `ManageUI` is lost, although its fields alone give an attribute
(models/xmp_mm/types.go:44-61). -/
theorem ref_lost (c : Codecs) (vals : List Val) (s : Str) (h : AllEmptyBut 10 (resourceRef c).tys vals)
    (hv : vals[10]? = some (.str s)) (hs : s ≠ []) (node : Node) :
    (resourceRef c).write vals node = some node ∧
    marshalValue (resourceRef c).plain (.struct vals) node = some (node.addAttr ⟨⟨[], "stRef:manageUI".toList⟩, s⟩) := by
  constructor
  · unfold GTy.write
    rw [if_pos ((ref_zero_iff c vals).2 h)]
  · have he : ∀ g ∈ (resourceRef c).infos, g.empty = false := by
      simp [resourceRef, attr, elem]
    obtain ⟨h1, h2⟩ := only_attr (resourceRef c).tys (resourceRef c).infos vals 10 (attr "stRef:manageUI") s node he h rfl rfl hv
      rfl rfl hs
    rw [GTy.plain, marshalValue]
    simp [h1, h2, attr]

/-- **C65.** Everything else that is set in a reference is written as its fields give it. -/
theorem ref_written (c : Codecs) (vals : List Val) (i : Nat) (t : Ty) (v : Val) (hi : i ≠ 10) (ht : (resourceRef c).tys[i]? = some t)
    (hv : vals[i]? = some v) (he : isEmptyValue t v = false) (node : Node) :
    (resourceRef c).write vals node = marshalValue (resourceRef c).plain (.struct vals) node := by
  unfold GTy.write
  rw [if_neg]
  rw [ref_zero_iff]
  intro h
  rw [h i t v hi ht hv] at he
  cases he

/-- **C65, finding.** A colour filter pattern or device settings without columns or without rows are lost together with
their values (models/exif/types.go:217-219, 268-270); otherwise they are written. -/
theorem matrix_write (c : Codecs) (g : GTy) (hg : g ∈ [cfaPattern c, deviceSettings]) (cols rows : Int) (v : Val) (node : Node) :
    g.write [.int cols, .int rows, v] node =
      if cols = 0 ∨ rows = 0 then some node else marshalValue g.plain (.struct [.int cols, .int rows, v]) node := by
  simp only [List.mem_cons, List.not_mem_nil, or_false] at hg
  rcases hg with rfl | rfl <;>
    simp [GTy.write, cfaPattern, deviceSettings, emptyAt, isEmptyValue]

/-- **C65, finding.** A flash that did not fire, with all of its fields empty, is not written, although all fields are
marked to be written if they are empty (models/exif/types.go:309-323, 337-343): the fields alone give five attributes. -/
theorem flash_lost (c : Codecs) (kb : Nat) (hb : c.bool.empty kb = true) (s : Str) (hs : c.bool.enc kb = some (some s)) (name : QName) :
    (flash c).write [.opq kb, .opq kb, .int 0, .opq kb, .int 0] (Node.new name) = some (Node.new name) ∧
    marshalValue (flash c).plain (.struct [.opq kb, .opq kb, .int 0, .opq kb, .int 0]) (Node.new name) =
      some (.mk name [⟨⟨[], "exif:Fired".toList⟩, s⟩, ⟨⟨[], "exif:Function".toList⟩, s⟩, ⟨⟨[], "exif:Mode".toList⟩, "0".toList⟩,
        ⟨⟨[], "exif:RedEyeMode".toList⟩, s⟩, ⟨⟨[], "exif:Return".toList⟩, "0".toList⟩] [] []) := by
  constructor
  · simp [GTy.write, flash, testAll, emptyAt, isEmptyValue, hb]
  · have h0 : itoa 0 = ['0'] := by decide
    simp [flash, GTy.plain, marshalValue, marshalAttrs, marshalFields, fieldWritten, attr, zero_between, Val.isNil, marshalAttr, attrText,
      leafText, marshalSimple, hs, Node.new, Node.addAttr, Node.setAttrs, Node.attrs, Node.xmlName, AttrList.addAttr, h0]

/-! ### Examples -/

/-- Codecs for the examples: numbers in decimal. -/
def natCodec : Codec := ⟨fun n => some (some (natToStr n)), fun _ _ => none, fun n => n == 0, true⟩

/-- The same codec for all types. -/
def natCodecs : Codecs := ⟨natCodec, natCodec, natCodec, natCodec, natCodec, natCodec⟩

/-- The blank reference with a `ManageUI`. -/
def blankRef (s : Str) : List Val := [.slice [] [], .opq 0, .opq 0, .str [], .nil, .opq 0, .opq 0, .str [], .str [], .str [], .str s,
  .str [], .str [], .str [], .str [], .nil, .str []]

example (s : Str) : AllEmptyBut 10 (resourceRef natCodecs).tys (blankRef s) :=
  (ref_zero_iff natCodecs (blankRef s)).1 rfl

example : (resourceRef natCodecs).write (blankRef "ui".toList) (Node.new ⟨[], "xmpMM:ManagedFrom".toList⟩) =
    some (Node.new ⟨[], "xmpMM:ManagedFrom".toList⟩) := rfl

example : AllEmpty (area natCodecs).tys [.opq 0, .opq 0, .opq 0, .opq 0, .opq 0, .str []] :=
  (struct_zero_iff natCodecs _ (by simp [complete]) _).1 rfl

example : ¬ AllEmpty (area natCodecs).tys [.opq 0, .opq 0, .opq 0, .opq 0, .opq 3, .str []] := fun h =>
  absurd (h 4 _ _ rfl rfl) (by decide)

example : (colorant natCodecs).write [.int 0, .int 0, .opq 0, .opq 0, .opq 0, .opq 0, .opq 0, .int 0, .int 0, .int 0, .str [],
    .str "red".toList, .str []] (Node.new ⟨[], "rdf:li".toList⟩) =
    some (.mk ⟨[], "rdf:li".toList⟩ [⟨⟨[], "xmpG:swatchName".toList⟩, "red".toList⟩] [] []) := rfl

/-- A registry with the namespace of jobs. -/
def jobReg : RegHistory :=
  [(⟨"rdf".toList, rdfUri, none⟩, []), (⟨"xml".toList, xmlUri, none⟩, []), (⟨"stJob".toList, "u:job".toList, none⟩, [])]

/-- The prefixes as written by the encoder. -/
def jobUri (p : Str) : Str := if p = "stJob".toList then "u:job".toList else rdfBinding p

/-- The decoder after the declaration of `stJob`. -/
def jobDec : Dec := decoder jobReg [("stJob".toList, "u:job".toList)]

theorem jobName (loc : Str) (h : loc ≠ []) : NameOK jobDec jobUri ("stJob".toList ++ ':' :: loc) :=
  nameOK_known jobReg _ jobUri (by decide) h ⟨by decide, by decide, ⟨_, rfl, by decide, by decide⟩⟩ (by decide) (by decide)
    (by decide) (by decide)

example : ∃ n, job.write [.str "7".toList, .str [], .str "a b".toList] (Node.new ⟨[], "rdf:li".toList⟩) = some n ∧
    decodeElement jobDec Version.zero (n.reparse jobUri) job.plain job.plain.zero =
      .ok (.struct [.str "7".toList, .str [], .str "a b".toList]) := by
  refine job_roundtrip jobDec jobUri ⟨⟨by decide, by decide⟩, by decide⟩ ?_ _ _ _ (by decide) (by decide) (by decide) _
  intro nm h
  simp only [List.mem_cons, List.not_mem_nil, or_false] at h
  rcases h with rfl | rfl | rfl
  · exact jobName "id".toList (by decide)
  · exact jobName "name".toList (by decide)
  · exact jobName "url".toList (by decide)

end Xmp.Props
