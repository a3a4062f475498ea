import Verif.Props.TypedNames
import Verif.Props.Semver

/-! C33: the round trip of typed models, its conditions and where it fails. -/

namespace Xmp.Props

open GoStr

/-- C33: a faithful value of any type is written into a fresh node and read back, after a round through XML, as the
same value by every decoder that recognises the names in the tree. -/
theorem model_roundtrip_tree (d : Dec) (dv : Version) (uri : Str → Str) (hr : RdfOK d uri) (t : Ty)
    (hn : TyNames (· ∉ markupNames) t) (v : Val) (hf : Faithful dv t v) (name : QName) :
    ∃ n, marshalValue t v (Node.new name) = some n ∧ (Understood d uri n →
      decodeElement d dv (n.reparse uri) t t.zero = .ok v) := by
  obtain ⟨n, h1, -, h3⟩ := roundtrips d dv uri hr t hn v name hf
  exact ⟨n, h1, fun h => h3 h false⟩

mutual
theorem tyNames_mono {P Q : Str → Prop} (h : ∀ s, P s → Q s) : ∀ t, TyNames P t → TyNames Q t
  | .int _, _ | .uint _, _ | .bool, _ | .str, _ | .bytes, _ | .text _, _ | .alt, _ => by simp [TyNames]
  | .slice _ t, ht => by rw [TyNames] at ht ⊢; exact tyNames_mono h t ht
  | .ptr t, ht => by rw [TyNames] at ht ⊢; exact tyNames_mono h t ht
  | .struct _ infos tys, ht => by
    rw [TyNames] at ht ⊢
    exact ⟨fun f hf => h _ (ht.1 f hf), tysNames_mono h tys ht.2⟩
theorem tysNames_mono {P Q : Str → Prop} (h : ∀ s, P s → Q s) : ∀ ts, TysNames P ts → TysNames Q ts
  | [], _ => trivial
  | t :: ts, ht => by
    rw [TysNames] at ht ⊢
    exact ⟨tyNames_mono h t ht.1, tysNames_mono h ts ht.2⟩
end

/-- C33: a faithful value of any type whose names the decoder recognises, written into a fresh node and read back after
a round through XML, is the same value. -/
theorem model_roundtrip (d : Dec) (dv : Version) (uri : Str → Str) (hr : RdfOK d uri) (t : Ty)
    (hn : TyNames (fun nm => nm ∉ markupNames ∧ NameOK d uri nm) t) (v : Val) (hf : Faithful dv t v) (name : QName) :
    ∃ n, marshalValue t v (Node.new name) = some n ∧ decodeElement d dv (n.reparse uri) t t.zero = .ok v := by
  obtain ⟨n, h1, h2⟩ := model_roundtrip_tree d dv uri hr t (tyNames_mono (fun _ h => h.1) t hn) v hf name
  refine ⟨n, h1, h2 ?_⟩
  have hP := marshal_inner (P := fun q => q.loc ∈ markupNames ∨ NameOK d uri q.loc) (fun m hm => Or.inl hm) t v _ n
    (tyNames_mono (fun _ h => Or.inr h.2) t hn) (innerP_new name) h1
  intro q hq hm
  exact (innerP_iff.1 hP.2 q hq).resolve_left hm

/-! ### When the conditions hold -/

theorem zero_between (a b : Version) : Version.zero.between a b = true := by
  unfold Version.between
  rw [if_pos (by decide)]

/-- Without a decoder version, fields with distinct names are found under their names. -/
theorem field_found {infos : List FieldInfo} (hd : (infos.map (·.name)).Nodup) {i : Nat} {f : FieldInfo}
    (h : infos[i]? = some f) : findStructField Version.zero infos f.name = some i := by
  have hi := List.getElem?_eq_some_iff.1 h
  have : infos.findIdx? (fun g => Version.zero.between g.minVersion g.maxVersion && decide (g.name = f.name)) = some i := by
    rw [List.findIdx?_eq_some_iff_getElem]
    refine ⟨hi.1, ?_, ?_⟩
    · rw [hi.2]; simp [zero_between]
    · intro j hj
      simp only [zero_between, Bool.true_and, decide_eq_true_eq]
      intro e
      have hjl : j < infos.length := Nat.lt_trans hj hi.1
      have h1 : (infos.map (·.name))[j]'(by simpa using hjl) = (infos.map (·.name))[i]'(by simpa using hi.1) := by
        rw [List.getElem_map, List.getElem_map, e, hi.2]
      have := (List.Nodup.getElem_inj_iff hd).1 h1
      omega
  unfold findStructField
  rw [this]

/-- A name with a registered prefix, in a document that declares its namespace under any prefix. -/
theorem nameOK_known (h : RegHistory) (l : List (Str × Str)) (uri : Str → Str) {p loc : Str} (hp : ':' ∉ p) (hl : loc ≠ [])
    (hk : KnownUri (runReg h) (uri p) p) (hd : uri p ∈ l.map (·.2)) (h0 : uri p ≠ []) (hx : uri p ≠ "xmlns".toList)
    (hr : p ≠ "rdf".toList ∧ p ≠ "xml".toList) : NameOK (decoder h l) uri (p ++ ':' :: loc) := by
  have hcut : ∀ q r : Str, ':' ∉ q → p ++ ':' :: loc = q ++ ':' :: r → p = q := by
    intro q r hq e
    have h1 : indexChar ':' (p ++ ':' :: loc) = some p.length := indexChar_append hp
    rw [e, indexChar_append hq] at h1
    have h2 := congrArg (List.take p.length) e
    rw [List.take_left, ← Option.some.inj h1, List.take_left] at h2
    exact h2
  refine ⟨?_, ?_, ?_⟩
  · unfold reparseName
    rw [show indexChar ':' (p ++ ':' :: loc) = some p.length from indexChar_append hp]
    simp only [List.take_left]
    have : (p ++ ':' :: loc).drop (p.length + 1) = loc := by simp
    rw [this]
    exact translate_known h l hk hd h0 hx hl
  · intro e
    exact hr.1 (hcut "rdf".toList "Description".toList (by decide) e)
  · simp only [List.mem_cons, List.not_mem_nil, or_false, not_or]
    refine ⟨fun e => ?_, fun e => ?_, fun e => ?_⟩
    · exact hr.1 (hcut "rdf".toList "parseType".toList (by decide) e)
    · exact hr.1 (hcut "rdf".toList "type".toList (by decide) e)
    · exact hr.2 (hcut "xml".toList "lang".toList (by decide) e)

/-- Which fields are written: those that are neither omitted nor nil and are not empty or tagged `empty`. -/
theorem written_iff (f : FieldInfo) (t : Ty) (v : Val) :
    fieldWritten f t v = true ↔ f.omitted = false ∧ v ≠ .nil ∧ (f.empty = true ∨ isEmptyValue t v = false) := by
  have : v.isNil = false ↔ v ≠ .nil := by cases v <;> simp [Val.isNil]
  simp [fieldWritten, zero_between, this, and_assoc]

/-- The empty values of simple types, language alternatives and arrays are their zero values. -/
theorem empty_is_zero {t : Ty} {v : Val} (hv : HasTy t v) (ht : ∀ c, t ≠ .text c) (hp : ∀ u, t ≠ .ptr u)
    (hs : ∀ z i u, t ≠ .struct z i u) : isEmptyValue t v = true ↔ v = t.zero ∨ ∃ sp, v = .slice [] sp := by
  cases t <;> cases v <;> simp_all [HasTy, isEmptyValue, Ty.zero, List.isEmpty_iff]

example : isEmptyValue (.slice .ordered .str) (.slice [.str []] []) = false := rfl

/-! ### A concrete model -/

/-- The registry of the sample. -/
def sampleReg : RegHistory :=
  [(⟨"rdf".toList, rdfUri, none⟩, []), (⟨"xml".toList, xmlUri, none⟩, []), (⟨"ex".toList, "u:ex".toList, none⟩, [])]

/-- The prefixes as written by the encoder. -/
def sampleUri (p : Str) : Str := if p = "ex".toList then "u:ex".toList else rdfBinding p

/-- The decoder after the declaration of `ex` on the `rdf:Description`. -/
def sampleDec : Dec := decoder sampleReg [("ex".toList, "u:ex".toList)]

theorem sampleRdf : RdfOK sampleDec sampleUri where
  bound := ⟨by decide, by decide⟩
  parseType := by decide

/-- An inner struct: a name written as attribute and a count. -/
def personTy : Ty := .struct none [⟨"ex:name".toList, true, false, false, false, .zero, .zero⟩,
  ⟨"ex:count".toList, false, false, false, false, .zero, .zero⟩] [.str, .int 64]

/-- A model: a text alternative, an array of structs, a pointer to a struct and a number as attribute. -/
def movieTy : Ty := .struct none [⟨"ex:title".toList, false, false, false, false, .zero, .zero⟩,
  ⟨"ex:cast".toList, false, false, false, false, .zero, .zero⟩, ⟨"ex:studio".toList, false, false, false, false, .zero, .zero⟩,
  ⟨"ex:year".toList, true, false, false, false, .zero, .zero⟩] [.alt, .slice .unordered personTy, .ptr personTy, .uint 16]

/-- A value of the sample model. -/
def movieVal : Val := .struct [.alt altSample,
  .slice [.struct [.str "A".toList, .int 3], .struct [.str [], .int 0], .struct [.str "B C".toList, .int (-1)]] [],
  .ptr (.struct [.str "S".toList, .int 0]), .int 1999]

theorem sampleNotMarkup (loc : Str) : "ex".toList ++ ':' :: loc ∉ markupNames := by
  simp [markupNames]

theorem sampleName (loc : Str) (h : loc ≠ []) :
    "ex".toList ++ ':' :: loc ∉ markupNames ∧ NameOK sampleDec sampleUri ("ex".toList ++ ':' :: loc) :=
  ⟨sampleNotMarkup loc, nameOK_known sampleReg _ sampleUri (by decide) h
    ⟨by decide, by decide, ⟨_, rfl, by decide, by decide⟩⟩ (by decide) (by decide) (by decide) (by decide)⟩

theorem movieNames : TyNames (fun nm => nm ∉ markupNames ∧ NameOK sampleDec sampleUri nm) movieTy := by
  have hp : TyNames (fun nm => nm ∉ markupNames ∧ NameOK sampleDec sampleUri nm) personTy := by
    simp only [personTy, TyNames, TysNames, List.mem_cons, List.not_mem_nil, or_false, forall_eq_or_imp, forall_eq, and_true]
    exact ⟨sampleName "name".toList (by decide), sampleName "count".toList (by decide)⟩
  simp only [movieTy, TyNames, TysNames, List.mem_cons, List.not_mem_nil, or_false, forall_eq_or_imp, forall_eq, and_true, true_and]
  exact ⟨⟨sampleName "title".toList (by decide), sampleName "cast".toList (by decide), sampleName "studio".toList (by decide),
    sampleName "year".toList (by decide)⟩, hp, hp⟩

theorem personFaithful (s : Str) (i : Int) (hs : Trimmed s) (hi : InI64 i) :
    Faithful Version.zero personTy (.struct [.str s, .int i]) := by
  unfold InI64 at hi
  rw [personTy, Faithful]
  refine ⟨_, rfl, ?_⟩
  simp only [FaithfulFields]
  refine ⟨_, _, _, _, rfl, rfl, ?_, _, _, _, _, rfl, rfl, ?_, rfl, rfl⟩
  · split
    · exact ⟨by decide, by simpa [AttrFaithful, LeafFaithful] using hs⟩
    · rename_i h
      have : s = [] := by
        by_contra hc
        apply h
        cases s with
        | nil => exact absurd rfl hc
        | cons c cs => rfl
      rw [this, Ty.zero]
  · split
    · refine ⟨by decide, ?_⟩
      simp only [Bool.false_eq_true, if_false, Faithful, LeafFaithful]
      exact hi
    · rename_i h
      have : i = 0 := by
        by_contra hc
        apply h
        unfold fieldWritten
        simp [Val.isNil, isEmptyValue, hc, zero_between]
      rw [this, Ty.zero]

theorem movieFaithful : Faithful Version.zero movieTy movieVal := by
  rw [movieTy, Faithful]
  refine ⟨_, rfl, ?_⟩
  simp only [FaithfulFields]
  refine ⟨_, _, _, _, rfl, rfl, ?_, _, _, _, _, rfl, rfl, ?_, _, _, _, _, rfl, rfl, ?_, _, _, _, _, rfl, rfl, ?_, rfl, rfl⟩
  · rw [if_pos (by decide)]
    refine ⟨by decide, ?_⟩
    simp only [Bool.false_eq_true, if_false, Faithful]
    refine ⟨_, rfl, altSample_writable, ?_⟩
    intro d rest h
    unfold altSample at h
    injection h with h1 h2
    left; rw [← h1]; decide
  · rw [if_pos (by decide)]
    refine ⟨by decide, ?_⟩
    simp only [Bool.false_eq_true, if_false, Faithful]
    refine ⟨_, rfl, by simp, ?_⟩
    intro x hx
    simp only [List.mem_cons, List.not_mem_nil, or_false] at hx
    rcases hx with rfl | rfl | rfl
    · exact personFaithful _ _ (by decide) (by decide)
    · exact personFaithful _ _ (by decide) (by decide)
    · exact personFaithful _ _ (by decide) (by decide)
  · rw [if_pos (by decide)]
    refine ⟨by decide, ?_⟩
    simp only [Bool.false_eq_true, if_false]
    rw [Faithful]
    exact ⟨_, rfl, rfl, personFaithful _ _ (by decide) (by decide)⟩
  · rw [if_pos (by decide)]
    exact ⟨by decide, by simp [AttrFaithful, LeafFaithful]⟩

example : ∃ n, marshalValue movieTy movieVal (Node.new ⟨[], "ex:movie".toList⟩) = some n ∧
    decodeElement sampleDec Version.zero (n.reparse sampleUri) movieTy movieTy.zero = .ok movieVal :=
  model_roundtrip _ _ _ sampleRdf _ movieNames _ movieFaithful _

/-! ### Where the round trip fails -/

/-- Types without a text of their own. -/
def NoText : Ty → Prop
  | .slice _ _ => True
  | .alt => True
  | .struct _ _ _ => True
  | _ => False

theorem attrText_none {t : Ty} {v : Val} (ht : NoText t.deref) (hv : HasTy t v) (hnil : v.isNil = false) : attrText t v = none := by
  cases t <;> cases v <;> simp_all [NoText, Ty.deref, HasTy, attrText, leafText, marshalSimple, Val.isNil]
  rename_i t v
  cases t <;> cases v <;> simp_all [HasTy]

/-- C33: a model with an array, language alternative or struct tagged as attribute can not be written at all once this
field is not empty, e.g. `SynchronizedLyrics` of models/id3 (types.go:262) and `MovieInfo` of models/itunes
(movieinfo.go:23). -/
theorem attr_not_marshalled : ∀ (infos : List FieldInfo) (tys : List Ty) (vals : List Val) (i : Nat) (f : FieldInfo) (t : Ty) (v : Val)
    (n : Node), HasTys tys vals → infos[i]? = some f → tys[i]? = some t → vals[i]? = some v → f.attr = true →
    fieldWritten f t v = true → NoText t.deref → ∀ z, marshalValue (.struct z infos tys) (.struct vals) n = none := by
  intro infos tys vals i f t v n hty hf ht hv ha hw hnt z
  have key : ∀ (tys : List Ty) (infos : List FieldInfo) (vals : List Val) (i : Nat) (n : Node), HasTys tys vals →
      infos[i]? = some f → tys[i]? = some t → vals[i]? = some v → marshalAttrs infos tys vals n = none := by
    intro tys
    induction tys with
    | nil => intro infos vals i n _ _ h; simp at h
    | cons t0 ts ih =>
      intro infos vals i n hty hf ht hv
      cases infos with
      | nil => simp at hf
      | cons f0 fs =>
        cases vals with
        | nil => simp at hv
        | cons v0 vs =>
          rw [HasTys] at hty
          rw [marshalAttrs]
          cases i with
          | zero =>
            simp only [List.getElem?_cons_zero, Option.some.injEq] at hf ht hv
            subst hf; subst ht; subst hv
            rw [if_pos (by simp [ha, hw])]
            have hnil : v0.isNil = false := by
              unfold fieldWritten at hw
              simp only [Bool.and_eq_true, Bool.not_eq_true'] at hw
              exact hw.1.2
            unfold marshalAttr
            rw [attrText_none hnt hty.1 hnil]
          | succ i =>
            simp only [List.getElem?_cons_succ] at hf ht hv
            split
            · cases hm : marshalAttr f0 t0 v0 n with
              | none => rfl
              | some n' => exact ih fs vs i n' hty.2 hf ht hv
            · exact ih fs vs i n hty.2 hf ht hv
  rw [marshalValue]
  simp only [key tys infos vals i n hty hf ht hv]

/-- `MovieInfo` of models/itunes/movieinfo.go:22-46, cut to two fields. -/
def movieInfoTy : Ty := .struct none [⟨"iTunes:AssetInfo".toList, true, false, false, false, .zero, .zero⟩,
  ⟨"iTunes:Studio".toList, true, false, false, false, .zero, .zero⟩]
  [.ptr (.struct none [⟨"iTunes:FileSize".toList, true, false, false, false, .zero, .zero⟩] [.int 64]), .str]

example (n : Node) : marshalValue movieInfoTy (.struct [.ptr (.struct [.int 7]), .str "S".toList]) n = none :=
  attr_not_marshalled _ _ _ 0 _ _ _ n (by simp [HasTys, HasTy]) rfl rfl rfl rfl (by decide) (by simp [Ty.deref, NoText]) _

/-- C33: an empty array (or language alternative) of a field with the option `empty` is written as an empty element,
which can not be read: the whole document fails to decode. -/
theorem empty_array_not_read (d : Dec) (dv : Version) (uri : Str → Str) (typ : ArrayType) (t : Ty) (name : QName) (info : Bool) :
    marshalValue (.slice typ t) (.slice [] []) (Node.new name) = some (Node.new name) ∧
    unmarshal d dv ((Node.new name).reparse uri) info (.slice typ t) (Ty.slice typ t).zero = .err := by
  refine ⟨by rw [marshalValue]; rfl, ?_⟩
  simp only [Node.new, Node.reparse, Node.reparseList]
  rw [unmarshal]
  simp [derefVal, Ty.zero, unmarshalArr]

/-- C33: text that is no number in an array of numbers makes the decoder panic (it formats a field that is nil). -/
theorem bad_item_panics (d : Dec) (dv : Version) (bits : Nat) (nm an ln : QName) (a1 a2 a3 : List Attr) (v1 v2 s : Str)
    (rest : List Node) (l sp : List Val) (info : Bool) (typ : ArrayType)
    (ha : stripPrefix an.loc ∈ ["Seq".toList, "Bag".toList, "Alt".toList])
    (hl : fullNameOf d.reg ln = "rdf:li".toList) (hs : parseInt bits s = none) :
    unmarshal d dv (.mk nm a1 v1 [.mk an a2 v2 (.mk ln a3 s [] :: rest)]) info (.slice typ (.int bits)) (.slice l sp) = .panic := by
  rw [unmarshal]
  simp only [derefVal]
  rw [unmarshalArr, unmarshalArr1, if_pos ha, unmarshalItems]
  have : (Node.mk ln a3 s []).fullName d.reg = "rdf:li".toList := hl
  rw [if_neg (by simp [this]), unmarshal]
  simp [derefVal, Ty.zero, setValue, hs, failField]

example : unmarshal sampleDec Version.zero (.mk ⟨"u:ex".toList, "n".toList⟩ [] []
    [.mk ⟨rdfUri, "Seq".toList⟩ [] [] [.mk ⟨rdfUri, "li".toList⟩ [] "one".toList []]]) true (.slice .ordered (.int 64)) (.slice [] []) =
    .panic := bad_item_panics _ _ _ _ _ _ _ _ _ _ _ _ _ _ _ _ _ (by decide) (by decide) (by decide)

/-- C33: a decoder with a version does not find any field without version bounds, so it rejects every element of a
struct whose fields have none. -/
theorem version_rejects (dv : Version) (hs : Small dv) (h0 : dv ≠ Version.zero) (infos : List FieldInfo)
    (hb : ∀ f ∈ infos, f.minVersion = Version.zero ∧ f.maxVersion = Version.zero) (name : Str) :
    findStructField dv infos name = none := by
  have hbt : ∀ f ∈ infos, dv.between f.minVersion f.maxVersion = false := by
    intro f hf
    obtain ⟨h1, h2⟩ := hb f hf
    rw [h1, h2]
    exact (between_unrestricted_rejects dv hs h0).1
  have h1 : infos.findIdx? (fun f => dv.between f.minVersion f.maxVersion && decide (f.name = name)) = none := by
    rw [List.findIdx?_eq_none_iff]
    intro f hf
    rw [hbt f hf]; rfl
  have h2 : ∀ l : List FieldInfo, (∀ f ∈ l, dv.between f.minVersion f.maxVersion = false) →
      lastIdx (fun f => dv.between f.minVersion f.maxVersion && f.any) l = none := by
    intro l
    induction l with
    | nil => intro _; rfl
    | cons f fs ih =>
      intro h
      rw [lastIdx, ih (fun g hg => h g (by simp [hg]))]
      simp [h f (by simp)]
  unfold findStructField
  rw [h1]
  exact h2 infos hbt

/-- C33: surrounding white space is lost, and a pointer to an empty value of a type with `IsZero` is read as nil. -/
theorem whitespace_lost (d : Dec) (dv : Version) (uri : Str → Str) (name : QName) (s : Str) (info : Bool) :
    marshalValue .str (.str s) (Node.new name) = some ((Node.new name).setValue s) ∧
    unmarshal d dv (((Node.new name).setValue s).reparse uri) info .str (.str []) = .ok (.str (trimSpace s)) := by
  refine ⟨by rw [marshalValue]; rfl, ?_⟩
  simp only [Node.new, Node.setValue, Node.reparse]
  rw [unmarshal]
  simp [derefVal, setValue, rewrap, trimSpace_idem]

example : trimSpace " a".toList = "a".toList := by decide

/-! ### Repeated elements -/

theorem items_append (d : Dec) (dv : Version) : ∀ (ns : List Node) (t : Ty) (out l : List Val),
    unmarshalItems d dv ns t [] = .ok l → unmarshalItems d dv ns t out = .ok (out ++ l) := by
  have key : ∀ (ns : List Node) (t : Ty) (o1 o2 l : List Val), unmarshalItems d dv ns t o2 = .ok l →
      unmarshalItems d dv ns t (o1 ++ o2) = .ok (o1 ++ l) := by
    intro ns
    induction ns with
    | nil =>
      intro t o1 o2 l h
      rw [unmarshalItems] at h ⊢
      cases h; rfl
    | cons n ns ih =>
      intro t o1 o2 l h
      rw [unmarshalItems] at h ⊢
      split at h
      · cases h
      · rename_i hn
        rw [if_neg hn]
        cases hx : unmarshal d dv n false t t.zero with
        | ok x =>
          rw [hx] at h
          simp only at h ⊢
          rw [List.append_assoc]
          exact ih t o1 _ l h
        | err => rw [hx] at h; cases h
        | panic => rw [hx] at h; cases h
  intro ns t out l h
  have := key ns t out [] l h
  rwa [List.append_nil] at this

/-- C33: an array that occurs twice in an element is read as one array, the items of both in order. -/
theorem repeated_array_joins (d : Dec) (dv : Version) (n : Node) (info : Bool) (typ : ArrayType) (t : Ty) (a b : List Val)
    (h : unmarshal d dv n info (.slice typ t) (.slice [] []) = .ok (.slice b [])) :
    unmarshal d dv n info (.slice typ t) (.slice a []) = .ok (.slice (a ++ b) []) := by
  obtain ⟨nm, as, v, nodes⟩ := n
  rw [unmarshal] at h ⊢
  simp only [derefVal] at h ⊢
  have key : ∀ l, unmarshalArr d dv nodes t [] = .ok l → unmarshalArr d dv nodes t a = .ok (a ++ l) := by
    intro l hl
    match nodes with
    | [] => rw [unmarshalArr] at hl; cases hl; simp
    | [arr] =>
      obtain ⟨x1, x2, x3, lis⟩ := arr
      rw [unmarshalArr, unmarshalArr1] at hl ⊢
      split at hl
      · rename_i hm
        rw [if_pos hm]
        exact items_append d dv lis t a l hl
      · cases hl
    | _ :: _ :: _ => rw [unmarshalArr] at hl; cases hl; simp
  cases hx : unmarshalArr d dv nodes t [] with
  | ok l =>
    rw [hx] at h
    rw [key l hx]
    simp only [rewrap] at h ⊢
    cases h
    rfl
  | err => rw [hx] at h; cases h
  | panic => rw [hx] at h; cases h

/-- C33: two elements of one array field of a struct, one behind the other. -/
theorem repeated_field_joins (d : Dec) (dv : Version) (n1 n2 : Node) (infos : List FieldInfo) (tys : List Ty) (vals : List Val) (k : Nat)
    (nm : Str) (typ : ArrayType) (t : Ty) (a b : List Val)
    (h1 : d.translate n1.xmlName = ⟨[], nm⟩) (h2 : d.translate n2.xmlName = ⟨[], nm⟩)
    (hd : nm ≠ "rdf:Description".toList) (hs : skipName ⟨[], nm⟩ = false)
    (hk : findStructField dv infos nm = some k) (ht : tys[k]? = some (.slice typ t)) (hv : vals[k]? = some (.slice [] []))
    (r1 : unmarshal d dv n1 true (.slice typ t) (.slice [] []) = .ok (.slice a []))
    (r2 : unmarshal d dv n2 true (.slice typ t) (.slice [] []) = .ok (.slice b [])) :
    unmarshalNodes d dv [n1, n2] infos tys vals = .ok (vals.set k (.slice (a ++ b) [])) := by
  have hf : fullNameOf d.reg ⟨[], nm⟩ = nm := rfl
  have hkl : k < vals.length := (List.getElem?_eq_some_iff.1 hv).1
  rw [unmarshalNodes]
  simp only [h1, hf, if_neg hd, hs, Bool.false_eq_true, if_false, hk, ht, hv, r1]
  rw [unmarshalNodes]
  simp only [h2, hf, if_neg hd, hs, Bool.false_eq_true, if_false, hk, ht, List.getElem?_set_self hkl,
    repeated_array_joins d dv n2 true typ t a b r2]
  rw [unmarshalNodes, List.set_set]

/-- A field with the option `omit` is not written. -/
theorem omitted_lost (f : FieldInfo) (t : Ty) (v : Val) (h : f.omitted = true) : fieldWritten f t v = false := by
  simp [fieldWritten, h]

end Xmp.Props
