import Verif.Model.Native
import Verif.Props.Codec
import Verif.Props.AltString
import Verif.Props.Array
import Verif.Props.ListPaths

/-! C49: access to the fields of a model by tag name. -/

namespace Xmp.Props

open GoStr

/-! ### Specification -/

/-- The words that mean a truth value. -/
def boolWords : Bool → List Str
  | true => ["1", "t", "T", "true", "True", "TRUE"].map String.toList
  | false => ["0", "f", "F", "false", "False", "FALSE"].map String.toList

/-- Field names of a struct: each has a prefix or no colon (as the tags of file formats), and the names without prefix
differ. -/
structure TagNames (infos : List FieldInfo) : Prop where
  ok : ∀ f ∈ infos, FieldNameOk f.name ∧ (hasNsPrefix f.name = true ∨ ':' ∉ f.name)
  apart : (infos.map (fun f => stripPrefix f.name)).Nodup

/-- A tag name is the name of field `i`, with or without its prefix. -/
def NamesField (infos : List FieldInfo) (name : Str) (i : Nat) : Prop :=
  ∃ f, infos[i]? = some f ∧ (name = f.name ∨ name = stripPrefix f.name)

/-- Types that hold one text. -/
def OneText : Ty → Prop
  | .int _ | .uint _ | .bool | .str | .bytes | .text _ => True
  | _ => False

/-- The value that a text means for a type; types with a text form of their own may depend on the value they had. -/
def TagDenotes : Ty → Val → Str → Val → Prop
  | .int bits, _, s, w => ∃ i, w = .int i ∧ IntText s i ∧ -(2 ^ (bits - 1) : Int) ≤ i ∧ i < (2 ^ (bits - 1) : Int)
  | .uint bits, _, s, w => ∃ ds : List Nat, ds ≠ [] ∧ (∀ d ∈ ds, d < 10) ∧ s = ds.map digitChar ∧
      decVal ds < 2 ^ bits ∧ w = .int (decVal ds : Nat)
  | .bool, _, s, w => ∃ b, w = .bool b ∧ trimSpace s ∈ boolWords b
  | .str, _, s, w => w = .str (trimSpace s)
  | .bytes, _, s, w => w = .bytes s
  | .text c, old, s, w => ∃ n k, old = .opq n ∧ c.dec n s = some k ∧ w = .opq k
  | _, _, _, _ => False

/-- The usual text of a value. -/
def UsualText : Ty → Val → Str → Prop
  | .int _, .int i, s => s = itoa i
  | .uint _, .int i, s => s = itoa i
  | .bool, .bool b, s => s = if b then "true".toList else "false".toList
  | .str, .str w, s => s = w
  | .bytes, .bytes w, s => s = w
  | .text c, .opq k, s => c.enc k = some (some s)
  | _, _, _ => False

/-- Empty values are not shown, unless the field has the option `empty`. -/
def Hidden (f : FieldInfo) (t : Ty) (v : Val) : Prop := f.empty = false ∧ isEmptyValue t v = true

/-! ### Names -/

theorem stripPrefix_none {n : Str} (h : ':' ∉ n) : stripPrefix n = n := by
  unfold stripPrefix
  rw [indexChar_none.mpr h]

theorem names_find {infos : List FieldInfo} (hn : TagNames infos) {name : Str} {i : Nat} (h : NamesField infos name i) :
    findField infos name = some i := by
  obtain ⟨f, hf, rfl | rfl⟩ := h
  · have hm := hn.ok f (List.mem_of_getElem? hf)
    obtain hm2 | hm2 := hm.2
    swap
    · have := findField_apart hn.apart hf hm.1
      rwa [stripPrefix_none hm2] at this
    have h2 : infos.findIdx? (fieldMatches f.name) = some i := by
      rw [List.findIdx?_eq_some_iff_getElem]
      obtain ⟨hi, e⟩ := List.getElem?_eq_some_iff.mp hf
      refine ⟨hi, ?_, ?_⟩
      · unfold fieldMatches; rw [hm2, e]; simp
      · intro j hj
        unfold fieldMatches; rw [hm2]
        simp only [if_true, decide_eq_true_eq]
        intro h'
        have hjl : j < infos.length := by omega
        have := (List.Nodup.getElem_inj_iff hn.apart (i := i) (j := j) (hi := by simpa using hi) (hj := by simpa using hjl)).mp
          (by simp [e, h'])
        omega
    unfold findField; rw [h2]
  · exact findField_apart hn.apart hf (hn.ok f (List.mem_of_getElem? hf)).1

/-- A set-up shared by the theorems: a struct with good field names and a typed value, and a field of it. -/
structure Access (infos : List FieldInfo) (tys : List Ty) (vals : List Val) (name : Str) (i : Nat) (f : FieldInfo) (t : Ty)
    (v : Val) : Prop where
  names : TagNames infos
  typed : HasTys tys vals
  named : NamesField infos name i
  info : infos[i]? = some f
  ty : tys[i]? = some t
  val : vals[i]? = some v

namespace Access

variable {infos : List FieldInfo} {tys : List Ty} {vals : List Val} {name : Str} {i : Nat} {f : FieldInfo} {t : Ty} {v : Val}

theorem found (h : Access infos tys vals name i f t v) : findField infos name = some i := names_find h.names h.named

theorem hasTy (h : Access infos tys vals name i f t v) : HasTy t v := hasTys_get h.typed h.ty h.val

theorem lt (h : Access infos tys vals name i f t v) : i < vals.length := (List.getElem?_eq_some_iff.mp h.val).1

theorem get (h : Access infos tys vals name i f t v) (z) :
    getNative (.struct z infos tys) (.struct vals) name = nativeField f t v := by
  simp only [getNative, h.found, h.info, h.ty, h.val]

theorem getSet (h : Access infos tys vals name i f t v) (z) (w : Val) :
    getNative (.struct z infos tys) (.struct (vals.set i w)) name = nativeField f t w := by
  have : (vals.set i w)[i]? = some w := by simp [h.lt]
  simp only [getNative, h.found, h.info, h.ty, this]

theorem set (h : Access infos tys vals name i f t v) (z) (s : Str) :
    setNative (.struct z infos tys) (.struct vals) name s =
      match parseNative t.deref (derefVal t v).2 s with
      | some w => (.struct (vals.set i (rewrap t w)), true)
      | none => (.struct (vals.set i (rewrap t (derefVal t v).2)), false) := by
  simp only [setNative, h.found, h.ty, h.val, derefVal_fst h.hasTy]
  cases parseNative t.deref (derefVal t v).2 s <;> rfl

end Access

/-! ### Texts -/

theorem parseBool_iff (s : Str) (b : Bool) : parseBool s = some b ↔ s ∈ boolWords b := by
  have hbw : s ∈ boolWords b ↔ (b = true ∧ s ∈ boolWords true) ∨ (b = false ∧ s ∈ boolWords false) := by
    cases b <;> simp only [true_and, false_and, or_false, false_or, reduceCtorEq]
  rw [hbw]
  have hd : ∀ x ∈ boolWords true, x ∉ boolWords false := by decide +kernel
  have ht : s ∈ (["1", "t", "T", "TRUE", "true", "True"].map String.toList) ↔ s ∈ boolWords true :=
    List.Perm.mem_iff (by decide +kernel)
  have hf : s ∈ (["0", "f", "F", "FALSE", "false", "False"].map String.toList) ↔ s ∈ boolWords false :=
    List.Perm.mem_iff (by decide +kernel)
  generalize boolWords true = A at *
  generalize boolWords false = B at *
  unfold parseBool
  simp only [ht, hf]
  by_cases h1 : s ∈ A
  · have h2 := hd s h1
    cases b <;> simp [h1, h2]
  · by_cases h2 : s ∈ B <;> cases b <;> simp [h1, h2]

theorem parseUint_iff (bits : Nat) (s : Str) (n : Nat) : parseUint bits s = some n ↔
    ∃ ds : List Nat, ds ≠ [] ∧ (∀ d ∈ ds, d < 10) ∧ s = ds.map digitChar ∧ decVal ds < 2 ^ bits ∧ n = decVal ds := by
  unfold parseUint
  cases h : parseNat s with
  | none =>
    constructor
    · intro h'; cases h'
    · rintro ⟨ds, h1, h2, h3, -, -⟩
      have := (parseNat_iff s (decVal ds)).mpr ⟨ds, h1, h2, h3, rfl⟩
      rw [h] at this; cases this
  | some m =>
    obtain ⟨ds, h1, h2, h3, h4⟩ := (parseNat_iff s m).mp h
    constructor
    · intro h'
      dsimp only at h'
      split at h'
      · cases h'; exact ⟨ds, h1, h2, h3, by omega, h4⟩
      · cases h'
    · rintro ⟨es, e1, e2, e3, e4, rfl⟩
      have := (parseNat_iff s (decVal es)).mpr ⟨es, e1, e2, e3, rfl⟩
      rw [h] at this; cases this
      simp [e4]

theorem parseNative_iff {t : Ty} (ht : OneText t) {old : Val} (ho : HasTy t old) (s : Str) (w : Val) :
    parseNative t old s = some w ↔ TagDenotes t old s w := by
  cases t <;> simp only [OneText] at ht
  case int bits =>
    simp only [parseNative, parseLeaf, setValue, TagDenotes, Option.map_eq_some_iff, parseInt_iff]
    constructor
    · rintro ⟨i, h, rfl⟩; exact ⟨i, rfl, h⟩
    · rintro ⟨i, rfl, h⟩; exact ⟨i, h, rfl⟩
  case uint bits =>
    simp only [parseNative, parseLeaf, setValue, TagDenotes, Option.map_eq_some_iff, parseUint_iff]
    constructor
    · rintro ⟨n, ⟨ds, h1, h2, h3, h4, rfl⟩, rfl⟩; exact ⟨ds, h1, h2, h3, h4, rfl⟩
    · rintro ⟨ds, h1, h2, h3, h4, rfl⟩; exact ⟨_, ⟨ds, h1, h2, h3, h4, rfl⟩, rfl⟩
  case bool =>
    simp only [parseNative, parseLeaf, setValue, TagDenotes, Option.map_eq_some_iff, parseBool_iff]
    constructor
    · rintro ⟨b, h, rfl⟩; exact ⟨b, rfl, h⟩
    · rintro ⟨b, rfl, h⟩; exact ⟨b, h, rfl⟩
  case str => simp only [parseNative, parseLeaf, setValue, TagDenotes, Option.some.injEq]; exact eq_comm
  case bytes => simp only [parseNative, parseLeaf, setValue, TagDenotes, Option.some.injEq]; exact eq_comm
  case text c =>
    cases old <;> simp only [HasTy] at ho
    case opq n =>
      simp only [parseNative, parseLeaf, TagDenotes, Option.map_eq_some_iff]
      constructor
      · rintro ⟨k, h, rfl⟩; exact ⟨n, k, rfl, h, rfl⟩
      · rintro ⟨m, k, h0, h, rfl⟩; cases h0; exact ⟨k, h, rfl⟩

theorem nativeText_usual {t : Ty} {w : Val} {s : Str} (h : UsualText t w s) : nativeText t w = some (some s) := by
  cases t <;> cases w <;> simp only [UsualText] at h <;>
    simp [nativeText, leafText, marshalSimple, h]

/-! ### Theorems -/

section
variable {infos : List FieldInfo} {tys : List Ty} {vals : List Val} {name : Str} {i : Nat} {f : FieldInfo} {t : Ty} {v : Val}

/-- C49: setting a tag that holds one text succeeds exactly if the text means a value of the type; then the field has this
value and all other fields keep theirs. -/
theorem tag_set (h : Access infos tys vals name i f t v) (z) (ht : OneText t.deref) (s : Str) :
    ((setNative (.struct z infos tys) (.struct vals) name s).2 = true ↔ ∃ w, TagDenotes t.deref (derefVal t v).2 s w) ∧
    ∀ w, TagDenotes t.deref (derefVal t v).2 s w →
      setNative (.struct z infos tys) (.struct vals) name s = (.struct (vals.set i (rewrap t w)), true) := by
  have hd := parseNative_iff ht (hasTy_deref h.hasTy) s
  rw [h.set]
  constructor
  · constructor
    · intro h'
      cases hp : parseNative t.deref (derefVal t v).2 s with
      | none => rw [hp] at h'; cases h'
      | some w => exact ⟨w, (hd w).mp hp⟩
    · rintro ⟨w, hw⟩; rw [(hd w).mpr hw]
  · intro w hw; rw [(hd w).mpr hw]

/-- C49: a text that means no value is refused, and changes nothing if the field is no nil pointer. -/
theorem tag_refused (h : Access infos tys vals name i f t v) (z) (ht : OneText t.deref) (s : Str)
    (hs : ¬ ∃ w, TagDenotes t.deref (derefVal t v).2 s w) (hv : v ≠ .nil) :
    setNative (.struct z infos tys) (.struct vals) name s = (.struct vals, false) := by
  have hd := parseNative_iff ht (hasTy_deref h.hasTy) s
  rw [h.set]
  cases hp : parseNative t.deref (derefVal t v).2 s with
  | some w => exact absurd ⟨w, (hd w).mp hp⟩ hs
  | none =>
    have hr : rewrap t (derefVal t v).2 = v := by
      have := h.hasTy
      cases t <;> cases v <;> first | rfl | exact absurd rfl hv | simp [HasTy] at this
    have : vals.set i v = vals := by
      apply List.ext_getElem?
      intro j
      rw [List.getElem?_set]
      split
      · next e => subst e; rw [h.val]; simp [h.lt]
      · rfl
    simp only [hr, this]

/-- C49, finding: refusing a text turns a nil pointer into a pointer to a zero value. -/
theorem tag_refused_allocates (h : Access infos tys vals name i f t .nil) (z) (ht : OneText t.deref) (s : Str)
    (hs : ¬ ∃ w, TagDenotes t.deref t.deref.zero s w) :
    setNative (.struct z infos tys) (.struct vals) name s = (.struct (vals.set i (.ptr t.deref.zero)), false) := by
  have htt := h.hasTy
  cases t <;> simp only [HasTy] at htt
  case ptr t =>
    have hd := parseNative_iff ht (hasTy_zero _) s
    rw [h.set]
    cases hp : parseNative (Ty.deref (.ptr t)) (derefVal (.ptr t) .nil).2 s with
    | some w => exact absurd ⟨w, (hd w).mp hp⟩ hs
    | none => rfl

/-- C49: the usual text of a value, set as a tag, reads back as the same text, unless the value is empty and the field does
not show empty values.  (A pointer to a byte slice is never read.) -/
theorem tag_set_get (h : Access infos tys vals name i f t v) (z) (ht : OneText t.deref) (hb : t ≠ .ptr .bytes) {s : Str}
    {w : Val} (hd : TagDenotes t.deref (derefVal t v).2 s w) (hu : UsualText t.deref w s)
    (hh : ¬ Hidden f t (rewrap t w)) :
    (setNative (.struct z infos tys) (.struct vals) name s).2 = true ∧
    getNative (.struct z infos tys) (setNative (.struct z infos tys) (.struct vals) name s).1 name = some s := by
  have h1 := (tag_set h z ht s).2 w hd
  rw [h1]
  refine ⟨rfl, ?_⟩
  rw [h.getSet]
  have hn : (rewrap t w).isNil = false := by
    cases t <;> cases w <;> first | rfl | (simp only [UsualText, Ty.deref] at hu)
  have hc : (!f.empty && isEmptyValue t (rewrap t w)) = false := by
    unfold Hidden at hh
    cases hf : f.empty <;> cases he : isEmptyValue t (rewrap t w) <;> simp_all
  have he : nativeField f t (rewrap t w) =
      (nativeText (derefVal t (rewrap t w)).1 (derefVal t (rewrap t w)).2).map (·.getD []) := by
    unfold nativeField
    rw [hn, hc]
    cases t with
    | ptr t' => cases t' <;> first | rfl | exact absurd rfl hb
    | _ => rfl
  rw [he, derefVal_rewrap]
  simp [nativeText_usual hu]

/-- C49: empty values of fields that do not show them read as no text. -/
theorem tag_hidden (h : Access infos tys vals name i f t v) (z) (hh : Hidden f t v) :
    getNative (.struct z infos tys) (.struct vals) name = some [] := by
  rw [h.get]
  unfold nativeField
  rw [hh.1, hh.2]
  simp

/-- C49: setting a tag leaves all other tags as they are. -/
theorem tag_frame (z) {name other : Str} {i j : Nat} (hn : TagNames infos) (hi : NamesField infos name i)
    (hj : NamesField infos other j) (hij : i ≠ j) (s : Str) :
    getNative (.struct z infos tys) (setNative (.struct z infos tys) (.struct vals) name s).1 other =
      getNative (.struct z infos tys) (.struct vals) other := by
  have h1 := names_find hn hi
  have h2 := names_find hn hj
  have key : ∀ w, getNative (.struct z infos tys) (.struct (vals.set i w)) other =
      getNative (.struct z infos tys) (.struct vals) other := by
    intro w
    simp only [getNative, h2, List.getElem?_set_ne hij]
  simp only [setNative, h1]
  split
  · split
    · exact key _
    · exact key _
  · rfl

/-- C49: a name that no field has is an error for all functions, and changes nothing, if no field takes all names. -/
theorem tag_unknown (z) {name : Str} (hn : ∀ f ∈ infos, name ≠ f.name ∧ name ≠ stripPrefix f.name ∧ f.any = false)
    (lang s : Str) :
    getNative (.struct z infos tys) (.struct vals) name = none ∧
    setNative (.struct z infos tys) (.struct vals) name s = (.struct vals, false) ∧
    getLocale (.struct z infos tys) (.struct vals) lang name = .err ∧
    setLocale (.struct z infos tys) (.struct vals) lang name s = (.struct vals, .err) := by
  have h1 : infos.findIdx? (fieldMatches name) = none := by
    rw [List.findIdx?_eq_none_iff]
    intro f hf
    unfold fieldMatches
    obtain ⟨h1, h2, -⟩ := hn f hf
    split
    · simpa using fun e => h1 e.symm
    · simpa using fun e => h2 e.symm
  have h2 : lastAny infos = none := by
    clear h1
    induction infos with
    | nil => rfl
    | cons f fs ih =>
      rw [lastAny, ih (fun g hg => hn g (List.mem_cons_of_mem _ hg)), (hn f (by simp)).2.2]
      rfl
  have h3 : findField infos name = none := by unfold findField; rw [h1]; exact h2
  simp [getNative, setNative, getLocale, setLocale, h3]

/-- C49, finding: setting a tag of a language alternative, or of an array without text form, succeeds and does nothing. -/
theorem tag_set_ignored (h : Access infos tys vals name i f t v) (z) (hv : v ≠ .nil)
    (ht : t.deref = .alt ∨ ∃ a e, t.deref = .slice a e ∧ e ≠ .str) (s : Str) :
    setNative (.struct z infos tys) (.struct vals) name s = (.struct vals, true) := by
  have hp : parseNative t.deref (derefVal t v).2 s = some (derefVal t v).2 := by
    rcases ht with e | ⟨a, e, e', hne⟩
    · rw [e]; cases (derefVal t v).2 <;> rfl
    · rw [e']; cases e <;> first | exact absurd rfl hne | (cases (derefVal t v).2 <;> rfl)
  have hr : rewrap t (derefVal t v).2 = v := by
    have := h.hasTy
    cases t <;> cases v <;> first | rfl | exact absurd rfl hv | simp [HasTy] at this
  have : vals.set i v = vals := by
    apply List.ext_getElem?
    intro j
    rw [List.getElem?_set]
    split
    · next e => subst e; rw [h.val]; simp [h.lt]
    · rfl
  rw [h.set, hp]
  simp only [hr, this]

/-! ### String arrays -/

theorem strsOf_strs {l : List Val} (h : ∀ x ∈ l, HasTy .str x) : (strsOf l).map .str = l := by
  unfold strsOf
  rw [List.map_map]
  conv => rhs; rw [← List.map_id l]
  apply List.map_congr_left
  intro x hx
  have := h x hx
  cases x <;> simp only [HasTy] at this
  rfl

theorem strsOf_map (l : List Str) : strsOf (l.map .str) = l := by
  unfold strsOf; rw [List.map_map]
  conv => rhs; rw [← List.map_id l]
  rfl

theorem dropCR_none {s : Str} (h : '\r' ∉ s) : StringList.dropCR s = s := by
  induction s with
  | nil => rfl
  | cons c s ih =>
    simp only [List.mem_cons, not_or] at h
    rw [StringList.dropCR]
    · rw [ih h.2]
    · rintro x rfl; exact absurd rfl h.1

theorem join_append {x y : List Str} (hx : x ≠ []) (hy : y ≠ []) :
    join ['\n'] (x ++ y) = join ['\n'] x ++ '\n' :: join ['\n'] y := by
  induction x with
  | nil => exact absurd rfl hx
  | cons a x ih =>
    by_cases h : x = []
    · subst h; rw [List.singleton_append, join_cons hy]; simp [join]
    · rw [List.cons_append, join_cons (by simp [hy]), ih h, join_cons h]; simp

/-- C49: a text set as a tag of a string array is cut at line breaks; its lines are added to the strings of the array. -/
theorem tag_strings_set (h : Access infos tys vals name i f t v) (z) {a : ArrayType} (ht : t.deref = .slice a .str)
    {l sp : List Val} (hv : (derefVal t v).2 = .slice l sp) {s : Str} (hs : '\r' ∉ s) :
    ∃ lines : List Str, lines ≠ [] ∧ (∀ x ∈ lines, '\n' ∉ x) ∧ join ['\n'] lines = s ∧
      setNative (.struct z infos tys) (.struct vals) name s =
        (.struct (vals.set i (rewrap t (.slice (l ++ lines.map .str) []))), true) := by
  refine ⟨split '\n' s, split_ne_nil _ _, split_no_sep_mem _ _, join_split _ _, ?_⟩
  have hl : ∀ x ∈ l, HasTy .str x := by
    have := hasTy_deref h.hasTy
    rw [ht, hv, HasTy] at this
    exact this.1
  rw [h.set, ht, hv]
  simp only [parseNative, StringList.unmarshalText, dropCR_none hs, List.map_append, strsOf_strs hl]

/-- C49: a text set as a tag of an empty string array reads back.  Finding: setting a tag of an array that has strings adds
to them instead of replacing them; after setting the same text twice, the tag reads as the text twice. -/
theorem tag_strings_get (h : Access infos tys vals name i f t v) (z) {a : ArrayType} (ht : t.deref = .slice a .str)
    {l sp : List Val} (hv : (derefVal t v).2 = .slice l sp) {s : Str} (hs : '\r' ∉ s) :
    getNative (.struct z infos tys) (setNative (.struct z infos tys) (.struct vals) name s).1 name =
      some (if l = [] then s else join ['\n'] (strsOf l) ++ '\n' :: s) ∧
    (l ≠ [] → getNative (.struct z infos tys) (.struct vals) name = some (join ['\n'] (strsOf l))) := by
  have shown : ∀ (w : Val) (k : List Val) (sp' : List Val), k ≠ [] → w.isNil = false → (derefVal t w).1 = .slice a .str →
      (derefVal t w).2 = .slice k sp' → isEmptyValue t w = false → nativeField f t w = some (join ['\n'] (strsOf k)) := by
    intro w k sp' hk hn h1 h2 he
    have : nativeField f t w = (nativeText (derefVal t w).1 (derefVal t w).2).map (·.getD []) := by
      unfold nativeField
      rw [hn, he]
      cases t with
      | ptr t' => simp only [Ty.deref] at ht; subst ht; simp
      | _ => simp
    rw [this, h1, h2]
    have hk' : (strsOf k).length ≠ 0 := by unfold strsOf; simpa using hk
    simp only [nativeText, StringList.marshalText, if_neg hk', Option.map_some, Option.getD_some]
  have hne : ∀ w k sp', k ≠ [] → HasTy t w → w.isNil = false → (derefVal t w).2 = .slice k sp' → isEmptyValue t w = false := by
    intro w k sp' hk hw hn hd
    cases t with
    | ptr t' =>
      simp only [Ty.deref] at ht
      subst ht
      cases w <;> first | rfl | simp [Val.isNil] at hn
    | slice a' e =>
      simp only [Ty.deref] at ht
      cases w <;> first | (simp [HasTy] at hw; done) | skip
      simp only [derefVal, Val.slice.injEq] at hd
      simp [isEmptyValue, hd.1, hk]
    | _ => simp [Ty.deref] at ht
  constructor
  · obtain ⟨lines, h1, h2, h3, h4⟩ := tag_strings_set h z ht hv hs
    rw [h4, h.getSet]
    have hne' : l ++ lines.map .str ≠ [] := by simp [h1]
    have hl : HasTy t.deref (Val.slice (l ++ lines.map .str) []) := by
      have := hasTy_deref h.hasTy
      rw [ht, hv, HasTy] at this
      rw [ht, HasTy]
      refine ⟨?_, by simp⟩
      intro x hx
      rcases List.mem_append.mp hx with hx | hx
      · exact this.1 x hx
      · obtain ⟨y, -, rfl⟩ := List.mem_map.mp hx; simp [HasTy]
    have hn : (rewrap t (Val.slice (l ++ lines.map .str) [])).isNil = false := by cases t <;> rfl
    have hd := derefVal_rewrap t (Val.slice (l ++ lines.map .str) [])
    rw [shown _ _ [] hne' hn (by rw [hd, ht]) (by rw [hd]) (hne _ _ [] hne' (hasTy_rewrap hl) hn (by rw [hd]))]
    have : strsOf (l ++ lines.map .str) = strsOf l ++ lines := by
      have := strsOf_map lines
      unfold strsOf at this ⊢
      rw [List.map_append, this]
    rw [this]
    by_cases hl : l = []
    · subst hl; simp [strsOf, h3]
    · rw [if_neg hl, join_append (by unfold strsOf; simpa using hl) h1, h3]
  · intro hl
    rw [h.get]
    have hn : v.isNil = false := by
      cases v <;> first | rfl | skip
      cases t <;> simp only [Ty.deref] at ht <;> first | (cases ht; done) | skip
      case ptr => subst ht; simp [derefVal, Ty.zero] at hv; exact absurd hv.1 hl
      case slice => have := h.hasTy; simp [HasTy] at this
    exact shown v l sp hl hn (by rw [derefVal_fst h.hasTy, ht]) hv (hne v l sp hl h.hasTy hn hv)

/-! ### Language alternatives -/

/-- C49: a text set for a language reads back for this language; the other languages keep their texts, and so do all other
fields. -/
theorem locale_set_get (h : Access infos tys vals name i f .alt (.alt a)) (z) (ha : OneDefault a) {lang s : Str}
    (hl : lang ≠ []) (hs : s ≠ []) :
    (setLocale (.struct z infos tys) (.struct vals) lang name s).2 = .ok ∧
    getLocale (.struct z infos tys) (setLocale (.struct z infos tys) (.struct vals) lang name s).1 lang name = .ok s ∧
    (∀ l, l ≠ lang → l ≠ [] →
      getLocale (.struct z infos tys) (setLocale (.struct z infos tys) (.struct vals) lang name s).1 l name =
      getLocale (.struct z infos tys) (.struct vals) l name) ∧
    ∀ other j, NamesField infos other j → j ≠ i → ∀ l,
      getLocale (.struct z infos tys) (setLocale (.struct z infos tys) (.struct vals) lang name s).1 l other =
        getLocale (.struct z infos tys) (.struct vals) l other ∧
      getNative (.struct z infos tys) (setLocale (.struct z infos tys) (.struct vals) lang name s).1 other =
        getNative (.struct z infos tys) (.struct vals) other := by
  obtain ⟨b, h1, h2, h3, -⟩ := alt_get_set a ha lang s hl hs
  have he : setLocale (.struct z infos tys) (.struct vals) lang name s = (.struct (vals.set i (.alt b)), .ok) := by
    simp only [setLocale, h.found, h.ty, h.val, derefVal, h1, rewrap]
  have hi : (vals.set i (.alt b))[i]? = some (.alt b) := by simp [h.lt]
  rw [he]
  refine ⟨rfl, ?_, ?_, ?_⟩
  · simp only [getLocale, h.found, h.ty, hi, localeField, h2]
  · intro l hl1 hl2
    simp only [getLocale, h.found, h.ty, hi, h.val, localeField, h3 l hl1 hl2]
  · intro other j hj hji l
    have hf := names_find h.names hj
    constructor
    · simp only [getLocale, hf, List.getElem?_set_ne (Ne.symm hji)]
    · simp only [getNative, hf, List.getElem?_set_ne (Ne.symm hji)]

/-- C49: only language alternatives take texts by language; others are refused. -/
theorem locale_set_refused (h : Access infos tys vals name i f t v) (z) (ht : t.deref ≠ .alt) (hv : v ≠ .nil) (lang s : Str) :
    setLocale (.struct z infos tys) (.struct vals) lang name s = (.struct vals, .err) := by
  have hr : rewrap t (derefVal t v).2 = v := by
    have := h.hasTy
    cases t <;> cases v <;> first | rfl | exact absurd rfl hv | simp [HasTy] at this
  have hs : vals.set i v = vals := by
    apply List.ext_getElem?
    intro j
    rw [List.getElem?_set]
    split
    · next e => subst e; rw [h.val]; simp [h.lt]
    · rfl
  have hd := derefVal_fst h.hasTy
  simp only [setLocale, h.found, h.ty, h.val]
  generalize hx : derefVal t v = x at *
  obtain ⟨x1, x2⟩ := x
  dsimp only at hd hr
  subst hd
  split
  · next a e => exact absurd (congrArg Prod.fst e) ht
  · next w _ e => cases e; rw [hr, hs]

/-- C49, finding: asking for a text by language panics for all fields that are no array, no bytes and no pointer; for a
pointer to a language alternative it is an error, although texts can be set. -/
theorem locale_get_panics (h : Access infos tys vals name i f t v) (z) (lang : Str) :
    ((match t with | .alt | .slice _ _ | .bytes | .ptr _ => False | _ => True) →
      getLocale (.struct z infos tys) (.struct vals) lang name = .panic) ∧
    (t = .ptr .alt → getLocale (.struct z infos tys) (.struct vals) lang name = .err) := by
  constructor
  · intro ht
    have := h.hasTy
    simp only [getLocale, h.found, h.ty, h.val]
    cases t <;> simp only at ht <;> rfl
  · rintro rfl
    simp only [getLocale, h.found, h.ty, h.val]
    rfl

/-! ### Listing -/

/-- Types whose tags can be listed; types with a text form of their own have to give a text. -/
def Listable : Ty → Val → Prop
  | .int _, _ | .uint _, _ | .bool, _ | .str, _ | .alt, _ | .slice _ .str, _ => True
  | .text c, .opq n => c.enc n ≠ none
  | _, _ => False

/-- The tags of one field: the items of a language alternative, or the text of the field unless it is empty. -/
def FieldTags (f : FieldInfo) (t : Ty) (v : Val) (text : Option Str) (l : List Tag) : Prop :=
  (∀ a, t.deref = .alt → (derefVal t v).2 = .alt a → l = a.map (fun x => ⟨f.name, x.value, x.lang⟩)) ∧
  (t.deref ≠ .alt → ∃ s, text = some s ∧ l = if s = [] then [] else [⟨f.name, s, []⟩])

theorem textTag_getD (key : Str) (o : Option Str) :
    textTag key o = if o.getD [] = [] then [] else [⟨key, o.getD [], []⟩] := by
  cases o <;> simp [textTag]

theorem nativeField_skip {f : FieldInfo} {t : Ty} {v : Val}
    (h : v.isNil = true ∨ (!f.empty && isEmptyValue t v) = true) : nativeField f t v = some [] := by
  unfold nativeField
  rcases h with h | h
  · rw [if_pos h]
  · rw [if_pos h]; split <;> rfl

theorem nativeField_text {f : FieldInfo} {t : Ty} {v : Val} (hv : HasTy t v) (hb : t.deref ≠ .bytes) (hn : ¬ v.isNil = true)
    (he : ¬ (!f.empty && isEmptyValue t v) = true) :
    nativeField f t v = (nativeText t.deref (derefVal t v).2).map (·.getD []) := by
  unfold nativeField
  rw [if_neg hn, if_neg he, derefVal_fst hv]
  cases t with
  | ptr t' => cases t' <;> first | rfl | exact absurd rfl hb
  | _ => rfl

theorem listField_spec {f : FieldInfo} {t : Ty} {v : Val} (hv : HasTy t v) {l : List Tag}
    (h : listNativeField f t v = .ok l) : FieldTags f t v (nativeField f t v) l := by
  unfold listNativeField at h
  by_cases hn : v.isNil = true
  · rw [nativeField_skip (.inl hn)]
    simp only [hn, if_true, Res.ok.injEq] at h
    subst h
    constructor
    · intro a ht ha
      cases v <;> simp only [Val.isNil, Bool.false_eq_true] at hn
      cases t <;> simp only [HasTy] at hv
      simp only [Ty.deref] at ht
      subst ht
      simp only [derefVal, Ty.zero, Val.alt.injEq] at ha
      subst ha; rfl
    · intro _; exact ⟨[], rfl, by simp⟩
  · simp only [hn, Bool.false_eq_true, if_false] at h
    by_cases he : (!f.empty && isEmptyValue t v) = true
    · rw [nativeField_skip (.inr he)]
      simp only [he, if_true, Res.ok.injEq] at h
      subst h
      constructor
      · intro a ht ha
        simp only [Bool.and_eq_true] at he
        have he := he.2
        cases t <;> simp only [Ty.deref] at ht <;> first | (cases ht; done) | skip
        case alt =>
          cases v <;> simp only [HasTy] at hv
          simp only [derefVal, Val.alt.injEq] at ha
          subst ha
          simp only [isEmptyValue, List.isEmpty_iff] at he
          subst he; rfl
        case ptr t' =>
          subst ht
          cases v <;> simp only [HasTy] at hv
          case nil => exact absurd rfl hn
          case ptr w =>
            simp only [derefVal] at ha
            subst ha
            simp only [isEmptyValue, Ty.hasIsZero, Bool.true_and, List.isEmpty_iff] at he
            subst he; rfl
      · intro _; exact ⟨[], rfl, by simp⟩
    · simp only [he, Bool.false_eq_true, if_false] at h
      have hd := hasTy_deref hv
      rw [derefVal_fst hv] at h
      have htext : t.deref ≠ .bytes → _ := fun hb => nativeField_text hv hb hn he
      generalize hw : (derefVal t v).2 = w at *
      constructor
      · intro a ht ha
        rw [hw] at ha
        subst ha
        rw [ht] at h
        simp only [listNativeDeref, Res.ok.injEq] at h
        exact h.symm
      · intro hta
        have hb : t.deref ≠ .bytes := by
          intro e; rw [e] at h; simp [listNativeDeref] at h
        rw [htext hb]
        clear htext
        generalize hu : t.deref = u at *
        cases u <;> cases w <;> simp only [HasTy] at hd <;>
          first
          | exact absurd rfl hta
          | exact absurd rfl hb
          | skip
        case text.opq c n =>
          simp only [listNativeDeref, nativeText, leafText] at h ⊢
          cases hc : c.enc n with
          | none => rw [hc] at h; cases h
          | some o =>
            rw [hc] at h
            simp only [Res.ok.injEq] at h
            exact ⟨o.getD [], rfl, by rw [← h]; exact textTag_getD _ _⟩
        case slice.slice a e k sp =>
          cases e <;> simp only [listNativeDeref] at h <;> first | (cases h; done) | skip
          simp only [Res.ok.injEq] at h
          exact ⟨_, rfl, by rw [← h]; exact textTag_getD _ _⟩
        all_goals first
          | (simp only [listNativeDeref, marshalSimple, Res.ok.injEq] at h
             exact ⟨_, rfl, by rw [← h]; exact textTag_getD _ _⟩)
          | (simp [listNativeDeref, marshalSimple] at h; done)

theorem fieldTags_key {f : FieldInfo} {t : Ty} {v : Val} {o : Option Str} {l : List Tag} (hv : HasTy t v)
    (h : FieldTags f t v o l) : ∀ g ∈ l, g.key = f.name := by
  by_cases ht : t.deref = .alt
  · have hd := hasTy_deref hv
    rw [ht] at hd
    generalize hw : (derefVal t v).2 = w at *
    cases w <;> simp only [HasTy] at hd
    rw [h.1 _ ht hw]
    simp
  · obtain ⟨s, -, rfl⟩ := h.2 ht
    split <;> simp

theorem list_fields : ∀ {infos : List FieldInfo} {tys : List Ty} {vals : List Val} {l : List Tag}, HasTys tys vals →
    infos.length = tys.length → (infos.map (·.name)).Nodup → listNativeFields infos tys vals = .ok l →
    l = infos.flatMap (fun f => l.filter (fun g => g.key = f.name)) ∧
    ∀ (i : Nat) f t v, infos[i]? = some f → tys[i]? = some t → vals[i]? = some v →
      FieldTags f t v (nativeField f t v) (l.filter (fun g => g.key = f.name)) := by
  intro infos
  induction infos with
  | nil =>
    intro tys vals l ht hlen _ h
    simp only [listNativeFields, Res.ok.injEq] at h
    subst h
    simp
  | cons f fs ih =>
    intro tys vals l ht hlen hnd h
    cases tys with
    | nil => simp at hlen
    | cons t ts =>
      cases vals with
      | nil => simp [HasTys] at ht
      | cons v vs =>
        rw [HasTys] at ht
        rw [listNativeFields] at h
        cases h1 : listNativeField f t v with
        | err => rw [h1] at h; cases h
        | panic => rw [h1] at h; cases h
        | ok l1 =>
          rw [h1] at h
          cases h2 : listNativeFields fs ts vs with
          | err => rw [h2] at h; cases h
          | panic => rw [h2] at h; cases h
          | ok l2 =>
            rw [h2] at h
            simp only [Res.ok.injEq] at h
            subst h
            simp only [List.map_cons, List.nodup_cons] at hnd
            obtain ⟨ih1, ih2⟩ := ih ht.2 (by simpa using hlen) hnd.2 h2
            have hs := listField_spec ht.1 h1
            have hk := fieldTags_key ht.1 hs
            have hk2 : ∀ g ∈ l2, ∃ f' ∈ fs, g.key = f'.name := by
              intro g hg
              rw [ih1, List.mem_flatMap] at hg
              obtain ⟨f', hf', hg⟩ := hg
              exact ⟨f', hf', by simpa using (List.mem_filter.mp hg).2⟩
            have e1 : (l1 ++ l2).filter (fun g => g.key = f.name) = l1 := by
              rw [List.filter_append]
              have a1 : l1.filter (fun g => g.key = f.name) = l1 :=
                List.filter_eq_self.mpr (fun g hg => by simp [hk g hg])
              have a2 : l2.filter (fun g => g.key = f.name) = [] := by
                rw [List.filter_eq_nil_iff]
                intro g hg
                obtain ⟨f', hf', e⟩ := hk2 g hg
                simp only [decide_eq_true_eq]
                intro e'
                exact hnd.1 (List.mem_map.mpr ⟨f', hf', by rw [← e, e']⟩)
              rw [a1, a2, List.append_nil]
            have e2 : ∀ f' ∈ fs, (l1 ++ l2).filter (fun g => g.key = f'.name) = l2.filter (fun g => g.key = f'.name) := by
              intro f' hf'
              rw [List.filter_append]
              have : l1.filter (fun g => g.key = f'.name) = [] := by
                rw [List.filter_eq_nil_iff]
                intro g hg
                simp only [decide_eq_true_eq]
                intro e'
                exact hnd.1 (List.mem_map.mpr ⟨f', hf', by rw [← e', hk g hg]⟩)
              rw [this, List.nil_append]
            constructor
            · rw [List.flatMap_cons, e1]
              congr 1
              conv => lhs; rw [ih1]
              simp only [List.flatMap_def]
              congr 1
              exact (List.map_congr_left e2).symm
            · intro i f' t' v' hf ht' hv'
              cases i with
              | zero =>
                simp only [List.getElem?_cons_zero, Option.some.injEq] at hf ht' hv'
                subst hf ht' hv'
                rw [e1]; exact hs
              | succ i =>
                simp only [List.getElem?_cons_succ] at hf ht' hv'
                rw [e2 f' (List.mem_of_getElem? hf)]
                exact ih2 i f' t' v' hf ht' hv'

theorem tagNames_nodup {infos : List FieldInfo} (h : TagNames infos) : (infos.map (·.name)).Nodup := by
  have := h.apart
  have e : infos.map (fun f => stripPrefix f.name) = (infos.map (·.name)).map stripPrefix := by
    rw [List.map_map]; rfl
  rw [e] at this
  exact List.Nodup.of_map _ this

/-- C49: the listing has the tags of all fields, in the order of the fields and nothing else: the items of language
alternatives, and of each other field exactly the text that reading its tag gives, unless it is empty. -/
theorem tag_list (z) (hn : TagNames infos) (hlen : infos.length = tys.length) (ht : HasTys tys vals) {l : List Tag}
    (h : listNative (.struct z infos tys) (.struct vals) = .ok l) :
    l = infos.flatMap (fun f => l.filter (fun g => g.key = f.name)) ∧
    ∀ (i : Nat) f t v, infos[i]? = some f → tys[i]? = some t → vals[i]? = some v →
      FieldTags f t v (getNative (.struct z infos tys) (.struct vals) f.name) (l.filter (fun g => g.key = f.name)) := by
  obtain ⟨h1, h2⟩ := list_fields ht hlen (tagNames_nodup hn) h
  refine ⟨h1, fun i f t v hf hty hv => ?_⟩
  have ha : Access infos tys vals f.name i f t v := ⟨hn, ht, ⟨f, hf, .inl rfl⟩, hf, hty, hv⟩
  rw [ha.get]
  exact h2 i f t v hf hty hv

/-- C49: each listed tag of a language alternative with distinct languages reads back. -/
theorem tag_list_locale (z) (hn : TagNames infos) (hlen : infos.length = tys.length) (ht : HasTys tys vals) {l : List Tag}
    (h : listNative (.struct z infos tys) (.struct vals) = .ok l) {a : AltString} (hf : infos[i]? = some f)
    (hty : tys[i]? = some .alt) (hv : vals[i]? = some (.alt a)) (ha : (a.map (·.lang)).Nodup) {g : Tag} (hg : g ∈ l)
    (hk : g.key = f.name) (hl : g.lang ≠ []) :
    getLocale (.struct z infos tys) (.struct vals) g.lang g.key = .ok g.value := by
  have hs := (tag_list z hn hlen ht h).2 i f .alt (.alt a) hf hty hv
  have hm : g ∈ l.filter (fun g => g.key = f.name) := List.mem_filter.mpr ⟨hg, by simp [hk]⟩
  rw [hs.1 a rfl rfl, List.mem_map] at hm
  obtain ⟨x, hx, rfl⟩ := hm
  have hac : Access infos tys vals f.name i f .alt (.alt a) := ⟨hn, ht, ⟨f, hf, .inl rfl⟩, hf, hty, hv⟩
  simp only [getLocale, hac.found, hty, hv, localeField]
  congr 1
  unfold AltString.get
  rw [if_neg hl]
  have : a.find? (fun v => v.lang = x.lang) = some x := by
    clear hs hac hv hg hl hk
    induction a with
    | nil => simp at hx
    | cons y ys ih =>
      simp only [List.map_cons, List.nodup_cons] at ha
      rcases List.mem_cons.mp hx with rfl | hx
      · simp
      · rw [List.find?_cons_of_neg]
        · exact ih ha.2 hx
        · simp only [decide_eq_true_eq]
          intro e; exact ha.1 (List.mem_map.mpr ⟨x, hx, e.symm⟩)
  rw [this]

theorem listField_ok {f : FieldInfo} {t : Ty} {v : Val} (hv : HasTy t v)
    (h : v = .nil ∨ Hidden f t v ∨ Listable t.deref (derefVal t v).2) : ∃ l, listNativeField f t v = .ok l := by
  unfold listNativeField
  split
  · exact ⟨_, rfl⟩
  · next hnil =>
    split
    · exact ⟨_, rfl⟩
    · next hemp =>
      replace h : Listable t.deref (derefVal t v).2 := by
        rcases h with rfl | h | h
        · exact absurd rfl hnil
        · rw [h.1, h.2] at hemp; exact absurd rfl hemp
        · exact h
      clear hnil hemp
      have hd := hasTy_deref hv
      rw [derefVal_fst hv]
      generalize t.deref = u at *
      generalize (derefVal t v).2 = w at *
      cases u <;> cases w <;> simp only [HasTy] at hd <;> simp only [Listable] at h <;>
        first
        | exact ⟨_, rfl⟩
        | skip
      case text.opq c n =>
        cases hc : c.enc n with
        | none => exact absurd hc h
        | some o => exact ⟨textTag f.name o, by simp [listNativeDeref, hc]⟩
      case slice.slice a e k sp => cases e <;> first | exact ⟨_, rfl⟩ | (simp only [Listable] at h)

/-- C49: the listing succeeds if all fields that are not nil or hidden can be listed. -/
theorem tag_list_ok (z) (ht : HasTys tys vals)
    (h : ∀ (i : Nat) f t v, infos[i]? = some f → tys[i]? = some t → vals[i]? = some v →
      v = .nil ∨ Hidden f t v ∨ Listable t.deref (derefVal t v).2) :
    ∃ l, listNative (.struct z infos tys) (.struct vals) = .ok l := by
  simp only [listNative]
  induction infos generalizing tys vals with
  | nil => exact ⟨_, rfl⟩
  | cons f fs ih =>
    cases tys with
    | nil => exact ⟨_, rfl⟩
    | cons t ts =>
      cases vals with
      | nil => exact ⟨_, rfl⟩
      | cons v vs =>
        rw [HasTys] at ht
        obtain ⟨l1, h1⟩ := listField_ok (f := f) ht.1 (h 0 f t v rfl rfl rfl)
        obtain ⟨l2, h2⟩ := ih ht.2 (fun i f' t' v' a b c => h (i + 1) f' t' v' (by simpa using a) (by simpa using b) (by simpa using c))
        exact ⟨l1 ++ l2, by rw [listNativeFields, h1, h2]⟩

/-- C49, finding: the listing panics at the first field that can not be listed if it holds bytes or is an array without text
form, unless it is nil or hidden. -/
theorem tag_list_panics (z) (hlen : infos.length = tys.length) (ht : HasTys tys vals) (hf : infos[i]? = some f)
    (hty : tys[i]? = some t) (hv : vals[i]? = some v) (hb : t.deref = .bytes ∨ ∃ a e, t.deref = .slice a e ∧ e ≠ .str)
    (hn : v ≠ .nil) (hh : ¬ Hidden f t v)
    (h : ∀ (j : Nat) f t v, j < i → infos[j]? = some f → tys[j]? = some t → vals[j]? = some v →
      v = .nil ∨ Hidden f t v ∨ Listable t.deref (derefVal t v).2) :
    listNative (.struct z infos tys) (.struct vals) = .panic := by
  simp only [listNative]
  induction infos generalizing tys vals i with
  | nil => simp at hf
  | cons f' fs ih =>
    cases tys with
    | nil => simp at hty
    | cons t' ts =>
      cases vals with
      | nil => simp at hv
      | cons v' vs =>
        rw [HasTys] at ht
        cases i with
        | zero =>
          simp only [List.getElem?_cons_zero, Option.some.injEq] at hf hty hv
          subst hf hty hv
          have hn' : v'.isNil = false := by cases v' <;> first | rfl | exact absurd rfl hn
          have hc : (!f'.empty && isEmptyValue t' v') = false := by
            unfold Hidden at hh
            cases h1 : f'.empty <;> cases he : isEmptyValue t' v' <;> simp_all
          have : listNativeField f' t' v' = .panic := by
            unfold listNativeField
            rw [hn', hc, derefVal_fst ht.1]
            simp only [Bool.false_eq_true, if_false]
            rcases hb with e | ⟨a, e, e', hne⟩
            · rw [e]; rfl
            · rw [e']
              have hd := hasTy_deref ht.1
              rw [e'] at hd
              generalize (derefVal t' v').2 = w at *
              cases e <;> first | exact absurd rfl hne | (cases w <;> rfl)
          rw [listNativeFields, this]
        | succ i =>
          simp only [List.getElem?_cons_succ] at hf hty hv
          obtain ⟨l1, h1⟩ := listField_ok (f := f') ht.1 (h 0 f' t' v' (by omega) rfl rfl rfl)
          have h2 := ih (by simpa using hlen) ht.2 hf hty hv
            (fun j f'' t'' v'' hj a b c => h (j + 1) f'' t'' v'' (by omega) (by simpa using a) (by simpa using b) (by simpa using c))
          rw [listNativeFields, h1, h2]

/-- C49: a tag reads as the usual text of the field, behind a pointer too, if the field is not hidden. -/
theorem tag_get (h : Access infos tys vals name i f t v) (z) (hb : t ≠ .ptr .bytes) (hn : v ≠ .nil) (hh : ¬ Hidden f t v)
    {s : Str} (hu : UsualText t.deref (derefVal t v).2 s) :
    getNative (.struct z infos tys) (.struct vals) name = some s := by
  rw [h.get]
  have hn' : v.isNil = false := by cases v <;> first | rfl | exact absurd rfl hn
  have hc : (!f.empty && isEmptyValue t v) = false := by
    unfold Hidden at hh
    cases hf : f.empty <;> cases he : isEmptyValue t v <;> simp_all
  have he : nativeField f t v = (nativeText (derefVal t v).1 (derefVal t v).2).map (·.getD []) := by
    unfold nativeField
    rw [hn', hc]
    cases t with
    | ptr t' => cases t' <;> first | rfl | exact absurd rfl hb
    | _ => rfl
  rw [he, derefVal_fst h.hasTy]
  simp [nativeText_usual hu]

/-- C49, finding: a language alternative with items, or an array without text form with items, can not be read as a tag. -/
theorem tag_get_refused (h : Access infos tys vals name i f t v) (z) (hn : v ≠ .nil) (hh : ¬ Hidden f t v)
    (ht : t.deref = .alt ∨ ∃ a e, t.deref = .slice a e ∧ e ≠ .str) :
    getNative (.struct z infos tys) (.struct vals) name = none := by
  rw [h.get, nativeField_text h.hasTy]
  · have hd := hasTy_deref h.hasTy
    generalize (derefVal t v).2 = w at *
    rcases ht with e | ⟨a, e, e', hne⟩
    · rw [e] at hd ⊢; cases w <;> simp only [HasTy] at hd; rfl
    · rw [e'] at hd ⊢
      cases e <;> first | exact absurd rfl hne | (cases w <;> rfl)
  · rcases ht with e | ⟨a, e, e', -⟩
    · rw [e]; simp
    · rw [e']; simp
  · cases v <;> first | exact absurd rfl hn | simp [Val.isNil]
  · unfold Hidden at hh
    cases hf : f.empty <;> cases he : isEmptyValue t v <;> simp_all

end

/-! ### Examples -/

/-- The fields of an example. -/
def tagInfos : List FieldInfo :=
  [{ name := "dc:title".toList }, { name := "dc:format".toList, empty := true }, { name := "x:num".toList },
   { name := "dc:subject".toList }, { name := "x:count".toList }]

/-- Their types. -/
def tagTys : List Ty := [.alt, .str, .int 16, .slice .unordered .str, .ptr (.uint 8)]

/-- Their values. -/
def tagVals : List Val :=
  [.alt [⟨"Titel".toList, "de".toList, true⟩, ⟨"Title".toList, "en".toList, false⟩], .str "a/b".toList, .int 7,
   .slice [.str "k".toList] [], .nil]

/-- The struct type of the example. -/
abbrev tagTy : Ty := .struct none tagInfos tagTys

theorem tagNames_ex : TagNames tagInfos := by
  constructor
  · unfold FieldNameOk; decide +kernel
  · decide +kernel

theorem tagTyped_ex : HasTys tagTys tagVals := by
  simp [tagTys, tagVals, HasTys, HasTy]

theorem access_ex {name : Str} (i : Nat) {f : FieldInfo} {t : Ty} {v : Val} (hn : NamesField tagInfos name i)
    (hf : tagInfos[i]? = some f) (ht : tagTys[i]? = some t) (hv : tagVals[i]? = some v) :
    Access tagInfos tagTys tagVals name i f t v := ⟨tagNames_ex, tagTyped_ex, hn, hf, ht, hv⟩

example : (setNative tagTy (.struct tagVals) "num".toList "-12".toList).2 = true ∧
    getNative tagTy (setNative tagTy (.struct tagVals) "num".toList "-12".toList).1 "num".toList = some "-12".toList :=
  tag_set_get (w := .int (-12)) (access_ex 2 ⟨_, rfl, .inr rfl⟩ rfl rfl rfl) none trivial (by simp)
    ⟨-12, rfl, ⟨[1, 2], by decide, by decide, .inr (.inr ⟨rfl, rfl⟩)⟩, by decide, by decide⟩ rfl (by simp [Hidden, isEmptyValue, rewrap])

example : (setNative tagTy (.struct tagVals) "x:num".toList "12a".toList) = (.struct tagVals, false) := rfl
example : (setNative tagTy (.struct tagVals) "x:num".toList "40000".toList) = (.struct tagVals, false) := rfl
example : (setNative tagTy (.struct tagVals) "count".toList "x".toList) = (.struct (tagVals.set 4 (.ptr (.int 0))), false) := rfl
example : setNative tagTy (.struct tagVals) "title".toList "new".toList = (.struct tagVals, true) :=
  tag_set_ignored (access_ex 0 ⟨_, rfl, .inr rfl⟩ rfl rfl rfl) none (by simp) (.inl rfl) _
example : getNative tagTy (setNative tagTy (.struct tagVals) "subject".toList "k".toList).1 "subject".toList =
    some "k\nk".toList :=
  (tag_strings_get (access_ex 3 ⟨_, rfl, .inr rfl⟩ rfl rfl rfl) none rfl rfl (by decide)).1
example : getLocale tagTy (setLocale tagTy (.struct tagVals) "fr".toList "dc:title".toList "Titre".toList).1 "fr".toList
    "title".toList = .ok "Titre".toList := rfl
example : OneDefault [⟨"Titel".toList, "de".toList, true⟩, ⟨"Title".toList, "en".toList, false⟩] :=
  .inr ⟨_, _, rfl, rfl, by simp⟩
example : setLocale tagTy (.struct tagVals) "fr".toList "format".toList "x".toList = (.struct tagVals, .err) := rfl
example : getLocale tagTy (.struct tagVals) "fr".toList "format".toList = .panic :=
  (locale_get_panics (access_ex 1 ⟨_, rfl, .inr rfl⟩ rfl rfl rfl) none _).1 trivial
example : getNative tagTy (.struct (tagVals.set 2 (.int 0))) "num".toList = some [] := rfl
example : getNative tagTy (.struct tagVals) "nothing".toList = none := rfl
example : getNative tagTy (.struct tagVals) "title".toList = none :=
  tag_get_refused (access_ex 0 ⟨_, rfl, .inr rfl⟩ rfl rfl rfl) none (by simp) (by simp [Hidden, isEmptyValue]) (.inl rfl)
example : getNative tagTy (.struct tagVals) "dc:format".toList = some "a/b".toList :=
  tag_get (access_ex 1 ⟨_, rfl, .inl rfl⟩ rfl rfl rfl) none (by simp) (by simp) (by simp [Hidden, isEmptyValue]) rfl
example : listNative tagTy (.struct tagVals) = .ok
    [⟨"dc:title".toList, "Titel".toList, "de".toList⟩, ⟨"dc:title".toList, "Title".toList, "en".toList⟩,
     ⟨"dc:format".toList, "a/b".toList, []⟩, ⟨"x:num".toList, "7".toList, []⟩, ⟨"dc:subject".toList, "k".toList, []⟩] := rfl
example : listNative (.struct none [{ name := "x:n".toList }, { name := "x:data".toList }] [.int 8, .bytes])
    (.struct [.int 1, .bytes "ab".toList]) = .panic :=
  tag_list_panics (i := 1) none rfl (by simp [HasTys, HasTy]) rfl rfl rfl (.inl rfl) (by simp)
    (by simp [Hidden, isEmptyValue]) (by
      intro j f t v hj hf ht hv
      obtain rfl : j = 0 := by omega
      cases ht; exact .inr (.inr trivial))

end Xmp.Props
