import Verif.Model.Typed
import Verif.Model.Translate
import Verif.Model.TypeInfo

/-! Model of writing typed models to XMP node trees and reading them back (xmp/marshal.go:276-624,
xmp/unmarshal.go:63-69, 219-326, 400-446, 521-533).

The types are those of `Model/Typed.lean`.  A type with `MarshalText`/`UnmarshalText` is written and read through
these methods, a slice type through `MarshalArray`/`UnmarshalArray`, language alternatives through the methods of
`AltString`.  Not covered: other `MarshalXMP`/`UnmarshalXMP` methods, `MarshalXMPAttr`, extension types, slices
without array methods, slices used as attributes that have text methods (these count as `Ty.text`), and embedded
structs (their fields count as fields of the outer struct). -/

namespace Xmp

open GoStr

/-- xmp/sdk.go:42 `rdfResourceAttr`. -/
def rdfResourceAttr : Attr := ⟨⟨[], "rdf:parseType".toList⟩, "Resource".toList⟩

/-- xmp/sdk.go:43 `rdfDescription`. -/
def rdfDescription : QName := ⟨[], "rdf:Description".toList⟩

/-- Is the value a nil pointer (xmp/marshal.go:398, 451)? -/
def Val.isNil : Val → Bool
  | .nil => true
  | _ => false

/-- The tests of xmp/marshal.go:383-407 and 437-460 that both field loops share.  The version of an encoder is
always zero (there is no setter), and a zero version is between all bounds (`xmp/semver.go:69-70`), so the version
test always passes. -/
def fieldWritten (f : FieldInfo) (t : Ty) (v : Val) : Bool :=
  !f.omitted && Version.zero.between f.minVersion f.maxVersion && !v.isNil && (f.empty || !isEmptyValue t v)

/-- The text of an attribute, xmp/marshal.go:549-588 of `marshalAttr`: `none` is an error, `some none` means that no
attribute is added.  A pointer to a type with `MarshalText` has this method as well. -/
def attrText : Ty → Val → Option (Option Str)
  | .ptr t, .ptr v => leafText t v
  | .ptr _, _ => some none
  | t, v => leafText t v

/-- xmp/marshal.go:519-589 `marshalAttr`. -/
def marshalAttr (f : FieldInfo) (t : Ty) (v : Val) (n : Node) : Option Node :=
  match attrText t v with
  | none => none
  | some none => some n
  | some (some s) => some (n.addAttr ⟨⟨[], f.name⟩, s⟩)

/-- The loop xmp/marshal.go:381-431 without wrapper nodes. -/
def marshalAttrs : List FieldInfo → List Ty → List Val → Node → Option Node
  | f :: fs, t :: ts, v :: vs, n =>
    if f.attr && fieldWritten f t v then
      match marshalAttr f t v n with
      | none => none
      | some n => marshalAttrs fs ts vs n
    else marshalAttrs fs ts vs n
  | _, _, _, n => some n

mutual
/-- xmp/marshal.go:280-495 `marshalValue` without wrapper nodes; `none` is an error.  The test for an empty value
(lines 292-295) repeats the one of the caller and is left out. -/
def marshalValue : Ty → Val → Node → Option Node
  | .ptr t, v, n =>
    match v with
    | .ptr v => marshalValue t v n
    | _ => some n
  | .text c, v, n =>
    match v with
    | .opq k =>
      match c.enc k with
      | none => none
      | some none => some n
      | some (some s) => some (n.setValue s)
    | _ => none
  | .alt, v, n =>
    match v with
    | .alt a => a.marshalXMP n
    | _ => none
  | .slice typ t, v, n =>
    match v with
    | .slice items _ => marshalArray (fun v n => marshalValue t v n) typ items n
    | _ => none
  | .struct _ infos tys, v, n =>
    match v with
    | .struct vals =>
      match marshalAttrs infos tys vals n with
      | none => none
      | some n =>
        match marshalFields tys infos vals n with
        | none => none
        | some (n, haveField) => some (if haveField && n.xmlName ≠ rdfDescription then n.addAttr rdfResourceAttr else n)
    | _ => none
  | .int _, v, n => (marshalSimple v).map n.setValue
  | .uint _, v, n => (marshalSimple v).map n.setValue
  | .bool, v, n => (marshalSimple v).map n.setValue
  | .str, v, n => (marshalSimple v).map n.setValue
  | .bytes, v, n => (marshalSimple v).map n.setValue
/-- The loop xmp/marshal.go:434-487 without wrapper nodes; the flag is `haveField`. -/
def marshalFields : List Ty → List FieldInfo → List Val → Node → Option (Node × Bool)
  | t :: ts, f :: fs, v :: vs, n =>
    if !f.attr && fieldWritten f t v then
      match marshalValue t v (Node.new ⟨[], f.name⟩) with
      | none => none
      | some x =>
        match marshalFields ts fs vs (n.addNode x) with
        | none => none
        | some (n, _) => some (n, true)
    else marshalFields ts fs vs n
  | _, _, _, n => some (n, false)
end

/-! ### Reading -/

/-- An error return. -/
def Res.ofOption {α : Type} : Option α → Res α
  | some a => .ok a
  | none => .err

/-- xmp/unmarshal.go:521-533 `skipField`. -/
def skipName (n : QName) : Bool :=
  n.space = "xmlns".toList ||
    n.loc = "rdf:parseType".toList || n.loc = "rdf:type".toList || n.loc = "xml:lang".toList

/-- The last element that meets a test (the variable `any` of xmp/unmarshal.go:408-420). -/
def lastIdx (p : FieldInfo → Bool) : List FieldInfo → Option Nat
  | [] => none
  | f :: fs =>
    match lastIdx p fs with
    | some i => some (i + 1)
    | none => if p f then some 0 else none

/-- xmp/unmarshal.go:400-446 `findStructField`: the first field of this name in the version of the decoder,
otherwise the last `any` field.  Pointers are allocated by the callers (`derefVal`). -/
def findStructField (dv : Version) (infos : List FieldInfo) (name : Str) : Option Nat :=
  match infos.findIdx? (fun f => dv.between f.minVersion f.maxVersion && f.name = name) with
  | some i => some i
  | none => lastIdx (fun f => dv.between f.minVersion f.maxVersion && f.any) infos

/-- The end of xmp/unmarshal.go:280-286 and of 312-318: an error is wrapped with the name of the field, which panics
without a field (`finfo` is nil). -/
def failField {α : Type} (hasInfo : Bool) : Res α := if hasInfo then .err else .panic

/-- xmp/unmarshal.go:291-326 `unmarshalAttr` on a value that is no pointer.  A language alternative is a slice of
`AltItem`, whose `UnmarshalText` is xmp/array.go:52-57. -/
def unmarshalAttrBase (hasInfo : Bool) : Ty → Val → Str → Res Val
  | .text c, v, s =>
    match v with
    | .opq k => Res.ofOption ((c.dec k s).map .opq)
    | _ => .err
  | .alt, v, s =>
    match v with
    | .alt a => .ok (.alt (a ++ [{ value := s, lang := [], isDefault := true }]))
    | _ => .err
  | .slice _ (.ptr t), v, s =>
    match v with
    | .slice l _ =>
      match unmarshalAttrBase false t t.zero s with
      | .ok x => .ok (.slice (l ++ [.ptr x]) [])
      | .err => failField hasInfo
      | .panic => .panic
    | _ => .err
  | .slice _ t, v, s =>
    match v with
    | .slice l _ =>
      match unmarshalAttrBase false t t.zero s with
      | .ok x => .ok (.slice (l ++ [x]) [])
      | .err => failField hasInfo
      | .panic => .panic
    | _ => .err
  | t, v, s => Res.ofOption (setValue t v s)

/-- xmp/unmarshal.go:291-326 `unmarshalAttr`. -/
def unmarshalAttr (t : Ty) (v : Val) (s : Str) : Res Val :=
  match unmarshalAttrBase true (derefVal t v).1 (derefVal t v).2 s with
  | .ok x => .ok (rewrap t x)
  | .err => .err
  | .panic => .panic

/-- The loop xmp/unmarshal.go:243-255. -/
def unmarshalAttrs (d : Dec) (dv : Version) (infos : List FieldInfo) (tys : List Ty) : List Attr → List Val → Res (List Val)
  | [], vals => .ok vals
  | a :: as, vals =>
    let name := d.translate a.name
    if skipName name then unmarshalAttrs d dv infos tys as vals
    else
      match findStructField dv infos name.loc with
      | none => .err
      | some i =>
        match tys[i]?, vals[i]? with
        | some t, some v =>
          match unmarshalAttr t v a.value with
          | .ok x => unmarshalAttrs d dv infos tys as (vals.set i x)
          | .err => .err
          | .panic => .panic
        | _, _ => .panic

/-- xmp/node.go:202-207 `FullName` of a name. -/
def fullNameOf (r : Registry) (n : QName) : Str := if n.space ≠ [] then r.short n.space n.loc else n.loc

/-- `AltString.unmarshalXMP` on the children of a node. -/
def unmarshalAltNodes (r : Registry) (nodes : List Node) (out : AltString) : Option AltString :=
  AltString.unmarshalXMP r (.mk ⟨[], []⟩ [] [] nodes) out

mutual
/-- xmp/unmarshal.go:219-289 `unmarshal`.  `hasInfo`: the argument `finfo` is not nil.  After an error the value may
be changed in part; this is not described. -/
def unmarshal (d : Dec) (dv : Version) : Node → Bool → Ty → Val → Res Val
  | .mk _ attrs value nodes, hasInfo, ty, v =>
    match derefVal ty v with
    | (.alt, .alt a) =>
      match unmarshalAltNodes d.reg nodes a with
      | some a => .ok (rewrap ty (.alt a))
      | none => .err
    | (.slice _ t, .slice l _) =>
      match unmarshalArr d dv nodes t l with
      | .ok l => .ok (rewrap ty (.slice l []))
      | .err => .err
      | .panic => .panic
    | (.text c, .opq k) =>
      match c.dec k value with
      | some k => .ok (rewrap ty (.opq k))
      | none => .err
    | (.struct _ infos tys, .struct vals) =>
      match unmarshalAttrs d dv infos tys attrs vals with
      | .ok vals =>
        match unmarshalNodes d dv nodes infos tys vals with
        | .ok vals => .ok (rewrap ty (.struct vals))
        | .err => .err
        | .panic => .panic
      | .err => .err
      | .panic => .panic
    | (t, v) =>
      match setValue t v value with
      | some x => .ok (rewrap ty x)
      | none => failField hasInfo
/-- The loop xmp/unmarshal.go:258-279. -/
def unmarshalNodes (d : Dec) (dv : Version) : List Node → List FieldInfo → List Ty → List Val → Res (List Val)
  | [], _, _, vals => .ok vals
  | n :: ns, infos, tys, vals =>
    let name := d.translate n.xmlName
    if fullNameOf d.reg name = "rdf:Description".toList then
      match unmarshalStruct d dv n infos tys vals with
      | .ok vals => unmarshalNodes d dv ns infos tys vals
      | .err => .err
      | .panic => .panic
    else if skipName name then unmarshalNodes d dv ns infos tys vals
    else
      match findStructField dv infos (fullNameOf d.reg name) with
      | none => .err
      | some i =>
        match tys[i]?, vals[i]? with
        | some t, some v =>
          match unmarshal d dv n true t v with
          | .ok x => unmarshalNodes d dv ns infos tys (vals.set i x)
          | .err => .err
          | .panic => .panic
        | _, _ => .panic
/-- xmp/unmarshal.go:263-266: an inner `rdf:Description` is read into the same struct. -/
def unmarshalStruct (d : Dec) (dv : Version) : Node → List FieldInfo → List Ty → List Val → Res (List Val)
  | .mk _ attrs _ nodes, infos, tys, vals =>
    match unmarshalAttrs d dv infos tys attrs vals with
    | .ok vals => unmarshalNodes d dv nodes infos tys vals
    | .err => .err
    | .panic => .panic
/-- xmp/array.go:602-665 `UnmarshalArray` into a slice, on the children of the node. -/
def unmarshalArr (d : Dec) (dv : Version) : List Node → Ty → List Val → Res (List Val)
  | [arr], t, out => unmarshalArr1 d dv arr t out
  | _, _, _ => .err
/-- xmp/array.go:613-620. -/
def unmarshalArr1 (d : Dec) (dv : Version) : Node → Ty → List Val → Res (List Val)
  | .mk name _ _ lis, t, out =>
    if stripPrefix name.loc ∈ ["Seq".toList, "Bag".toList, "Alt".toList] then unmarshalItems d dv lis t out else .err
/-- The loop xmp/array.go:622-661 for elements other than `AltItem`. -/
def unmarshalItems (d : Dec) (dv : Version) : List Node → Ty → List Val → Res (List Val)
  | [], _, out => .ok out
  | n :: ns, t, out =>
    if n.fullName d.reg ≠ "rdf:li".toList then .err
    else
      match unmarshal d dv n false t t.zero with
      | .ok x => unmarshalItems d dv ns t (out ++ [x])
      | .err => .err
      | .panic => .panic
end

/-- xmp/unmarshal.go:63-69 `DecodeElement` into a pointer to a value. -/
def decodeElement (d : Dec) (dv : Version) (n : Node) (t : Ty) (v : Val) : Res Val := unmarshal d dv n false t v

end Xmp
