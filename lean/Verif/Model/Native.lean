import Verif.Model.TypedXmp
import Verif.Model.ModelPath
import Verif.Model.Tags

/-! Model of the access to fields by tag name, xmp/native.go:65-350, which `GetTag`, `SetTag`, `CanTag`, `GetLocaleTag`,
`SetLocaleTag` and `ListTags` of all models use (e.g. models/dc/model.go:92-110, models/exif/model.go:378-415).

Simplifications: string arrays (`.slice _ .str`) are `StringList` or `StringArray`, which have a text form; other slices
have none; no field has `UnmarshalBinary`; the model struct itself has no `MarshalText`. -/

namespace Xmp

open GoStr

/-- The strings of a slice of strings. -/
def strsOf (l : List Val) : StringList := l.map (fun v => match v with | .str s => s | _ => [])

/-- `MarshalText` of the dereferenced field, otherwise `marshalSimple` (xmp/native.go:97-126); `none` is an error, `some none`
a nil byte slice. -/
def nativeText : Ty → Val → Option (Option Str)
  | .slice _ .str, .slice l _ => some (StringList.marshalText (strsOf l))
  | .slice _ _, _ => none
  | t, v => leafText t v

/-- xmp/native.go:77-127: the text of a field.  `marshalSimple` gets the type before dereferencing, so that a pointer to a
byte slice is an error. -/
def nativeField (fi : FieldInfo) (t : Ty) (v : Val) : Option Str :=
  if v.isNil then some []
  else if !fi.empty && isEmptyValue t v then some []
  else
    match t with
    | .ptr .bytes => none
    | _ => (nativeText (derefVal t v).1 (derefVal t v).2).map (·.getD [])

/-- xmp/native.go:65-127 `GetNativeField` on a struct value; `none` is an error. -/
def getNative : Ty → Val → Str → Option Str
  | .struct _ infos tys, .struct vals, name =>
    match findField infos name with
    | none => none
    | some i =>
      match infos[i]?, tys[i]?, vals[i]? with
      | some fi, some t, some v => nativeField fi t v
      | _, _, _ => none
  | _, _, _ => none

/-- xmp/native.go:150-173: `UnmarshalText`, otherwise `setValue`; `none` is an error.  Simplified: the capacity of a string
array after `append` is its length. -/
def parseNative : Ty → Val → Str → Option Val
  | .slice _ .str, .slice l _, s => some (.slice ((StringList.unmarshalText (strsOf l) s).map .str) [])
  | t, v, s => parseLeaf t v s

/-- xmp/native.go:129-174 `SetNativeField` on a struct value: the value after the call, and whether there was no error.  A nil
pointer is allocated first, and stays so if there is an error. -/
def setNative : Ty → Val → Str → Str → Val × Bool
  | .struct _ infos tys, .struct vals, name, value =>
    match findField infos name with
    | none => (.struct vals, false)
    | some i =>
      match tys[i]?, vals[i]? with
      | some t, some v =>
        match parseNative (derefVal t v).1 (derefVal t v).2 value with
        | some w => (.struct (vals.set i (rewrap t w)), true)
        | none => (.struct (vals.set i (rewrap t (derefVal t v).2)), false)
      | _, _ => (.struct vals, false)
  | _, v, _, _ => (v, false)

/-- xmp/native.go:176-211 `SetLocaleField`. -/
def setLocale : Ty → Val → Str → Str → Str → Val × SetRes
  | .struct _ infos tys, .struct vals, lang, name, value =>
    match findField infos name with
    | none => (.struct vals, .err)
    | some i =>
      match tys[i]?, vals[i]? with
      | some t, some v =>
        match derefVal t v with
        | (.alt, .alt a) =>
          match a.set lang value with
          | some b => (.struct (vals.set i (rewrap t (.alt b))), .ok)
          | none => (.struct (vals.set i (rewrap t (.alt a))), .panic)
        | (_, w) => (.struct (vals.set i (rewrap t w)), .err)
      | _, _ => (.struct vals, .err)
  | _, v, _, _, _ => (v, .err)

/-- xmp/native.go:227-236 on a field.  The test of line 227 joins with `&&`: for a field that is no slice it asks for the
element type, which panics unless the field is a pointer.  (Types with a text form are structs or numbers here; those that
are slices give an error.) -/
def localeField (lang : Str) : Ty → Val → Res Str
  | .alt, .alt a => .ok (a.get lang)
  | .slice _ _, _ => .err
  | .bytes, _ => .err
  | .ptr _, _ => .err
  | _, _ => .panic

/-- xmp/native.go:213-237 `GetLocaleField`. -/
def getLocale : Ty → Val → Str → Str → Res Str
  | .struct _ infos tys, .struct vals, lang, name =>
    match findField infos name with
    | none => .err
    | some i =>
      match tys[i]?, vals[i]? with
      | some t, some v => localeField lang t v
      | _, _ => .err
  | _, _, _, _ => .err

/-- A tag, unless its text is empty. -/
def textTag (key : Str) : Option Str → List Tag
  | none => []
  | some s => if s = [] then [] else [⟨key, s, []⟩]

/-- xmp/native.go:282-343: the tags of a dereferenced field.  `marshalSimple` gets the type of the struct (line 333): for
slices it asks for its element type, which panics. -/
def listNativeDeref (key : Str) : Ty → Val → Res (List Tag)
  | .text c, .opq n => match c.enc n with | none => .err | some o => .ok (textTag key o)
  | .slice _ .str, .slice l _ => .ok (textTag key (StringList.marshalText (strsOf l)))
  | .alt, .alt a => .ok (a.map (fun x => ⟨key, x.value, x.lang⟩))
  | .slice _ _, _ => .panic
  | .bytes, _ => .panic
  | _, v => match marshalSimple v with | none => .err | some s => .ok (textTag key (some s))

/-- xmp/native.go:257-343: the tags of a field. -/
def listNativeField (fi : FieldInfo) (t : Ty) (v : Val) : Res (List Tag) :=
  if v.isNil then .ok []
  else if !fi.empty && isEmptyValue t v then .ok []
  else listNativeDeref fi.name (derefVal t v).1 (derefVal t v).2

/-- xmp/native.go:256-347: the loop over the fields. -/
def listNativeFields : List FieldInfo → List Ty → List Val → Res (List Tag)
  | fi :: fis, t :: ts, v :: vs =>
    match listNativeField fi t v with
    | .ok l => match listNativeFields fis ts vs with | .ok l' => .ok (l ++ l') | r => r
    | r => r
  | _, _, _ => .ok []

/-- xmp/native.go:239-350 `ListNativeFields`. -/
def listNative : Ty → Val → Res (List Tag)
  | .struct _ infos tys, .struct vals => listNativeFields infos tys vals
  | _, _ => .err

end Xmp
