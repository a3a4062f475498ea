import Verif.Model.Node
import Verif.Model.AltString

/-! Model of XMP arrays (xmp/array.go): string lists and the generic array (un)marshalling. -/

namespace Xmp

open GoStr

/-- xmp/array.go:353 `StringList` and 443 `StringArray`, whose methods are the same except for the
array type.  A nil slice and an empty slice are both `[]`; the contents of the backing array beyond
the length are not modelled. -/
abbrev StringList := List Str

namespace StringList

/-- xmp/array.go:359-365 `Add` (463-469 for `StringArray`). -/
def add (x : StringList) (v : Str) : StringList := if v = [] then x else x ++ [v]

/-- xmp/array.go:377-387 `Index` (481-491); `none` is -1. -/
def index (x : StringList) (val : Str) : Option Nat :=
  if val = [] then none else x.findIdx? (fun v => v = val)

/-- xmp/array.go:389-391 `Contains` (493-495). -/
def contains (x : StringList) (v : Str) : Bool := (x.index v).isSome

/-- xmp/array.go:367-375 `AddUnique` (471-479). -/
def addUnique (x : StringList) (v : Str) : StringList :=
  if v = [] then x else if !x.contains v then x.add v else x

/-- xmp/array.go:393-400 `Remove` (497-504, and models/xmp_base/types.go:148-155): the second slice
expression is `(*x)[:idx+1]`, the elements *up to* the one found.  `append` copies with `memmove`, so
the overlap of source and destination does not matter. -/
def remove (x : StringList) (v : Str) : StringList :=
  if v = [] then x
  else match x.index v with
    | some idx => x.take idx ++ x.take (idx + 1)
    | none => x

/-- xmp/array.go:406-418 `NewStringList` (445-457). -/
def new (items : List Str) : StringList := items.filter (fun v => v ≠ [])

/-- `strings.Replace(s, "\r\n", "\n", -1)`. -/
def dropCR : Str → Str
  | '\r' :: '\n' :: s => '\n' :: dropCR s
  | c :: s => c :: dropCR s
  | [] => []

/-- xmp/array.go:428-432 `UnmarshalText` (518-522): appends to the receiver. -/
def unmarshalText (x : StringList) (data : Str) : StringList := x ++ split '\n' (dropCR data)

/-- xmp/array.go:434-439 `MarshalText` (524-529); `none` is the nil result. -/
def marshalText (x : StringList) : Option Str :=
  if x.length = 0 then none else some (join ['\n'] x)

end StringList

/-- xmp/array.go:335-341 `IntList.String`. -/
def IntList.toStr (x : List Int) : Str := join [' '] (x.map itoa)

/-- xmp/array.go:37-43 `ArrayType`. -/
inductive ArrayType where
  | ordered | unordered | alternative
deriving DecidableEq, Repr

/-- The text of an array type. -/
def ArrayType.toStr : ArrayType → Str
  | .ordered => "Seq".toList
  | .unordered => "Bag".toList
  | .alternative => "Alt".toList

/-- xmp/array.go:548, 570 `NewNode(xml.Name{Local: "rdf:li"})`. -/
def liNode : Node := Node.new ⟨[], "rdf:li".toList⟩

/-- The result of encoding one element: either an encoded `rdf:li` or an error. -/
abbrev ElemEnc (α : Type) := α → Node → Option Node

/-- The node changed by xmp/marshal.go:362-372 for a string: `EncodeElement` sets the value. -/
def encodeString : ElemEnc Str := fun s n => some (n.setValue s)

/-- xmp/unmarshal.go:508-509: `DecodeElement` into a string. -/
def decodeString : Node → Option Str := fun n => some (trimSpace n.value)

/-- xmp/array.go:531-600 `MarshalArray` for element types other than `AltItem`.  `enc` is what
`EncodeElement` does to the new `rdf:li` node; `none` is an error.  -/
def marshalArray {α : Type} (enc : ElemEnc α) (typ : ArrayType) (items : List α) (node : Node) :
    Option Node :=
  if items.length = 0 then some node
  else (items.mapM (fun v => enc v liNode)).map (fun lis =>
    node.addNode ((Node.new ⟨[], "rdf:".toList ++ typ.toStr⟩).setNodes lis))

/-- xmp/array.go:553-587, one `AltItem` written in an array of kind `rdf:Alt` with `len` elements. -/
def marshalAltItem (len : Nat) (ai : AltItem) : Option (List Node) :=
  let elem := liNode
  let first := (ai.isDefault || len == 1)
  let elem := if first then (elem.addStringAttr "xml:lang".toList "x-default".toList).setValue ai.value
    else elem
  if first && decide (ai.lang = []) then some [elem]
  else if ai.isDefault && decide (ai.lang ≠ []) then
    some [elem, (liNode.addStringAttr "xml:lang".toList ai.lang).setValue ai.value]
  else if ai.lang ≠ [] then
    some [(elem.addStringAttr "xml:lang".toList ai.lang).setValue ai.value]
  else none

/-- xmp/array.go:220-222, 531-600: `AltString.MarshalXMP`; `none` is an error. -/
def AltString.marshalXMP (a : AltString) (node : Node) : Option Node :=
  if a.length = 0 then some node
  else (a.mapM (marshalAltItem a.length)).map (fun lis =>
    node.addNode ((Node.new ⟨[], "rdf:Alt".toList⟩).setNodes lis.flatten))

/-- The checks of xmp/array.go:609-620: the children of the array node, `none` is an error. -/
def arrayItems (node : Node) : Option (List Node) :=
  match node.nodes with
  | [arr] =>
    if arr.name ∈ ["Seq".toList, "Bag".toList, "Alt".toList] then some arr.nodes else none
  | _ => none

/-- xmp/array.go:602-665 `UnmarshalArray` into a slice of an element type other than `AltItem`; `out`
are the elements already in the slice; `none` is an error. -/
def unmarshalArray {α : Type} (r : Registry) (dec : Node → Option α) (node : Node) (out : List α) :
    Option (List α) :=
  match arrayItems node with
  | none => none
  | some lis =>
    (lis.mapM (fun n => if n.fullName r ≠ "rdf:li".toList then none else dec n)).map (out ++ ·)

/-- xmp/array.go:602-665 `UnmarshalArray` into a fixed size array of type `[len]α` (650-655). -/
def unmarshalFixed {α : Type} (r : Registry) (dec : Node → Option α) (node : Node) (out : List α) :
    Option (List α) :=
  match arrayItems node with
  | none => none
  | some lis =>
    match lis.mapM (fun n => if n.fullName r ≠ "rdf:li".toList then none else dec n) with
    | none => none
    | some vs => if out.length < vs.length then none else some (vs ++ out.drop vs.length)

/-- One step of the loop xmp/array.go:633-641. -/
def altLang (i : AltItem) (v : Attr) : AltItem :=
  if v.value = "x-default".toList then { i with isDefault := true } else { i with lang := v.value }

/-- xmp/array.go:628-645: read one `AltItem` from an element of an `rdf:Alt` array. -/
def unmarshalAltItem (n : Node) : AltItem :=
  { (n.getAttr [] "lang".toList).foldl altLang { value := [] } with value := trimSpace n.value }

/-- xmp/array.go:224-250 `AltString.UnmarshalXMP`; `none` is an error. -/
def AltString.unmarshalXMP (r : Registry) (node : Node) (out : AltString) : Option AltString :=
  (unmarshalArray r (fun n => some (unmarshalAltItem n)) node out).map AltString.mergeDefault

end Xmp
