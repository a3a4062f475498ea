import Verif.Model.Typed

/-! Model of the conversion of values to text for users of the library, `ToRawString` of xmp/marshal.go:664-725, and of
Go's `base64.StdEncoding`. -/

namespace Xmp.Base64

open GoStr

/-- The alphabet of `base64.StdEncoding` (Go package encoding/base64, `encodeStd`). -/
def alphabet : Str := "ABCDEFGHIJKLMNOPQRSTUVWXYZabcdefghijklmnopqrstuvwxyz0123456789+/".toList

/-- The character of a sextet. -/
def sextet (n : Nat) : Char := alphabet.getD n 'A'

/-- The sextet of a character (Go `decodeMap`); `none` for other characters. -/
def value (c : Char) : Option Nat := alphabet.idxOf? c

/-- Go `base64.StdEncoding.EncodeToString`. -/
def encode : Str → Str
  | [] => []
  | [a] => [sextet (a.toNat / 4), sextet (a.toNat % 4 * 16), '=', '=']
  | [a, b] => [sextet (a.toNat / 4), sextet (a.toNat % 4 * 16 + b.toNat / 16), sextet (b.toNat % 16 * 4), '=']
  | a :: b :: c :: rest =>
    sextet (a.toNat / 4) :: sextet (a.toNat % 4 * 16 + b.toNat / 16) :: sextet (b.toNat % 16 * 4 + c.toNat / 64)
      :: sextet (c.toNat % 64) :: encode rest

/-- The loop of Go `decodeQuantum` over a text without line ends; `none` is an error.  Bits that do not belong to a byte
are ignored (the encoding is not strict). -/
def decodeQuanta : Str → Option Str
  | [] => some []
  | a :: b :: c :: d :: rest =>
    match value a, value b with
    | some va, some vb =>
      if c = '=' then
        if d = '=' ∧ rest = [] then some [Char.ofNat (va * 4 + vb / 16)] else none
      else
        match value c with
        | none => none
        | some vc =>
          if d = '=' then
            if rest = [] then some [Char.ofNat (va * 4 + vb / 16), Char.ofNat (vb % 16 * 16 + vc / 4)] else none
          else
            match value d with
            | none => none
            | some vd =>
              (decodeQuanta rest).map (fun l =>
                Char.ofNat (va * 4 + vb / 16) :: Char.ofNat (vb % 16 * 16 + vc / 4) :: Char.ofNat (vc % 4 * 64 + vd) :: l)
    | _, _ => none
  | _ => none

/-- Go `base64.StdEncoding.DecodeString`: carriage returns and line feeds are skipped everywhere. -/
def decode (s : Str) : Option Str := decodeQuanta (s.filter (fun c => !(c = '\r' || c = '\n')))

/-- xmp/marshal.go:678-681 `isBase64`. -/
def isBase64 (s : Str) : Bool := (decode s).isSome

/-- The byte slices of xmp/marshal.go:697-722. -/
def rawBytes (b : Str) : Str := if !isBase64 b then encode b else b

/-- xmp/marshal.go:683-725 `ToRawString` on values of the kinds that the typed model knows (floating point numbers are
not modelled; an array of bytes is treated like a slice); `none` is an error. -/
def toRawString : Val → Option Str
  | .int i => some (itoa i)
  | .str s => some s
  | .bool b => some (if b then "true".toList else "false".toList)
  | .bytes b => some (rawBytes b)
  | _ => none

end Xmp.Base64
