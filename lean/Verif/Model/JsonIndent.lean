import Verif.Model.JsonText

/-! Model of Go's `json.Indent` (encoding/json/indent.go), which `json.MarshalIndent` in cmd/xmpinfo.go:162 applies to the text
of a document. -/

namespace Xmp.JsonText

open GoStr

/-- Go `newline` (encoding/json/indent.go). -/
def newline (pre ind : Str) (depth : Nat) : Str := '\n' :: (pre ++ (List.replicate depth ind).flatten)

/-- The loop of Go `Indent`, for texts of JSON: whether the position is in a text between quotes, whether it is after a
backslash there, `needIndent`, `depth` and the rest of the text.  Simplified: a text that is not JSON, for which Go reports an
error, is not recognised. -/
def indentFrom (pre ind : Str) : Bool → Bool → Bool → Nat → Str → Str
  | _, _, _, _, [] => []
  | true, true, need, d, c :: t => c :: indentFrom pre ind true false need d t
  | true, false, need, d, c :: t => c :: indentFrom pre ind (c ≠ '"') (c = '\\') need d t
  | false, _, need, d, c :: t =>
    if isSpace c then indentFrom pre ind false false need d t
    else if c = '}' ∨ c = ']' then
      if need then c :: indentFrom pre ind false false false d t
      else newline pre ind (d - 1) ++ c :: indentFrom pre ind false false false (d - 1) t
    else
      let d' := if need then d + 1 else d
      (if need then newline pre ind d' else []) ++ c ::
        (if c = '{' ∨ c = '[' then indentFrom pre ind false false true d' t
        else if c = ',' then newline pre ind d' ++ indentFrom pre ind false false false d' t
        else if c = ':' then ' ' :: indentFrom pre ind false false false d' t
        else indentFrom pre ind (c = '"') false false d' t)

/-- Go `json.Indent` with a prefix and an indentation. -/
def indent (pre ind : Str) (s : Str) : Str := indentFrom pre ind false false false 0 s

end Xmp.JsonText
