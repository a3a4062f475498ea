import Verif.Model.Utf8
import Verif.Model.JsonDoc

/-! Model of the texts that xmp/json.go:114 (`json.Marshal`) writes and xmp/json.go:236, 257 (`json.Unmarshal`) read, that
is, of Go's package encoding/json for the values that occur there (as of Go 1.17, the version named in go.mod). -/

namespace Xmp.JsonText

open GoStr Utf8

/-! ### Writing -/

/-- Go `hex[n]` (encoding/json/encode.go). -/
def hexDigit (n : Nat) : Char := "0123456789abcdef".toList.getD n '0'

/-- Go `encodeState.string` (encoding/json/encode.go) with `escapeHTML`: the text of one scalar value; `none` is a byte
that is not UTF-8. -/
def quoteRune : Option Nat → Str
  | none => "\\ufffd".toList
  | some r =>
    if r = 0x22 then "\\\"".toList
    else if r = 0x5C then "\\\\".toList
    else if r = 0x0A then "\\n".toList
    else if r = 0x0D then "\\r".toList
    else if r = 0x09 then "\\t".toList
    else if r < 0x20 ∨ r = 0x3C ∨ r = 0x3E ∨ r = 0x26 then "\\u00".toList ++ [hexDigit (r / 16), hexDigit (r % 16)]
    else if r = 0x2028 ∨ r = 0x2029 then "\\u202".toList ++ [hexDigit (r % 16)]
    else encode r

/-- A text between quotes, without the quote in front. -/
def quoteBody (s : Str) : Str := (runes s).flatMap quoteRune ++ ['"']

/-- A text between quotes. -/
def quote (s : Str) : Str := '"' :: quoteBody s

mutual
/-- Go `json.Marshal`.  Simplified: the entries of an object are written in the order in which they are listed (Go sorts the
keys of a map and writes the fields of a struct as declared); numbers do not occur in documents. -/
def print : Json → Str
  | .str s => quote s
  | .num s => s
  | .bool true => "true".toList
  | .bool false => "false".toList
  | .null => "null".toList
  | .arr l => '[' :: printItems l
  | .obj m => '{' :: printMembers m
/-- The items of an array and the closing bracket. -/
def printItems : List Json → Str
  | [] => [']']
  | j :: l => print j ++ printMore l
/-- Further items of an array and the closing bracket. -/
def printMore : List Json → Str
  | [] => [']']
  | j :: l => ',' :: (print j ++ printMore l)
/-- The entries of an object and the closing brace. -/
def printMembers : List (Str × Json) → Str
  | [] => ['}']
  | (k, j) :: m => quote k ++ ':' :: (print j ++ printRest m)
/-- Further entries of an object and the closing brace. -/
def printRest : List (Str × Json) → Str
  | [] => ['}']
  | (k, j) :: m => ',' :: (quote k ++ ':' :: (print j ++ printRest m))
end

/-- xmp/json.go:32-37 `jsonOutDocument`: the members that are written; `omitempty` leaves out empty texts. -/
def members (jd : JDoc) : List (Str × Json) :=
  (if jd.about = [] then [] else [("about".toList, .str jd.about)]) ++
  (if jd.toolkit = [] then [] else [("toolkit".toList, .str jd.toolkit)]) ++
  [("namespaces".toList, .obj (jd.namespaces.map (fun e => (e.1, .str e.2)))), ("models".toList, .obj jd.models)]

/-- xmp/json.go:114: the text of a document. -/
def printDoc (jd : JDoc) : Str := print (.obj (members jd))

/-! ### Reading -/

/-- White space (Go `isSpace` of encoding/json/scanner.go). -/
def isSpace (c : Char) : Bool := c = ' ' || c = '\t' || c = '\r' || c = '\n'

/-- Skip white space. -/
def skip (s : Str) : Str := s.dropWhile isSpace

/-- The value of a hexadecimal digit. -/
def hexVal (c : Char) : Option Nat :=
  if 48 ≤ c.toNat ∧ c.toNat ≤ 57 then some (c.toNat - 48)
  else if 97 ≤ c.toNat ∧ c.toNat ≤ 102 then some (c.toNat - 87)
  else if 65 ≤ c.toNat ∧ c.toNat ≤ 70 then some (c.toNat - 55)
  else none

/-- Go `getu4` (encoding/json/decode.go) without the `\u`; with the rest of the text. -/
def hex4 : Str → Option (Nat × Str)
  | a :: b :: c :: d :: t =>
    match hexVal a, hexVal b, hexVal c, hexVal d with
    | some a, some b, some c, some d => some (a * 4096 + b * 256 + c * 16 + d, t)
    | _, _, _, _ => none
  | _ => none

/-- U+FFFD, the replacement character (Go `unicode.ReplacementChar`). -/
def replacement : Nat := 0xFFFD

/-- The characters that may follow a backslash (Go `stateInStringEsc`, `unquoteBytes`), without `u`. -/
def unescape (c : Char) : Option Char :=
  if c = '"' then some '"' else if c = '\\' then some '\\' else if c = '/' then some '/'
  else if c = 'b' then some '\u0008' else if c = 'f' then some '\u000c' else if c = 'n' then some '\n'
  else if c = 'r' then some '\r' else if c = 't' then some '\t' else none

/-- Go `utf16.DecodeRune` for the second half of a pair that follows as `\u....`; with the rest of the text. -/
def lowHalf (hi : Nat) : Str → Option (Nat × Str)
  | '\\' :: 'u' :: t =>
    match hex4 t with
    | some (lo, t) =>
      if hi < 0xDC00 ∧ 0xDC00 ≤ lo ∧ lo < 0xE000 then some (0x10000 + (hi - 0xD800) * 1024 + (lo - 0xDC00), t) else none
    | none => none
  | _ => none

/-- Go `unquoteBytes` (encoding/json/decode.go) and `stateInString` (scanner.go): the text up to the closing quote and the
rest; `none` is an error.  The first argument bounds the number of steps. -/
def readStr : Nat → Str → Option (Str × Str)
  | 0, _ => none
  | _ + 1, [] => none
  | n + 1, c :: t =>
    if c = '"' then some ([], t)
    else if c = '\\' then
      match t with
      | [] => none
      | e :: t =>
        if e = 'u' then
          match hex4 t with
          | none => none
          | some (r, t) =>
            if 0xD800 ≤ r ∧ r < 0xE000 then
              match lowHalf r t with
              | some (r, t) => (readStr n t).map (fun p => (encode r ++ p.1, p.2))
              | none => (readStr n t).map (fun p => (encode replacement ++ p.1, p.2))
            else (readStr n t).map (fun p => (encode r ++ p.1, p.2))
        else
          match unescape e with
          | none => none
          | some x => (readStr n t).map (fun p => (x :: p.1, p.2))
    else if c.toNat < 0x20 then none
    else
      match decode (c :: t) with
      | some (r, k) => (readStr n (t.drop (k - 1))).map (fun p => (encode r ++ p.1, p.2))
      | none => (readStr n t).map (fun p => (encode replacement ++ p.1, p.2))

/-- Leading digits and the rest. -/
def digits (s : Str) : Str × Str := s.span (fun c => c.isDigit)

/-- The fraction of a number (Go `stateDot`): nothing, or a dot and digits. -/
def fraction : Str → Option (Str × Str)
  | '.' :: t => if (digits t).1 = [] then none else some ('.' :: (digits t).1, (digits t).2)
  | t => some ([], t)

/-- The sign of an exponent. -/
def expSign : Str → Str × Str
  | '+' :: t => (['+'], t)
  | '-' :: t => (['-'], t)
  | t => ([], t)

/-- The exponent of a number (Go `stateE`). -/
def exponent : Str → Option (Str × Str)
  | c :: t =>
    if c = 'e' ∨ c = 'E' then
      if (digits (expSign t).2).1 = [] then none
      else some (c :: ((expSign t).1 ++ (digits (expSign t).2).1), (digits (expSign t).2).2)
    else some ([], c :: t)
  | [] => some ([], [])

/-- The digits in front (Go `state0`, `state1`): no zero before other digits. -/
def whole (s : Str) : Option (Str × Str) :=
  match s with
  | [] => none
  | c :: t => if c = '0' then some (['0'], t) else if (digits s).1 = [] then none else some (digits s)

/-- A number in front of a text (Go encoding/json/scanner.go, `stateNeg` to `stateESign`). -/
def readNum (s : Str) : Option (Str × Str) :=
  let (sign, t) := match s with
    | '-' :: t => (['-'], t)
    | t => ([], t)
  match whole t with
  | none => none
  | some (w, t) =>
    match fraction t with
    | none => none
    | some (f, t) =>
      match exponent t with
      | none => none
      | some (e, t) => some (sign ++ w ++ f ++ e, t)

/-- Go `maxNestingDepth` (encoding/json/scanner.go). -/
def maxDepth : Nat := 10000

/-- A word in front of a text. -/
def literal (w : Str) (j : Json) (s : Str) : Option (Json × Str) :=
  if hasPrefix s w then some (j, s.drop w.length) else none

mutual
/-- Go `decodeState.value` and the scanner (encoding/json/decode.go, scanner.go): the value in front of a text and the rest.
Keys that occur again are still listed.  `num` is the conversion of numbers to `float64` and back to text
(xmp/json.go:298), `none` when out of range.  The first argument bounds the number of steps, the second the depth that is
still allowed. -/
def value (num : Str → Option Str) : Nat → Nat → Str → Option (Json × Str)
  | 0, _, _ => none
  | n + 1, d, s =>
    match skip s with
    | [] => none
    | c :: t =>
      if c = '"' then (readStr (t.length + 1) t).map (fun p => (.str p.1, p.2))
      else if c = '{' then
        if d = 0 then none
        else if (skip t).head? = some '}' then some (.obj [], (skip t).tail)
        else (fields num n (d - 1) t).map (fun p => (.obj p.1, p.2))
      else if c = '[' then
        if d = 0 then none
        else if (skip t).head? = some ']' then some (.arr [], (skip t).tail)
        else (items num n (d - 1) t).map (fun p => (.arr p.1, p.2))
      else if c = 't' then literal "true".toList (.bool true) (c :: t)
      else if c = 'f' then literal "false".toList (.bool false) (c :: t)
      else if c = 'n' then literal "null".toList .null (c :: t)
      else
        match readNum (c :: t) with
        | none => none
        | some (x, t) => (num x).map (fun y => (.num y, t))
/-- Go `decodeState.array`: at least one item and the closing bracket. -/
def items (num : Str → Option Str) : Nat → Nat → Str → Option (List Json × Str)
  | 0, _, _ => none
  | n + 1, d, s =>
    match value num n d s with
    | none => none
    | some (j, t) =>
      match skip t with
      | [] => none
      | c :: t =>
        if c = ']' then some ([j], t)
        else if c = ',' then (items num n d t).map (fun p => (j :: p.1, p.2))
        else none
/-- Go `decodeState.object`: at least one entry and the closing brace. -/
def fields (num : Str → Option Str) : Nat → Nat → Str → Option (List (Str × Json) × Str)
  | 0, _, _ => none
  | n + 1, d, s =>
    match skip s with
    | [] => none
    | q :: t =>
      if q = '"' then
        match readStr (t.length + 1) t with
        | none => none
        | some (k, t) =>
          match skip t with
          | [] => none
          | c :: t =>
            if c = ':' then
              match value num n d t with
              | none => none
              | some (j, t) =>
                match skip t with
                | [] => none
                | c :: t =>
                  if c = '}' then some ([(k, j)], t)
                  else if c = ',' then (fields num n d t).map (fun p => ((k, j) :: p.1, p.2))
                  else none
            else none
      else none
end

/-- Go `json.Unmarshal` as far as the text is concerned: one value and white space. -/
def parse (num : Str → Option Str) (s : Str) : Option Json :=
  match value num (s.length + 1) maxDepth s with
  | some (j, t) => if skip t = [] then some j else none
  | none => none

/-- `m[k] = v` for a map whose order does not matter: an entry keeps its place. -/
def assign {V : Type} (m : List (Str × V)) (k : Str) (v : V) : List (Str × V) :=
  if m.any (fun e => e.1 = k) then m.map (fun e => if e.1 = k then (k, v) else e) else m ++ [(k, v)]

/-- The assignments in a row. -/
def assignAll {V : Type} : List (Str × V) → List (Str × V) → List (Str × V)
  | [], m => m
  | e :: l, m => assignAll l (assign m e.1 e.2)

mutual
/-- Reading into `interface{}` (Go `decodeState.objectInterface`): a key that occurs again replaces the first. -/
def collapse : Json → Json
  | .str s => .str s
  | .num s => .num s
  | .bool b => .bool b
  | .null => .null
  | .arr l => .arr (collapseItems l)
  | .obj m => .obj (assignAll (collapseFields m) [])
/-- Item by item. -/
def collapseItems : List Json → List Json
  | [] => []
  | j :: l => collapse j :: collapseItems l
/-- Entry by entry. -/
def collapseFields : List (Str × Json) → List (Str × Json)
  | [] => []
  | (k, j) :: m => (k, collapse j) :: collapseFields m
end

/-- Lower case as in Go `foldFunc` (encoding/json/fold.go): ASCII letters, and the two other characters that fold to
ASCII letters (U+017F to `s`, U+212A to `k`). -/
def fold : Str → Str
  | [] => []
  | '\u00c5' :: '\u00bf' :: cs => 's' :: fold cs
  | '\u00e2' :: '\u0084' :: '\u00aa' :: cs => 'k' :: fold cs
  | c :: cs => lowerChar c :: fold cs

/-- A text member of a document: `null` changes nothing; `none` is an error. -/
def textMember (old : Str) : Json → Option Str
  | .str s => some s
  | .null => some old
  | _ => none

/-- The entries of `namespaces` (a `map[string]string`); `null` is an empty text; `none` is an error. -/
def nsEntries : List (Str × Json) → List (Str × Str) → Option (List (Str × Str))
  | [], m => some m
  | (k, .str s) :: l, m => nsEntries l (assign m k s)
  | (k, .null) :: l, m => nsEntries l (assign m k [])
  | _ :: _, _ => none

/-- The member `namespaces`: a second one is added to the first, `null` removes all. -/
def nsMember (old : List (Str × Str)) : Json → Option (List (Str × Str))
  | .obj l => nsEntries l old
  | .null => some []
  | _ => none

/-- The member `models` (a `map[string]json.RawMessage`), whose entries are read into `interface{}` later
(xmp/json.go:257). -/
def modelsMember (old : List (Str × Json)) : Json → Option (List (Str × Json))
  | .obj l => some (assignAll (collapseFields l) old)
  | .null => some []
  | _ => none

/-- Go `decodeState.object` for `jsonDocument` (xmp/json.go:25-30): names of members are compared without regard to case,
others are skipped; `none` is an error. -/
def readMembers : List (Str × Json) → JDoc → Option JDoc
  | [], jd => some jd
  | (k, j) :: l, jd =>
    if fold k = "about".toList then (textMember jd.about j).bind (fun s => readMembers l { jd with about := s })
    else if fold k = "toolkit".toList then (textMember jd.toolkit j).bind (fun s => readMembers l { jd with toolkit := s })
    else if fold k = "namespaces".toList then
      (nsMember jd.namespaces j).bind (fun m => readMembers l { jd with namespaces := m })
    else if fold k = "models".toList then (modelsMember jd.models j).bind (fun m => readMembers l { jd with models := m })
    else readMembers l jd

/-- xmp/json.go:230-238: the document in a text; `none` is an error. -/
def readDoc (num : Str → Option Str) (s : Str) : Option JDoc :=
  match parse num s with
  | some (.obj m) => readMembers m {}
  | some .null => some {}
  | _ => none

end Xmp.JsonText
