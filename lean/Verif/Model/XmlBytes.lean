import Verif.Model.Utf8
import Verif.Model.XmlText
import Verif.Model.Writer

/-! Model of the texts that xmp/marshal.go:212-271 writes through Go's package encoding/xml and that xmp/unmarshal.go:81
reads through it (as of Go 1.17, the version named in go.mod), for trees of nodes without models. -/

namespace Xmp.XmlBytes

open GoStr Utf8

/-- U+FFFD, the replacement character. -/
def replacement : Nat := 0xFFFD

/-- Go `isInCharacterRange` (encoding/xml/xml.go): the characters of XML. -/
def inRange (r : Nat) : Bool :=
  r = 0x09 || r = 0x0A || r = 0x0D || (decide (0x20 ≤ r) && decide (r ≤ 0xD7FF)) || (decide (0xE000 ≤ r) && decide (r ≤ 0xFFFD)) ||
    (decide (0x10000 ≤ r) && decide (r ≤ 0x10FFFF))

/-! ### Writing -/

/-- Go `escapeText` (encoding/xml/xml.go) for one scalar value; `none` is a byte that is not UTF-8. -/
def escapeRune : Option Nat → Str
  | none => encode replacement
  | some r =>
    if r = 0x22 then "&#34;".toList
    else if r = 0x27 then "&#39;".toList
    else if r = 0x26 then "&amp;".toList
    else if r = 0x3C then "&lt;".toList
    else if r = 0x3E then "&gt;".toList
    else if r = 0x09 then "&#x9;".toList
    else if r = 0x0A then "&#xA;".toList
    else if r = 0x0D then "&#xD;".toList
    else if inRange r then encode r
    else encode replacement

/-- Go `EscapeText`, used for attributes and character data. -/
def escape (s : Str) : Str := (runes s).flatMap escapeRune

/-- Go `printer.writeStart` (encoding/xml/marshal.go): the attributes; those without a name are left out. -/
def printAttrs : List Attr → Str
  | [] => []
  | a :: l =>
    if a.name.loc = [] then printAttrs l
    else ' ' :: (a.name.loc ++ '=' :: '"' :: (escape a.value ++ '"' :: printAttrs l))

/-- Texts of elements with the blanks before each and before the end tag (Go `printer.writeIndent`). -/
def printLayout (ind : Option (Str × Str)) (depth : Nat) : List Str → Str
  | [] => Xml.blanks ind depth
  | x :: xs => Xml.blanks ind (depth + 1) ++ (x ++ printLayout ind depth xs)

mutual
/-- xmp/node.go:339-365 `MarshalXML` through `EncodeElement`; nothing is written for a node without a name. -/
def printNode (ind : Option (Str × Str)) (depth : Nat) : Node → List Str
  | .mk n a v l =>
    if n.loc = [] then []
    else
      let kids := printNodes ind (depth + 1) l
      ['<' :: (n.loc ++ (printAttrs a ++ '>' :: (escape v ++ ((if kids.isEmpty then [] else printLayout ind depth kids) ++
        '<' :: '/' :: (n.loc ++ ['>'])))))]
/-- The children. -/
def printNodes (ind : Option (Str × Str)) (depth : Nat) : List Node → List Str
  | [] => []
  | x :: xs => printNode ind depth x ++ printNodes ind depth xs
end

/-- The prefix of all lines stands before the first tag as well (Go `printer.writeIndent`). -/
def lead (ind : Option (Str × Str)) : Str :=
  match ind with
  | none => []
  | some (pre, _) => pre

/-- The text that Go's encoder writes for a tree. -/
def printTree (ind : Option (Str × Str)) (t : Node) : Str := lead ind ++ (printNode ind 0 t).flatten

/-- xmp/marshal.go:212-271: the text of a tree between the header and the footer of a packet; `pad` is the padding. -/
def printPacket (ind : Option (Str × Str)) (t : Node) (pad : Str) : Str :=
  packetHeader ++ (printTree ind t ++ (pad ++ packetFooter))

/-! ### Reading -/

/-- Go `Decoder.space`. -/
def isSpace (c : Char) : Bool := c = ' ' || c = '\t' || c = '\r' || c = '\n'

/-- Skip white space. -/
def skip (s : Str) : Str := s.dropWhile isSpace

/-- Go `isNameByte`, and bytes of other characters. -/
def nameByte (c : Char) : Bool :=
  (decide (65 ≤ c.toNat) && decide (c.toNat ≤ 90)) || (decide (97 ≤ c.toNat) && decide (c.toNat ≤ 122)) ||
    (decide (48 ≤ c.toNat) && decide (c.toNat ≤ 57)) || c = '_' || c = ':' || c = '.' || c = '-' || decide (0x80 ≤ c.toNat)

/-- May the ASCII character begin a name (Go table `first`)? -/
def firstByte (c : Char) : Bool :=
  (decide (65 ≤ c.toNat) && decide (c.toNat ≤ 90)) || (decide (97 ≤ c.toNat) && decide (c.toNat ≤ 122)) || c = '_' || c = ':'

/-- Go `isName`.  `uni` decides for names with characters outside of ASCII (Go tables `first` and `second`). -/
def isName (uni : Str → Bool) (s : Str) : Bool :=
  match s with
  | [] => false
  | c :: _ => if s.all (fun c => decide (c.toNat < 0x80)) then firstByte c else uni s

/-- Go `Decoder.name`: the name in front of a text and the rest, which is not empty. -/
def readName (uni : Str → Bool) (s : Str) : Option (Str × Str) :=
  let n := s.takeWhile nameByte
  let t := s.dropWhile nameByte
  if t = [] then none else if isName uni n then some (n, t) else none

/-- The value of a digit in base 10 or 16. -/
def digitVal (base : Nat) (c : Char) : Option Nat :=
  if 48 ≤ c.toNat ∧ c.toNat ≤ 57 then some (c.toNat - 48)
  else if base = 16 ∧ 97 ≤ c.toNat ∧ c.toNat ≤ 102 then some (c.toNat - 87)
  else if base = 16 ∧ 65 ≤ c.toNat ∧ c.toNat ≤ 70 then some (c.toNat - 55)
  else none

/-- The digits of a character reference up to the semicolon: their number, their value and the rest. -/
def readDigits (base : Nat) : Nat → Nat → Str → Option (Nat × Nat × Str)
  | _, _, [] => none
  | k, acc, c :: t =>
    match digitVal base c with
    | some d => readDigits base (k + 1) (acc * base + d) t
    | none => if c = ';' then some (k, acc, t) else none

/-- The text of a character reference `&#...;`: too large numbers are errors, halves of pairs become U+FFFD
(Go `string(rune(n))`). -/
def reference (p : Option (Nat × Nat × Str)) : Option (Str × Str) :=
  match p with
  | none => none
  | some (k, n, t) =>
    if k = 0 ∨ 0x10FFFF < n then none
    else if 0xD800 ≤ n ∧ n < 0xE000 then some (encode replacement, t)
    else some (encode n, t)

/-- The five entities of XML (Go `entity`). -/
def entities : List (Str × Char) :=
  [("lt;".toList, '<'), ("gt;".toList, '>'), ("amp;".toList, '&'), ("apos;".toList, '\''), ("quot;".toList, '"')]

/-- What follows `&` (Go `Decoder.text`, strict): the text it stands for and the rest; `none` is an error. -/
def readEntity (s : Str) : Option (Str × Str) :=
  match s with
  | '#' :: 'x' :: t => reference (readDigits 16 0 0 t)
  | '#' :: t => reference (readDigits 10 0 0 t)
  | s => (entities.find? (fun e => hasPrefix s e.1)).map (fun e => ([e.2], s.drop e.1.length))

/-- Go `Decoder.text` without the check of characters: the bytes up to the quote, or up to `<` or the end of the text; the
rest begins behind the quote, or with `<`.  `b0` and `b1` are the two bytes before.  The first argument bounds the number
of steps. -/
def readChars (quote : Option Char) : Nat → Char → Char → Str → Option (Str × Str)
  | 0, _, _, _ => none
  | _ + 1, _, _, [] => if quote.isSome then none else some ([], [])
  | n + 1, b0, b1, c :: t =>
    if b0 = ']' ∧ b1 = ']' ∧ c = '>' then none
    else if c = '<' then if quote.isSome then none else some ([], c :: t)
    else if some c = quote then some ([], t)
    else if c = '&' then
      match readEntity t with
      | none => none
      | some (x, t) => (readChars quote n '\u0000' '\u0000' t).map (fun p => (x ++ p.1, p.2))
    else if c = '\r' then (readChars quote n b1 c t).map (fun p => ('\n' :: p.1, p.2))
    else if b1 = '\r' ∧ c = '\n' then readChars quote n b1 c t
    else (readChars quote n b1 c t).map (fun p => (c :: p.1, p.2))

/-- The check at the end of Go `Decoder.text`: UTF-8 and only characters of XML. -/
def checked (s : Str) : Bool :=
  (runes s).all (fun x => match x with
    | none => false
    | some r => inRange r)

/-- Go `Decoder.text`: character data or the value of an attribute. -/
def readText (quote : Option Char) (s : Str) : Option (Str × Str) :=
  match readChars quote (s.length + 1) '\u0000' '\u0000' s with
  | none => none
  | some (x, t) => if checked x then some (x, t) else none

/-- The bytes up to a mark and the rest behind it. -/
def upTo (mark : Str) (s : Str) : Option (Str × Str) :=
  (index mark s).map (fun i => (s.take i, s.drop (i + mark.length)))

/-- Line ends of a CDATA section (Go `Decoder.text`). -/
def lineEnds : Str → Str
  | '\r' :: '\n' :: t => '\n' :: lineEnds t
  | '\r' :: t => '\n' :: lineEnds t
  | c :: t => c :: lineEnds t
  | [] => []

/-- What follows `<!` or `<?`: a comment, CDATA section or processing instruction, and the rest; `none` is an error.
Simplified: directives are refused, and the version and encoding of an XML declaration are not looked at. -/
def readOther (uni : Str → Bool) (c : Char) (s : Str) : Option (Xml × Str) :=
  if c = '?' then
    match readName uni s with
    | none => none
    | some (_, t) => (upTo "?>".toList t).map (fun p => (.other, p.2))
  else if hasPrefix s "--".toList then
    match upTo "--".toList (s.drop 2) with
    | some (_, '>' :: t) => some (.other, t)
    | _ => none
  else if hasPrefix s "[CDATA[".toList then
    match upTo "]]>".toList (s.drop 7) with
    | some (x, t) => if checked x then some (.text (lineEnds x), t) else none
    | none => none
  else none

/-- Go `Decoder.attrval`: the value of an attribute. -/
def readValue (s : Str) : Option (Str × Str) :=
  match s with
  | [] => none
  | q :: t => if q = '"' ∨ q = '\'' then readText (some q) t else none

/-- Go `Decoder.rawToken`: the attributes of a start tag; the flag tells whether the element ends with the tag. -/
def readAttrs (uni : Str → Bool) : Nat → Str → Option (List (Str × Str) × Bool × Str)
  | 0, _ => none
  | n + 1, s =>
    match skip s with
    | [] => none
    | c :: t =>
      if c = '>' then some ([], false, t)
      else if c = '/' then if t.head? = some '>' then some ([], true, t.tail) else none
      else
        match readName uni (c :: t) with
        | none => none
        | some (a, t) =>
          match skip t with
          | [] => none
          | e :: t =>
            if e = '=' then
              match readValue (skip t) with
              | none => none
              | some (v, t) => (readAttrs uni n t).map (fun p => ((a, v) :: p.1, p.2))
            else none

/-- An end tag behind `</`: the name has to be that of the element. -/
def readEnd (uni : Str → Bool) (name : Str) (s : Str) : Option Str :=
  match readName uni s with
  | none => none
  | some (n, t) =>
    match skip t with
    | [] => none
    | c :: t => if c = '>' ∧ n = name then some t else none

mutual
/-- Go `Decoder.Token` from the start tag (behind `<`) to the end tag of an element, in the order in which
xmp/node.go:367-390 calls it. -/
def readElem (uni : Str → Bool) : Nat → Str → Option (Xml × Str)
  | 0, _ => none
  | n + 1, s =>
    match readName uni s with
    | none => none
    | some (name, t) =>
      match readAttrs uni (t.length + 1) t with
      | none => none
      | some (as, true, t) => some (.elem name as [], t)
      | some (as, false, t) =>
        match readContent uni n t with
        | none => none
        | some (c, t) => (readEnd uni name t).map (fun t => (.elem name as c, t))
/-- The content of an element; the rest begins behind `</`. -/
def readContent (uni : Str → Bool) : Nat → Str → Option (List Xml × Str)
  | 0, _ => none
  | _ + 1, [] => none
  | n + 1, c :: t =>
    if c = '<' then
      match t with
      | [] => none
      | e :: u =>
        if e = '/' then some ([], u)
        else if e = '!' ∨ e = '?' then
          match readOther uni e u with
          | none => none
          | some (x, t) => (readContent uni n t).map (fun p => (x :: p.1, p.2))
        else
          match readElem uni n t with
          | none => none
          | some (x, t) => (readContent uni n t).map (fun p => (x :: p.1, p.2))
    else
      match readText none (c :: t) with
      | none => none
      | some (x, t) => (readContent uni n t).map (fun p => (.text x :: p.1, p.2))
end

/-- Go `Decoder.Decode` (xmp/unmarshal.go:81): everything before the first element is skipped, what follows it is not
read. -/
def readRoot (uni : Str → Bool) : Nat → Str → Option Xml
  | 0, _ => none
  | _ + 1, [] => none
  | n + 1, c :: t =>
    if c = '<' then
      match t with
      | [] => none
      | e :: u =>
        if e = '/' then none
        else if e = '!' ∨ e = '?' then
          match readOther uni e u with
          | none => none
          | some (_, t) => readRoot uni n t
        else (readElem uni n t).map (·.1)
    else
      match readText none (c :: t) with
      | none => none
      | some (_, t) => readRoot uni n t

/-- The root element of a text; `none` is an error. -/
def parse (uni : Str → Bool) (s : Str) : Option Xml := readRoot uni (s.length + 1) s

end Xmp.XmlBytes
