/-
Go strings and the standard library string functions used by the modelled code.

A Go string (or byte slice) is a list of `Char`, one `Char` per byte.  All functions below are
byte-wise in Go as well (they compare with ASCII separators), so quantifying over all lists of
`Char` includes every Go byte string.  `len(s)` is `s.length`.

These definitions model the Go standard library (packages `strings`, `bytes`, `strconv`), not code
in /repo; they are part of the trusted reading.
-/

namespace Xmp

/-- Go `string` / `[]byte` contents: one `Char` per byte. -/
abbrev Str := List Char

namespace GoStr

/-- `strings.Index(s, string(c))` for a one-byte separator; `none` is Go's `-1`. -/
def indexChar (c : Char) : Str → Option Nat
  | [] => none
  | x :: xs => if x = c then some 0 else (indexChar c xs).map (· + 1)

/-- `strings.LastIndex(s, string(c))` for a one-byte separator. -/
def lastIndexChar (c : Char) : Str → Option Nat
  | [] => none
  | x :: xs =>
    match lastIndexChar c xs with
    | some i => some (i + 1)
    | none => if x = c then some 0 else none

/-- `strings.HasPrefix(s, p)`. -/
def hasPrefix (s p : Str) : Bool := p.isPrefixOf s

/-- `strings.HasSuffix(s, p)`. -/
def hasSuffix (s p : Str) : Bool := p.isSuffixOf s

/-- `strings.TrimPrefix(s, p)`: at most one copy is removed. -/
def trimPrefix (s p : Str) : Str := if hasPrefix s p then s.drop p.length else s

/-- `strings.TrimSuffix(s, p)`: at most one copy is removed. -/
def trimSuffix (s p : Str) : Str := if hasSuffix s p then s.take (s.length - p.length) else s

/-- `strings.Index(s, sub)` for an arbitrary substring; `none` is Go's `-1`. -/
def index (sub : Str) : Str → Option Nat
  | [] => if sub = [] then some 0 else none
  | x :: xs => if hasPrefix (x :: xs) sub then some 0 else (index sub xs).map (· + 1)

/-- `strings.Contains(s, string(c))` for one byte. -/
def containsChar (s : Str) (c : Char) : Bool := s.contains c

/-- `strings.Count(s, string(c))` for one byte. -/
def countChar (s : Str) (c : Char) : Nat := s.count c

/-- `strings.Split(s, string(c))` for a one-byte separator.  Never empty: `Split("", c) = [""]`. -/
def split (c : Char) : Str → List Str
  | [] => [[]]
  | x :: xs =>
    if x = c then [] :: split c xs
    else
      match split c xs with
      | [] => [[x]]
      | h :: t => (x :: h) :: t

/-- `strings.Join(l, sep)`. -/
def join (sep : Str) : List Str → Str
  | [] => []
  | [s] => s
  | s :: t => s ++ sep ++ join sep t

/-- ASCII digit of a number below ten. -/
def digitChar (n : Nat) : Char := Char.ofNat (48 + n)

/-- Decimal digits, most significant first; the first argument is fuel. -/
def natDigits : Nat → Nat → Str
  | 0, _ => []
  | f + 1, n => if n < 10 then [digitChar n] else natDigits f (n / 10) ++ [digitChar (n % 10)]

/-- `strconv.FormatUint(n, 10)`. -/
def natToStr (n : Nat) : Str := natDigits (n + 1) n

/-- `strconv.Itoa(i)` / `strconv.FormatInt(i, 10)` / `fmt.Sprintf("%d", i)`. -/
def itoa (i : Int) : Str :=
  if i < 0 then '-' :: natToStr i.natAbs else natToStr i.natAbs

/-- Is the byte an ASCII decimal digit? -/
def isDigit (c : Char) : Bool := 48 ≤ c.toNat && c.toNat ≤ 57

/-- Value of a string of digits, accumulating; `none` if some byte is not a digit. -/
def digitsVal : Nat → Str → Option Nat
  | acc, [] => some acc
  | acc, c :: cs => if isDigit c then digitsVal (acc * 10 + (c.toNat - 48)) cs else none

/-- Unbounded value of a non-empty digit string. -/
def parseNat : Str → Option Nat
  | [] => none
  | c :: cs => digitsVal 0 (c :: cs)

/-- `strconv.ParseUint(s, 10, bits)`: digits only, value below `2^bits`. -/
def parseUint (bits : Nat) (s : Str) : Option Nat :=
  match parseNat s with
  | some n => if n < 2 ^ bits then some n else none
  | none => none

/-- Sign and digits as accepted by `strconv.ParseInt(s, 10, _)`, without range check. -/
def parseIntRaw : Str → Option Int
  | [] => none
  | c :: cs =>
    if c = '-' then (parseNat cs).map (fun n : Nat => -(n : Int))
    else if c = '+' then (parseNat cs).map (fun n : Nat => (n : Int))
    else (parseNat (c :: cs)).map (fun n : Nat => (n : Int))

/-- `strconv.ParseInt(s, 10, bits)`: optional sign, digits, range `-2^(bits-1) .. 2^(bits-1)-1`.
`none` models a non-nil error (syntax or range). -/
def parseInt (bits : Nat) (s : Str) : Option Int :=
  match parseIntRaw s with
  | some i => if -(2 ^ (bits - 1) : Int) ≤ i ∧ i < (2 ^ (bits - 1) : Int) then some i else none
  | none => none

/-- `strconv.Atoi` on a 64-bit platform. -/
def atoi (s : Str) : Option Int := parseInt 64 s

/-- An `int`/`int64` value. -/
def InI64 (i : Int) : Prop := -(2 ^ 63 : Int) ≤ i ∧ i < (2 ^ 63 : Int)

instance (i : Int) : Decidable (InI64 i) := by unfold InI64; infer_instance

/-- Lower-case one ASCII byte. -/
def lowerChar (c : Char) : Char :=
  if 65 ≤ c.toNat ∧ c.toNat ≤ 90 then Char.ofNat (c.toNat + 32) else c

/-- `strings.ToLower(s)`.  ASCII letters are mapped; of the multi-byte code points only the two
whose lower-case form is ASCII are mapped (U+0130 to `i`, U+212A to `k`), because the result is only
ever compared with ASCII constants; other non-ASCII code points stay non-ASCII in Go and here. -/
def toLower : Str → Str
  | [] => []
  | '\u00c4' :: '\u00b0' :: cs => 'i' :: toLower cs
  | '\u00e2' :: '\u0084' :: '\u00aa' :: cs => 'k' :: toLower cs
  | c :: cs => lowerChar c :: toLower cs

/-- Encodings of the code points with Unicode property White_Space, as tested by
`unicode.IsSpace` (used by `strings.TrimSpace`). -/
def spaces : List Str :=
  [['\t'], ['\n'], ['\u000b'], ['\u000c'], ['\r'], [' '],
   ['\u00c2', '\u0085'], ['\u00c2', '\u00a0'], ['\u00e1', '\u009a', '\u0080'],
   ['\u00e2', '\u0080', '\u0080'], ['\u00e2', '\u0080', '\u0081'], ['\u00e2', '\u0080', '\u0082'],
   ['\u00e2', '\u0080', '\u0083'], ['\u00e2', '\u0080', '\u0084'], ['\u00e2', '\u0080', '\u0085'],
   ['\u00e2', '\u0080', '\u0086'], ['\u00e2', '\u0080', '\u0087'], ['\u00e2', '\u0080', '\u0088'],
   ['\u00e2', '\u0080', '\u0089'], ['\u00e2', '\u0080', '\u008a'], ['\u00e2', '\u0080', '\u00a8'],
   ['\u00e2', '\u0080', '\u00a9'], ['\u00e2', '\u0080', '\u00af'], ['\u00e2', '\u0081', '\u009f'],
   ['\u00e3', '\u0080', '\u0080']]

/-- Strip the longest run of strings from `ws` at the front; the first argument is fuel. -/
def dropRun (ws : List Str) : Nat → Str → Str
  | 0, s => s
  | f + 1, s =>
    match ws.find? (fun w => hasPrefix s w) with
    | some w => dropRun ws f (s.drop w.length)
    | none => s

/-- `strings.TrimLeftFunc(s, unicode.IsSpace)`. -/
def trimLeft (s : Str) : Str := dropRun spaces s.length s

/-- `strings.TrimRightFunc(s, unicode.IsSpace)`: the same from the back (UTF-8 is
self-synchronising, so the last rune is a space iff one of the encodings is a suffix). -/
def trimRight (s : Str) : Str := (dropRun (spaces.map List.reverse) s.length s.reverse).reverse

/-- `strings.TrimSpace(s)`. -/
def trimSpace (s : Str) : Str := trimRight (trimLeft s)

end GoStr
end Xmp
