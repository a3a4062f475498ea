import Verif.Model.GoStr

/-! Model of Go's package unicode/utf8, on which the texts written and read by xmp/json.go and xmp/marshal.go rest. -/

namespace Xmp.Utf8

open GoStr

/-- A byte. -/
def byte (n : Nat) : Char := Char.ofNat n

/-- Go `utf8.EncodeRune` for Unicode scalar values. -/
def encode (r : Nat) : Str :=
  if r < 0x80 then [byte r]
  else if r < 0x800 then [byte (0xC0 + r / 64), byte (0x80 + r % 64)]
  else if r < 0x10000 then [byte (0xE0 + r / 4096), byte (0x80 + r / 64 % 64), byte (0x80 + r % 64)]
  else [byte (0xF0 + r / 262144), byte (0x80 + r / 4096 % 64), byte (0x80 + r / 64 % 64), byte (0x80 + r % 64)]

/-- Is the byte in the range (Go `acceptRange`)? -/
def within (lo hi : Nat) (c : Char) : Bool := decide (lo ≤ c.toNat) && decide (c.toNat ≤ hi)

/-- Smallest second byte after a first byte (Go `acceptRanges`). -/
def secondLo (x : Nat) : Nat := if x = 0xE0 then 0xA0 else if x = 0xF0 then 0x90 else 0x80

/-- Largest second byte after a first byte (Go `acceptRanges`). -/
def secondHi (x : Nat) : Nat := if x = 0xED then 0x9F else if x = 0xF4 then 0x8F else 0xBF

/-- Go `utf8.DecodeRune`: the scalar value in front and its length; `none` where Go returns `(RuneError, 1)` (or
`(RuneError, 0)` for an empty text). -/
def decode : Str → Option (Nat × Nat)
  | [] => none
  | a :: t =>
    let x := a.toNat
    if x < 0x80 then some (x, 1)
    else if x < 0xC2 then none
    else if x < 0xE0 then
      match t with
      | b :: _ => if within 0x80 0xBF b then some ((x - 0xC0) * 64 + (b.toNat - 0x80), 2) else none
      | _ => none
    else if x < 0xF0 then
      match t with
      | b :: c :: _ =>
        if within (secondLo x) (secondHi x) b && within 0x80 0xBF c then
          some ((x - 0xE0) * 4096 + (b.toNat - 0x80) * 64 + (c.toNat - 0x80), 3)
        else none
      | _ => none
    else if x < 0xF5 then
      match t with
      | b :: c :: d :: _ =>
        if within (secondLo x) (secondHi x) b && within 0x80 0xBF c && within 0x80 0xBF d then
          some ((x - 0xF0) * 262144 + (b.toNat - 0x80) * 4096 + (c.toNat - 0x80) * 64 + (d.toNat - 0x80), 4)
        else none
      | _ => none
    else none

/-- The scalar values of a text as a loop over it sees them; `none` is a byte that belongs to none.  The first argument
is the number of bytes to skip. -/
def runesFrom : Nat → Str → List (Option Nat)
  | _, [] => []
  | k + 1, _ :: t => runesFrom k t
  | 0, a :: t =>
    match decode (a :: t) with
    | none => none :: runesFrom 0 t
    | some (r, n) => some r :: runesFrom (n - 1) t

/-- The scalar values of a text. -/
def runes (s : Str) : List (Option Nat) := runesFrom 0 s

end Xmp.Utf8
