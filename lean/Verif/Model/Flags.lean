import Verif.Model.GoStr

/-! Model of the sync flags of xmp/sync.go. -/

namespace Xmp

open GoStr

/-- xmp/sync.go:77 `type SyncFlags int`.  Flags are non-negative bit masks. -/
abbrev SyncFlags := Nat

namespace SyncFlags

/-- xmp/sync.go:80. -/
def CREATE : SyncFlags := 1
/-- xmp/sync.go:81. -/
def REPLACE : SyncFlags := 2
/-- xmp/sync.go:82. -/
def DELETE : SyncFlags := 4
/-- xmp/sync.go:83. -/
def APPEND : SyncFlags := 8
/-- xmp/sync.go:84. -/
def UNIQUE : SyncFlags := 16
/-- xmp/sync.go:85. -/
def NOFAIL : SyncFlags := 32
/-- xmp/sync.go:86. -/
def DEFAULT : SyncFlags := CREATE ||| REPLACE ||| DELETE ||| UNIQUE
/-- xmp/sync.go:87. -/
def MERGE : SyncFlags := CREATE ||| UNIQUE ||| NOFAIL
/-- xmp/sync.go:88. -/
def EXTEND : SyncFlags := CREATE ||| REPLACE ||| UNIQUE ||| NOFAIL
/-- xmp/sync.go:89. -/
def ADD : SyncFlags := CREATE ||| UNIQUE ||| NOFAIL

/-- `flags&m > 0` (equivalently `!= 0`) as used throughout path.go and sync.go. -/
def has (f m : SyncFlags) : Bool := (f &&& m) != 0

/-- xmp/sync.go:92-117 `ParseSyncFlag`; 0 means unknown. -/
def parseOne (s : Str) : SyncFlags :=
  if s = "create".toList then CREATE
  else if s = "replace".toList then REPLACE
  else if s = "delete".toList then DELETE
  else if s = "append".toList then APPEND
  else if s = "unique".toList then UNIQUE
  else if s = "nofail".toList then NOFAIL
  else if s = "default".toList then DEFAULT
  else if s = "merge".toList then MERGE
  else if s = "extend".toList then EXTEND
  else if s = "add".toList then ADD
  else 0

/-- The loop of xmp/sync.go:121-127 with the accumulated flags. -/
def parseTokens (acc : SyncFlags) : List Str → Option SyncFlags
  | [] => some acc
  | v :: vs =>
    let f := parseOne (toLower v)
    if f = 0 then none else parseTokens (acc ||| f) vs

/-- xmp/sync.go:119-129 `ParseSyncFlags`; `none` is an error. -/
def parse (s : Str) : Option SyncFlags := parseTokens 0 (split ',' s)

/-- xmp/sync.go:131-142 `SyncFlags.UnmarshalText`: the new value of the receiver, `none` on error. -/
def unmarshalText (data : Str) : Option SyncFlags := if data = [] then some 0 else parse data

end SyncFlags
end Xmp
