import Verif.Model.Semver
import Verif.Model.Registry

/-! Model of xmp/typeinfo.go: struct tags and the concurrent cache of field metadata. -/

namespace Xmp

open GoStr

/-- xmp/typeinfo.go:31-37 `fieldInfo` with the flags of 82-100; `impls` are the interfaces that the type of the
field implements. -/
structure FInfo where
  idx : List Nat
  name : Str
  minVersion : Version
  maxVersion : Version
  element : Bool
  attr : Bool
  empty : Bool
  omitted : Bool
  any : Bool
  flat : Bool
  impls : List Nat
deriving DecidableEq, Repr

/-- A field of a struct type as `reflect` describes it: name, tags by namespace, whether it is exported, whether
it is embedded, its type and the interfaces of its type. -/
structure GoField where
  name : Str
  tag : Str → Str
  exported : Bool
  anonymous : Bool
  ty : Nat
  impls : List Nat

/-- A type as `reflect` describes it: a struct with fields, a pointer, or something else. -/
inductive GoType where
  | struct (fields : List GoField)
  | ptr (elem : Nat)
  | other

/-- The outcome of a function that can fail or panic. -/
inductive Res (α : Type) where
  | ok (a : α)
  | err
  | panic
deriving DecidableEq, Repr

/-- `strings.FieldsFunc(s, f)`: the maximal runs of bytes that are not separators; `cur` is the current run. -/
def fieldsFuncAux (p : Char → Bool) : Str → Str → List Str
  | cur, [] => if cur = [] then [] else [cur]
  | cur, c :: cs =>
    if p c then (if cur = [] then fieldsFuncAux p [] cs else cur :: fieldsFuncAux p [] cs)
    else fieldsFuncAux p (cur ++ [c]) cs

/-- See `fieldsFuncAux`. -/
def fieldsFunc (p : Char → Bool) (s : Str) : List Str := fieldsFuncAux p [] s

/-- The separators of xmp/typeinfo.go:231. -/
def isVersionOp (c : Char) : Bool := c = '+' || c = '-' || c = '<'

/-- The variable `op` of xmp/typeinfo.go:228-237: the last separator. -/
def lastOp (s : Str) : Option Char := (s.filter isVersionOp).getLast?

/-- An error of `ParseVersion` as outcome. -/
def parseV (s : Str) : Res Version :=
  match Version.parse s with
  | some v => .ok v
  | none => .err

/-- The version part of a tag option behind the `v`, xmp/typeinfo.go:227-256; `none` for a bound that is not
assigned.  A missing token is an index out of range. -/
def versionRange (flag : Str) : Res (Option Version × Option Version) :=
  let tokens := fieldsFunc isVersionOp flag
  match lastOp flag with
  | some '+' =>
    match tokens with
    | [] => .panic
    | a :: _ =>
      match parseV a with
      | .ok v => .ok (some v, none)
      | _ => .err
  | some '-' =>
    match tokens with
    | [] => .panic
    | a :: _ =>
      match parseV a with
      | .ok v => .ok (none, some v)
      | _ => .err
  | some '<' =>
    match tokens with
    | [] => .panic
    | a :: rest =>
      match parseV a with
      | .ok v =>
        match rest with
        | [] => .panic
        | b :: _ =>
          match parseV b with
          | .ok w => .ok (some v, some w)
          | _ => .err
      | _ => .err
  | _ =>
    match parseV flag with
    | .ok v => .ok (some v, some v)
    | _ => .err

/-- The flag of an option, xmp/typeinfo.go:207-218. -/
def setFlag (f : FInfo) (flag : Str) : FInfo :=
  if flag = "attr".toList then { f with attr := true }
  else if flag = "empty".toList then { f with empty := true }
  else if flag = "omit".toList then { f with omitted := true }
  else if flag = "any".toList then { f with any := true }
  else if flag = "flat".toList then { f with flat := true }
  else f

/-- The bounds of a version option, xmp/typeinfo.go:225-260. -/
def setVersion (f : FInfo) : Res (Option Version × Option Version) → Res FInfo
  | .ok (lo, hi) => .ok { f with minVersion := lo.getD f.minVersion, maxVersion := hi.getD f.maxVersion }
  | .err => .err
  | .panic => .panic

/-- One option of a tag, xmp/typeinfo.go:206-261. -/
def applyOption (f : FInfo) (flag : Str) : Res FInfo :=
  match flag with
  | 'v' :: rest => setVersion (setFlag f flag) (versionRange rest)
  | _ => .ok (setFlag f flag)

/-- All options of a tag in order. -/
def applyOptions : FInfo → List Str → Res FInfo
  | f, [] => .ok f
  | f, o :: os =>
    match applyOption f o with
    | .ok f => applyOptions f os
    | .err => .err
    | .panic => .panic

/-- xmp/typeinfo.go:196-305 `structFieldInfo` for the field with index `i`. -/
def structFieldInfo (i : Nat) (f : GoField) (ns : Str) : Res FInfo :=
  let tokens := split ',' (f.tag ns)
  let tag := tokens.headD []
  let f0 : FInfo := ⟨[i], if tag ≠ [] then tag else f.name, .zero, .zero, false, false, false, false, false, false, f.impls⟩
  match tokens with
  | _ :: o :: os =>
    match applyOptions f0 (o :: os) with
    | .ok f1 => .ok { f1 with element := !f1.attr }
    | .err => .err
    | .panic => .panic
  | _ => .ok { f0 with element := true }

/-- The conflict test of xmp/typeinfo.go:314-322. -/
def conflicts (newf oldf : FInfo) : Bool :=
  decide (newf.name = oldf.name) && newf.minVersion.between oldf.minVersion oldf.maxVersion &&
    newf.maxVersion.between oldf.minVersion oldf.maxVersion

/-- xmp/typeinfo.go:307-336 `addFieldInfo`; `none` is an error. -/
def addFieldInfo (tinfo : List FInfo) (newf : FInfo) : Option (List FInfo) :=
  if tinfo.any (conflicts newf) then none else some (tinfo ++ [newf])

/-- xmp/typeinfo.go:168-173: the fields of an embedded struct. -/
def addInner (i : Nat) : List FInfo → List FInfo → Option (List FInfo)
  | acc, [] => some acc
  | acc, f :: fs =>
    match addFieldInfo acc { f with idx := i :: f.idx } with
    | some acc => addInner i acc fs
    | none => none

/-- xmp/typeinfo.go:155-157: is a field left out? -/
def skipField (f : GoField) (ns : Str) : Bool := (!f.exported && !f.anonymous) || f.tag ns = ['-']

/-- xmp/typeinfo.go:160-165: the struct type that an embedded field stands for. -/
def embedded (env : Nat → GoType) (f : GoField) : Option Nat :=
  if f.anonymous then
    let t := match env f.ty with
      | .ptr e => e
      | _ => f.ty
    match env t with
    | .struct _ => some t
    | _ => none
  else none

/-! ### The cache and its lock

Goroutines run `getTypeInfo` (xmp/typeinfo.go:128-193).  Every lock operation and every access to the shared maps is a
step of its own; steps of different goroutines interleave arbitrarily.  `sync.RWMutex` is a number of readers and
a writer flag; that a waiting writer blocks new readers is left out, which only adds interleavings. -/

/-- The metadata of a type. -/
abbrev TInfo := List FInfo

/-- Where a call of `getTypeInfo` is. -/
inductive PC where
  /-- before `tinfoLock.RLock()`, line 134 -/
  | start
  /-- before the read of `tinfoNsMap[ns]`, line 135; read lock held -/
  | inR1
  /-- a new map was made, before `RUnlock`, line 138; read lock held -/
  | missR (m : Nat)
  /-- before `Lock`, line 139 -/
  | wantW1 (m : Nat)
  /-- before the write of `tinfoNsMap[ns]`, line 140; write lock held -/
  | inW1 (m : Nat)
  /-- before `Unlock`, line 141; write lock held -/
  | doneW1 (m : Nat)
  /-- before `RLock`, line 142 -/
  | wantR2 (m : Nat)
  /-- before the read of `m[typ]`, line 144; read lock held -/
  | inR2 (m : Nat)
  /-- before `RUnlock`, line 145; read lock held -/
  | doneR2 (m : Nat) (hit : Option TInfo)
  /-- in the loop over the fields, lines 153-188 -/
  | fields (m i : Nat) (acc : TInfo)
  /-- in the call for an embedded struct, line 167 -/
  | waiting (m i : Nat) (acc : TInfo)
  /-- before `Lock`, line 189 -/
  | wantW2 (m : Nat) (info : TInfo)
  /-- before the write of `m[typ]`, line 190; write lock held -/
  | inW2 (m : Nat) (info : TInfo)
  /-- before `Unlock`, line 191; write lock held -/
  | doneW2 (info : TInfo)
  /-- before the return -/
  | ret (r : Res TInfo)
deriving DecidableEq, Repr

/-- One call on the stack of a goroutine. -/
structure Call where
  typ : Nat
  pc : PC
deriving DecidableEq, Repr

/-- A goroutine that looks up one type: the calls, innermost first, and its result once it is finished. -/
structure Thread where
  ns : Str
  typ : Nat
  stack : List Call
  result : Option (Res TInfo)
deriving DecidableEq, Repr

/-- The shared state.  `nsMap` is `tinfoNsMap`; the maps it refers to are numbered, `heap` are their entries and
`next` is the number of the next new map. -/
structure Shared where
  readers : Nat
  writer : Bool
  nsMap : Str → Option Nat
  heap : Nat → Nat → Option TInfo
  next : Nat

/-- Goroutines and shared state. -/
structure Machine where
  shared : Shared
  threads : List Thread

/-- xmp/typeinfo.go:129-131: the default namespace. -/
def nsOrDefault (ns : Str) : Str := if ns = [] then "xmp".toList else ns

/-- A goroutine about to call `getTypeInfo(typ, ns)`. -/
def Thread.init (typ : Nat) (ns : Str) : Thread := ⟨nsOrDefault ns, typ, [⟨typ, .start⟩], none⟩

/-- The loop over the fields, one field; `Sum.inr` is the type of an embedded struct to look up first. -/
def fieldStep (env : Nat → GoType) (ns : Str) (typ m i : Nat) (acc : TInfo) : PC ⊕ Nat :=
  match env typ with
  | .struct fs =>
    match fs[i]? with
    | none => .inl (.wantW2 m acc)
    | some f =>
      if skipField f ns then .inl (.fields m (i + 1) acc)
      else
        match embedded env f with
        | some t => .inr t
        | none =>
          match structFieldInfo i f ns with
          | .ok fi =>
            match addFieldInfo acc fi with
            | some acc => .inl (.fields m (i + 1) acc)
            | none => .inl (.ret .err)
          | .err => .inl (.ret .err)
          | .panic => .inl (.ret .panic)
  | _ => .inl (.ret .err)

/-- The return of an inner call to a call that waits for it, xmp/typeinfo.go:167-176. -/
def resume (m i : Nat) (acc : TInfo) : Res TInfo → PC
  | .ok inner =>
    match addInner i acc inner with
    | some acc => .fields m (i + 1) acc
    | none => .ret .err
  | .err => .ret .err
  | .panic => .ret .panic

/-- One step of a goroutine; `none` when it is blocked or finished. -/
def threadStep (env : Nat → GoType) (s : Shared) (t : Thread) : Option (Shared × Thread) :=
  match t.stack with
  | [] => none
  | c :: cs =>
    let go (s : Shared) (pc : PC) : Option (Shared × Thread) := some (s, { t with stack := ⟨c.typ, pc⟩ :: cs })
    match c.pc with
    | .start => if s.writer then none else go { s with readers := s.readers + 1 } .inR1
    | .inR1 =>
      match s.nsMap t.ns with
      | some m => go s (.inR2 m)
      | none => go { s with next := s.next + 1 } (.missR s.next)
    | .missR m => go { s with readers := s.readers - 1 } (.wantW1 m)
    | .wantW1 m => if s.writer || s.readers != 0 then none else go { s with writer := true } (.inW1 m)
    | .inW1 m => go { s with nsMap := fun n => if n = t.ns then some m else s.nsMap n } (.doneW1 m)
    | .doneW1 m => go { s with writer := false } (.wantR2 m)
    | .wantR2 m => if s.writer then none else go { s with readers := s.readers + 1 } (.inR2 m)
    | .inR2 m => go s (.doneR2 m (s.heap m c.typ))
    | .doneR2 m hit =>
      let s := { s with readers := s.readers - 1 }
      match hit with
      | some info => go s (.ret (.ok info))
      | none =>
        match env c.typ with
        | .struct _ => go s (.fields m 0 [])
        | _ => go s (.ret .err)
    | .fields m i acc =>
      match fieldStep env t.ns c.typ m i acc with
      | .inl pc => go s pc
      | .inr ty => some (s, { t with stack := ⟨ty, .start⟩ :: ⟨c.typ, .waiting m i acc⟩ :: cs })
    | .waiting _ _ _ => none
    | .wantW2 m info => if s.writer || s.readers != 0 then none else go { s with writer := true } (.inW2 m info)
    | .inW2 m info =>
      go { s with heap := fun a b => if a = m ∧ b = c.typ then some info else s.heap a b } (.doneW2 info)
    | .doneW2 info => go { s with writer := false } (.ret (.ok info))
    | .ret r =>
      match cs with
      | [] => some (s, { t with stack := [], result := some r })
      | d :: ds =>
        match d.pc with
        | .waiting m i acc => some (s, { t with stack := ⟨d.typ, resume m i acc r⟩ :: ds })
        | _ => none

/-- One step of goroutine `k`. -/
def Machine.step (env : Nat → GoType) (m : Machine) (k : Nat) : Option Machine :=
  match m.threads[k]? with
  | none => none
  | some t =>
    match threadStep env m.shared t with
    | none => none
    | some (s, t) => some ⟨s, m.threads.set k t⟩

/-- The machine at the start of the program, with goroutines for the given lookups. -/
def Machine.init (l : List (Nat × Str)) : Machine :=
  ⟨⟨0, false, fun _ => none, fun _ _ => none, 0⟩, l.map (fun x => Thread.init x.1 x.2)⟩

/-- A run along a schedule; a step that is not possible is skipped. -/
def Machine.run (env : Nat → GoType) (m : Machine) : List Nat → Machine
  | [] => m
  | k :: ks => Machine.run env ((m.step env k).getD m) ks

end Xmp
