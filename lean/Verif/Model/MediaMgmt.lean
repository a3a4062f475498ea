import Verif.Model.Media
import Verif.Model.TypeInfo

/-! Model of the version history and the resource references of models/xmp_mm.

The arrays of the model hold pointers; here they hold the values, which is the same as long as the caller does not change
them through pointers it kept.  Dates are of any type `D`.  Fields that no function here uses are left out. -/

namespace Xmp

open GoStr Media

/-- models/xmp_mm/types.go:125-132 `ResourceEvent` (without `Parameters`). -/
structure ResourceEvent (D : Type) where
  action : Str
  changed : List Part
  instanceID : Str
  agent : Str
  at_ : D

/-- models/xmp_mm/types.go:101-107 `StVersion`. -/
structure StVersion (D : Type) where
  comments : Str
  event : ResourceEvent D
  modifier : Str
  modifyDate : D
  version : Str

/-- models/xmp_mm/types.go:24-42 `ResourceRef`: the fields set by `SelfResourceRef`. -/
structure ResourceRef (D : Type) where
  originalDocumentID : Str
  documentID : Str
  instanceID : Str
  lastModifyDate : Option D
  maskMarkers : Str
  versionID : Str

/-- models/xmp_mm/model.go:58-75 `XmpMM`: the fields used here. -/
structure XmpMM (D : Type) where
  originalDocumentID : Str := []
  documentID : Str := []
  instanceID : Str := []
  versionID : Str := []
  history : List (ResourceEvent D) := []
  versions : List (StVersion D) := []

variable {D : Type}

/-- models/xmp_dm/types.go:42-47 `prefixIfNot` with a slash. -/
def slashed (s : Str) : Str := if hasPrefix s ['/'] then s else '/' :: s

/-- models/xmp_dm/types.go:55-61 `NewPartList` of one string. -/
def newPartList (s : Str) : List Part := [{ Part.zero with path := slashed s }]

/-- models/xmp_dm/types.go:138-140 `PartList.Add`. -/
def partListAdd (x : List Part) (s : Str) : List Part := x ++ [{ Part.zero with path := s }]

namespace XmpMM

/-- models/xmp_mm/model.go:122-124 `AddHistory`. -/
def addHistory (x : XmpMM D) (e : ResourceEvent D) : XmpMM D := { x with history := x.history ++ [e] }

/-- models/xmp_mm/model.go:126-128 `AddVersion`. -/
def addVersion (x : XmpMM D) (v : StVersion D) : XmpMM D := { x with versions := x.versions ++ [v] }

/-- models/xmp_mm/model.go:130-135 `GetLastEvent`; `none` is nil. -/
def lastEvent (x : XmpMM D) : Option (ResourceEvent D) :=
  if x.history.length > 0 then x.history[x.history.length - 1]? else none

/-- models/xmp_mm/model.go:137-142 `GetPreviousVersion`. -/
def previousVersion (x : XmpMM D) : Option (StVersion D) :=
  if x.versions.length > 1 then x.versions[x.versions.length - 2]? else none

/-- models/xmp_mm/model.go:144-149 `GetLastVersion`. -/
def lastVersion (x : XmpMM D) : Option (StVersion D) :=
  if x.versions.length > 0 then x.versions[x.versions.length - 1]? else none

/-- models/xmp_mm/model.go:151-156 `GetPreviousVersionId`. -/
def previousVersionId (x : XmpMM D) : Str := match x.previousVersion with | some v => v.version | none => []

/-- models/xmp_mm/model.go:158-163 `GetLastVersionId`. -/
def lastVersionId (x : XmpMM D) : Str := match x.lastVersion with | some v => v.version | none => []

/-- models/xmp_mm/model.go:165-169 `SetPreviousVersionId`. -/
def setPreviousVersionId (x : XmpMM D) (version : Str) : XmpMM D :=
  if x.versions.length > 0 then
    { x with versions := x.versions.modify (x.versions.length - 1) (fun v => { v with version := version }) }
  else x

/-- models/xmp_mm/model.go:171-189 `SelfResourceRef` (without the fields of the manager and the rendition, which are copied
like the others). -/
def selfRef (x : XmpMM D) (version : Str) : ResourceRef D :=
  { originalDocumentID := x.originalDocumentID, documentID := x.documentID, instanceID := x.instanceID,
    maskMarkers := "None".toList, versionID := version, lastModifyDate := x.lastEvent.map (·.at_) }

/-- models/xmp_mm/model.go:192-217 `AppendVersionHistory`; `agent` is `xmp.Agent`. -/
def appendVersionHistory (agent : Str) (x : XmpMM D) (action modifier changed : Str) (date : D) : XmpMM D :=
  let fresh : StVersion D :=
    { comments := [], event := ⟨action, newPartList changed, x.instanceID, agent, date⟩, modifier := modifier,
      modifyDate := date, version := x.versionID }
  match x.lastVersion with
  | none => x.addVersion fresh
  | some v =>
    if v.version ≠ x.versionID then x.addVersion fresh
    else
      let grown : StVersion D → StVersion D :=
        fun v => { v with event := { v.event with changed := partListAdd v.event.changed changed } }
      { x with versions := x.versions.modify (x.versions.length - 1) grown }

end XmpMM

/-- models/xmp_mm/types.go:74-81 `ResourceRefArray.Index`; `none` is -1. -/
def refIndex (x : List (ResourceRef D)) (did : Str) : Option Nat := x.findIdx? (fun v => v.documentID = did)

/-- models/xmp_mm/types.go:83-88 `ResourceRefArray.DeleteIndex`.  The bounds test lets `len(x)` pass; then the second slice
expression panics. -/
def refDeleteIndex (x : List (ResourceRef D)) (idx : Int) : Res (List (ResourceRef D)) :=
  if idx < 0 ∨ idx > x.length then .ok x
  else if idx.toNat + 1 > x.length then .panic
  else .ok (x.take idx.toNat ++ x.drop (idx.toNat + 1))

end Xmp
