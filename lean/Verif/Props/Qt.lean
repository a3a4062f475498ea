import Verif.Model.Qt
import Verif.Props.Native

/-! C58: the tags of QuickTime files. -/

namespace Xmp.Props

open Xmp Xmp.GoStr

/-! ### Specification -/

/-- The four parts of the metadata. -/
inductive QtPart where
  | udta
  | mdta
  | player
  | proApps
deriving DecidableEq

/-- The tags that are listed for a part. -/
def qtNames : QtPart → List Str
  | .udta => Qt.udtaNames
  | .mdta => Qt.mdtaNames
  | .player => Qt.playerNames
  | .proApps => Qt.proAppsNames

/-- The types of their fields. -/
def qtTys (t : Qt.Types) : QtPart → List Ty
  | .udta => t.udta
  | .mdta => t.mdta
  | .player => t.player
  | .proApps => t.proApps

/-- The struct type of a part. -/
def qtTy (t : Qt.Types) : QtPart → Ty
  | .udta => Qt.udtaTy t
  | .mdta => Qt.mdtaTy t
  | .player => Qt.playerTy t
  | .proApps => Qt.proAppsTy t

section
variable {I D : Type}

/-- A part of a model. -/
def qtPart (x : Qt.Info I D) : QtPart → Option Val
  | .udta => x.udta
  | .mdta => x.mdta
  | .player => x.player
  | .proApps => x.proApps

/-- A model with another part. -/
def qtWith (x : Qt.Info I D) (v : Option Val) : QtPart → Qt.Info I D
  | .udta => { x with udta := v }
  | .mdta => { x with mdta := v }
  | .player => { x with player := v }
  | .proApps => { x with proApps := v }

/-- The parts have the types of the package. -/
def QtTyped (t : Qt.Types) (x : Qt.Info I D) : Prop := ∀ p v, qtPart x p = some v → HasTy (qtTy t p) v

/-- A field of a part, which has its zero value if there is no such part. -/
def qtField (t : Qt.Types) (x : Qt.Info I D) (p : QtPart) (i : Nat) : Val :=
  match (qtPart x p).getD (qtTy t p).zero with
  | .struct vals => vals[i]?.getD .nil
  | _ => .nil

end

/-- The copyright sign in UTF-8. -/
def copySign : Str := ['Â', '©']

/-- `tag` is listed as field `i` of a part, and does not begin with the copyright sign. -/
def QtTag (p : QtPart) (tag : Str) (i : Nat) : Prop := (qtNames p)[i]? = some tag ∧ ¬ copySign <+: tag

/-- Zero values count as empty.  (Numbers, texts, dates and all other types of the package.) -/
def ZeroEmpty (t : Qt.Types) : Prop := ∀ p, ∀ ty ∈ qtTys t p, isEmptyValue ty ty.zero = true

/-- There is a type for every listed tag. -/
def QtSized (t : Qt.Types) : Prop := ∀ p, (qtTys t p).length = (qtNames p).length

/-! ### The tables -/

theorem qt_names_udta : ∀ n ∈ Qt.udtaNames, (n.length = 4 ∧ ¬ copySign <+: n) ∨ (n.length = 5 ∧ copySign <+: n) := by
  unfold copySign
  decide +kernel

theorem qt_names_mdta : ∀ n ∈ Qt.mdtaNames, 4 < n.length ∧ hasPrefix n Qt.playerPrefix = false ∧
    hasPrefix n Qt.mdtaPrefix = true := by decide +kernel

theorem qt_names_player : ∀ n ∈ Qt.playerNames, Qt.playerPrefix.length < n.length ∧ hasPrefix n Qt.playerPrefix = true := by
  decide +kernel

theorem qt_names_proApps : ∀ n ∈ Qt.proAppsNames, Qt.proAppsPrefix.length < n.length ∧ hasPrefix n Qt.playerPrefix = false ∧
    hasPrefix n Qt.mdtaPrefix = false ∧ hasPrefix n Qt.proAppsPrefix = true := by decide +kernel

theorem qt_tagNames_udta : TagNames (Qt.udtaNames.map Qt.plainInfo) := by
  constructor
  · unfold FieldNameOk; decide +kernel
  · decide +kernel

theorem qt_tagNames_mdta : TagNames (Qt.mdtaNames.map Qt.plainInfo ++ [Qt.extensionInfo]) := by
  constructor
  · unfold FieldNameOk; decide +kernel
  · decide +kernel

theorem qt_tagNames_player : TagNames (Qt.playerNames.map Qt.plainInfo) := by
  constructor
  · unfold FieldNameOk; decide +kernel
  · decide +kernel

theorem qt_tagNames_proApps : TagNames (Qt.proAppsNames.map Qt.plainInfo) := by
  constructor
  · unfold FieldNameOk; decide +kernel
  · decide +kernel

end Xmp.Props
