import Verif.Model.Ixml
import Verif.Model.Codec
import Verif.Model.XmlText

/-!
# iXML chunks as XML (models/ixml)

An iXML chunk is read by `ParseXML` and written by `xml.Marshal`.  Both use the reflection of Go's `encoding/xml`, which is not
part of the project; what it does with the types of models/ixml is described here, on the level of elements and pieces of
character data (`Xml`).  The fields `XMLName` are not described.
-/

namespace Xmp.Ixml

open Xmp Xmp.GoStr Xmp.Codec

/-! ### Types and values -/

/-- A field of a struct as `encoding/xml` sees it: the name of the element, the option `omitempty`, and the options `chardata` and
`any`, whose fields have no name. -/
structure XField where
  name : Str
  omitempty : Bool := false
  chardata : Bool := false
  any : Bool := false
deriving DecidableEq

/-- The types of the fields: strings (and types of strings without methods), numbers of some bits, `Bool` (models/ixml/types.go:26),
lists of texts with `MarshalText` and `UnmarshalText` (models/ixml/enum.go:35, 128, 208), `TimecodeFlag` (models/ixml/enum.go:415),
`xmp.Rational`, structs, pointers, the lists `SyncPointList` and `TrackList` (models/ixml/types.go:61, 194) with the names of the
elements for an item and for the number of items, and `xmp.NamedExtensionArray`. -/
inductive XTy where
  | str
  | int (bits : Nat)
  | bool
  | texts
  | flag
  | rat
  | record (fs : List XField) (ts : List XTy)
  | ptr (t : XTy)
  | items (item count : Str) (t : XTy)
  | exts

/-- Values. -/
inductive XVal where
  | str (s : Str)
  | int (i : Int)
  | bool (b : Bool)
  | texts (l : List Str)
  | flag (s : Str)
  | rat (r : Rational)
  | record (vs : List XVal)
  | nil
  | ptr (v : XVal)
  | items (l : List XVal)
  | exts (l : List Node)

mutual
/-- The zero value of a Go type. -/
def XTy.zero : XTy → XVal
  | .str => .str []
  | .int _ => .int 0
  | .bool => .bool false
  | .texts => .texts []
  | .flag => .flag []
  | .rat => .rat ⟨0, 0⟩
  | .record _ ts => .record (XTy.zeros ts)
  | .ptr _ => .nil
  | .items _ _ _ => .items []
  | .exts => .exts []
/-- The zero values of several types. -/
def XTy.zeros : List XTy → List XVal
  | [] => []
  | t :: ts => t.zero :: XTy.zeros ts
end

/-- `isEmptyValue` of `encoding/xml`: structs are never empty. -/
def XVal.isEmpty : XVal → Bool
  | .str s => decide (s = [])
  | .int i => decide (i = 0)
  | .bool b => !b
  | .texts l => decide (l = [])
  | .flag s => decide (s = [])
  | .nil => true
  | .items l => l.isEmpty
  | .exts l => l.isEmpty
  | _ => false

/-! ### Tokens -/

/-- The tokens of `xml.Decoder.Token` inside of an element. -/
inductive Tok where
  | start (name : Str) (attrs : List (Str × Str))
  | fin
  | text (s : Str)
  | other

mutual
/-- The tokens of an element or a piece of character data. -/
def toks : Xml → List Tok
  | .elem n a c => .start n a :: (toksOf c ++ [.fin])
  | .text s => [.text s]
  | .other => [.other]
/-- The tokens of the content of an element. -/
def toksOf : List Xml → List Tok
  | [] => []
  | x :: xs => toks x ++ toksOf xs
end

/-- The tokens up to the end of the element in which the decoder is, and those after it; the number counts open inner elements.
`xml.Decoder.Skip` drops the first part. -/
def upToFin : Nat → List Tok → List Tok × List Tok
  | _, [] => ([], [])
  | 0, .fin :: ts => ([], ts)
  | d + 1, .fin :: ts => let r := upToFin d ts; (.fin :: r.1, r.2)
  | d, .start n a :: ts => let r := upToFin (d + 1) ts; (.start n a :: r.1, r.2)
  | d, t :: ts => let r := upToFin d ts; (t :: r.1, r.2)

/-- What stands in an element, from its tokens, which are processed from the last one; the list has the content of the elements
that are open. -/
def build : List Tok → List (List Xml)
  | [] => [[]]
  | .fin :: ts => [] :: build ts
  | .start n a :: ts =>
    match build ts with
    | c :: p :: r => (.elem n a c :: p) :: r
    | r => r
  | .text s :: ts =>
    match build ts with
    | c :: r => (.text s :: c) :: r
    | [] => []
  | .other :: ts =>
    match build ts with
    | c :: r => (.other :: c) :: r
    | [] => []

/-- The content of an element. -/
def contentOf (ts : List Tok) : List Xml := (build ts).headD []

theorem upToFin_length (ts : List Tok) : ∀ d, (upToFin d ts).2.length ≤ ts.length := by
  induction ts with
  | nil => intro d; simp [upToFin]
  | cons t ts ih =>
    intro d
    cases t with
    | start n a => simp only [upToFin, List.length_cons]; have := ih (d + 1); omega
    | fin =>
      cases d with
      | zero => simp [upToFin]
      | succ d => simp only [upToFin, List.length_cons]; have := ih d; omega
    | text s => simp only [upToFin, List.length_cons]; have := ih d; omega
    | other => simp only [upToFin, List.length_cons]; have := ih d; omega

/-- The name of an element without its prefix. -/
def localName (n : Str) : Str := (reparseName id ⟨[], n⟩).loc

/-- models/ixml/types.go:72-96 and 196-220, the loops of `SyncPointList.UnmarshalXML` and `TrackList.UnmarshalXML`: the elements
with the name of an item are decoded by `dec` and appended, other elements are skipped, and the loop ends at the end of the list.
`none` is an error, also when the tokens end before. -/
def listLoop {α : Type} (item : Str) (dec : Str → List (Str × Str) → List Xml → Option α) : List Tok → List α → Option (List α)
  | [], _ => none
  | .start n a :: ts, out =>
    if localName n ≠ item then listLoop item dec (upToFin 0 ts).2 out
    else
      match dec n a (contentOf (upToFin 0 ts).1) with
      | none => none
      | some v => listLoop item dec (upToFin 0 ts).2 (out ++ [v])
  | .fin :: _, out => some out
  | .text _ :: ts, out => listLoop item dec ts out
  | .other :: ts, out => listLoop item dec ts out
termination_by ts => ts.length
decreasing_by
  all_goals simp_wf
  all_goals have := upToFin_length ts 0; omega

/-! ### Reading -/

/-- The character data of an element, without that of inner elements. -/
def charData : List Xml → Str
  | [] => []
  | .text s :: xs => s ++ charData xs
  | _ :: xs => charData xs

/-- The field for an element: the first one of this name, otherwise the one with the option `any`. -/
def findField (fs : List XField) (name : Str) : Option Nat :=
  match fs.findIdx? (fun f => !f.chardata && !f.any && decide (f.name = name)) with
  | some i => some i
  | none => fs.findIdx? (·.any)

/-- The effect of `encoding/xml` on a number: blanks around it are dropped, nothing at all stands for zero. -/
def intOf (bits : Nat) (s : Str) : Option Int := if s = [] then some 0 else parseInt bits (trimSpace s)

mutual
/-- Reading an element into a value that has the given contents before; `dec` is how rationals with a point are read
(`Codec.ratParse`).  `none` is an error. -/
def unm (dec : Str → Option Rational) : XTy → Str → List (Str × Str) → List Xml → XVal → Option XVal
  | .str, _, _, c, _ => some (.str (charData c))
  | .int b, _, _, c, _ => (intOf b (charData c)).map .int
  | .bool, _, _, c, _ => (boolParse (charData c)).map .bool
  | .texts, _, _, c, _ => some (.texts (listParse (charData c)))
  | .flag, _, _, c, _ => (flagParse (charData c)).map .flag
  | .rat, _, _, c, v =>
    match v with
    | .rat r => (ratParse dec r (charData c)).map .rat
    | _ => none
  | .record fs ts, _, _, c, v =>
    match v with
    | .record vs =>
      match c.foldlM (fun vs x =>
          match x with
          | .elem n a k =>
            match findField fs (localName n) with
            | some i =>
              match vs[i]? with
              | some w => (unmAt dec ts i n a k w).map (fun y => vs.set i y)
              | none => none
            | none => some vs
          | _ => some vs) vs with
      | some vs =>
        match fs.findIdx? (·.chardata) with
        | some i => some (.record (vs.set i (.str (charData c))))
        | none => some (.record vs)
      | none => none
    | _ => none
  | .ptr t, n, a, c, v =>
    match v with
    | .ptr w => (unm dec t n a c w).map .ptr
    | _ => (unm dec t n a c t.zero).map .ptr
  | .items item _ t, _, _, c, v =>
    match v with
    | .items l => (listLoop item (fun n a k => unm dec t n a k t.zero) (toksOf c ++ [.fin]) l).map .items
    | _ => none
  | .exts, n, a, c, v =>
    match v with
    | .exts l => some (.exts (l ++ Xml.read Xml.baseScope (.elem n a c)))
    | _ => none
/-- Reading an element into the field at a position. -/
def unmAt (dec : Str → Option Rational) : List XTy → Nat → Str → List (Str × Str) → List Xml → XVal → Option XVal
  | [], _, _, _, _, _ => none
  | t :: _, 0, n, a, c, v => unm dec t n a c v
  | _ :: ts, i + 1, n, a, c, v => unmAt dec ts i n a c v
end

/-! ### Writing -/

/-- The character data of a field with the option `chardata`. -/
def charText : XVal → List Xml
  | .str s => Xml.chunk s
  | _ => []

mutual
/-- Writing a value as an element of the given name.  Numbers, truth values and rationals always have a text; a nil pointer and
an empty list (models/ixml/types.go:98-101, 222-225) are left out; the number of items comes first (models/ixml/types.go:105-108,
229-232); extensions have their own names. -/
def mar : XTy → Str → XVal → List Xml
  | .record fs ts, name, .record vs => [.elem name [] (marFields ts fs vs)]
  | .ptr t, name, .ptr v => mar t name v
  | .items item count t, name, .items l =>
    if l.isEmpty then []
    else [.elem name [] (.elem count [] [.text (itoa l.length)] :: l.flatMap (fun v => mar t item v))]
  | .exts, _, .exts l => Xml.ofNodes none 0 l
  | _, name, .str s => [.elem name [] (Xml.chunk s)]
  | _, name, .int i => [.elem name [] [.text (itoa i)]]
  | _, name, .bool b => [.elem name [] [.text (boolText b)]]
  | _, name, .texts l => [.elem name [] (Xml.chunk (listText l))]
  | _, name, .flag s => [.elem name [] (Xml.chunk s)]
  | _, name, .rat r => [.elem name [] [.text r.text]]
  | _, _, _ => []
/-- The fields of a struct in their order. -/
def marFields : List XTy → List XField → List XVal → List Xml
  | t :: ts, f :: fs, v :: vs =>
    (if f.omitempty && v.isEmpty then []
      else if f.chardata then charText v
      else mar t f.name v) ++ marFields ts fs vs
  | _, _, _ => []
end

/-! ### The types of models/ixml -/

/-- A field with `omitempty`. -/
def opt (name : String) : XField := { name := name.toList, omitempty := true }
/-- A field without options. -/
def req (name : String) : XField := { name := name.toList }

/-- models/ixml/types.go:51-59 `SyncPoint`. -/
def syncPointTy : XTy := .record
  [req "SYNC_POINT_TYPE", req "SYNC_POINT_FUNCTION", opt "SYNC_POINT_COMMENT", opt "SYNC_POINT_LOW", opt "SYNC_POINT_HIGH",
    opt "SYNC_POINT_EVENT_DURATION"]
  [.str, .str, .str, .int 64, .int 64, .int 64]

/-- models/ixml/types.go:132-145 `Speed`. -/
def speedTy : XTy := .record
  [opt "NOTE", opt "MASTER_SPEED", opt "CURRENT_SPEED", opt "TIMECODE_RATE", opt "TIMECODE_FLAG", opt "FILE_SAMPLE_RATE",
    opt "AUDIO_BIT_DEPTH", opt "DIGITIZER_SAMPLE_RATE", opt "TIMESTAMP_SAMPLES_SINCE_MIDNIGHT_HI",
    opt "TIMESTAMP_SAMPLES_SINCE_MIDNIGHT_LO", opt "TIMESTAMP_SAMPLE_RATE"]
  [.str, .rat, .rat, .rat, .flag, .rat, .int 64, .int 64, .int 64, .int 64, .int 64]

/-- models/ixml/types.go:171-176 `History`. -/
def historyTy : XTy := .record [opt "ORIGINAL_FILENAME", opt "PARENT_FILENAME", opt "PARENT_UID"] [.str, .str, .str]

/-- models/ixml/types.go:178-184 `FileSet`. -/
def fileSetTy : XTy := .record [opt "TOTAL_FILES", opt "FAMILY_UID", opt "FAMILY_NAME", opt "FILE_SET_INDEX"]
  [.int 64, .str, .str, .str]

/-- models/ixml/types.go:287-291 `DefaultMix`. -/
def defaultMixTy : XTy := .record [opt "LEVEL", opt "PAN"] [.str, .str]

/-- models/ixml/types.go:186-193 `Track`. -/
def trackTy : XTy := .record
  [opt "CHANNEL_INDEX", opt "INTERLEAVE_INDEX", opt "NAME", opt "FUNCTION", opt "DEFAULT_MIX"]
  [.int 64, .int 64, .str, .str, defaultMixTy]

/-- models/ixml/types.go:257-275 `UserData`. -/
def userTy : XTy := .record
  [{ name := [], chardata := true }, opt "FULL_TITLE", opt "DIRECTOR_NAME", opt "PRODUCTION_NAME", opt "PRODUCTION_ADDRESS",
    opt "PRODUCTION_EMAIL", opt "PRODUCTION_PHONE", opt "PRODUCTION_NOTE", opt "SOUND_MIXER_NAME", opt "SOUND_MIXER_ADDRESS",
    opt "SOUND_MIXER_EMAIL", opt "SOUND_MIXER_PHONE", opt "SOUND_MIXER_NOTE", opt "AUDIO_RECORDER_MODEL",
    opt "AUDIO_RECORDER_SERIAL_NUMBER", opt "AUDIO_RECORDER_FIRMWARE"]
  (List.replicate 16 .str)

/-- models/ixml/types.go:277-284 `Location`. -/
def locationTy : XTy := .record
  [opt "LOCATION_NAME", opt "LOCATION_GPS", opt "LOCATION_ALTITUDE", opt "LOCATION_TYPE", opt "LOCATION_TIME"]
  [.str, .str, .str, .texts, .texts]

/-- models/ixml/model.go:70-95 `IXML`, the names of the elements. -/
def ixmlFields : List XField :=
  [req "IXML_VERSION", opt "PROJECT", opt "SCENE", opt "TAPE", opt "TAKE", opt "TAKE_TYPE", opt "NO_GOOD", opt "FALSE_START",
    opt "WILD_TRACK", opt "PRE_RECORD_SAMPLECOUNT", opt "CIRCLED", opt "FILE_UID", opt "UBITS", opt "NOTE", opt "SYNC_POINT_LIST",
    opt "SPEED", opt "HISTORY", opt "FILE_SET", opt "TRACK_LIST", opt "USER", opt "LOCATION", { name := [], any := true }]

/-- models/ixml/model.go:70-95 `IXML`, the types of the fields. -/
def ixmlTys : List XTy :=
  [.str, .str, .str, .str, .int 64, .texts, .bool, .bool, .bool, .int 64, .bool, .str, .str, .str,
    .items "SYNC_POINT".toList "SYNC_POINT_COUNT".toList syncPointTy, .ptr speedTy, .ptr historyTy, .ptr fileSetTy,
    .items "TRACK".toList "TRACK_COUNT".toList trackTy, .ptr userTy, .ptr locationTy, .exts]

/-- models/ixml/model.go:70-95 `IXML`. -/
def ixmlTy : XTy := .record ixmlFields ixmlTys

/-! ### Chunks -/

/-- models/ixml/model.go:198-215 `v13_to_v14` on the list of sync points. -/
def upgradePoints (pre : Int) (l : List XVal) : List XVal :=
  match l.findIdx? (fun p => match p with
      | .record (_ :: .str f :: _) => decide (f = preRecord)
      | _ => false) with
  | some i => l.modify i (fun p => match p with
      | .record (t :: f :: c :: _ :: r) => .record (t :: f :: c :: .int pre :: r)
      | p => p)
  | none => l ++ [.record [.str "RELATIVE".toList, .str preRecord,
      .str "upgrade from deprecated property root.PRE_RECORD_SAMPLECOUNT".toList, .int pre, .int 0, .int 0]]

/-- models/ixml/model.go:169-215 `upgrade` on all fields. -/
def upgradeFields : List XVal → List XVal
  | [ver, proj, scene, tape, take, .texts tt, .bool ng, .bool fs, .bool wt, .int pre, circ, uid, ub, note, .items sp, speed, hist,
      fset, tracks, user, loc, ext] =>
    let sp' := if 0 < pre then upgradePoints pre sp else sp
    let pre' := if 0 < pre then 0 else pre
    let tt := if ng then add tt "NO_GOOD".toList else tt
    let tt := if fs then add tt "FALSE_START".toList else tt
    let tt := if wt then add tt "WILD_TRACK".toList else tt
    let user' := match user with
      | .ptr (.record (.str c :: r)) => XVal.ptr (.record (.str (trimSpace c) :: r))
      | u => u
    [ver, proj, scene, tape, take, .texts tt, .bool false, .bool false, .bool false, .int pre', circ, uid, ub, note, .items sp', speed,
      hist, fset, tracks, user', loc, ext]
  | vs => vs

/-- models/ixml/model.go:151-167 `ParseXML` and `UnmarshalText` of the root element of a text; what was there before is replaced.
`encoding/xml` refuses another name than that of the tag of `XMLName`. -/
def parseChunk (dec : Str → Option Rational) : Xml → Option (List XVal)
  | .elem n a c =>
    if localName n = "BWFXML".toList then
      match unm dec ixmlTy n a c ixmlTy.zero with
      | some (.record vs) => some (upgradeFields vs)
      | _ => none
    else none
  | _ => none

/-- `xml.Marshal` of a chunk. -/
def printChunk (vs : List XVal) : List Xml := mar ixmlTy "BWFXML".toList (.record vs)

end Xmp.Ixml
