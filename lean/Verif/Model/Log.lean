import Verif.Model.GoStr

/-! The default logger of the package (xmp/log.go) with a model of `fmt.Sprintf` for texts. -/

namespace Xmp.Log

open GoStr

/-- What `fmt` says about arguments that are left over (Go standard library, fmt/print.go `doPrintf`); all arguments are texts. -/
def extraText : List Str → Str
  | [] => []
  | args => "%!(EXTRA ".toList ++ join ", ".toList (args.map fun a => "string=".toList ++ a) ++ ")".toList

/-- `fmt.Sprintf` for formats with the verbs `%s`, `%v` and `%%` and with texts as arguments (Go standard library, trusted
description).  `none` for formats with other verbs, flags or widths, which are not modelled. -/
def sprintf : Str → List Str → Option Str
  | [], args => some (extraText args)
  | '%' :: [], args => some ("%!(NOVERB)".toList ++ extraText args)
  | '%' :: c :: rest, args =>
    if c = '%' then (sprintf rest args).map ('%' :: ·)
    else if c = 's' ∨ c = 'v' then
      match args with
      | a :: as => (sprintf rest as).map (a ++ ·)
      | [] => (sprintf rest []).map ("%!".toList ++ [c] ++ "(MISSING)".toList ++ ·)
    else none
  | c :: rest, args => (sprintf rest args).map (c :: ·)

/-- xmp/log.go:39-45: the levels debug, info, warning, error are 1, 2, 3, 4. -/
inductive Level where
  | debug | info | warning | error
  deriving DecidableEq, Repr

/-- xmp/log.go:39-45, the number of a level. -/
def Level.num : Level → Int
  | .debug => 1
  | .info => 2
  | .warning => 3
  | .error => 4

/-- xmp/log.go:47-60 `LogLevelType.Prefix`. -/
def levelPrefix (l : Int) : Str :=
  if l = 1 then "Debug:".toList
  else if l = 2 then "Info:".toList
  else if l = 3 then "Warn:".toList
  else if l = 4 then "Error:".toList
  else itoa l

/-- xmp/log.go:81-86 `defaultLogger`, with `log.Printf` of the standard library, which ends the text with a line feed if there is none.
The time stamp that `log` puts in front is left out. -/
def defaultLogger (format : Str) (args : List Str) : Option Str :=
  let f := if hasSuffix format "\n".toList then format else format ++ "\n".toList
  (sprintf f args).map fun t => if hasSuffix t "\n".toList then t else t ++ "\n".toList

/-- xmp/log.go:88-92 `output`. -/
def output (lvl : Level) (v : List Str) : Option Str := defaultLogger "%s".toList (levelPrefix lvl.num :: v)

/-- xmp/log.go:94-99 `outputf`. -/
def outputf (lvl : Level) (s : Str) (v : List Str) : Option Str := defaultLogger ("%s ".toList ++ s) (levelPrefix lvl.num :: v)

/-- The calls that a program may make: `SetLogLevel` (xmp/log.go:72-74), and the methods `Error`, `Warn`, `Info`, `Debug` and
`Errorf`, `Warnf`, `Infof`, `Debugf` of the default logger (xmp/log.go:101-155).  `SetLogger` is not modelled. -/
inductive Call where
  | setLevel (l : Int)
  | plain (lvl : Level) (v : List Str)
  | format (lvl : Level) (s : Str) (v : List Str)

/-- The package variable `logLevel` and what was logged; a text that is not modelled is `none`. -/
structure State where
  level : Int
  lines : List (Option Str)

/-- xmp/log.go:62-65. -/
def State.init : State := ⟨3, []⟩

/-- One call, xmp/log.go:72-74, 101-155. -/
def step (st : State) : Call → State
  | .setLevel l => { st with level := l }
  | .plain lvl v => if st.level > lvl.num then st else { st with lines := st.lines ++ [output lvl v] }
  | .format lvl s v => if st.level > lvl.num then st else { st with lines := st.lines ++ [outputf lvl s v] }

/-- A sequence of calls. -/
def run (cs : List Call) : State := cs.foldl step .init

end Xmp.Log
