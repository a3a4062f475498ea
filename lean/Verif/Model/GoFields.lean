import Verif.Model.GoStr

/-! Model of `strings.Fields` and `bytes.Fields`. -/

namespace Xmp.GoStr

/-- A word that has ended. -/
def flush (cur : Str) : List Str := if cur = [] then [] else [cur]

/-- The loop of `strings.Fields`: `skip` bytes of a space are left, `cur` is the current word. -/
def fieldsAux : Nat → Str → Str → List Str
  | _, cur, [] => flush cur
  | skip + 1, cur, _ :: cs => fieldsAux skip cur cs
  | 0, cur, c :: cs =>
    match spaces.find? (fun w => hasPrefix (c :: cs) w) with
    | some w => flush cur ++ fieldsAux (w.length - 1) [] cs
    | none => fieldsAux 0 (cur ++ [c]) cs

/-- `strings.Fields(s)` and `bytes.Fields(s)`: the maximal runs without spaces (`unicode.IsSpace`). -/
def fields (s : Str) : List Str := fieldsAux 0 [] s

end Xmp.GoStr
