import Verif.Model.TypedXmp

/-! Reading of a URI. -/

namespace Xmp

/-- xmp/xmp_types.go:452-463 `Uri.UnmarshalXMP`. -/
def uriUnmarshal (d : Dec) (dv : Version) (node : Node) : Res Str :=
  match node.getAttr "rdf".toList "resource".toList with
  | a :: _ => .ok a.value
  | [] =>
    match decodeElement d dv node .str (.str []) with
    | .ok (.str u) => .ok u
    | .ok _ => .err
    | .err => .err
    | .panic => .panic

end Xmp
