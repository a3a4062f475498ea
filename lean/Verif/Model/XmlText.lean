import Verif.Model.Xml

/-! Model of writing node trees as XML and reading them, xmp/node.go:339-390, on the level of the tokens of
`encoding/xml`.  Names and texts are those before escaping; how they are written as bytes and read back is modelled in
Model/XmlBytes.lean. -/

namespace Xmp

open GoStr

/-- What stands inside of an XML element: an element with the name and attributes as written, a piece of character
data (one `xml.CharData` token; a CDATA section is a token of its own), or a comment, processing instruction or
directive. -/
inductive Xml where
  | elem (name : Str) (attrs : List (Str × Str)) (content : List Xml)
  | text (s : Str)
  | other

namespace Xml

/-- Line break and indentation before an element or end tag at some depth, as `encoding/xml` writes it after
`Indent(prefix, indent)`; `none` if `Indent` was not called or both are empty. -/
def blanks (ind : Option (Str × Str)) (depth : Nat) : Str :=
  match ind with
  | none => []
  | some (pre, indent) => '\n' :: pre ++ (List.replicate depth indent).flatten

/-- A token for character data, none for the empty string. -/
def chunk (s : Str) : List Xml := if s = [] then [] else [.text s]

/-- The children of an element with the blanks before each; character data before a child goes into the same token. -/
def layout (ind : Option (Str × Str)) (depth : Nat) (lead : Str) : List Xml → List Xml
  | [] => chunk (lead ++ blanks ind depth)
  | x :: xs => chunk (lead ++ blanks ind (depth + 1)) ++ x :: layout ind depth [] xs

mutual
/-- xmp/node.go:339-365 `MarshalXML` of a node without model, at some depth.  A node without a name is left out, with
its children.  Only names without `Space` are meant; attributes without a name are left out by `encoding/xml`. -/
def ofNode (ind : Option (Str × Str)) (depth : Nat) : Node → List Xml
  | .mk n a v l =>
    if n.loc = [] then []
    else
      let kids := ofNodes ind (depth + 1) l
      [.elem n.loc ((a.filter (fun x => x.name.loc ≠ [])).map (fun x => (x.name.loc, x.value)))
        (if kids.isEmpty then chunk v else layout ind depth v kids)]
/-- The children. -/
def ofNodes (ind : Option (Str × Str)) (depth : Nat) : List Node → List Xml
  | [] => []
  | x :: xs => ofNode ind depth x ++ ofNodes ind depth xs
end

/-- The value after the tokens of an element (xmp/node.go:376-377): every piece of character data replaces it. -/
def value : List Xml → Str → Str
  | [], v => v
  | .text s :: xs, _ => value xs (trimSpace s)
  | _ :: xs, v => value xs v

mutual
/-- xmp/node.go:367-390 `UnmarshalXML` of an element; `uri` is the prefix binding in scope.  (Declarations on inner
elements are not followed.) -/
def toNode (uri : Str → Str) : Xml → List Node
  | .elem n a c =>
    [.mk (reparseName uri ⟨[], n⟩) (a.map (fun x => ⟨reparseName uri ⟨[], x.1⟩, x.2⟩)) (value c []) (toNodes uri c)]
  | _ => []
/-- The child elements. -/
def toNodes (uri : Str → Str) : List Xml → List Node
  | [] => []
  | x :: xs => toNode uri x ++ toNodes uri xs
end

/-- The namespace of the prefix `xml`. -/
def xmlUrl : Str := "http://www.w3.org/XML/1998/namespace".toList

/-- The prefixes that `encoding/xml` knows without a declaration: `xml`; any other prefix stands for itself. -/
def baseScope (p : Str) : Str := if p = "xml".toList then xmlUrl else p

/-- The effect of an attribute on the binding of prefixes: `xmlns:p="u"` binds `p`.  The prefixes `xml` and `xmlns`
can not be bound. -/
def declare (x : Str × Str) (uri : Str → Str) : Str → Str :=
  if hasPrefix x.1 "xmlns:".toList then
    fun p => if p = x.1.drop 6 ∧ p ≠ "xml".toList ∧ p ≠ "xmlns".toList then x.2 else uri p
  else uri

/-- The binding inside of an element with these attributes. -/
def scope (a : List (Str × Str)) (uri : Str → Str) : Str → Str := a.foldl (fun u x => declare x u) uri

mutual
/-- xmp/node.go:367-390 `UnmarshalXML` of an element, with declarations of prefixes on any element.  Default
namespaces (`xmlns="u"`) are not covered. -/
def read (uri : Str → Str) : Xml → List Node
  | .elem n a c =>
    [.mk (reparseName (scope a uri) ⟨[], n⟩) (a.map (fun x => ⟨reparseName (scope a uri) ⟨[], x.1⟩, x.2⟩)) (value c [])
      (reads (scope a uri) c)]
  | _ => []
/-- The child elements. -/
def reads (uri : Str → Str) : List Xml → List Node
  | [] => []
  | x :: xs => read uri x ++ reads uri xs
end

end Xml
end Xmp
