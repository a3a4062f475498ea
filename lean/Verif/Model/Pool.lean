import Verif.Model.Node

/-! Model of the node pool (xmp/node.go:25-136). -/

namespace Xmp

/-- Contents of a node object in memory; children are object identities, the model pointer is a number. -/
structure NodeObj where
  name : QName := ⟨[], []⟩
  attrs : List Attr := []
  model : Option Nat := none
  value : Str := []
  nodes : List Nat := []
deriving DecidableEq

/-- The node objects and the pool: xmp/node.go:25-29.  `pool` is the buffered channel `nodePool` of
capacity `cap` (5000 in the code), oldest entry first; `next` counts the objects created so far and is
the identity of the next one.  The counters are those of line 27; their increments are not atomic in
the code, so they are meaningful for one goroutine only. -/
structure Heap where
  obj : Nat → NodeObj := fun _ => {}
  next : Nat := 0
  cap : Nat := 5000
  pool : List Nat := []
  allocs : Nat := 0
  frees : Nat := 0
  hits : Nat := 0
  returns : Nat := 0

namespace Heap

/-- Assignment to the fields of one object. -/
def write (h : Heap) (i : Nat) (o : NodeObj) : Heap := { h with obj := fun j => if j = i then o else h.obj j }

/-- xmp/node.go:79-101 `NewNode`: the object and the new state. -/
def newNode (h : Heap) (name : QName) : Nat × Heap :=
  match h.pool with
  | i :: rest =>
    (i, { h with pool := rest, hits := h.hits + 1 }.write i
      { h.obj i with name := name, attrs := [], nodes := [], model := none, value := [] })
  | [] => (h.next, { h with next := h.next + 1, allocs := h.allocs + 1 }.write h.next { name := name })

/-- xmp/node.go:107-117: blank the object and return it to the pool. -/
def release (h : Heap) (i : Nat) : Heap :=
  let h := h.write i {}
  if h.pool.length < h.cap then { h with pool := h.pool ++ [i], returns := h.returns + 1 }
  else { h with frees := h.frees + 1 }

/-- xmp/node.go:103-118 `Close`.  The first argument bounds the recursion (a cyclic tree would recurse
for ever in the code). -/
def close : Nat → Heap → Nat → Heap
  | 0, h, _ => h
  | f + 1, h, i => release ((h.obj i).nodes.foldl (close f) h) i

mutual
/-- xmp/node.go:120-128 `copyNode`. -/
def copyNode : Nat → Heap → Nat → Nat × Heap
  | 0, h, i => (i, h)
  | f + 1, h, x =>
    let r := newNode h (h.obj x).name
    let n := r.1
    let h1 := r.2.write n { r.2.obj n with value := (r.2.obj x).value, model := (r.2.obj x).model, attrs := (r.2.obj x).attrs }
    let l := copyNodes f h1 (h1.obj x).nodes
    (n, l.2.write n { l.2.obj n with nodes := l.1 })
/-- xmp/node.go:130-136 `copyNodes`. -/
def copyNodes : Nat → Heap → List Nat → List Nat × Heap
  | 0, h, l => (l, h)
  | _ + 1, h, [] => ([], h)
  | f + 1, h, v :: vs =>
    let r := copyNode f h v
    let rs := copyNodes f r.2 vs
    (r.1 :: rs.1, rs.2)
end

end Heap
end Xmp
