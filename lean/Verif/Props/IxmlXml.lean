import Verif.Model.IxmlXml
import Verif.Props.Ixml
import Verif.Props.Rational
import Verif.Props.DocRead
import Verif.Props.TypedXmp

/-!
# C77: iXML chunks are read completely
-/

namespace Xmp.Props

open Xmp Xmp.GoStr Xmp.Ixml Xmp.Codec

/-! ### Tokens -/

mutual
theorem build_toks : ∀ (x : Xml) (ts : List Tok) (c : List Xml) (r : List (List Xml)), build ts = c :: r →
    build (toks x ++ ts) = (x :: c) :: r
  | .elem n a k, ts, c, r, h => by
    have h1 : build (.fin :: ts) = [] :: c :: r := by rw [build, h]
    have h2 := build_toksOf k (.fin :: ts) [] (c :: r) h1
    rw [toks, List.cons_append, List.append_assoc, List.singleton_append, build, h2, List.append_nil]
  | .text s, ts, c, r, h => by simp [toks, build, h]
  | .other, ts, c, r, h => by simp [toks, build, h]
theorem build_toksOf : ∀ (l : List Xml) (ts : List Tok) (c : List Xml) (r : List (List Xml)), build ts = c :: r →
    build (toksOf l ++ ts) = (l ++ c) :: r
  | [], ts, c, r, h => by simpa [toksOf] using h
  | x :: l, ts, c, r, h => by
    rw [toksOf, List.append_assoc, build_toks x _ _ _ (build_toksOf l ts c r h), List.cons_append]
end

theorem contentOf_toksOf (c : List Xml) : contentOf (toksOf c) = c := by
  have := build_toksOf c [] [] [] rfl
  rw [List.append_nil, List.append_nil] at this
  rw [contentOf, this]
  rfl

mutual
theorem upToFin_toks : ∀ (x : Xml) (d : Nat) (ts : List Tok),
    upToFin d (toks x ++ ts) = (toks x ++ (upToFin d ts).1, (upToFin d ts).2)
  | .elem n a k, d, ts => by
    rw [toks, List.cons_append, List.append_assoc, List.singleton_append, upToFin, upToFin_toksOf k (d + 1), upToFin]
    simp
  | .text s, d, ts => by cases d <;> simp [toks, upToFin]
  | .other, d, ts => by cases d <;> simp [toks, upToFin]
theorem upToFin_toksOf : ∀ (l : List Xml) (d : Nat) (ts : List Tok),
    upToFin d (toksOf l ++ ts) = (toksOf l ++ (upToFin d ts).1, (upToFin d ts).2)
  | [], d, ts => by simp [toksOf]
  | x :: l, d, ts => by rw [toksOf, List.append_assoc, upToFin_toks x, upToFin_toksOf l, List.append_assoc]
end

theorem upToFin_content (c : List Xml) (ts : List Tok) : upToFin 0 (toksOf c ++ .fin :: ts) = (toksOf c, ts) := by
  rw [upToFin_toksOf, upToFin, List.append_nil]

/-! ### Lists -/

/-- The child elements of some local name, in their order. -/
def kidsNamed (item : Str) : List Xml → List (Str × List (Str × Str) × List Xml)
  | [] => []
  | .elem n a c :: xs => if localName n = item then (n, a, c) :: kidsNamed item xs else kidsNamed item xs
  | _ :: xs => kidsNamed item xs

/-- **C77.** A list of sync points or tracks is read completely: every child element of the list with the name of an item becomes
one item, in the order of the elements.  Other elements are skipped, whatever they contain, also elements with the name of an item;
so are character data and comments.  The list ends at its own end.  One item that can not be read refuses the list. -/
theorem ixml_list_items {α : Type} (item : Str) (dec : Str → List (Str × Str) → List Xml → Option α) (rest : List Tok) :
    ∀ (c : List Xml) (out : List α), listLoop item dec (toksOf c ++ .fin :: rest) out =
      ((kidsNamed item c).mapM (fun x => dec x.1 x.2.1 x.2.2)).map (out ++ ·)
  | [], out => by simp [toksOf, listLoop, kidsNamed]
  | .text s :: xs, out => by
    rw [toksOf, toks, List.singleton_append, List.cons_append, listLoop, ixml_list_items item dec rest xs out, kidsNamed]
    intro n a k h; cases h
  | .other :: xs, out => by
    rw [toksOf, toks, List.singleton_append, List.cons_append, listLoop, ixml_list_items item dec rest xs out, kidsNamed]
    intro n a k h; cases h
  | .elem n a k :: xs, out => by
    have hu : upToFin 0 (toksOf k ++ [Tok.fin] ++ (toksOf xs ++ .fin :: rest)) = (toksOf k, toksOf xs ++ .fin :: rest) := by
      rw [List.append_assoc, List.singleton_append, upToFin_content]
    rw [toksOf, toks, List.cons_append, List.cons_append, listLoop, kidsNamed, List.append_assoc (toksOf k ++ _), hu]
    by_cases hn : localName n = item
    · rw [if_neg (not_not.2 hn), if_pos hn, contentOf_toksOf, List.mapM_cons]
      cases hd : dec n a k with
      | none => simp
      | some v =>
        simp only
        rw [ixml_list_items item dec rest xs (out ++ [v])]
        cases List.mapM (fun x => dec x.1 x.2.1 x.2.2) (kidsNamed item xs) <;> simp
    · rw [if_pos hn, if_neg hn]
      exact ixml_list_items item dec rest xs out

example : kidsNamed "TRACK".toList [.elem "TRACK_COUNT".toList [] [.text "7".toList], .elem "TRACK".toList [] [],
    .elem "X".toList [] [.elem "TRACK".toList [] []], .text " ".toList, .elem "TRACK".toList [] [.other]] =
    [("TRACK".toList, [], []), ("TRACK".toList, [], [.other])] := rfl

/-- What a list of items is read as. -/
theorem unm_items (dec : Str → Option Rational) (item count : Str) (t : XTy) (n : Str) (a : List (Str × Str)) (c : List Xml) (l : List XVal) :
    unm dec (.items item count t) n a c (.items l) =
      ((kidsNamed item c).mapM (fun x => unm dec t x.1 x.2.1 x.2.2 t.zero)).map (fun r => .items (l ++ r)) := by
  rw [unm, ixml_list_items item _ []]
  simp [Option.map_map, Function.comp_def]

/-! ### Structs -/

/-- The effect of a child of a struct on its fields. -/
def step (dec : Str → Option Rational) (fs : List XField) (ts : List XTy) (vs : List XVal) (x : Xml) : Option (List XVal) :=
  match x with
  | .elem n a k =>
    match Ixml.findField fs (localName n) with
    | some i =>
      match vs[i]? with
      | some w => (unmAt dec ts i n a k w).map (fun y => vs.set i y)
      | none => none
    | none => some vs
  | _ => some vs

theorem unm_record (dec : Str → Option Rational) (fs : List XField) (ts : List XTy) (n : Str) (a : List (Str × Str)) (c : List Xml)
    (vs : List XVal) : unm dec (.record fs ts) n a c (.record vs) =
      match c.foldlM (step dec fs ts) vs with
      | some vs =>
        match fs.findIdx? (·.chardata) with
        | some i => some (.record (vs.set i (.str (charData c))))
        | none => some (.record vs)
      | none => none := by
  rw [unm]
  rfl

theorem unmAt_append (dec : Str → Option Rational) (t : XTy) (ts2 : List XTy) (n : Str) (a : List (Str × Str)) (c : List Xml) (v : XVal) :
    ∀ ts1 : List XTy, unmAt dec (ts1 ++ t :: ts2) ts1.length n a c v = unm dec t n a c v
  | [] => by simp [unmAt]
  | s :: ts1 => by
    rw [List.cons_append, List.length_cons, unmAt]
    exact unmAt_append dec t ts2 n a c v ts1

/-- The child elements that go to a field. -/
def kidsFor (fs : List XField) (i : Nat) : List Xml → List (Str × List (Str × Str) × List Xml)
  | [] => []
  | .elem n a c :: xs => if Ixml.findField fs (localName n) = some i then (n, a, c) :: kidsFor fs i xs else kidsFor fs i xs
  | _ :: xs => kidsFor fs i xs

theorem zeros_length : ∀ ts : List XTy, (XTy.zeros ts).length = ts.length
  | [] => by simp [XTy.zeros]
  | t :: ts => by simp [XTy.zeros, zeros_length ts]

theorem xzeros_get : ∀ (ts : List XTy) (i : Nat), (XTy.zeros ts)[i]? = ts[i]?.map XTy.zero
  | [], i => by simp [XTy.zeros]
  | t :: ts, 0 => by simp [XTy.zeros]
  | t :: ts, i + 1 => by simp [XTy.zeros, xzeros_get ts i]

theorem findIdx?_bound {α : Type} {p : α → Bool} {l : List α} {i : Nat} (h : l.findIdx? p = some i) : i < l.length := by
  rw [List.findIdx?_eq_some_iff_getElem] at h
  exact h.1

theorem findField_bound {fs : List XField} {n : Str} {i : Nat} (h : Ixml.findField fs n = some i) : i < fs.length := by
  unfold Ixml.findField at h
  split at h
  · injection h with h; subst h; exact findIdx?_bound (by assumption)
  · exact findIdx?_bound h

/-- The children of a struct go to its fields separately: `vs` is what the fields are after the children exactly if every field
is what its own elements make of it. -/
theorem fields_separate (dec : Str → Option Rational) (fs : List XField) (ts : List XTy) : ∀ (c : List Xml) (vs ws : List XVal),
    vs.length = fs.length → (c.foldlM (step dec fs ts) vs = some ws ↔ ws.length = vs.length ∧
      ∀ i w, vs[i]? = some w → (kidsFor fs i c).foldlM (fun w x => unmAt dec ts i x.1 x.2.1 x.2.2 w) w = ws[i]?)
  | [], vs, ws, hl => by
    simp only [List.foldlM_nil, kidsFor]
    constructor
    · intro h
      injection h with h
      subst h
      exact ⟨rfl, fun i w hi => hi.symm⟩
    · rintro ⟨h1, h2⟩
      show some vs = some ws
      congr 1
      apply List.ext_getElem?
      intro i
      cases hv : vs[i]? with
      | some w => exact h2 i w hv
      | none =>
        rw [List.getElem?_eq_none_iff] at hv
        rw [List.getElem?_eq_none (by omega)]
  | .text s :: xs, vs, ws, hl => by
    rw [List.foldlM_cons]
    exact fields_separate dec fs ts xs vs ws hl
  | .other :: xs, vs, ws, hl => by
    rw [List.foldlM_cons]
    exact fields_separate dec fs ts xs vs ws hl
  | .elem n a k :: xs, vs, ws, hl => by
    rw [List.foldlM_cons]
    cases hf : Ixml.findField fs (localName n) with
    | none =>
      have h1 : step dec fs ts vs (.elem n a k) = some vs := by simp [step, hf]
      rw [h1]
      have h2 : ∀ i, kidsFor fs i (.elem n a k :: xs) = kidsFor fs i xs := by
        intro i; rw [kidsFor, hf, if_neg (by simp)]
      simp only [h2]
      exact fields_separate dec fs ts xs vs ws hl
    | some j =>
      have hj : j < vs.length := hl ▸ findField_bound hf
      have h1 : step dec fs ts vs (.elem n a k) = (unmAt dec ts j n a k vs[j]).map (fun y => vs.set j y) := by
        simp [step, hf, hj]
      rw [h1]
      have hk : ∀ i, kidsFor fs i (.elem n a k :: xs) = if j = i then (n, a, k) :: kidsFor fs i xs else kidsFor fs i xs := by
        intro i; rw [kidsFor, hf]; simp
      simp only [hk]
      cases hu : unmAt dec ts j n a k vs[j] with
      | none =>
        simp only [Option.map_none]
        constructor
        · intro h; cases h
        · rintro ⟨h2, h3⟩
          have := h3 j vs[j] (List.getElem?_eq_getElem hj)
          rw [if_pos rfl, List.foldlM_cons, hu, List.getElem?_eq_getElem (by omega)] at this
          cases this
      | some y =>
        simp only [Option.map_some]
        refine (fields_separate dec fs ts xs (vs.set j y) ws (by simpa using hl)).trans ?_
        rw [List.length_set]
        refine and_congr_right (fun hlen => ?_)
        constructor
        · intro h i w hi
          by_cases hij : j = i
          · subst hij
            rw [List.getElem?_eq_getElem hj] at hi
            injection hi with hi
            subst hi
            rw [if_pos rfl, List.foldlM_cons, hu]
            exact h j y (by simp [hj])
          · rw [if_neg hij]
            exact h i w (by rw [List.getElem?_set_ne hij]; exact hi)
        · intro h i w hi
          by_cases hij : j = i
          · subst hij
            rw [List.getElem?_set_self hj] at hi
            injection hi with hi
            subst hi
            have := h j vs[j] (List.getElem?_eq_getElem hj)
            rw [if_pos rfl, List.foldlM_cons, hu] at this
            exact this
          · rw [List.getElem?_set_ne hij] at hi
            have := h i w hi
            rw [if_neg hij] at this
            exact this

/-- **C77.** The order of different elements, comments and blanks between the elements do not matter: two contents of a struct are
read alike if for each field the elements of its name are the same ones in the same order, and the character data is the same. -/
theorem ixml_order_irrelevant (dec : Str → Option Rational) (fs : List XField) (ts : List XTy) (n : Str) (a : List (Str × Str))
    (c c' : List Xml) (vs : List XVal) (hl : vs.length = fs.length) (hk : ∀ i, i < fs.length → kidsFor fs i c = kidsFor fs i c')
    (hc : (∃ f ∈ fs, f.chardata = true) → charData c = charData c') :
    unm dec (.record fs ts) n a c (.record vs) = unm dec (.record fs ts) n a c' (.record vs) := by
  have hall : ∀ i, kidsFor fs i c = kidsFor fs i c' := by
    intro i
    by_cases hi : i < fs.length
    · exact hk i hi
    · have : ∀ c, kidsFor fs i c = [] := by
        intro c
        induction c with
        | nil => rfl
        | cons x xs ih =>
          cases x with
          | elem m b k =>
            rw [kidsFor, if_neg (fun h => hi (findField_bound h)), ih]
          | text s => exact ih
          | other => exact ih
      rw [this, this]
  have hfold : c.foldlM (step dec fs ts) vs = c'.foldlM (step dec fs ts) vs := by
    apply Option.ext
    intro ws
    rw [fields_separate dec fs ts c vs ws hl, fields_separate dec fs ts c' vs ws hl]
    simp only [hall]
  rw [unm_record, unm_record, hfold]
  cases c'.foldlM (step dec fs ts) vs with
  | none => rfl
  | some ws =>
    simp only
    cases hd : fs.findIdx? (·.chardata) with
    | none => rfl
    | some i =>
      rw [List.findIdx?_eq_some_iff_getElem] at hd
      obtain ⟨h1, h2, _⟩ := hd
      simp only
      rw [hc ⟨_, List.getElem_mem h1, h2⟩]

end Xmp.Props
