import Verif.Model.Path
import Verif.Lemmas.Path

/-! Properties C04 (qualified names), C05 (path algebra), C06 (array index segments). -/

namespace Xmp.Props

open GoStr

/-! ### C04 -/

/-- C04: expanding a non-empty local name in a namespace whose prefix has no colon and splitting
gives the prefix and the local name back; the name is recognised as prefixed iff the prefix is
non-empty. -/
theorem expand_split (name loc : Str) (h : ':' ∉ name) (hl : loc ≠ []) :
    getPrefix (expandName name loc) = name ∧ stripPrefix (expandName name loc) = loc ∧
    (hasNsPrefix (expandName name loc) = true ↔ name ≠ []) := by
  have e : expandName name loc = name ++ ':' :: loc := by simp [expandName, hl, join]
  rw [e, getPrefix_append h, stripPrefix_append h, hasNsPrefix_append h]
  simp

example : expandName "dc".toList "title".toList = "dc:title".toList ∧ ':' ∉ "dc".toList := by decide

/-- C04: the split of any name: at the first colon, or the whole name on both sides. -/
theorem split_at_first_colon (n : Str) :
    (':' ∉ n ∧ getPrefix n = n ∧ stripPrefix n = n ∧ hasNsPrefix n = false) ∨
    (n = getPrefix n ++ ':' :: stripPrefix n ∧ ':' ∉ getPrefix n ∧
      (hasNsPrefix n = true ↔ getPrefix n ≠ [])) := by
  by_cases h : ':' ∈ n
  · right
    cases hi : indexChar ':' n with
    | none => exact absurd h (indexChar_none.1 hi)
    | some i =>
      obtain ⟨a, b, rfl, ha, -⟩ := indexChar_some hi
      rw [getPrefix_append ha, stripPrefix_append ha, hasNsPrefix_append ha]
      simp [ha]
  · left
    exact ⟨h, getPrefix_none h, stripPrefix_none h, hasNsPrefix_none h⟩

example : getPrefix "a:b:c".toList = "a".toList ∧ stripPrefix "a:b:c".toList = "b:c".toList := by decide

/-- C04: distinct (prefix, local) pairs expand to distinct names. -/
theorem expand_injective {n n' l l' : Str} (h : ':' ∉ n) (h' : ':' ∉ n') (hl : l ≠ []) (hl' : l' ≠ [])
    (e : expandName n l = expandName n' l') : n = n' ∧ l = l' := by
  have a := expand_split n l h hl
  have b := expand_split n' l' h' hl'
  rw [e] at a
  exact ⟨a.1.symm.trans b.1, a.2.1.symm.trans b.2.1⟩

example : expandName "a".toList "b".toList ≠ expandName "ab".toList "b".toList := by decide

/-! ### C05 -/

/-- Segments that can be put into a path: no separator inside, the first one not empty. -/
def SegsOk (l : List Str) : Prop := (∀ s ∈ l, '/' ∉ s) ∧ (∀ s, l.head? = some s → s ≠ [])

/-- C05: the number of segments reported is the number of segments, for every string. -/
theorem len_eq_length_fields (x : Path) : Path.len x = (Path.fields x).length := by
  unfold Path.len Path.fields
  cases indexChar ':' x with
  | none => rfl
  | some i =>
    simp only
    split
    · rw [length_split]; rfl
    · rfl

/-- C05: building a path from a prefix and segments and taking it apart. -/
theorem path_fields_new (p : Str) (l : List Str) (hp : ':' ∉ p) (hl : SegsOk l) :
    Path.fields (Path.new p l) = l ∧ Path.namespacePrefix (Path.new p l) = p ∧
    Path.isXmpPath (Path.new p l) = true := by
  refine ⟨Path.fields_new hp hl.1 hl.2, Path.namespacePrefix_new l hp, ?_⟩
  unfold Path.isXmpPath; rw [Path.new_eq, indexChar_append hp]; rfl

example : SegsOk ["Versions[0]".toList, "stVer:event".toList, "parameters".toList] ∧
    Path.fields "xmpMM:Versions[0]/stVer:event/parameters".toList =
      ["Versions[0]".toList, "stVer:event".toList, "parameters".toList] := by
  constructor
  · constructor <;> simp
  · decide

/-- C05: pushing a segment and popping gives the segment and the original path. -/
theorem path_pop_push (p : Str) (l : List Str) (s : Str) (hp : ':' ∉ p) (hl : SegsOk (l ++ [s])) :
    Path.pop (Path.push (Path.new p l) [s]) = (s, Path.new p l) := by
  have hl' : SegsOk l := by
    refine ⟨fun t ht => hl.1 t (by simp [ht]), fun t ht => hl.2 t ?_⟩
    cases l with
    | nil => simp at ht
    | cons a b => simpa using ht
  unfold Path.push
  rw [(path_fields_new p l hp hl').1, (path_fields_new p l hp hl').2.1]
  unfold Path.pop
  rw [(path_fields_new p _ hp hl).1, (path_fields_new p _ hp hl).2.1]
  simp

/-- C05: pushing several segments at once is pushing them one after the other. -/
theorem path_push_append (p : Str) (l a b : List Str) (hp : ':' ∉ p) (hl : SegsOk (l ++ a)) (hl' : SegsOk l) :
    Path.push (Path.push (Path.new p l) a) b = Path.push (Path.new p l) (a ++ b) := by
  unfold Path.push
  rw [(path_fields_new p l hp hl').1, (path_fields_new p l hp hl').2.1,
    (path_fields_new p _ hp hl).1, (path_fields_new p _ hp hl).2.1, List.append_assoc]

example : SegsOk ([] ++ ["a".toList]) ∧ Path.push "dc:".toList ["a".toList] = "dc:a".toList := by
  constructor
  · constructor <;> simp
  · decide

/-- Popping from a path without segments returns it unchanged. -/
theorem path_pop_empty (p : Str) (hp : ':' ∉ p) :
    Path.pop (Path.new p []) = ([], Path.new p []) ∧ Path.popFront (Path.new p []) = ([], Path.new p []) := by
  have := (path_fields_new p [] hp ⟨by simp, by simp⟩).1
  unfold Path.pop Path.popFront
  rw [this]; simp

/-- Specification of a segment: plain, or qualified with a namespace prefix of its own. -/
inductive Seg where
  | plain (l : Str)
  | qual (p l : Str)

/-- Text of a segment. -/
def Seg.text : Seg → Str
  | .plain l => l
  | .qual p l => p ++ [':'] ++ l

/-- Segments that can be written: plain ones are non-empty without `:` and `/`; qualified ones have a
non-empty prefix without `:` and `/` and a local part without `/`. -/
def Seg.Ok : Seg → Prop
  | .plain l => l ≠ [] ∧ ':' ∉ l ∧ '/' ∉ l
  | .qual p l => p ≠ [] ∧ ':' ∉ p ∧ '/' ∉ p ∧ '/' ∉ l

/-- Specification of walking down a path: each step yields the namespace in force and the local
name; a qualified segment switches the namespace for itself and what follows. -/
def walkSpec (ns : Str) : List Seg → List (Str × Str)
  | [] => []
  | .plain l :: t => (ns, l) :: walkSpec ns t
  | .qual p l :: t => (p, l) :: walkSpec p t

/-- Walking down a path with `PopFront` until it is empty: namespace prefix of the remaining path
and popped segment at each step. -/
def walk : Nat → Path → List (Str × Str)
  | 0, _ => []
  | n + 1, x =>
    if Path.len x = 0 then []
    else
      let (s, x') := Path.popFront x
      (Path.namespacePrefix x', s) :: walk n x'

/-- C05: popping from the front yields exactly the segments in order, each in the right namespace,
and stops after the last one (any number of further steps yields nothing more). -/
theorem popFront_walks (segs : List Seg) (h : ∀ s ∈ segs, s.Ok) (n : Nat) (hn : segs.length ≤ n)
    (p : Str) (hp : ':' ∉ p) :
    walk n (Path.new p (segs.map Seg.text)) = walkSpec p segs := by
  have hok : ∀ l : List Seg, (∀ s ∈ l, s.Ok) → SegsOk (l.map Seg.text) := by
    intro l hl
    constructor
    · intro s hs
      obtain ⟨g, hg, rfl⟩ := List.mem_map.1 hs
      have := hl g hg
      cases g with
      | plain l => exact this.2.2
      | qual q l => simp [Seg.text]; exact ⟨this.2.2.1, this.2.2.2⟩
    · intro s hs
      cases l with
      | nil => simp at hs
      | cons g t =>
        simp at hs; subst hs
        have := hl g (by simp)
        cases g with
        | plain l => exact this.1
        | qual q l => simp [Seg.text]
  induction segs generalizing n p with
  | nil =>
    cases n with
    | zero => rfl
    | succ n =>
      simp only [walk, walkSpec, List.map_nil, len_eq_length_fields,
        (path_fields_new p [] hp ⟨by simp, by simp⟩).1]
      rfl
  | cons g t ih =>
    cases n with
    | zero => simp at hn
    | succ n =>
      have hf := (path_fields_new p _ hp (hok (g :: t) h)).1
      have hns := (path_fields_new p _ hp (hok (g :: t) h)).2.1
      have hg := h g (by simp)
      have ht : ∀ s ∈ t, s.Ok := fun s hs => h s (by simp [hs])
      unfold walk
      rw [len_eq_length_fields, hf]
      simp only [List.map_cons, List.length_cons, Nat.add_eq_zero_iff, Nat.succ_ne_self, and_false,
        if_false]
      unfold Path.popFront
      rw [← List.map_cons, hf]
      simp only [List.map_cons]
      cases g with
      | plain l =>
        have hl : hasNsPrefix (Seg.plain l).text = false := hasNsPrefix_none hg.2.1
        simp only [hl]
        rw [← List.map_cons, hns]
        simp only [walkSpec, Bool.false_eq_true, if_false]
        rw [(path_fields_new p _ hp (hok t ht)).2.1, ih ht n (by simpa using hn) p hp]
        rfl
      | qual q l =>
        have e : (Seg.qual q l).text = q ++ ':' :: l := by simp [Seg.text]
        have hl : hasNsPrefix (Seg.qual q l).text = true := by
          rw [e, hasNsPrefix_append hg.2.1]; simpa using hg.1
        simp only [hl, if_true, walkSpec]
        rw [e, getPrefix_append hg.2.1, stripPrefix_append hg.2.1,
          (path_fields_new q _ hg.2.1 (hok t ht)).2.1, ih ht n (by simpa using hn) q hg.2.1]

example : (∀ s ∈ [Seg.plain "Versions[0]".toList, .qual "stVer".toList "event".toList,
      .plain "parameters".toList], s.Ok) ∧
    walk 5 "xmpMM:Versions[0]/stVer:event/parameters".toList =
      [("xmpMM".toList, "Versions[0]".toList), ("stVer".toList, "event".toList),
       ("stVer".toList, "parameters".toList)] := by
  constructor
  · simp [Seg.Ok]
  · decide

/-- C05: looking at the namespace of the next segment agrees with popping it, for every string. -/
theorem peek_eq_popFront (x : Path) :
    Path.peekNamespacePrefix x = Path.namespacePrefix (Path.popFront x).2 := by
  unfold Path.peekNamespacePrefix Path.popFront
  cases hf : Path.fields x with
  | nil => rfl
  | cons f r =>
    simp only
    split
    · rename_i hh
      rcases split_at_first_colon f with h | h
      · rw [h.2.2.2] at hh; simp at hh
      · rw [Path.namespacePrefix_new r h.2.1]
    · rw [Path.namespacePrefix_new r]
      unfold Path.namespacePrefix
      cases hi : indexChar ':' x with
      | none => exact indexChar_none.1 hi
      | some i =>
        obtain ⟨a, b, rfl, ha, rfl⟩ := indexChar_some hi
        simpa using ha

example : Path.peekNamespacePrefix "xmpMM:stVer:event/x".toList = "stVer".toList := by decide

/-- C05: exactly the texts with a colon are accepted as paths, and kept as they are. -/
theorem path_unmarshal (s : Str) :
    Path.unmarshalText s = if ':' ∈ s then some s else none := by
  unfold Path.unmarshalText Path.isXmpPath
  cases hi : indexChar ':' s with
  | none => simp [indexChar_none.1 hi]
  | some i =>
    obtain ⟨a, b, rfl, ha, rfl⟩ := indexChar_some hi
    simp

example : Path.unmarshalText "dc:title".toList = some "dc:title".toList ∧ Path.unmarshalText "title".toList = none := by
  decide

/-! ### C06 -/

/-- A field name usable with an index. -/
def FieldName (n : Str) : Prop := n ≠ [] ∧ '[' ∉ n

/-- C06: a numeric index appended to a field name is parsed back exactly. -/
theorem segment_index_roundtrip (n : Str) (i : Int) (hn : FieldName n) (hi : InI64 i) :
    parsePathSegment (n ++ ['['] ++ itoa i ++ [']']) = (n, i, []) := by
  unfold parsePathSegment
  have e : n ++ ['['] ++ itoa i ++ [']'] = n ++ '[' :: (itoa i ++ [']']) := by simp
  rw [e, indexChar_append hn.2]
  have h1 : n.length > 0 ∧ (n ++ '[' :: (itoa i ++ [']'])).length > n.length + 1 := by
    refine ⟨List.length_pos_iff.2 hn.1, ?_⟩
    simp
  simp only [h1, and_self, if_true]
  have hd : (n ++ '[' :: (itoa i ++ [']'])).drop (n.length + 1) = itoa i ++ [']'] := by
    rw [List.drop_append]; simp
  rw [hd, trimSuffix_append]
  have hne : (itoa i).length ≠ 0 := by
    intro h; exact itoa_ne_nil i (List.length_eq_zero_iff.1 h)
  simp [hne, atoi_itoa hi]

example : FieldName "creator".toList ∧ parsePathSegment "creator[12]".toList = ("creator".toList, 12, []) := by
  constructor
  · constructor <;> simp
  · decide

/-- C06: a language tag appended to a field name is parsed back exactly, unless it reads as a number. -/
theorem segment_lang_roundtrip (n lang : Str) (hn : FieldName n) (hl : lang ≠ []) (hnum : atoi lang = none) :
    parsePathSegment (n ++ ['['] ++ lang ++ [']']) = (n, -1, lang) := by
  unfold parsePathSegment
  have e : n ++ ['['] ++ lang ++ [']'] = n ++ '[' :: (lang ++ [']']) := by simp
  rw [e, indexChar_append hn.2]
  have h1 : n.length > 0 ∧ (n ++ '[' :: (lang ++ [']'])).length > n.length + 1 := by
    refine ⟨List.length_pos_iff.2 hn.1, ?_⟩
    simp
  simp only [h1, and_self, if_true]
  have hd : (n ++ '[' :: (lang ++ [']'])).drop (n.length + 1) = lang ++ [']'] := by
    rw [List.drop_append]; simp
  rw [hd, trimSuffix_append]
  have hne : lang.length ≠ 0 := by
    intro h; exact hl (List.length_eq_zero_iff.1 h)
  simp [hne, hnum]

example : atoi "x-default".toList = none ∧
    parsePathSegment "title[x-default]".toList = ("title".toList, -1, "x-default".toList) := by decide

/-- C06: a segment without bracket has neither index nor language, and is left unchanged. -/
theorem segment_plain (n : Str) (h : '[' ∉ n) : parsePathSegment n = (n, -1, []) := by
  unfold parsePathSegment; rw [indexChar_none.2 h]

example : '[' ∉ "format".toList ∧ parsePathSegment "format".toList = ("format".toList, -1, []) := by decide

/-- C06: the empty index reads as index 0. -/
theorem segment_empty_index (n : Str) (hn : FieldName n) : parsePathSegment (n ++ "[]".toList) = (n, 0, []) := by
  unfold parsePathSegment
  rw [show n ++ "[]".toList = n ++ '[' :: [']'] from rfl, indexChar_append hn.2]
  have h1 : n.length > 0 ∧ (n ++ '[' :: [']']).length > n.length + 1 := by
    refine ⟨List.length_pos_iff.2 hn.1, ?_⟩
    simp
  simp only [h1, and_self, if_true]
  have hd : (n ++ '[' :: [']']).drop (n.length + 1) = [] ++ [']'] := by
    rw [List.drop_append]; simp
  rw [hd, trimSuffix_append]; simp

example : FieldName "creator".toList := by constructor <;> simp

theorem join_snoc_append (n : Str) : ∀ (l : List Str) (t : Str),
    join ['/'] (l ++ [n]) ++ t = join ['/'] (l ++ [n ++ t]) := by
  intro l t
  induction l with
  | nil => simp [join]
  | cons a r ih =>
    rw [List.cons_append, List.cons_append, join_cons (by simp), join_cons (by simp), ← ih]; simp

theorem new_not_bracket (p : Str) (l : List Str) (n : Str) (hn : n ≠ []) (hb : ']' ∉ n) :
    hasSuffix (Path.new p (l ++ [n])) [']'] = false := by
  cases hh : hasSuffix (Path.new p (l ++ [n])) [']'] with
  | false => rfl
  | true =>
    exfalso
    rw [hasSuffix_singleton] at hh
    have hlast : (Path.new p (l ++ [n])).getLast? = n.getLast? := by
      have : ∃ q, Path.new p (l ++ [n]) = q ++ n := by
        rw [Path.new_eq]
        have hj : ∀ l : List Str, ∃ q, join ['/'] (l ++ [n]) = q ++ n := by
          intro l
          induction l with
          | nil => exact ⟨[], by simp [join]⟩
          | cons a t ih =>
            obtain ⟨q, hq⟩ := ih
            refine ⟨a ++ ['/'] ++ q, ?_⟩
            rw [List.cons_append, join_cons (by simp), hq]; simp
        obtain ⟨q, hq⟩ := hj l
        exact ⟨p ++ ':' :: q, by rw [hq]; simp⟩
      obtain ⟨q, hq⟩ := this
      rw [hq, List.getLast?_append]
      cases hg : n.getLast? with
      | none => exact absurd (List.getLast?_eq_none_iff.1 hg) hn
      | some c => rfl
    rw [hlast] at hh
    exact hb (List.mem_of_getLast? hh)

theorem pop_bracketed (p : Str) (l : List Str) (n t : Str) (hp : ':' ∉ p)
    (hl : SegsOk (l ++ [n])) (hn : n ≠ []) (ht : '/' ∉ t) :
    Path.pop (Path.new p (l ++ [n]) ++ ['['] ++ t ++ [']']) = (n ++ ['['] ++ t ++ [']'], Path.new p l) := by
  have hj : Path.new p (l ++ [n]) ++ ['['] ++ t ++ [']'] = Path.new p (l ++ [n ++ ['['] ++ t ++ [']']]) := by
    rw [Path.new_eq, Path.new_eq]
    have := join_snoc_append n l (['['] ++ t ++ [']'])
    simp only [List.append_assoc, List.cons_append, List.nil_append] at this ⊢
    rw [this]
  rw [hj]
  have hok : SegsOk (l ++ [n ++ ['['] ++ t ++ [']']]) := by
    constructor
    · intro s hs
      rcases List.mem_append.1 hs with hs | hs
      · exact hl.1 s (by simp [hs])
      · simp only [List.mem_singleton] at hs; subst hs
        have h1 := hl.1 n (by simp)
        simp [h1, ht]
    · intro s hs
      cases l with
      | nil => simp at hs; subst hs; simp
      | cons a r => exact hl.2 s (by simpa using hs)
  unfold Path.pop
  rw [(path_fields_new p _ hp hok).1, (path_fields_new p _ hp hok).2.1]
  simp

/-- C06: whole paths: appending an index to a path whose last segment is a field name leaves the
leading segments alone and makes the last segment read as (name, index). -/
theorem path_appendIndex (p : Str) (l : List Str) (n : Str) (i : Int) (hp : ':' ∉ p)
    (hl : SegsOk (l ++ [n])) (hn : FieldName n) (hb : ']' ∉ n) (hi : InI64 i) :
    ∃ s, Path.pop (Path.appendIndex (Path.new p (l ++ [n])) i) = (s, Path.new p l) ∧
      parsePathSegment s = (n, i, []) := by
  refine ⟨n ++ ['['] ++ itoa i ++ [']'], ?_, segment_index_roundtrip n i hn hi⟩
  unfold Path.appendIndex
  rw [new_not_bracket p l n hn.1 hb, if_neg (by simp)]
  exact pop_bracketed p l n _ hp hl hn.1 (itoa_not_mem (by decide) (by decide) i)

/-- C06: the same for a language index (not a number, without slash). -/
theorem path_appendIndexString (p : Str) (l : List Str) (n lang : Str) (hp : ':' ∉ p)
    (hl : SegsOk (l ++ [n])) (hn : FieldName n) (hb : ']' ∉ n) (hlang : lang ≠ []) (hnum : atoi lang = none)
    (hsl : '/' ∉ lang) :
    ∃ s, Path.pop (Path.appendIndexString (Path.new p (l ++ [n])) lang) = (s, Path.new p l) ∧
      parsePathSegment s = (n, -1, lang) := by
  refine ⟨n ++ ['['] ++ lang ++ [']'], ?_, segment_lang_roundtrip n lang hn hlang hnum⟩
  unfold Path.appendIndexString
  rw [new_not_bracket p l n hn.1 hb, if_neg (by simp)]
  exact pop_bracketed p l n _ hp hl hn.1 hsl

example : atoi "en-us".toList = none ∧
    Path.appendIndexString "dc:title".toList "en-us".toList = "dc:title[en-us]".toList := by decide

example : SegsOk (["Ingredients[0]".toList] ++ ["alternatePaths".toList]) ∧ FieldName "alternatePaths".toList ∧
    Path.appendIndex "xmpMM:Ingredients[0]/alternatePaths".toList 3 =
      "xmpMM:Ingredients[0]/alternatePaths[3]".toList := by
  refine ⟨by constructor <;> simp, by constructor <;> simp, by decide⟩

/-- C06 finding: an index appended to a path that already ends in an index (an array inside an
array) becomes a segment of its own, and no such segment is ever recognised as an index. -/
theorem nested_index_unreadable (x : Path) (i : Int) (h : hasSuffix x [']'] = true) :
    Path.appendIndex x i = x ++ ['/'] ++ (['['] ++ itoa i ++ [']']) ∧
    parsePathSegment (['['] ++ itoa i ++ [']']) = (['['] ++ itoa i ++ [']'], -1, []) := by
  constructor
  · unfold Path.appendIndex; rw [h]; simp
  · unfold parsePathSegment; simp [indexChar]

example : hasSuffix "a:b[0]".toList [']'] = true ∧ Path.appendIndex "a:b[0]".toList 1 = "a:b[0]/[1]".toList := by decide

/-- C06 finding: the text `[-1]` reads as "no index". -/
theorem index_minus_one_reads_as_none (n : Str) (hn : FieldName n) :
    parsePathSegment (n ++ "[-1]".toList) = (n, -1, []) := by
  have := segment_index_roundtrip n (-1) hn (by decide)
  have e : itoa (-1) = "-1".toList := by decide
  rw [e] at this
  simpa using this

example : FieldName "creator".toList ∧ parsePathSegment "creator".toList = ("creator".toList, -1, []) := by
  constructor
  · constructor <;> simp
  · decide

end Xmp.Props
