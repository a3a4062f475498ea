import Verif.Model.NsNames
import Verif.Lemmas.GoStr

/-! C84: names, paths and namespaces agree. -/

namespace Xmp.Props

open GoStr

/-! ### Specification -/

/-- The name has the prefix and, behind the first colon, the local part. -/
def Qualified (pfx loc name : Str) : Prop := name = pfx ++ ':' :: loc ∧ ':' ∉ pfx

/-- A name is qualified in one way only. -/
theorem qualified_unique {p q l m name : Str} (h : Qualified p l name) (h' : Qualified q m name) : p = q ∧ l = m := by
  obtain ⟨e, hp⟩ := h
  obtain ⟨e', hq⟩ := h'
  have h1 := indexChar_append (b := l) hp
  have h2 := indexChar_append (b := m) hq
  rw [← e] at h1
  rw [← e', h1] at h2
  have hl : p.length = q.length := Option.some.inj h2
  obtain ⟨r1, r2⟩ := List.append_inj (e.symm.trans e') hl
  exact ⟨r1, (List.cons.inj r2).2⟩

theorem qualified_or (name : Str) : ':' ∉ name ∨ ∃ p l, Qualified p l name := by
  cases h : indexChar ':' name with
  | none => exact Or.inl (indexChar_none.1 h)
  | some i =>
    obtain ⟨a, b, h1, h2, -⟩ := indexChar_some h
    exact Or.inr ⟨a, b, h1, h2⟩

/-! ### The functions on qualified names -/

theorem qualified_prefix {p l name : Str} (h : Qualified p l name) : getPrefix name = p := by
  obtain ⟨rfl, hp⟩ := h
  unfold getPrefix
  rw [indexChar_append hp]
  simp

theorem qualified_strip {p l name : Str} (h : Qualified p l name) : stripPrefix name = l := by
  obtain ⟨rfl, hp⟩ := h
  unfold stripPrefix
  rw [indexChar_append hp]
  simp

theorem bare_prefix {name : Str} (h : ':' ∉ name) : getPrefix name = name := by
  unfold getPrefix
  rw [indexChar_none.2 h]

theorem bare_strip {name : Str} (h : ':' ∉ name) : stripPrefix name = name := by
  unfold stripPrefix
  rw [indexChar_none.2 h]

/-! ### Theorems -/

/-- **C84.** `MatchAttrName` holds exactly for the names that begin with the prefix and a colon, and for the bare prefix. -/
theorem matchAttr_iff (ns : Namespace) (name : Str) :
    ns.matchAttrName name = true ↔ (∃ loc, Qualified ns.name loc name) ∨ (name = ns.name ∧ ':' ∉ name) := by
  unfold Namespace.matchAttrName
  rw [decide_eq_true_iff]
  rcases qualified_or name with h | ⟨p, l, h⟩
  · rw [bare_prefix h]
    constructor
    · intro e
      exact Or.inr ⟨e, h⟩
    · rintro (⟨loc, e, -⟩ | ⟨e, -⟩)
      · rw [e] at h
        simp at h
      · exact e
  · rw [qualified_prefix h]
    constructor
    · rintro rfl
      exact Or.inl ⟨l, h⟩
    · rintro (⟨loc, h'⟩ | ⟨-, h'⟩)
      · exact (qualified_unique h h').1
      · rw [h.1] at h'
        simp at h'

example : (Namespace.mk "dc".toList "u".toList none).matchAttrName "dc:title".toList = true :=
  (matchAttr_iff _ _).2 (Or.inl ⟨"title".toList, rfl, by decide⟩)

/-- **C84.** A path belongs to a namespace exactly if it begins with its prefix and a colon; no path belongs to a nil namespace. -/
theorem matchPath_iff (ns : Option Namespace) (path : Path) :
    path.matchNamespace ns = true ↔ ∃ n rest, ns = some n ∧ Qualified n.name rest path := by
  cases ns with
  | none => simp [Path.matchNamespace]
  | some n =>
    unfold Path.matchNamespace
    rcases qualified_or path with h | ⟨p, l, h⟩
    · rw [indexChar_none.2 h]
      constructor
      · intro e
        cases e
      · rintro ⟨_, rest, -, e, -⟩
        rw [e] at h
        simp at h
    · have hi := indexChar_append (b := l) h.2
      rw [← h.1] at hi
      rw [hi]
      have ht : path.take p.length = p := by rw [h.1]; simp
      simp only [ht, decide_eq_true_iff]
      constructor
      · rintro rfl
        exact ⟨n, l, rfl, h⟩
      · rintro ⟨_, rest, e, h'⟩
        cases e
        exact (qualified_unique h' h).1

example : Path.matchNamespace "xmpMM:History[0]/stEvt:when".toList (some ⟨"xmpMM".toList, "u".toList, none⟩) = true :=
  (matchPath_iff _ _).2 ⟨_, "History[0]/stEvt:when".toList, rfl, rfl, by decide⟩

/-- **C84.** A name with a namespace URI is matched by the URI alone, whatever its local name; other names by their prefix. -/
theorem matchXml_iff (ns : Namespace) (name : QName) : ns.matchXmlName name = true ↔
    (name.space ≠ [] ∧ name.space = ns.uri) ∨
      (name.space = [] ∧ ((∃ loc, Qualified ns.name loc name.loc) ∨ (name.loc = ns.name ∧ ':' ∉ name.loc))) := by
  have h := matchAttr_iff ns name.loc
  unfold Namespace.matchAttrName at h
  unfold Namespace.matchXmlName
  by_cases hs : name.space = []
  · rw [if_neg (fun k => k hs), h]
    simp [hs]
  · rw [if_pos hs, decide_eq_true_iff]
    simp [hs]

example : (Namespace.mk "xmp".toList "http://ns.adobe.com/xap/1.0/".toList none).matchXmlName ⟨"http://ns.adobe.com/xap/1.0/".toList, "xap:Label".toList⟩ = true :=
  (matchXml_iff _ _).2 (Or.inl ⟨by decide, rfl⟩)

/-- **C84.** Every name that a namespace makes from a local name, which may itself contain colons, is its own: the name matches, as
attribute, as element and as path, and splitting it gives the local name; so different local names give different names. -/
theorem expand_own (ns : Namespace) (hn : ':' ∉ ns.name) (loc : Str) (hl : loc ≠ []) :
    Qualified ns.name loc (ns.expand loc) ∧ ns.split (ns.expand loc) = loc ∧ ns.matchAttrName (ns.expand loc) = true ∧
      ns.matchXmlName (ns.xmlName loc) = true ∧ Path.matchNamespace (ns.expand loc) (some ns) = true := by
  have hq : Qualified ns.name loc (ns.expand loc) := by
    refine ⟨?_, hn⟩
    unfold Namespace.expand expandName
    rw [if_neg hl]
    simp [join]
  exact ⟨hq, qualified_strip hq, (matchAttr_iff _ _).2 (Or.inl ⟨loc, hq⟩), (matchXml_iff _ _).2 (Or.inr ⟨rfl, Or.inl ⟨loc, hq⟩⟩),
    (matchPath_iff _ _).2 ⟨ns, loc, rfl, hq⟩⟩

example : (Namespace.mk "exif".toList "u".toList none).split ((Namespace.mk "exif".toList "u".toList none).expand "Flash:x".toList) = "Flash:x".toList :=
  (expand_own ⟨"exif".toList, "u".toList, none⟩ (by decide) "Flash:x".toList (by decide)).2.1

/-- **C84.** And conversely: a name that matches is the one that the namespace makes from its local part, if that is not empty. -/
theorem match_expand (ns : Namespace) (path : Path) (h : path.matchNamespace (some ns) = true) (hl : ns.split path ≠ []) :
    ns.expand (ns.split path) = path := by
  obtain ⟨n, rest, e, hq⟩ := (matchPath_iff _ _).1 h
  cases e
  have hs : ns.split path = rest := qualified_strip hq
  rw [hs] at hl ⊢
  rw [hq.1]
  exact (expand_own ns hq.2 rest hl).1.1

example : (Namespace.mk "dc".toList "u".toList none).expand ((Namespace.mk "dc".toList "u".toList none).split "dc:a/b".toList) = "dc:a/b".toList :=
  match_expand ⟨"dc".toList, "u".toList, none⟩ "dc:a/b".toList (by decide) (by decide)

/-- **C84.** No name and no path matches two namespaces with different prefixes. -/
theorem match_exclusive (ns ns' : Namespace) (hne : ns.name ≠ ns'.name) (name : Str) :
    ¬(ns.matchAttrName name = true ∧ ns'.matchAttrName name = true) ∧
    ¬(Path.matchNamespace name (some ns) = true ∧ Path.matchNamespace name (some ns') = true) := by
  constructor
  · rintro ⟨h1, h2⟩
    unfold Namespace.matchAttrName at h1 h2
    rw [decide_eq_true_iff] at h1 h2
    exact hne (h1.symm.trans h2)
  · rintro ⟨h1, h2⟩
    obtain ⟨_, r1, e1, q1⟩ := (matchPath_iff _ _).1 h1
    obtain ⟨_, r2, e2, q2⟩ := (matchPath_iff _ _).1 h2
    cases e1
    cases e2
    exact hne (qualified_unique q1 q2).1

example : ¬(Path.matchNamespace "xmp:a".toList (some ⟨"xmp".toList, [], none⟩) = true ∧
    Path.matchNamespace "xmp:a".toList (some ⟨"xmpMM".toList, [], none⟩) = true) :=
  (match_exclusive ⟨"xmp".toList, [], none⟩ ⟨"xmpMM".toList, [], none⟩ (by decide) _).2

/-- **C84.** A path made with `NewPath` from a prefix belongs to the namespaces with this prefix and to no others, and to its
namespace leads `NamespacePrefix`. -/
theorem newPath_match (pfx : Str) (hp : ':' ∉ pfx) (segs : List Str) (ns : Namespace) :
    ((Path.new pfx segs).matchNamespace (some ns) = true ↔ ns.name = pfx) ∧ (Path.new pfx segs).namespacePrefix = pfx := by
  have hq : Qualified pfx (join ['/'] segs) (Path.new pfx segs) := ⟨by unfold Path.new; simp, hp⟩
  constructor
  · rw [matchPath_iff]
    constructor
    · rintro ⟨_, rest, e, h⟩
      cases e
      exact (qualified_unique h hq).1
    · intro e
      exact ⟨ns, _, rfl, by rw [e]; exact hq⟩
  · exact qualified_prefix hq

example : (Path.new "dc".toList ["title".toList, "x".toList]).matchNamespace (some ⟨"dc".toList, [], none⟩) = true :=
  (newPath_match "dc".toList (by decide) _ ⟨"dc".toList, [], none⟩).1.2 rfl

/-- **C84.** What the decoder makes of a name with a namespace that it knows is a name of that namespace: it matches, and splitting
it gives the local name that was in the file. -/
theorem translated_match (d : Dec) (n : QName) (hs : n.space ≠ []) (hx : n.space ≠ "xmlns".toList) (ns : Namespace)
    (hf : (d.findNs n).or (d.reg.getNamespace (d.reg.getPrefix n.space)) = some ns) (hn : ':' ∉ ns.name) :
    ns.matchXmlName (d.translate n) = true ∧ (n.loc ≠ [] → ns.split (d.translate n).loc = n.loc) := by
  have ht : d.translate n = ns.xmlName n.loc := by
    unfold Dec.translate
    rw [if_neg (by simp only [not_or]; exact ⟨hs, hx⟩), hf]
    rfl
  rw [ht]
  refine ⟨?_, fun hl => (expand_own ns hn n.loc hl).2.1⟩
  by_cases hl : n.loc = []
  · refine (matchXml_iff _ _).2 (Or.inr ⟨rfl, Or.inr ?_⟩)
    have : (ns.xmlName n.loc).loc = ns.name := by
      unfold Namespace.xmlName Namespace.expand expandName
      rw [if_pos hl]
    rw [this]
    exact ⟨rfl, hn⟩
  · exact (expand_own ns hn n.loc hl).2.2.2.1

/-- A decoder that knows one namespace. -/
def oneNs : Dec := { reg := {}, int := [("u".toList, ⟨"dc".toList, "u".toList, none⟩)] }

example : (Namespace.mk "dc".toList "u".toList none).split (oneNs.translate ⟨"u".toList, "title".toList⟩).loc = "title".toList :=
  (translated_match oneNs ⟨"u".toList, "title".toList⟩ (by decide) (by decide) _ (by decide) (by decide)).2 (by decide)

/-- **C84, finding.** A name without prefix counts as a prefix: the namespaces match bare names that are equal to their prefix as
attributes and elements, although no path of that name belongs to them, and `Split` gives the prefix instead of nothing.  So
`Split` does not undo `Expand` for the empty local name. -/
theorem bare_name_matches (ns : Namespace) (hn : ':' ∉ ns.name) (hne : ns.name ≠ []) :
    ns.matchAttrName ns.name = true ∧ ns.matchXmlName ns.rootName = true ∧ Path.matchNamespace ns.name (some ns) = false ∧
      ns.expand [] = ns.name ∧ ns.split (ns.expand []) ≠ [] := by
  refine ⟨(matchAttr_iff _ _).2 (Or.inr ⟨rfl, hn⟩), (matchXml_iff _ _).2 (Or.inr ⟨rfl, Or.inr ⟨rfl, hn⟩⟩), ?_, rfl, ?_⟩
  · rw [Bool.eq_false_iff]
    intro h
    obtain ⟨_, rest, e, hq⟩ := (matchPath_iff _ _).1 h
    cases e
    have := hq.1
    simp at this
  · show stripPrefix (ns.expand []) ≠ []
    rw [show ns.expand [] = ns.name from rfl, bare_strip hn]
    exact hne

example : (Namespace.mk "about".toList "u".toList none).matchAttrName "about".toList = true := (bare_name_matches ⟨"about".toList, "u".toList, none⟩ (by decide) (by decide)).1

/-- **C84, finding.** `Split` takes the prefix of every namespace, also of a foreign one. -/
theorem split_foreign (ns : Namespace) (pfx loc : Str) (hp : ':' ∉ pfx) : ns.split (pfx ++ ':' :: loc) = loc := qualified_strip ⟨rfl, hp⟩

example : (Namespace.mk "dc".toList "u".toList none).split "xmp:Label".toList = "Label".toList := split_foreign _ "xmp".toList "Label".toList (by decide)

/-- **C84, finding.** The decoder looks up a namespace that it does not know (one that is declared on another element than
`rdf:Description`) by the local name as if that were a prefix.  A foreign element or attribute whose local name is equal to
a declared prefix is taken for a property of that namespace, and cannot be told from the property of that name. -/
theorem foreign_captured (d : Dec) (n : QName) (hs : n.space ≠ []) (hx : n.space ≠ "xmlns".toList) (hl : ':' ∉ n.loc) (hne : n.loc ≠ [])
    (hu : d.findByURI n.space = none) (ns : Namespace) (hp : d.findByPrefix n.loc = some ns) :
    ns.name = n.loc ∧ d.translate n = ⟨[], n.loc ++ ':' :: n.loc⟩ ∧ ns.matchXmlName (d.translate n) = true ∧
      ∀ uri, uri ≠ [] → uri ≠ "xmlns".toList → d.findByURI uri = some ns → d.translate ⟨uri, n.loc⟩ = d.translate n := by
  have hname : ns.name = n.loc := by
    unfold Dec.findByPrefix at hp
    cases h1 : d.int.find? (fun e => e.2.name = n.loc) with
    | some e =>
      rw [h1] at hp
      have := List.find?_some h1
      rw [← Option.some.inj hp]
      simpa using this
    | none =>
      rw [h1] at hp
      obtain ⟨e, h2, h3⟩ := Option.map_eq_some_iff.1 hp
      have := List.find?_some h2
      rw [← h3]
      simpa using this
  have hfind : d.findNs n = some ns := by
    unfold Dec.findNs
    rw [if_pos hs, hu, bare_prefix hl]
    exact hp
  have ht : d.translate n = ⟨[], expandName ns.name n.loc⟩ := by
    unfold Dec.translate
    rw [if_neg (by simp only [not_or]; exact ⟨hs, hx⟩), hfind]
    rfl
  have hm := (translated_match d n hs hx ns (by rw [hfind]; rfl) (by rw [hname]; exact hl)).1
  refine ⟨hname, ?_, hm, ?_⟩
  · rw [ht, hname]
    unfold expandName
    rw [if_neg hne]
    simp [join]
  · intro uri h1 h2 h3
    rw [ht]
    unfold Dec.translate
    rw [if_neg (by simp only [not_or]; exact ⟨h1, h2⟩)]
    have : d.findNs ⟨uri, n.loc⟩ = some ns := by
      unfold Dec.findNs
      rw [if_pos h1, h3]
    rw [this]
    rfl

example : oneNs.translate ⟨"urn:other".toList, "dc".toList⟩ = ⟨[], "dc:dc".toList⟩ :=
  (foreign_captured oneNs ⟨"urn:other".toList, "dc".toList⟩ (by decide) (by decide) (by decide) (by decide) (by decide) ⟨"dc".toList, "u".toList, none⟩ (by decide)).2.1

end Xmp.Props
