import Verif.Model.Translate
import Verif.Props.Registry

/-! C36: names are translated through their namespace URI. -/

namespace Xmp.Props

open GoStr

/-- The registry knows the URI under the prefix `p`, and `p` stands for this URI. -/
def KnownUri (reg : Registry) (uri p : Str) : Prop :=
  p ≠ [] ∧ reg.getPrefix uri = p ∧ ∃ ns, reg.getNamespace p = some ns ∧ ns.name = p ∧ ns.uri = uri

/-- The registry does not know the URI. -/
def UnknownUri (reg : Registry) (uri : Str) : Prop := reg.getPrefix uri = []

theorem lastWith_some {α : Type} {p : α → Bool} {l : List α} {a : α} (h : lastWith p l = some a) : p a = true ∧ a ∈ l := by
  unfold lastWith at h
  exact ⟨List.find?_some h, by simpa using List.mem_of_find?_eq_some h⟩

/-- A URI is known under `p` when `p` was the last prefix registered for it and it was the last URI registered for `p`. -/
theorem known_of_latest {h : RegHistory} {uri p : Str} {e e' : Namespace × List Str} (h0 : p ≠ [])
    (h1 : lastWith (fun e => decide (e.1.uri = uri)) h = some e) (he : e.1.name = p)
    (h2 : lastWith (fun e => decide (e.1.name = p)) h = some e') (he' : e'.1.uri = uri) : KnownUri (runReg h) uri p := by
  refine ⟨h0, ?_, e'.1, ?_, by simpa using (lastWith_some h2).1, he'⟩
  · rw [registry_uri_latest, h1]; exact he
  · rw [registry_prefix_latest, h2]; rfl

/-! ### What the decoder knows after the declarations -/

/-- Where the maps of the decoder come from. -/
structure DecOK (reg : Registry) (l : List (Str × Str)) (d : Dec) : Prop where
  reg_eq : d.reg = reg
  int : ∀ uri, d.int.get uri = if uri ∈ l.map (·.2) ∧ reg.getPrefix uri ≠ [] then reg.getNamespace (reg.getPrefix uri) else none
  ext : ∀ uri, d.ext.get uri = if reg.getPrefix uri ≠ [] then none else
    (l.find? (fun x => x.2 = uri)).map (fun x => ⟨x.1, uri, none⟩)
  intNames : ∀ e ∈ d.int, e.1 ∈ l.map (·.2) ∧ reg.getNamespace (reg.getPrefix e.1) = some e.2 ∧ reg.getPrefix e.1 ≠ []
  extNames : ∀ e ∈ d.ext, reg.getPrefix e.1 = [] ∧ (e.2.name, e.1) ∈ l ∧ e.2.uri = e.1 ∧ e.2.factory = none

theorem declare_snoc (reg : Registry) (l : List (Str × Str)) (x : Str × Str) :
    Dec.declare reg (l ++ [x]) = (Dec.declare reg l).addNamespace x.1 x.2 := by
  simp [Dec.declare]

theorem mem_uris_snoc {l : List (Str × Str)} {x : Str × Str} {uri : Str} (h : ¬ uri = x.2) :
    uri ∈ (l ++ [x]).map (·.2) ↔ uri ∈ l.map (·.2) := by
  rw [List.map_append, List.mem_append, List.map_cons, List.map_nil, List.mem_singleton]
  exact ⟨fun a => a.elim id (fun b => absurd b h), Or.inl⟩

theorem declare_ok (reg : Registry) (hreg : ∀ uri, reg.getPrefix uri ≠ [] → (reg.getNamespace (reg.getPrefix uri)).isSome)
    (l : List (Str × Str)) : DecOK reg l (Dec.declare reg l) := by
  induction l using snoc_induction with
  | nil =>
    refine ⟨rfl, ?_, ?_, ?_, ?_⟩
    · intro uri; simp [Dec.declare, GoMap.get]
    · intro uri; simp [Dec.declare, GoMap.get]
    · intro e he; simp [Dec.declare] at he
    · intro e he; simp [Dec.declare] at he
  | snoc l x ih =>
    rw [declare_snoc]
    obtain ⟨h1, h2, h3, h4, h5⟩ := ih
    generalize Dec.declare reg l = d at *
    unfold Dec.addNamespace
    simp only [h1]
    by_cases hp : reg.getPrefix x.2 = []
    · rw [hp]
      simp only [List.length_nil, gt_iff_lt, Nat.lt_irrefl, if_false]
      have hint : ∀ uri, d.int.get uri = if uri ∈ (l ++ [x]).map (·.2) ∧ reg.getPrefix uri ≠ [] then
          reg.getNamespace (reg.getPrefix uri) else none := by
        intro uri
        rw [h2 uri]
        by_cases hu : uri = x.2
        · subst hu
          rw [if_neg (by intro h; exact h.2 hp), if_neg (by intro h; exact h.2 hp)]
        · simp only [mem_uris_snoc hu]
      have hintn : ∀ e ∈ d.int, e.1 ∈ (l ++ [x]).map (·.2) ∧ reg.getNamespace (reg.getPrefix e.1) = some e.2 ∧
          reg.getPrefix e.1 ≠ [] := by
        intro e he
        obtain ⟨a, b, c⟩ := h4 e he
        exact ⟨by rw [List.map_append]; exact List.mem_append_left _ a, b, c⟩
      cases he : d.ext.get x.2 with
      | some v =>
        refine ⟨h1, hint, ?_, hintn, ?_⟩
        · intro uri
          rw [h3 uri]
          by_cases hq : reg.getPrefix uri ≠ []
          · rw [if_pos hq, if_pos hq]
          · rw [if_neg hq, if_neg hq]
            rw [List.find?_append]
            cases hf : l.find? (fun y => decide (y.2 = uri)) with
            | some y => rfl
            | none =>
              by_cases hu : x.2 = uri
              · subst hu
                rw [h3, hf, if_neg hq] at he
                cases he
              · simp [hu]
        · intro e he'
          obtain ⟨a, b, c⟩ := h5 e he'
          exact ⟨a, List.mem_append_left _ b, c⟩
      | none =>
        simp only
        refine ⟨rfl, hint, ?_, hintn, ?_⟩
        · intro uri
          show (d.ext.set x.2 ⟨x.1, x.2, none⟩).get uri = _
          by_cases hu : uri = x.2
          · subst hu
            rw [GoMap.get_set_self]
            rw [if_neg (by simp [hp])]
            rw [h3, if_neg (by simp [hp])] at he
            have hf : l.find? (fun y => decide (y.2 = x.2)) = none := by
              cases hf : l.find? (fun y => decide (y.2 = x.2)) with
              | none => rfl
              | some y => rw [hf] at he; cases he
            rw [List.find?_append, hf]
            simp
          · rw [GoMap.get_set_ne _ _ hu, h3 uri]
            by_cases hq : reg.getPrefix uri ≠ []
            · rw [if_pos hq, if_pos hq]
            · rw [if_neg hq, if_neg hq, List.find?_append]
              cases hf : l.find? (fun y => decide (y.2 = uri)) with
              | some y => rfl
              | none => simp [Ne.symm hu]
        · intro e he'
          simp only [GoMap.set, GoMap.del, List.mem_cons, List.mem_filter] at he'
          rcases he' with rfl | ⟨he', -⟩
          · exact ⟨hp, by simp, rfl, rfl⟩
          · obtain ⟨a, b, c⟩ := h5 e he'
            exact ⟨a, List.mem_append_left _ b, c⟩
    · have hlen : (reg.getPrefix x.2).length > 0 := by
        cases hq : reg.getPrefix x.2 with
        | nil => exact absurd hq hp
        | cons _ _ => simp
      rw [if_pos hlen]
      cases hn : reg.getNamespace (reg.getPrefix x.2) with
      | none => have := hreg x.2 hp; rw [hn] at this; cases this
      | some ns =>
        simp only
        refine ⟨rfl, ?_, ?_, ?_, ?_⟩
        · intro uri
          show (d.int.set x.2 ns).get uri = _
          by_cases hu : uri = x.2
          · subst hu
            rw [GoMap.get_set_self, if_pos ⟨by simp, hp⟩, hn]
          · rw [GoMap.get_set_ne _ _ hu, h2 uri]
            simp only [mem_uris_snoc hu]
        · intro uri
          rw [show (({ d with int := d.int.set x.2 ns } : Dec).ext.get uri) = d.ext.get uri from rfl, h3 uri]
          by_cases hq : reg.getPrefix uri ≠ []
          · rw [if_pos hq, if_pos hq]
          · rw [if_neg hq, if_neg hq, List.find?_append]
            cases hf : l.find? (fun y => decide (y.2 = uri)) with
            | some y => rfl
            | none =>
              have : ¬ x.2 = uri := by
                intro e
                apply hq
                rw [← e]; exact hp
              simp [this]
        · intro e he'
          have he' : e ∈ d.int.set x.2 ns := he'
          simp only [GoMap.set, GoMap.del, List.mem_cons, List.mem_filter] at he'
          rcases he' with rfl | ⟨he', -⟩
          · exact ⟨by simp, hn, hp⟩
          · obtain ⟨a, b, c⟩ := h4 e he'
            exact ⟨by rw [List.map_append]; exact List.mem_append_left _ a, b, c⟩
        · intro e he'
          obtain ⟨a, b, c⟩ := h5 e he'
          exact ⟨a, List.mem_append_left _ b, c⟩

theorem run_prefix_some (h : RegHistory) (uri : Str) (hp : (runReg h).getPrefix uri ≠ []) :
    ((runReg h).getNamespace ((runReg h).getPrefix uri)).isSome := by
  rw [registry_prefix_latest]
  rw [registry_uri_latest] at hp ⊢
  cases hl : lastWith (fun e => decide (e.1.uri = uri)) h with
  | none => rw [hl] at hp; exact absurd rfl hp
  | some e =>
    simp only
    have he := (lastWith_some hl).2
    rw [Option.isSome_map]
    unfold lastWith
    rw [List.find?_isSome]
    exact ⟨e, by simpa using he, by simp⟩

/-- The decoder after the declarations `l` of a document, with the registry of the history `h`. -/
def decoder (h : RegHistory) (l : List (Str × Str)) : Dec := Dec.declare (runReg h) l

theorem decoder_ok (h : RegHistory) (l : List (Str × Str)) : DecOK (runReg h) l (decoder h l) :=
  declare_ok _ (run_prefix_some h) l

/-! ### Translation -/

theorem expandName_ne {p l : Str} (h : l ≠ []) : expandName p l = p ++ ':' :: l := by
  unfold expandName
  rw [if_neg h]
  simp [join]

/-- C36: a name in a known namespace that the document declares gets the standard prefix, whatever prefixes the
document uses. -/
theorem translate_known (h : RegHistory) (l : List (Str × Str)) {uri p loc : Str} (hk : KnownUri (runReg h) uri p)
    (hd : uri ∈ l.map (·.2)) (h0 : uri ≠ []) (hx : uri ≠ "xmlns".toList) (hl : loc ≠ []) :
    (decoder h l).translate ⟨uri, loc⟩ = ⟨[], p ++ ':' :: loc⟩ := by
  obtain ⟨hp, hk1, ns, hk2, hk3, -⟩ := hk
  have ok := decoder_ok h l
  unfold Dec.translate
  rw [if_neg (by simp only; rintro (h | h); exacts [h0 h, hx h])]
  have hf : (decoder h l).findNs ⟨uri, loc⟩ = some ns := by
    unfold Dec.findNs
    rw [if_pos h0]
    unfold Dec.findByURI
    rw [ok.int, if_pos ⟨hd, by rw [hk1]; exact hp⟩, hk1, hk2]
  rw [hf]
  simp only [Option.some_or]
  rw [expandName_ne hl, hk3]

/-- C36: the same for a known namespace that is not declared where the decoder looks for declarations, unless the
local name happens to be a prefix of the document. -/
theorem translate_known_undeclared (h : RegHistory) (l : List (Str × Str)) {uri p loc : Str}
    (hk : KnownUri (runReg h) uri p) (h0 : uri ≠ []) (hx : uri ≠ "xmlns".toList) (hl : loc ≠ [])
    (hn : (decoder h l).findByPrefix (getPrefix loc) = none) :
    (decoder h l).translate ⟨uri, loc⟩ = ⟨[], p ++ ':' :: loc⟩ := by
  by_cases hd : uri ∈ l.map (·.2)
  · exact translate_known h l hk hd h0 hx hl
  · obtain ⟨hp, hk1, ns, hk2, hk3, -⟩ := hk
    have ok := decoder_ok h l
    unfold Dec.translate
    rw [if_neg (by simp only; rintro (h | h); exacts [h0 h, hx h])]
    have hf : (decoder h l).findNs ⟨uri, loc⟩ = none := by
      unfold Dec.findNs
      rw [if_pos h0]
      unfold Dec.findByURI
      rw [ok.int, if_neg (fun h => hd h.1), ok.ext, if_pos (by rw [hk1]; exact hp)]
      exact hn
    rw [hf, ok.reg_eq, hk1, hk2]
    simp only [Option.none_or]
    rw [expandName_ne hl, hk3]

/-- C36: a name in an unknown namespace gets the prefix that the document declares first for it. -/
theorem translate_unknown (h : RegHistory) (l : List (Str × Str)) {uri p loc : Str} (hk : UnknownUri (runReg h) uri)
    (hd : (l.find? (fun x => x.2 = uri)).map (·.1) = some p) (h0 : uri ≠ []) (hx : uri ≠ "xmlns".toList) (hl : loc ≠ []) :
    (decoder h l).translate ⟨uri, loc⟩ = ⟨[], p ++ ':' :: loc⟩ := by
  have ok := decoder_ok h l
  unfold Dec.translate
  rw [if_neg (by simp only; rintro (h | h); exacts [h0 h, hx h])]
  have hf : (decoder h l).findNs ⟨uri, loc⟩ = some ⟨p, uri, none⟩ := by
    unfold Dec.findNs
    rw [if_pos h0]
    unfold Dec.findByURI
    rw [ok.int, if_neg (fun h => h.2 hk), ok.ext, if_neg (by rw [hk]; simp)]
    cases hf : l.find? (fun x => decide (x.2 = uri)) with
    | none => rw [hf] at hd; cases hd
    | some x =>
      rw [hf] at hd
      have := Option.some.inj hd
      subst this
      rfl
  rw [hf]
  simp only [Option.some_or]
  rw [expandName_ne hl]

theorem translate_fix (d : Dec) (n : QName) (h : n.space = [] ∨ n.space = "xmlns".toList) : d.translate n = n := by
  unfold Dec.translate
  rw [if_pos h]

/-- C36: translating a name a second time changes nothing. -/
theorem translate_idempotent (d : Dec) (n : QName) : d.translate (d.translate n) = d.translate n := by
  by_cases h : n.space = [] ∨ n.space = "xmlns".toList
  · rw [translate_fix d n h, translate_fix d n h]
  · cases hf : (d.findNs n).or (d.reg.getNamespace (d.reg.getPrefix n.space)) with
    | some ns =>
      have : d.translate n = ⟨[], expandName ns.name n.loc⟩ := by
        unfold Dec.translate
        rw [if_neg h, hf]
      rw [this]
      exact translate_fix d _ (Or.inl rfl)
    | none =>
      have : d.translate n = n := by
        unfold Dec.translate
        rw [if_neg h, hf]
      rw [this, this]

mutual
theorem node_translate_idem (d : Dec) : ∀ n : Node, (n.translate d).translate d = n.translate d
  | .mk n a v l => by
    simp only [Node.translate, List.map_map]
    rw [translate_idempotent, nodes_translate_idem d l]
    congr 1
    apply List.map_congr_left
    intro x _
    simp [translate_idempotent]
theorem nodes_translate_idem (d : Dec) : ∀ l : List Node, Node.translateList d (Node.translateList d l) = Node.translateList d l
  | [] => rfl
  | x :: xs => by
    simp only [Node.translateList]
    rw [node_translate_idem d x, nodes_translate_idem d xs]
end

/-- C36: translating a tree a second time changes nothing. -/
theorem tree_translate_idempotent (d : Dec) (n : Node) : (n.translate d).translate d = n.translate d :=
  node_translate_idem d n

mutual
/-- All names in a tree: of the element, its attributes and its children. -/
def allNames : Node → List QName
  | .mk n a _ l => n :: a.map (·.name) ++ allNamesList l
/-- The names in a list of trees. -/
def allNamesList : List Node → List QName
  | [] => []
  | x :: xs => allNames x ++ allNamesList xs
end

mutual
/-- All texts in a tree. -/
def allTexts : Node → List Str
  | .mk _ a v l => v :: a.map (·.value) ++ allTextsList l
/-- The texts in a list of trees. -/
def allTextsList : List Node → List Str
  | [] => []
  | x :: xs => allTexts x ++ allTextsList xs
end

mutual
theorem names_translate (d : Dec) : ∀ n : Node, allNames (n.translate d) = (allNames n).map d.translate
  | .mk n a v l => by
    simp only [Node.translate, allNames, List.map_map, List.map_cons, List.map_append, names_translate_list d l]
    rfl
theorem names_translate_list (d : Dec) : ∀ l : List Node, allNamesList (Node.translateList d l) = (allNamesList l).map d.translate
  | [] => rfl
  | x :: xs => by
    simp only [Node.translateList, allNamesList, List.map_append, names_translate d x, names_translate_list d xs]
end

mutual
theorem texts_translate (d : Dec) : ∀ n : Node, allTexts (n.translate d) = allTexts n
  | .mk n a v l => by
    simp only [Node.translate, allTexts, List.map_map, texts_translate_list d l]
    rfl
theorem texts_translate_list (d : Dec) : ∀ l : List Node, allTextsList (Node.translateList d l) = allTextsList l
  | [] => rfl
  | x :: xs => by
    simp only [Node.translateList, allTextsList, texts_translate d x, texts_translate_list d xs]
end

/-- C36: translating a tree translates every name in it and changes no text. -/
theorem tree_translate_names (d : Dec) (n : Node) :
    allNames (n.translate d) = (allNames n).map d.translate ∧ allTexts (n.translate d) = allTexts n :=
  ⟨names_translate d n, texts_translate d n⟩

/-- C36: two documents that declare the same known URIs under different prefixes are translated alike. -/
theorem prefix_independent (h : RegHistory) (l l' : List (Str × Str)) (hu : l.map (·.2) = l'.map (·.2))
    (hk : ∀ x ∈ l, ¬ UnknownUri (runReg h) x.2) (n : Node) : n.translate (decoder h l) = n.translate (decoder h l') := by
  have key : ∀ (l l' : List (Str × Str)) (d : Dec), l.map (·.2) = l'.map (·.2) →
      (∀ x ∈ l, d.reg.getPrefix x.2 ≠ []) →
      l.foldl (fun d x => d.addNamespace x.1 x.2) d = l'.foldl (fun d x => d.addNamespace x.1 x.2) d := by
    intro l
    induction l with
    | nil => intro l' d h _; cases l' with
      | nil => rfl
      | cons _ _ => cases h
    | cons x l ih =>
      intro l' d h hk
      cases l' with
      | nil => cases h
      | cons y l' =>
        simp only [List.map_cons, List.cons.injEq] at h
        have hx := hk x (by simp)
        have e : d.addNamespace x.1 x.2 = d.addNamespace y.1 y.2 := by
          unfold Dec.addNamespace
          rw [← h.1]
          have hl : (d.reg.getPrefix x.2).length > 0 := by
            cases hq : d.reg.getPrefix x.2 with
            | nil => exact absurd hq hx
            | cons _ _ => simp
          simp only [if_pos hl]
        have er : (d.addNamespace x.1 x.2).reg = d.reg := by
          unfold Dec.addNamespace
          simp only
          split
          · split <;> rfl
          · split <;> rfl
        simp only [List.foldl_cons]
        rw [← e]
        exact ih l' _ h.2 (fun z hz => by rw [er]; exact hk z (by simp [hz]))
  have : decoder h l = decoder h l' := key l l' _ hu (fun x hx => hk x hx)
  rw [this]

/-! ### A concrete case and the findings -/

/-- A registry with two namespaces. -/
def demoReg : RegHistory := [(⟨"dc".toList, "u:dc".toList, none⟩, []), (⟨"xmp".toList, "u:xap".toList, none⟩, [])]

example : KnownUri (runReg demoReg) "u:xap".toList "xmp".toList ∧
    (decoder demoReg [("xap".toList, "u:xap".toList)]).translate ⟨"u:xap".toList, "Rating".toList⟩ =
      ⟨[], "xmp:Rating".toList⟩ :=
  ⟨⟨by decide, by decide, ⟨_, rfl, by decide, by decide⟩⟩, by decide⟩

/-- C36: names of unknown namespaces keep the prefix of the document, so they do depend on it. -/
theorem unknown_depends_on_prefix :
    (decoder demoReg [("a".toList, "u:other".toList)]).translate ⟨"u:other".toList, "x".toList⟩ ≠
    (decoder demoReg [("b".toList, "u:other".toList)]).translate ⟨"u:other".toList, "x".toList⟩ := by decide

/-- C36: a document that binds a standard prefix to another URI makes names of two namespaces equal. -/
theorem translate_collision (h : RegHistory) (l : List (Str × Str)) {uri uri' p loc : Str} (hk : KnownUri (runReg h) uri p)
    (hu : UnknownUri (runReg h) uri') (hd : uri ∈ l.map (·.2)) (hd' : (l.find? (fun x => x.2 = uri')).map (·.1) = some p)
    (h0 : uri ≠ []) (hx : uri ≠ "xmlns".toList) (h0' : uri' ≠ []) (hx' : uri' ≠ "xmlns".toList) (hl : loc ≠ []) :
    uri ≠ uri' ∧ (decoder h l).translate ⟨uri, loc⟩ = (decoder h l).translate ⟨uri', loc⟩ := by
  refine ⟨?_, ?_⟩
  · rintro rfl
    exact hk.1 (hk.2.1.symm.trans hu)
  · rw [translate_known h l hk hd h0 hx hl, translate_unknown h l hu hd' h0' hx' hl]

example : (decoder demoReg [("x".toList, "u:dc".toList), ("dc".toList, "u:evil".toList)]).translate
    ⟨"u:evil".toList, "title".toList⟩ = ⟨[], "dc:title".toList⟩ := by decide

/-- C36: an element of a namespace that is not declared on an `rdf:Description` is taken for an element of another
namespace when its local name is a prefix of the document. -/
theorem translate_misnamed (h : RegHistory) (l : List (Str × Str)) {uri uri' p : Str} (hk : KnownUri (runReg h) uri p)
    (hc : ':' ∉ p) (hd : uri ∈ l.map (·.2)) (hd' : uri' ∉ l.map (·.2)) (h0' : uri' ≠ []) (hx' : uri' ≠ "xmlns".toList) :
    (decoder h l).translate ⟨uri', p⟩ = ⟨[], p ++ ':' :: p⟩ := by
  obtain ⟨hp, hk1, ns, hk2, hk3, hk4⟩ := hk
  have ok := decoder_ok h l
  unfold Dec.translate
  rw [if_neg (by simp only; rintro (h | h); exacts [h0' h, hx' h])]
  have hg : getPrefix p = p := by
    unfold getPrefix
    rw [(indexChar_none).2 hc]
  have hf : ∃ ns', (decoder h l).findNs ⟨uri', p⟩ = some ns' ∧ ns'.name = p := by
    unfold Dec.findNs
    rw [if_pos h0']
    have : (decoder h l).findByURI uri' = none := by
      unfold Dec.findByURI
      have hn : l.find? (fun x => decide (x.2 = uri')) = none := by
        rw [List.find?_eq_none]
        intro x hx hxe
        exact hd' (List.mem_map.2 ⟨x, hx, by simpa using hxe⟩)
      rw [ok.int, if_neg (fun h => hd' h.1), ok.ext, hn]
      simp
    rw [this]
    simp only
    rw [hg]
    unfold Dec.findByPrefix
    have hm : (decoder h l).int.get uri = some ns := by
      rw [ok.int, if_pos ⟨hd, by rw [hk1]; exact hp⟩, hk1, hk2]
    cases hfi : (decoder h l).int.find? (fun e => decide (e.2.name = p)) with
    | some e => exact ⟨e.2, rfl, by simpa using List.find?_some hfi⟩
    | none =>
      exfalso
      rw [List.find?_eq_none] at hfi
      unfold GoMap.get at hm
      cases hg : (decoder h l).int.find? (fun e => decide (e.1 = uri)) with
      | none => rw [hg] at hm; cases hm
      | some e =>
        rw [hg] at hm
        have e2 : e.2 = ns := Option.some.inj hm
        exact hfi e (List.mem_of_find?_eq_some hg) (by rw [e2]; simpa using hk3)
  obtain ⟨ns', hf, hn⟩ := hf
  rw [hf]
  simp only [Option.some_or]
  rw [expandName_ne hp, hn]

example : (decoder demoReg [("dc".toList, "u:dc".toList)]).translate ⟨"u:foreign".toList, "dc".toList⟩ =
    ⟨[], "dc:dc".toList⟩ := by decide

end Xmp.Props
