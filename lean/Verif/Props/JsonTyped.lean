import Verif.Props.JsonTree
import Verif.Props.TypedXmpCases

/-! C52: typed values survive the JSON form of the nodes that they are written to. -/

namespace Xmp.Props

open GoStr List

/-! ### Specification: which values can be read back from JSON -/

/-- Names of fields: as in `JsonName`, and none of those that the decoder treats in a special way. -/
def JName (nm : Str) : Prop :=
  JsonName nm ∧ nm ∉ ["rdf:Description".toList, "rdf:type".toList, "xml:lang".toList]

/-- Language alternatives that survive JSON: a default without language is the only item, any other default has a
text that no other item has. -/
def JAlt (a : AltString) : Prop :=
  ∀ d rest, a = d :: rest → (rest = [] ∧ d.lang = []) ∨ (d.lang ≠ [] ∧ d.value ≠ [] ∧ ∀ x ∈ rest, x.value ≠ d.value)

/-- Types of array elements: no arrays and no alternatives. -/
def ItemTy : Ty → Prop
  | .slice _ _ => False
  | .alt => False
  | .ptr t => ItemTy t
  | _ => True

/-- A struct with a field that is written as an element. -/
def HasElem : Ty → Val → Prop
  | .ptr t, v => ∃ x, v = .ptr x ∧ HasElem t x
  | .struct _ infos tys, v => ∃ vals, v = .struct vals ∧ ∃ (i : Nat) (f : FieldInfo) (t : Ty) (x : Val),
      infos[i]? = some f ∧ tys[i]? = some t ∧ vals[i]? = some x ∧ f.attr = false ∧ fieldWritten f t x = true
  | _, _ => False

mutual
/-- The values whose JSON form can be read back, in addition to `Faithful`. -/
def JVal : Ty → Val → Prop
  | .text c, v => ∀ k, v = .opq k → ∀ o, c.enc k = some o → c.dec 0 (o.getD []) = some k
  | .alt, v => ∀ a, v = .alt a → JAlt a
  | .slice typ t, v => ItemTy t ∧ ∀ l sp, v = .slice l sp →
      (typ = .alternative → ∀ x ∈ l.head?, HasElem t x) ∧ ∀ x ∈ l, JVal t x
  | .ptr t, v => ∀ x, v = .ptr x → JVal t x
  | .struct _ infos tys, v => ∀ vals, v = .struct vals → JFields tys infos vals
  | _, _ => True
/-- The fields that are written as elements. -/
def JFields : List Ty → List FieldInfo → List Val → Prop
  | t :: ts, f :: fs, v :: vs => (fieldWritten f t v = true → f.attr = false → JVal t v) ∧ JFields ts fs vs
  | _, _, _ => True
end

/-! ### Reading JSON into typed values -/

/-- A JSON value under a name becomes an element that is read as a value. -/
def JReads (d : Dec) (dv : Version) (t : Ty) (v : Val) (j : Json) (k : Str) : Prop :=
  ∃ n, (∀ node : Node, Json.toNode j k node = .ok (node.appendNode n)) ∧ n.xmlName = ⟨[], k⟩ ∧
    ∀ info, unmarshal d dv n info t t.zero = .ok v

/-- A JSON value in an array becomes an item that is read as a value. -/
def JReadsItem (d : Dec) (dv : Version) (t : Ty) (v : Val) (j : Json) : Prop :=
  ∃ n, Json.toNode j [] (Json.li [] []) = .ok n ∧ n.xmlName = ⟨Json.nsRdf, "li".toList⟩ ∧
    ∀ info, unmarshal d dv n info t t.zero = .ok v

/-- The round trip of one value, the statement proved by induction over types. -/
def JTrip (d : Dec) (dv : Version) (t : Ty) : Prop :=
  ∀ v name, Faithful dv t v → JVal t v → ∃ n, marshalValue t v (Node.new name) = some n ∧ n.xmlName = name ∧
    (HasElem t v → n.nodes ≠ []) ∧
    ∀ j, JSame (Json.ofNode d.reg n) j → (∀ k, JName k → JReads d dv t v j k) ∧
      (ItemTy t → JReadsItem d dv t v j ∧ ∀ m, j = .obj m → Json.isItem m = false)

/-! ### Leaves -/

/-- The JSON form of an element with a text only. -/
theorem ofNode_text (r : Registry) (name : QName) (s : Str) (j : Json) (h : JSame (Json.ofNode r (.mk name [] s [])) j) :
    (s ≠ [] ∧ j = .str s) ∨ (s = [] ∧ j = .obj []) := by
  rw [Json.ofNode] at h
  split at h
  · rename_i hs
    rw [jsame_str] at h
    exact Or.inl ⟨hs, h⟩
  · rename_i hs
    rw [Json.ofAttrs, Json.ofChildren, JSame] at h
    obtain ⟨m', m'', rfl, hp, hf⟩ := h
    rw [JSameFields] at hf
    subst hf
    rw [nil_perm] at hp
    subst hp
    exact Or.inr ⟨by simpa using hs, rfl⟩

/-- A text or an empty object are read as an element with this text. -/
theorem text_reads (d : Dec) (dv : Version) (t : Ty) (v : Val) (s : Str) (j : Json) (h : (s ≠ [] ∧ j = .str s) ∨ (s = [] ∧ j = .obj []))
    (hu : ∀ nm info, unmarshal d dv (.mk nm [] s []) info t t.zero = .ok v) :
    (∀ k, JName k → JReads d dv t v j k) ∧ JReadsItem d dv t v j ∧ ∀ m, j = .obj m → Json.isItem m = false := by
  rcases h with ⟨hs, rfl⟩ | ⟨rfl, rfl⟩
  · refine ⟨fun k hk => ⟨.mk ⟨[], k⟩ [] s [], ?_, rfl, hu _⟩, ⟨Json.li [] s, ?_, rfl, hu _⟩, by simp⟩
    · intro node; rw [Json.toNode, addSimple_named hk.1]
    · rw [Json.toNode]; rfl
  · refine ⟨fun k hk => ⟨.mk ⟨[], k⟩ [] [] [], ?_, rfl, hu _⟩, ⟨Json.li [] [], ?_, rfl, hu _⟩, ?_⟩
    · intro node
      rw [Json.toNode, if_neg (jsonName_ne_nil hk.1), Json.toFields]; rfl
    · rw [Json.toNode, if_pos rfl, Json.toFields]
    · intro m hm; cases hm; rfl

theorem simple_jtrip (d : Dec) (dv : Version) {t : Ty} {v : Val} (name : QName) (h : LeafFaithful t v)
    (ht : ∀ c, t ≠ .text c) (hne : ¬ HasElem t v)
    (hm : ∀ n, marshalValue t v n = (marshalSimple v).map n.setValue) :
    ∃ n, marshalValue t v (Node.new name) = some n ∧ n.xmlName = name ∧ (HasElem t v → n.nodes ≠ []) ∧
    ∀ j, JSame (Json.ofNode d.reg n) j → (∀ k, JName k → JReads d dv t v j k) ∧
      (ItemTy t → JReadsItem d dv t v j ∧ ∀ m, j = .obj m → Json.isItem m = false) := by
  obtain ⟨s, h1, -, h3, -⟩ := leaf_reads h ht
  refine ⟨(Node.new name).setValue s, by rw [hm, h1]; rfl, rfl, fun h => absurd h hne, ?_⟩
  intro j hj
  have key := text_reads d dv t v s j (ofNode_text d.reg name s j hj) (by
    intro nm info
    rw [unmarshal]
    cases t <;> cases v <;> simp only [LeafFaithful] at h <;>
    first
    | (simp only [derefVal, Ty.zero] at h3 ⊢; rw [h3]; rfl)
    | exact absurd rfl (ht _))
  exact ⟨key.1, fun _ => key.2⟩

/-! ### Attributes become elements -/

theorem leaf_elem (d : Dec) (dv : Version) {t : Ty} {v : Val} (h : LeafFaithful t v) {s : Str} (hs : leafText t v = some (some s)) (nm : QName)
    (info : Bool) : unmarshal d dv (.mk nm [] s []) info t t.zero = .ok v := by
  by_cases ht : ∀ c, t ≠ .text c
  · obtain ⟨s', h1, h2, h3, -⟩ := leaf_reads h ht
    rw [h2] at hs
    cases hs
    rw [unmarshal]
    cases t <;> cases v <;> simp only [LeafFaithful] at h <;>
    first
    | (simp only [derefVal, Ty.zero] at h3 ⊢; rw [h3]; rfl)
    | exact absurd rfl (ht _)
  · simp only [ne_eq, not_forall, not_not] at ht
    obtain ⟨c, rfl⟩ := ht
    cases v <;> simp only [LeafFaithful] at h
    obtain ⟨s', h1, h2⟩ := h
    have : s' = s := by
      have : leafText (.text c) (.opq _) = _ := h1
      rw [hs] at this
      cases this; rfl
    subst this
    rw [unmarshal]
    simp only [Ty.zero, derefVal, h2, rewrap]

/-- A value written as an attribute can be read from an element with the same text. -/
theorem attr_elem (d : Dec) (dv : Version) {t : Ty} {v : Val} (h : AttrFaithful t v) {s : Str} (hs : attrText t v = some (some s)) (nm : QName)
    (info : Bool) : unmarshal d dv (.mk nm [] s []) info t t.zero = .ok v := by
  by_cases ht : ∃ t' v', t = .ptr t' ∧ v = .ptr v'
  · obtain ⟨t', v', rfl, rfl⟩ := ht
    have hl : LeafFaithful t' v' := h
    have h1 := leaf_elem d dv hl hs nm info
    apply unmarshal_ptr d dv _ info t' _ v' h1
    cases t' <;> cases v' <;> simp only [LeafFaithful] at hl <;> rfl
  · have h' : LeafFaithful t v := by
      cases t <;> cases v <;> first | exact h | exact absurd ⟨_, _, rfl, rfl⟩ ht
    apply leaf_elem d dv h' _ nm info
    cases t <;> cases v <;> first | exact hs | (simp only [LeafFaithful] at h')

/-! ### Language alternatives -/

/-- The element read for a language and a text. -/
def jLi (p : Str × Str) : Node := Json.li [⟨⟨[], "xml:lang".toList⟩, p.1⟩] p.2

theorem item_nodes {x : AltItem} {j : Json} (h : ItemJson x j) (hx : x.isDefault = true ∨ x.lang ≠ []) :
    Json.altNodes j = .ok ((expandItem x).map jLi) := by
  obtain ⟨m, rfl, hp⟩ := h
  have hw : GoMap.Wf m := by
    unfold GoMap.Wf
    rw [(hp.map _).nodup_iff]
    simp only [List.map_cons, List.map_nil]
    decide
  have g1 : GoMap.get m "value".toList = some (.str x.value) := (GoMap.get_eq_some hw).2 (hp.mem_iff.2 (by simp))
  have g2 : GoMap.get m "lang".toList = some (.str x.lang) := (GoMap.get_eq_some hw).2 (hp.mem_iff.2 (by simp))
  have g3 : GoMap.get m "isDefault".toList = some (.bool x.isDefault) := (GoMap.get_eq_some hw).2 (hp.mem_iff.2 (by simp))
  rw [Json.altNodes]
  simp only [g1, g2, g3]
  unfold expandItem
  cases hd : x.isDefault with
  | true =>
    by_cases hl : x.lang = []
    · simp [hl, jLi]
    · simp [hl, jLi]
  | false =>
    have hl : x.lang ≠ [] := by
      rcases hx with h | h
      · rw [hd] at h; cases h
      · exact h
    simp [hl, jLi]

theorem items_nodes {items : List AltItem} {l : List Json} (h : Forall₂ ItemJson items l)
    (hx : ∀ x ∈ items, x.isDefault = true ∨ x.lang ≠ []) : Json.altNodesAll l = .ok ((items.flatMap expandItem).map jLi) := by
  induction h with
  | nil => rfl
  | cons h1 h2 ih =>
    rename_i x j items l
    rw [Json.altNodesAll, item_nodes h1 (hx x (by simp)), ih (fun y hy => hx y (by simp [hy]))]
    simp

/-- The item read from an element. -/
def jItem (p : Str × Str) : AltItem :=
  if p.1 = Json.xDefault then { value := trimSpace p.2, isDefault := true } else { value := trimSpace p.2, lang := p.1 }

theorem unmarshal_jLi (p : Str × Str) : unmarshalAltItem (jLi p) = jItem p := by
  have h : (jLi p).getAttr [] "lang".toList = [⟨⟨[], "xml:lang".toList⟩, p.1⟩] := by rfl
  unfold unmarshalAltItem jItem
  rw [h]
  simp only [List.foldl_cons, List.foldl_nil, altLang]
  change _ = if p.1 = "x-default".toList then _ else _
  split
  · rfl
  · rfl

theorem unmarshal_jLis (d : Dec) (dv : Version) (hr : d.reg.getPrefix Json.nsRdf = "rdf".toList) (l : List (Str × Str)) (nm : QName) (info : Bool) :
    unmarshal d dv (.mk nm [] [] [.mk ⟨Json.nsRdf, "Alt".toList⟩ [] [] (l.map jLi)]) info .alt Ty.alt.zero =
      .ok (.alt (AltString.mergeDefault (l.map jItem))) := by
  rw [unmarshal]
  simp only [Ty.zero, derefVal]
  unfold unmarshalAltNodes AltString.unmarshalXMP unmarshalArray
  have : ∀ lis, arrayItems (.mk ⟨[], []⟩ [] [] [.mk ⟨Json.nsRdf, "Alt".toList⟩ [] [] lis]) = some lis := by
    intro lis
    exact if_pos (e := none) (show stripPrefix "Alt".toList ∈ ["Seq".toList, "Bag".toList, "Alt".toList] by decide)
  simp only [this]
  rw [mapM_some_of _ unmarshalAltItem]
  · simp only [Option.map_some, List.nil_append, List.map_map]
    have : unmarshalAltItem ∘ jLi = jItem := funext unmarshal_jLi
    rw [this]
    rfl
  · intro n hn
    obtain ⟨p, _, rfl⟩ := List.mem_map.1 hn
    rw [if_neg]
    have : (jLi p).fullName d.reg = "rdf:li".toList := fullName_rdf d.reg hr _ _ _ _
    simp [this]

/-- The items of the JSON form of a written alternative. -/
theorem altItems_written (d : AltItem) (rest : AltString) (hr : ∀ x ∈ d :: rest, x.lang ≠ Json.xDefault) (hf : ∀ x ∈ rest, x.isDefault = false) :
    Json.altItems (altLis d rest) =
      if d.value ≠ [] ∧ (d.lang ≠ [] ∨ rest ≠ []) then
        ((if d.lang = [] then [] else [{ value := d.value, lang := d.lang, isDefault := true }]) ++
          rest.map (fun x => if x.value = d.value then { x with isDefault := true } else x))
      else { value := d.value, lang := Json.xDefault, isDefault := true } ::
        ((if d.lang = [] then [] else [{ value := d.value, lang := d.lang }]) ++ rest) := by
  have hi : ∀ l v, Json.altItem (altLi l v) = { value := v, lang := l, isDefault := decide (l = Json.xDefault) } := by
    intro l v; rfl
  have hmap : (altLis d rest).map Json.altItem = { value := d.value, lang := Json.xDefault, isDefault := true } ::
        ((if d.lang = [] then [] else [{ value := d.value, lang := d.lang }]) ++ rest) := by
    unfold altLis defaultLis
    rw [List.map_append, List.map_cons, hi, List.cons_append]
    congr 1
    congr 1
    · split
      · rfl
      · have := hr d (by simp)
        rw [List.map_cons, List.map_nil, hi, decide_eq_false this]
    · rw [List.map_map]
      conv_rhs => rw [← List.map_id rest]
      apply List.map_congr_left
      intro x hx
      rw [Function.comp, hi]
      have h1 := hr x (by simp [hx])
      have h2 := hf x hx
      cases x
      simp only at h1 h2
      rw [decide_eq_false h1, h2]
      rfl
  have hlast : Json.lastDefault ({ value := d.value, lang := Json.xDefault, isDefault := true } ::
        ((if d.lang = [] then [] else [{ value := d.value, lang := d.lang }]) ++ rest)) = some (0, d.value) := by
    have hnone : ∀ l : List AltItem, (∀ x ∈ l, x.lang ≠ Json.xDefault) → Json.lastDefault l = none := by
      intro l
      induction l with
      | nil => intro _; rfl
      | cons x xs ih =>
        intro h
        rw [Json.lastDefault, ih (fun y hy => h y (by simp [hy]))]
        simp only
        rw [if_neg (h x (by simp))]
    rw [Json.lastDefault, hnone]
    · simp only [if_true]
    · intro x hx
      rcases List.mem_append.1 hx with hx | hx
      · split at hx
        · cases hx
        · simp only [List.mem_cons, List.not_mem_nil, or_false] at hx
          rw [hx]; exact hr d (by simp)
      · exact hr x (by simp [hx])
  unfold Json.altItems
  simp only [hmap, hlast]
  have hlen : (({ value := d.value, lang := Json.xDefault, isDefault := true } : AltItem) ::
        ((if d.lang = [] then [] else [{ value := d.value, lang := d.lang }]) ++ rest)).length > 1 ↔ (d.lang ≠ [] ∨ rest ≠ []) := by
    by_cases hl : d.lang = []
    · cases rest <;> simp [hl]
    · simp [hl]
  simp only [hlen]
  by_cases hc : d.value ≠ [] ∧ (d.lang ≠ [] ∨ rest ≠ [])
  · rw [if_pos hc, if_pos hc, List.map_cons, List.eraseIdx_zero, List.tail_cons, List.map_append]
    congr 1
    split <;> simp
  · rw [if_neg hc, if_neg hc]

theorem jsameList_iff (l : List Json) : ∀ l', JSameList l l' ↔ Forall₂ JSame l l' := by
  induction l with
  | nil => intro l'; rw [JSameList, forall₂_nil_left_iff]
  | cons a l ih =>
    intro l'
    rw [JSameList, forall₂_cons_left_iff]
    constructor
    · rintro ⟨t', fs', rfl, h1, h2⟩
      exact ⟨t', fs', h1, (ih _).1 h2, rfl⟩
    · rintro ⟨t', fs', h1, h2, rfl⟩
      exact ⟨t', fs', rfl, h1, (ih _).2 h2⟩

theorem jsame_item (x : AltItem) (j : Json) (h : JSame (Json.ofAltItem x) j) : ItemJson x j := by
  unfold Json.ofAltItem at h
  rw [JSame] at h
  obtain ⟨m', m'', rfl, hp, hf⟩ := h
  have := jsame_simple (by simp) hf
  subst this
  exact ⟨m', rfl, hp.symm⟩

theorem jsame_items (items : List AltItem) (j : Json) (h : JSame (.arr (items.map Json.ofAltItem)) j) :
    ∃ l, j = .arr l ∧ Forall₂ ItemJson items l := by
  rw [JSame] at h
  obtain ⟨l, rfl, h⟩ := h
  rw [jsameList_iff, forall₂_map_left_iff] at h
  exact ⟨l, rfl, h.imp (fun a b => jsame_item a b)⟩

/-- Merging the default of a written alternative. -/
theorem merge_raw (d : AltItem) (rest : AltString) (hd : d.isDefault = true) (hl : d.lang ≠ []) :
    AltString.mergeDefault (rawItems d rest) = d :: rest := by
  unfold rawItems
  rw [mergeDefault_cons _ rfl]
  simp only [hl, if_false, List.cons_append, List.nil_append]
  have : AltString.dupIndex 0 d.value 1 ({ value := d.value, lang := d.lang } :: rest) = some 1 := by
    simp [AltString.dupIndex]
  rw [this]
  cases d
  simp_all

theorem merge_single (x : AltItem) (hd : x.isDefault = true) (hl : x.lang = []) (ht : Trimmed x.value) (xd : Str) (hxd : xd = Json.xDefault) :
    AltString.mergeDefault (([{ value := x.value, lang := xd, isDefault := true }] : List AltItem).flatMap expandItem |>.map jItem) = [x] := by
  have h0 : xd ≠ [] := by rw [hxd]; decide
  have htx := trimSpace_of_trimmed ht
  have : ([{ value := x.value, lang := xd, isDefault := true }] : List AltItem).flatMap expandItem = [(xd, x.value), (xd, x.value)] := by
    simp only [List.flatMap_cons, List.flatMap_nil, List.append_nil, expandItem, if_true, h0, if_false]
    rw [← hxd]
  rw [this]
  have hj : jItem (xd, x.value) = { value := x.value, isDefault := true } := by
    unfold jItem; rw [if_pos hxd, htx]
  rw [List.map_cons, List.map_cons, List.map_nil, hj, mergeDefault_cons _ rfl]
  have : AltString.dupIndex 0 x.value 1 [{ value := x.value, isDefault := true }] = some 1 := by simp [AltString.dupIndex]
  simp only [this]
  cases x
  simp_all

theorem merge_read (x : AltItem) (rest : AltString) (hd : x.isDefault = true) (hl : x.lang ≠ []) (ht : ∀ y ∈ x :: rest, Trimmed y.value)
    (hr : ∀ y ∈ x :: rest, y.lang ≠ Json.xDefault) (hf : ∀ y ∈ rest, y.isDefault = false) :
    AltString.mergeDefault (((x :: rest).flatMap expandItem).map jItem) = x :: rest := by
  conv_rhs => rw [← merge_raw x rest hd hl]
  congr 1
  unfold rawItems
  rw [List.flatMap_cons, List.map_append, if_neg hl]
  have htx := trimSpace_of_trimmed (ht x (by simp))
  have h1 : (expandItem x).map jItem = [{ value := x.value, isDefault := true }, { value := x.value, lang := x.lang }] := by
    unfold expandItem
    rw [if_pos hd, if_neg hl]
    simp only [List.map_cons, List.map_nil, jItem]
    rw [if_neg (hr x (by simp)), htx]
    simp only [if_true]
  rw [h1]
  congr 1
  have h2 : ∀ y ∈ rest, (expandItem y).map jItem = [y] := by
    intro y hy
    unfold expandItem
    rw [if_neg (by rw [hf y hy]; simp)]
    simp only [List.map_cons, List.map_nil, jItem]
    rw [if_neg (hr y (by simp [hy])), trimSpace_of_trimmed (ht y (by simp [hy]))]
    have := hf y hy
    cases y
    simp_all
  simp only [List.cons_append, List.nil_append]
  congr 1
  congr 1
  clear ht hr hf
  induction rest with
  | nil => rfl
  | cons y ys ih =>
    rw [List.flatMap_cons, List.map_append, h2 y (by simp), ih (fun z hz => h2 z (by simp [hz]))]
    rfl

theorem alt_jtrip (d : Dec) (dv : Version) (hr : d.reg.getPrefix Json.nsRdf = "rdf".toList) : JTrip d dv .alt := by
  intro v name hf hj
  rw [Faithful] at hf
  obtain ⟨a, rfl, hw, -⟩ := hf
  rw [JVal] at hj
  have hj := hj a rfl
  obtain ⟨x, rest, rfl, hd, hrest⟩ := hw.oneDefault
  have hj := hj x rest rfl
  have hm : AltString.marshalXMP (x :: rest) (Node.new name) = some (.mk name [] [] [.mk ⟨[], "rdf:Alt".toList⟩ [] [] (altLis x rest)]) := by
    have := marshal_lis x rest hd hrest
    unfold AltString.marshalXMP
    rw [if_neg (by simp)]
    cases hmm : (x :: rest).mapM (marshalAltItem (x :: rest).length) with
    | none => rw [hmm] at this; cases this
    | some l =>
      rw [hmm] at this
      simp only [Option.map_some, Option.some.injEq] at this
      rw [Option.map_some, this]
      rfl
  refine ⟨_, by rw [marshalValue]; exact hm, rfl, fun h => absurd h (by simp [HasElem]), ?_⟩
  intro j hjs
  refine ⟨?_, fun h => absurd h (by simp [ItemTy])⟩
  intro k hk
  rw [Json.ofNode, if_neg (by simp), Json.ofAttrs, Json.ofChildren, if_neg (by rw [fullName_plain]; decide), if_pos (by rw [fullName_plain]),
    ofAlt_flat, ] at hjs
  swap
  · unfold altLis defaultLis altLi
    intro h
    exact h rfl
  obtain ⟨l, rfl, hl⟩ := jsame_items _ _ hjs
  simp only [Node.nodes] at hl
  rw [altItems_written x rest hw.reserved (fun y hy => (hrest y hy).1)] at hl
  -- the items of the JSON form, and what is read from them
  have key : ∀ items : List AltItem, Forall₂ ItemJson items l → items ≠ [] → (∀ x ∈ items, x.isDefault = true ∨ x.lang ≠ []) →
      AltString.mergeDefault ((items.flatMap expandItem).map jItem) = x :: rest → JReads d dv .alt (.alt (x :: rest)) (.arr l) k := by
    intro items h1 h2 h3 h4
    refine ⟨.mk ⟨[], k⟩ [] [] [.mk ⟨Json.nsRdf, "Alt".toList⟩ [] [] ((items.flatMap expandItem).map jLi)], ?_, rfl, ?_⟩
    · intro node
      rw [Json.toNode, if_neg (jsonName_ne_nil hk.1), isAltArray_items d.reg hr h1 h2 h3, if_pos rfl, items_nodes h1 h3]
    · intro info
      rw [unmarshal_jLis d dv hr, h4]
  rcases hj with ⟨rfl, hlang⟩ | ⟨hlang, hval, hother⟩
  · rw [if_neg (by simp [hlang])] at hl
    simp only [hlang, if_true, List.nil_append] at hl
    exact key _ hl (by simp) (by simp) (merge_single x hd hlang (hw.trimmed x (by simp)) _ rfl)
  · rw [if_pos ⟨hval, Or.inl hlang⟩, if_neg hlang] at hl
    have hsame : rest.map (fun y => if y.value = x.value then { y with isDefault := true } else y) = rest := by
      conv_rhs => rw [← List.map_id rest]
      apply List.map_congr_left
      intro y hy
      rw [if_neg (hother y hy)]
      rfl
    rw [hsame] at hl
    have hx : ({ value := x.value, lang := x.lang, isDefault := true } : AltItem) = x := by cases x; simp_all
    rw [hx] at hl
    refine key _ hl (by simp) ?_ (merge_read x rest hd hlang hw.trimmed hw.reserved (fun y hy => (hrest y hy).1))
    intro y hy
    rcases List.mem_append.1 hy with hy | hy
    · simp only [List.mem_cons, List.not_mem_nil, or_false] at hy; rw [hy]; exact Or.inl hd
    · exact Or.inr (hrest y hy).2

/-! ### Arrays -/

theorem items_jtrip (d : Dec) (dv : Version) (hr : d.reg.getPrefix Json.nsRdf = "rdf".toList) (t : Ty) (hi : ItemTy t) (ht : JTrip d dv t) :
    ∀ (l : List Val), (∀ x ∈ l, Faithful dv t x) → (∀ x ∈ l, JVal t x) → ∃ lis, l.mapM (fun v => marshalValue t v liNode) = some lis ∧
      (∀ x ∈ l.head?, HasElem t x → FirstNested lis) ∧
      ∀ js, JSameList (Json.ofItems d.reg lis) js → Json.isAltArray js = false ∧
        ∃ lis', Json.toItems js = .ok lis' ∧ ∀ out, unmarshalItems d dv lis' t out = .ok (out ++ l) := by
  intro l
  induction l with
  | nil =>
    intro _ _
    refine ⟨[], rfl, by simp, ?_⟩
    intro js hjs
    rw [Json.ofItems, JSameList] at hjs
    subst hjs
    exact ⟨rfl, [], by rw [Json.toItems], fun out => by simp [unmarshalItems]⟩
  | cons x xs ih =>
    intro h hj
    obtain ⟨n, h1, -, h2, h3⟩ := ht x ⟨[], "rdf:li".toList⟩ (h x (by simp)) (hj x (by simp))
    obtain ⟨lis, h4, -, h5⟩ := ih (fun y hy => h y (by simp [hy])) (fun y hy => hj y (by simp [hy]))
    refine ⟨n :: lis, ?_, ?_, ?_⟩
    · rw [List.mapM_cons, show marshalValue t x liNode = some n from h1, h4]
      rfl
    · intro y hy
      simp only [List.head?_cons, Option.mem_def, Option.some.injEq] at hy
      subst hy
      exact h2
    · intro js hjs
      rw [Json.ofItems, JSameList] at hjs
      obtain ⟨j, js', rfl, hj1, hj2⟩ := hjs
      obtain ⟨-, lis', h6, h7⟩ := h5 js' hj2
      obtain ⟨⟨n', h8, h9, h10⟩, h11⟩ := (h3 j hj1).2 hi
      refine ⟨?_, n' :: lis', ?_, ?_⟩
      · cases j with
        | obj m => exact h11 m rfl
        | _ => rfl
      · rw [Json.toItems, h8]
        simp only [h6]
      · intro out
        rw [unmarshalItems]
        have : n'.fullName d.reg = "rdf:li".toList := by
          obtain ⟨n1, n2, n3, n4⟩ := n'
          simp only [Node.xmlName] at h9
          subst h9
          exact fullName_rdf d.reg hr _ _ _ _
        rw [if_neg (by simp [this]), h10 false]
        simp only
        rw [h7]
        simp

theorem slice_jtrip (d : Dec) (dv : Version) (hr : d.reg.getPrefix Json.nsRdf = "rdf".toList) (typ : ArrayType) (t : Ty) (ht : JTrip d dv t) :
    JTrip d dv (.slice typ t) := by
  intro v name hf hj
  rw [Faithful] at hf
  obtain ⟨l, rfl, hne, hf⟩ := hf
  rw [JVal] at hj
  obtain ⟨hi, hj⟩ := hj
  obtain ⟨hj1, hj2⟩ := hj l [] rfl
  obtain ⟨lis, h1, h2, h3⟩ := items_jtrip d dv hr t hi ht l hf hj2
  refine ⟨.mk name [] [] [.mk ⟨[], "rdf:".toList ++ typ.toStr⟩ [] [] lis], ?_, rfl, fun h => absurd h (by simp [HasElem]), ?_⟩
  · rw [marshalValue]
    unfold marshalArray
    rw [if_neg (by simpa using hne), h1]
    rfl
  · intro j hjs
    refine ⟨?_, fun h => absurd h (by simp [ItemTy])⟩
    intro k hk
    have hform : Json.ofNode d.reg (.mk name [] [] [.mk ⟨[], "rdf:".toList ++ typ.toStr⟩ [] [] lis]) = .arr (Json.ofItems d.reg lis) := by
      rw [Json.ofNode, if_neg (by simp), Json.ofAttrs, Json.ofChildren, fullName_plain]
      cases typ with
      | alternative =>
        rw [if_neg (by decide), if_pos (by decide), ofAlt_nested]
        · rfl
        · obtain ⟨x, xs, rfl⟩ := List.exists_cons_of_ne_nil hne
          exact h2 x rfl (hj1 rfl x rfl)
      | unordered => rw [if_pos (by decide), Json.ofArray]
      | ordered => rw [if_pos (by decide), Json.ofArray]
    rw [hform, JSame] at hjs
    obtain ⟨js, rfl, hjs⟩ := hjs
    obtain ⟨h4, lis', h5, h6⟩ := h3 js hjs
    refine ⟨.mk ⟨[], k⟩ [] [] [.mk ⟨Json.nsRdf, "Seq".toList⟩ [] [] lis'], ?_, rfl, ?_⟩
    · intro node
      rw [Json.toNode, if_neg (jsonName_ne_nil hk.1), h4, if_neg (by simp), h5]
    · intro info
      rw [unmarshal]
      simp only [Ty.zero, derefVal]
      rw [unmarshalArr, unmarshalArr1, if_pos (by decide), h6]
      simp [rewrap]

/-! ### Structs -/

/-- A field of the JSON form of a struct, and what is read from it. -/
structure JField (d : Dec) (dv : Version) (all : List FieldInfo) (tf : List Ty) (vf : List Val) (i : Nat) (e : Str × Json) : Prop where
  name : JName e.1
  found : findStructField dv all e.1 = some i
  reads : ∃ t v, tf[i]? = some t ∧ vf[i]? = some v ∧ ∀ j, JSame e.2 j → JReads d dv t v j e.1

/-- The element fields of a struct that are written. -/
theorem fields_marshalled (dv : Version) (P : Ty → Val → Node → Prop) (all : List FieldInfo) (tf : List Ty) (vf : List Val) :
    ∀ (ts : List Ty) (k : Nat) (fs : List FieldInfo) (vs : List Val) (n : Node),
    (∀ (i : Nat) f t v, fs[i]? = some f → ts[i]? = some t → vs[i]? = some v → f.attr = false → fieldWritten f t v = true → Faithful dv t v →
      ∃ x, marshalValue t v (Node.new ⟨[], f.name⟩) = some x ∧ x.xmlName = ⟨[], f.name⟩ ∧ P t v x) →
    FaithfulFields dv ts all k fs vs → (∀ j, tf[k + j]? = ts[j]?) → (∀ j, vf[k + j]? = vs[j]?) →
    (∀ j, all[k + j]? = fs[j]?) → (∀ x ∈ n.nodes, ∃ j, j < k ∧ findStructField dv all x.xmlName.loc = some j) →
    ∃ (outs : List (Nat × Node)), marshalFields ts fs vs n = some (n.setNodes (n.nodes ++ outs.map (·.2)), !outs.isEmpty) ∧
      (∀ o ∈ outs, k ≤ o.1 ∧ ∃ f t v, all[o.1]? = some f ∧ tf[o.1]? = some t ∧ vf[o.1]? = some v ∧ f.attr = false ∧
        findStructField dv all f.name = some o.1 ∧ o.2.xmlName = ⟨[], f.name⟩ ∧ P t v o.2) ∧ (outs.map (·.1)).Nodup ∧
      (∀ i f t v, k ≤ i → all[i]? = some f → tf[i]? = some t → vf[i]? = some v → f.attr = false →
        fieldWritten f t v = true → i ∈ outs.map (·.1)) := by
  intro ts
  induction ts with
  | nil =>
    intro k fs vs n _ hf ht hv ha hfresh
    rw [FaithfulFields] at hf
    obtain ⟨rfl, rfl⟩ := hf
    refine ⟨[], ?_, by simp, by simp, ?_⟩
    · cases n; simp [marshalFields, Node.setNodes, Node.nodes]
    · intro i f t v hi h1 h2
      have := ht (i - k)
      rw [show k + (i - k) = i by omega, h2] at this
      simp at this
  | cons t ts ih =>
    intro k fs vs n hm hf ht hv ha hfresh
    rw [FaithfulFields] at hf
    obtain ⟨f, fs, v, vs, rfl, rfl, hc, hrest⟩ := hf
    have ht0 : tf[k]? = some t := by have := ht 0; simpa using this
    have hv0 : vf[k]? = some v := by have := hv 0; simpa using this
    have ha0 : all[k]? = some f := by have := ha 0; simpa using this
    have ht' : ∀ j, tf[k + 1 + j]? = ts[j]? := fun j => by have := ht (j + 1); rw [List.getElem?_cons_succ] at this; rw [← this]; congr 1; omega
    have hv' : ∀ j, vf[k + 1 + j]? = vs[j]? := fun j => by have := hv (j + 1); rw [List.getElem?_cons_succ] at this; rw [← this]; congr 1; omega
    have ha' : ∀ j, all[k + 1 + j]? = fs[j]? := fun j => by have := ha (j + 1); rw [List.getElem?_cons_succ] at this; rw [← this]; congr 1; omega
    have hm' : ∀ (i : Nat) f t v, fs[i]? = some f → ts[i]? = some t → vs[i]? = some v → f.attr = false → fieldWritten f t v = true →
        Faithful dv t v → ∃ x, marshalValue t v (Node.new ⟨[], f.name⟩) = some x ∧ x.xmlName = ⟨[], f.name⟩ ∧ P t v x :=
      fun i f t v h1 h2 h3 => hm (i + 1) f t v h1 h2 h3
    rw [marshalFields]
    by_cases hw : (!f.attr && fieldWritten f t v) = true
    · rw [if_pos hw]
      simp only [Bool.and_eq_true, Bool.not_eq_true'] at hw
      rw [if_pos hw.2, if_neg (by simp [hw.1])] at hc
      obtain ⟨x, hx1, hx2, hx3⟩ := hm 0 f t v rfl rfl rfl hw.1 hw.2 hc.2
      rw [hx1]
      have hadd : n.addNode x = n.setNodes (n.nodes ++ [x]) := by
        unfold Node.addNode
        rw [addNode_fresh]
        intro y hy he
        obtain ⟨j, hj1, hj2⟩ := hfresh y hy
        rw [he, hx2, hc.1] at hj2
        have := Option.some.inj hj2
        omega
      dsimp only
      rw [hadd]
      have hfresh' : ∀ a ∈ (n.setNodes (n.nodes ++ [x])).nodes, ∃ j, j < k + 1 ∧ findStructField dv all a.xmlName.loc = some j := by
        intro a ha
        have : (n.setNodes (n.nodes ++ [x])).nodes = n.nodes ++ [x] := by cases n; rfl
        rw [this, List.mem_append, List.mem_singleton] at ha
        rcases ha with ha | rfl
        · obtain ⟨j, h1, h2⟩ := hfresh a ha
          exact ⟨j, by omega, h2⟩
        · exact ⟨k, by omega, by rw [hx2]; exact hc.1⟩
      obtain ⟨outs, h1, h2, h3, h4⟩ := ih (k + 1) fs vs _ hm' hrest ht' hv' ha' hfresh'
      refine ⟨(k, x) :: outs, ?_, ?_, ?_, ?_⟩
      · simp only [h1]
        cases n
        simp [Node.setNodes, Node.nodes]
      · intro o ho
        rcases List.mem_cons.1 ho with rfl | ho
        · exact ⟨Nat.le_refl _, f, t, v, ha0, ht0, hv0, hw.1, hc.1, hx2, hx3⟩
        · have := h2 o ho
          exact ⟨by omega, this.2⟩
      · rw [List.map_cons, List.nodup_cons]
        refine ⟨?_, h3⟩
        intro hk
        obtain ⟨o, ho, hok⟩ := List.mem_map.1 hk
        have := (h2 o ho).1
        simp only at hok
        omega
      · intro i f' t' v' hi e1 e2 e3 e4 e5
        rw [List.map_cons, List.mem_cons]
        by_cases hik : i = k
        · exact Or.inl hik
        · exact Or.inr (h4 i f' t' v' (by omega) e1 e2 e3 e4 e5)
    · rw [if_neg hw]
      have hfresh' : ∀ a ∈ n.nodes, ∃ j, j < k + 1 ∧ findStructField dv all a.xmlName.loc = some j := by
        intro a ha
        obtain ⟨j, h1, h2⟩ := hfresh a ha
        exact ⟨j, by omega, h2⟩
      obtain ⟨outs, h1, h2, h3, h4⟩ := ih (k + 1) fs vs _ hm' hrest ht' hv' ha' hfresh'
      refine ⟨outs, h1, ?_, h3, ?_⟩
      · intro o ho
        have := h2 o ho
        exact ⟨by omega, this.2⟩
      · intro i f' t' v' hi e1 e2 e3 e4 e5
        by_cases hik : i = k
        · subst hik
          rw [ha0] at e1; rw [ht0] at e2; rw [hv0] at e3
          cases e1; cases e2; cases e3
          exact absurd (by simp [e4, e5]) hw
        · exact h4 i f' t' v' (by omega) e1 e2 e3 e4 e5

/-- The attribute fields of a struct that are written. -/
theorem attrs_marshalled (dv : Version) (all : List FieldInfo) (tf : List Ty) (vf : List Val) : ∀ (ts : List Ty) (k : Nat) (fs : List FieldInfo) (vs : List Val) (n : Node),
    FaithfulFields dv ts all k fs vs → (∀ j, tf[k + j]? = ts[j]?) → (∀ j, vf[k + j]? = vs[j]?) →
    (∀ j, all[k + j]? = fs[j]?) → (∀ a ∈ n.attrs, ∃ j, j < k ∧ findStructField dv all a.name.loc = some j) →
    ∃ outs : List (Nat × Attr), marshalAttrs fs ts vs n = some (n.setAttrs (n.attrs ++ outs.map (·.2))) ∧
      (∀ o ∈ outs, k ≤ o.1 ∧ ∃ f t v, all[o.1]? = some f ∧ tf[o.1]? = some t ∧ vf[o.1]? = some v ∧ f.attr = true ∧
        findStructField dv all f.name = some o.1 ∧ o.2.name = ⟨[], f.name⟩ ∧ AttrFaithful t v ∧ attrText t v = some (some o.2.value)) ∧ (outs.map (·.1)).Nodup ∧
      (∀ i f t v, k ≤ i → all[i]? = some f → tf[i]? = some t → vf[i]? = some v → f.attr = true →
        fieldWritten f t v = true → i ∈ outs.map (·.1)) := by
  intro ts
  induction ts with
  | nil =>
    intro k fs vs n hf ht hv ha hfresh
    rw [FaithfulFields] at hf
    obtain ⟨rfl, rfl⟩ := hf
    refine ⟨[], ?_, by simp, by simp, ?_⟩
    · cases n; simp [marshalAttrs, Node.setAttrs, Node.attrs]
    · intro i f t v hi h1 h2
      have := ht (i - k)
      rw [show k + (i - k) = i by omega, h2] at this
      simp at this
  | cons t ts ih =>
    intro k fs vs n hf ht hv ha hfresh
    rw [FaithfulFields] at hf
    obtain ⟨f, fs, v, vs, rfl, rfl, hc, hrest⟩ := hf
    have ht0 : tf[k]? = some t := by have := ht 0; simpa using this
    have hv0 : vf[k]? = some v := by have := hv 0; simpa using this
    have ha0 : all[k]? = some f := by have := ha 0; simpa using this
    have ht' : ∀ j, tf[k + 1 + j]? = ts[j]? := fun j => by have := ht (j + 1); rw [List.getElem?_cons_succ] at this; rw [← this]; congr 1; omega
    have hv' : ∀ j, vf[k + 1 + j]? = vs[j]? := fun j => by have := hv (j + 1); rw [List.getElem?_cons_succ] at this; rw [← this]; congr 1; omega
    have ha' : ∀ j, all[k + 1 + j]? = fs[j]? := fun j => by have := ha (j + 1); rw [List.getElem?_cons_succ] at this; rw [← this]; congr 1; omega
    rw [marshalAttrs]
    by_cases hw : (f.attr && fieldWritten f t v) = true
    · rw [if_pos hw]
      simp only [Bool.and_eq_true] at hw
      rw [if_pos hw.2, if_pos hw.1] at hc
      obtain ⟨s, hs1, hs2⟩ := attr_reads hc.2
      have hm : marshalAttr f t v n = some (n.addAttr ⟨⟨[], f.name⟩, s⟩) := by
        unfold marshalAttr; rw [hs1]
      rw [hm]
      simp only
      have hadd : (n.addAttr ⟨⟨[], f.name⟩, s⟩) = n.setAttrs (n.attrs ++ [⟨⟨[], f.name⟩, s⟩]) := by
        unfold Node.addAttr
        rw [addAttr_fresh]
        intro x hx he
        obtain ⟨j, hj1, hj2⟩ := hfresh x hx
        simp only at he
        rw [he, hc.1] at hj2
        have := Option.some.inj hj2
        omega
      rw [hadd]
      have hfresh' : ∀ a ∈ (n.setAttrs (n.attrs ++ [⟨⟨[], f.name⟩, s⟩])).attrs, ∃ j, j < k + 1 ∧ findStructField dv all a.name.loc = some j := by
        intro a ha
        have : (n.setAttrs (n.attrs ++ [⟨⟨[], f.name⟩, s⟩])).attrs = n.attrs ++ [⟨⟨[], f.name⟩, s⟩] := by cases n; rfl
        rw [this, List.mem_append, List.mem_singleton] at ha
        rcases ha with ha | rfl
        · obtain ⟨j, h1, h2⟩ := hfresh a ha
          exact ⟨j, by omega, h2⟩
        · exact ⟨k, by omega, hc.1⟩
      obtain ⟨outs, h1, h2, h3, h4⟩ := ih (k + 1) fs vs _ hrest ht' hv' ha' hfresh'
      refine ⟨(k, ⟨⟨[], f.name⟩, s⟩) :: outs, ?_, ?_, ?_, ?_⟩
      · rw [h1]
        cases n
        simp [Node.setAttrs, Node.attrs]
      · intro o ho
        rcases List.mem_cons.1 ho with rfl | ho
        · exact ⟨Nat.le_refl _, f, t, v, ha0, ht0, hv0, hw.1, hc.1, rfl, hc.2, hs1⟩
        · have := h2 o ho
          exact ⟨by omega, this.2⟩
      · rw [List.map_cons, List.nodup_cons]
        refine ⟨?_, h3⟩
        intro hk
        obtain ⟨o, ho, hok⟩ := List.mem_map.1 hk
        have := (h2 o ho).1
        simp only at hok
        omega
      · intro i f' t' v' hi e1 e2 e3 e4 e5
        rw [List.map_cons, List.mem_cons]
        by_cases hik : i = k
        · exact Or.inl hik
        · exact Or.inr (h4 i f' t' v' (by omega) e1 e2 e3 e4 e5)
    · rw [if_neg hw]
      have hfresh' : ∀ a ∈ n.attrs, ∃ j, j < k + 1 ∧ findStructField dv all a.name.loc = some j := by
        intro a ha
        obtain ⟨j, h1, h2⟩ := hfresh a ha
        exact ⟨j, by omega, h2⟩
      obtain ⟨outs, h1, h2, h3, h4⟩ := ih (k + 1) fs vs _ hrest ht' hv' ha' hfresh'
      refine ⟨outs, h1, ?_, h3, ?_⟩
      · intro o ho
        have := h2 o ho
        exact ⟨by omega, this.2⟩
      · intro i f' t' v' hi e1 e2 e3 e4 e5
        by_cases hik : i = k
        · subst hik
          rw [ha0] at e1; rw [ht0] at e2; rw [hv0] at e3
          cases e1; cases e2; cases e3
          exact absurd (by simp [e4, e5]) hw
        · exact h4 i f' t' v' (by omega) e1 e2 e3 e4 e5

theorem jfields_get : ∀ {ts : List Ty} {fs : List FieldInfo} {vs : List Val}, JFields ts fs vs → ∀ (i : Nat) f t v,
    fs[i]? = some f → ts[i]? = some t → vs[i]? = some v → f.attr = false → fieldWritten f t v = true → JVal t v := by
  intro ts
  induction ts with
  | nil => intro fs vs _ i f t v _ h; simp at h
  | cons t ts ih =>
    intro fs vs h i f' t' v' e1 e2 e3 e4 e5
    cases fs with
    | nil => simp at e1
    | cons f fs =>
      cases vs with
      | nil => simp at e3
      | cons v vs =>
        rw [JFields] at h
        cases i with
        | zero =>
          simp only [List.getElem?_cons_zero, Option.some.injEq] at e1 e2 e3
          subst e1; subst e2; subst e3
          exact h.1 e5 e4
        | succ i =>
          simp only [List.getElem?_cons_succ] at e1 e2 e3
          exact ih h.2 i f' t' v' e1 e2 e3 e4 e5

/-- The attributes with their JSON forms. -/
def attrEntry (a : Attr) : Str × Json := (a.name.loc, .str a.value)
/-- The elements with their JSON forms. -/
def nodeEntry (r : Registry) (n : Node) : Str × Json := (n.fullName r, Json.ofNode r n)

theorem ofAttrs_entries : ∀ (as : List Attr) (out : GoMap Json), (∀ a ∈ as, JsonName a.name.loc) →
    (as.map (·.name.loc) ++ out.map (·.1)).Nodup → Json.ofAttrs as out = (as.map attrEntry).reverse ++ out := by
  intro as
  induction as with
  | nil => intro out _ _; rfl
  | cons a as ih =>
    intro out hn hd
    have hne : a.name.loc ≠ "rdf:parseType".toList := by
      intro e
      exact (hn a (by simp)).2 (by rw [e]; simp)
    rw [List.map_cons, List.cons_append, List.nodup_cons] at hd
    have hk : a.name.loc ∉ out.map (·.1) := fun h => hd.1 (by simp [h])
    rw [Json.ofAttrs, if_neg hne, set_fresh _ hk, ih]
    · simp [attrEntry]
    · exact fun b hb => hn b (by simp [hb])
    · rw [List.map_cons]
      exact (perm_middle.nodup_iff).2 (List.nodup_cons.2 hd)

theorem ofChildren_entries (r : Registry) : ∀ (ns : List Node) (out : GoMap Json), (∀ n ∈ ns, JsonName (n.fullName r)) →
    (ns.map (·.fullName r) ++ out.map (·.1)).Nodup → Json.ofChildren r ns out = .obj ((ns.map (nodeEntry r)).reverse ++ out) := by
  intro ns
  induction ns with
  | nil => intro out _ _; rw [Json.ofChildren]; rfl
  | cons n ns ih =>
    intro out hn hd
    have h2 := (hn n (by simp)).2
    simp only [List.mem_cons, List.not_mem_nil, or_false, not_or] at h2
    rw [List.map_cons, List.cons_append, List.nodup_cons] at hd
    have hk : n.fullName r ∉ out.map (·.1) := fun h => hd.1 (by simp [h])
    rw [Json.ofChildren, if_neg (by simp only [List.mem_cons, List.not_mem_nil, or_false]; tauto), if_neg h2.2.2.2.2, set_fresh _ hk, ih]
    · simp [nodeEntry]
    · exact fun b hb => hn b (by simp [hb])
    · rw [List.map_cons]
      exact (perm_middle.nodup_iff).2 (List.nodup_cons.2 hd)

/-- The JSON form of an element with named attributes and elements. -/
theorem ofNode_entries (r : Registry) (name : QName) (as p : List Attr) (ns : List Node) (hp : ∀ a ∈ p, a.name.loc = "rdf:parseType".toList)
    (ha : ∀ a ∈ as, JsonName a.name.loc) (hn : ∀ n ∈ ns, JsonName (n.fullName r))
    (hd : (ns.map (·.fullName r) ++ as.map (·.name.loc)).Nodup) :
    ∃ m, Json.ofNode r (.mk name (as ++ p) [] ns) = .obj m ∧ m ~ as.map attrEntry ++ ns.map (nodeEntry r) := by
  have hfil : (as ++ p).filter (fun a => a.name.loc ≠ "rdf:parseType".toList) = as := by
    rw [List.filter_append, List.filter_eq_self.2, List.filter_eq_nil_iff.2, List.append_nil]
    · intro a h; simp [hp a h]
    · intro a h
      simp only [ne_eq, decide_not, Bool.not_eq_true', decide_eq_false_iff_not]
      intro e
      exact (ha a h).2 (by rw [e]; simp)
  rw [Json.ofNode, if_neg (by simp), ofAttrs_filter, hfil, ofAttrs_entries as [] ha, ofChildren_entries r ns _ hn]
  · refine ⟨_, rfl, ?_⟩
    rw [List.append_nil]
    exact (perm_append_comm).trans ((reverse_perm _).append (reverse_perm _))
  · rw [List.append_nil, List.map_reverse, List.map_map]
    exact (((reverse_perm (as.map (·.name.loc))).append_left _).nodup_iff).2 hd
  · simpa using (List.nodup_append.1 hd).2.1

/-- Reading the entries of an object into the fields of a struct. -/
theorem jfields_read (d : Dec) (dv : Version) (all : List FieldInfo) (tf : List Ty) (vf : List Val) : ∀ (is : List Nat) (m m' : List (Str × Json)),
    Forall₂ (JField d dv all tf vf) is m → Forall₂ (fun a b => a.1 = b.1 ∧ JSame a.2 b.2) m m' →
    ∃ ns, (∀ node : Node, Json.toFields false m' node = .ok (node.setNodes (node.nodes ++ ns))) ∧
      ∀ st, is.Nodup → (∀ i ∈ is, ∀ t, tf[i]? = some t → st[i]? = some t.zero) → unmarshalNodes d dv ns all tf st = .ok (putAll vf st is) := by
  intro is m m' h
  induction h generalizing m' with
  | nil =>
    intro h2
    cases h2
    refine ⟨[], ?_, ?_⟩
    · intro node
      rw [Json.toFields]
      obtain ⟨n1, n2, n3, n4⟩ := node
      simp [Node.setNodes, Node.nodes]
    · intro st _ _; simp [unmarshalNodes, putAll]
  | cons h1 h2 ih =>
    rename_i i e is m
    intro h3
    cases h3 with
    | cons h4 h5 =>
      rename_i e' m'
      obtain ⟨k, j⟩ := e
      obtain ⟨k', j'⟩ := e'
      obtain ⟨rfl, h6⟩ := h4
      simp only at h6
      obtain ⟨hn, hfound, t, v, ht, hv, hreads⟩ := h1
      simp only at hn hfound hreads
      obtain ⟨n, h7, h8, h9⟩ := hreads j' h6
      obtain ⟨ns, h10, h11⟩ := ih m' h5
      refine ⟨n :: ns, ?_, ?_⟩
      · intro node
        rw [Json.toFields, if_neg (by simp), h7]
        simp only [h10]
        obtain ⟨n1, n2, n3, n4⟩ := node
        simp [Node.setNodes, Node.nodes, Node.appendNode]
      · intro st hnd hz
        rw [unmarshalNodes]
        have htr : d.translate n.xmlName = ⟨[], k⟩ := by rw [h8]; simp [Dec.translate]
        simp only [htr, fullNameOf_nil]
        have hx := hn.2
        simp only [List.mem_cons, List.not_mem_nil, or_false, not_or] at hx
        have hpt : k ≠ "rdf:parseType".toList := fun e => hn.1.2 (by rw [e]; simp)
        have hskip : skipName ⟨[], k⟩ = false := by
          unfold skipName
          simp only [hx.2.1, hx.2.2, hpt, decide_false, Bool.or_false]
          rfl
        rw [if_neg hx.1, hskip, if_neg (by simp), hfound]
        simp only [ht, hz i (by simp) t ht, h9 true]
        rw [h11 (st.set i v) (List.nodup_cons.1 hnd).2]
        · rw [putAll, hv]
        · intro i' hi' t' ht'
          have : i' ≠ i := fun e => (List.nodup_cons.1 hnd).1 (e ▸ hi')
          rw [List.getElem?_set_ne (Ne.symm this)]
          exact hz i' (by simp [hi']) t' ht'

/-- Writing the fields in any order gives all values. -/
theorem putAll_complete (tys : List Ty) (vals : List Val) (is : List Nat) (hl : vals.length = tys.length)
    (h : ∀ (i : Nat) t v, tys[i]? = some t → vals[i]? = some v → i ∈ is ∨ v = t.zero) : putAll vals (Ty.zeros tys) is = vals := by
  have hz : (Ty.zeros tys).length = tys.length := by
    have : ∀ l : List Ty, (Ty.zeros l).length = l.length := by
      intro l; induction l with
      | nil => rfl
      | cons a l ih => simp [Ty.zeros, ih]
    exact this tys
  apply List.ext_getElem?
  intro i
  rw [putAll_get _ _ _ (by omega)]
  split
  · rfl
  · rename_i hi
    rw [zeros_get_ty]
    cases ht : tys[i]? with
    | none =>
      rw [List.getElem?_eq_none_iff] at ht
      have : vals[i]? = none := by rw [List.getElem?_eq_none_iff]; omega
      rw [this]; rfl
    | some t =>
      have hlt : i < tys.length := (List.getElem?_eq_some_iff.1 ht).1
      have hv : vals[i]? = some (vals[i]'(by omega)) := List.getElem?_eq_getElem _
      rw [hv]
      rcases h i t _ ht hv with h | h
      · exact absurd h hi
      · rw [h]; rfl

theorem fullName_of (r : Registry) {n : Node} {k : Str} (h : n.xmlName = ⟨[], k⟩) : n.fullName r = k := by
  obtain ⟨n1, n2, n3, n4⟩ := n
  simp only [Node.xmlName] at h
  subst h
  exact fullName_plain _ _ _ _ _

/-- The names of the fields are distinct. -/
theorem jnames_nodup (d : Dec) (dv : Version) (all : List FieldInfo) (tf : List Ty) (vf : List Val) (is : List Nat) (as : List Attr) (ns : List Node)
    (h : Forall₂ (JField d dv all tf vf) is (as.map attrEntry ++ ns.map (nodeEntry d.reg))) (hn : is.Nodup) :
    (ns.map (·.fullName d.reg) ++ as.map (·.name.loc)).Nodup := by
  have key : ∀ (is : List Nat) (m : List (Str × Json)), Forall₂ (JField d dv all tf vf) is m → is.Nodup → (m.map (·.1)).Nodup := by
    intro is m h
    induction h with
    | nil => intro _; simp
    | cons h1 h2 ih =>
      rename_i i e is m
      intro hn
      rw [List.nodup_cons] at hn
      rw [List.map_cons, List.nodup_cons]
      refine ⟨?_, ih hn.2⟩
      intro hc
      obtain ⟨e', he', hk⟩ := List.mem_map.1 hc
      obtain ⟨n, hn1, hn2⟩ := List.getElem_of_mem he'
      have hlen := h2.length_eq
      have h3 := (forall₂_iff_get.1 h2).2 n (by omega) hn1
      simp only [List.get_eq_getElem] at h3
      rw [hn2] at h3
      have := h3.found
      rw [hk, h1.found] at this
      apply hn.1
      rw [Option.some.inj this]
      exact List.getElem_mem _
  have := key _ _ h hn
  rw [List.map_append, List.map_map, List.map_map] at this
  exact (perm_append_comm.nodup_iff).1 this

/-- Reading the JSON form of a struct, whatever the order of its entries. -/
theorem struct_read (d : Dec) (dv : Version) (all : List FieldInfo) (tf : List Ty) (vf : List Val) (is : List Nat) (m0 : List (Str × Json))
    (h : Forall₂ (JField d dv all tf vf) is m0) {m m'' m' : List (Str × Json)} (hm : m ~ m0)
    (hs : Forall₂ (fun a b => a.1 = b.1 ∧ JSame a.2 b.2) m m'') (hp : m'' ~ m') :
    ∃ is' ns, is ~ is' ∧ (∀ node : Node, Json.toFields false m' node = .ok (node.setNodes (node.nodes ++ ns))) ∧
      (∀ st, is'.Nodup → (∀ i ∈ is', ∀ t, tf[i]? = some t → st[i]? = some t.zero) → unmarshalNodes d dv ns all tf st = .ok (putAll vf st is')) ∧
      Json.isItem m' = false := by
  -- reorder the fields as the entries are visited
  have c1 : Relation.Comp Perm (Forall₂ (fun a b => a.1 = b.1 ∧ JSame a.2 b.2)) m0 m' := by
    have : Relation.Comp Perm (Forall₂ (fun (a b : Str × Json) => a.1 = b.1 ∧ JSame a.2 b.2)) m m' := by
      rw [← forall₂_comp_perm_eq_perm_comp_forall₂]
      exact ⟨m'', hs, hp⟩
    obtain ⟨m1, q1, q2⟩ := this
    exact ⟨m1, hm.symm.trans q1, q2⟩
  obtain ⟨m1, q1, q2⟩ := c1
  have c2 : Relation.Comp Perm (Forall₂ (JField d dv all tf vf)) is m1 := by
    rw [← forall₂_comp_perm_eq_perm_comp_forall₂]
    exact ⟨m0, h, q1⟩
  obtain ⟨is', q3, q4⟩ := c2
  obtain ⟨ns, h1, h2⟩ := jfields_read d dv all tf vf is' m1 m' q4 q2
  refine ⟨is', ns, q3, h1, h2, getPrefix_value m' ?_⟩
  intro e he
  obtain ⟨n, hn1, hn2⟩ := List.getElem_of_mem he
  have l1 := q2.length_eq
  have l2 := q4.length_eq
  have g1 := (forall₂_iff_get.1 q2).2 n (by omega) hn1
  have g2 := (forall₂_iff_get.1 q4).2 n (by omega) (by omega)
  simp only [List.get_eq_getElem] at g1 g2
  rw [← hn2, ← g1.1]
  exact g2.name.1.1

theorem struct_jtrip (d : Dec) (dv : Version) (z : Option (List Val → Bool)) (infos : List FieldInfo) (tys : List Ty)
    (hn : ∀ f ∈ infos, JName f.name) (hrt : ∀ t ∈ tys, JTrip d dv t) : JTrip d dv (.struct z infos tys) := by
  intro v name hf hj
  rw [Faithful] at hf
  obtain ⟨vals, rfl, hf⟩ := hf
  rw [JVal] at hj
  have hj := hj vals rfl
  obtain ⟨hl1, hl2, hzero⟩ := faithfulFields_get hf
  obtain ⟨as, ha1, ha2, ha3, ha4⟩ := attrs_marshalled dv infos tys vals tys 0 infos vals (Node.new name) hf
    (fun j => by rw [Nat.zero_add]) (fun j => by rw [Nat.zero_add]) (fun j => by rw [Nat.zero_add]) (by simp [Node.new, Node.attrs])
  obtain ⟨es, he1, he2, he3, he4⟩ := fields_marshalled dv (fun t v x => ∀ j, JSame (Json.ofNode d.reg x) j → ∀ k, JName k → JReads d dv t v j k)
    infos tys vals tys 0 infos vals
    ((Node.new name).setAttrs ((Node.new name).attrs ++ as.map (·.2)))
    (by
      intro i f t v e1 e2 e3 e4 e5 e6
      obtain ⟨x, h1, h2, -, h3⟩ := hrt t (List.mem_of_getElem? e2) v ⟨[], f.name⟩ e6 (jfields_get hj i f t v e1 e2 e3 e4 e5)
      exact ⟨x, h1, h2, fun j hj => (h3 j hj).1⟩) hf
    (fun j => by rw [Nat.zero_add]) (fun j => by rw [Nat.zero_add]) (fun j => by rw [Nat.zero_add]) (by simp [Node.new, Node.nodes, Node.setAttrs])
  have hes : marshalFields tys infos vals ((Node.new name).setAttrs ((Node.new name).attrs ++ as.map (·.2))) =
      some (.mk name (as.map (·.2)) [] (es.map (·.2)), !es.isEmpty) := by
    rw [he1]; rfl
  have hout : ∃ p : List Attr, (p = [] ∨ p = [rdfResourceAttr]) ∧
      marshalValue (.struct z infos tys) (.struct vals) (Node.new name) =
        some (.mk name (as.map (·.2) ++ p) [] (es.map (·.2))) := by
    rw [marshalValue]
    simp only [ha1, hes]
    by_cases hc : ((!es.isEmpty) && decide ((Node.mk name (as.map (·.2)) [] (es.map (·.2))).xmlName ≠ rdfDescription)) = true
    · rw [if_pos hc]
      refine ⟨[rdfResourceAttr], Or.inr rfl, ?_⟩
      unfold Node.addAttr
      rw [addAttr_fresh]
      · rfl
      · intro x hx he
        obtain ⟨o, ho, rfl⟩ := List.mem_map.1 hx
        obtain ⟨f, t, v, hf1, _, _, _, _, hf2, _⟩ := (ha2 o ho).2
        apply (hn f (List.mem_of_getElem? hf1)).1.2
        rw [hf2] at he
        rw [show f.name = "rdf:parseType".toList from he]
        simp
    · rw [if_neg hc]
      exact ⟨[], Or.inl rfl, by simp⟩
  obtain ⟨p, hp, hout⟩ := hout
  refine ⟨_, hout, rfl, ?_, ?_⟩
  · rintro ⟨vals', e, i, f, t, x, e1, e2, e3, e4, e5⟩
    cases e
    have := he4 i f t x (Nat.zero_le _) e1 e2 e3 e4 e5
    intro hc
    simp only [Node.nodes, List.map_eq_nil_iff] at hc
    rw [hc] at this
    simp at this
  -- the entries of the JSON form
  have hae : ∀ o ∈ as, JField d dv infos tys vals o.1 (attrEntry o.2) := by
    intro o ho
    obtain ⟨f, t, v, e1, e2, e3, e4, e5, e6, e7, e8⟩ := (ha2 o ho).2
    have hk : o.2.name.loc = f.name := by rw [e6]
    have hjn := hn f (List.mem_of_getElem? e1)
    refine ⟨by rw [attrEntry, hk]; exact hjn, by rw [attrEntry, hk]; exact e5, t, v, e2, e3, ?_⟩
    intro j hjs
    rw [attrEntry, jsame_str] at hjs
    subst hjs
    rw [attrEntry, hk]
    refine ⟨.mk ⟨[], f.name⟩ [] o.2.value [], ?_, rfl, attr_elem d dv e7 e8 _⟩
    intro node
    rw [Json.toNode, addSimple_named hjn.1]
  have hee : ∀ o ∈ es, JField d dv infos tys vals o.1 (nodeEntry d.reg o.2) := by
    intro o ho
    obtain ⟨f, t, v, e1, e2, e3, e4, e5, e6, e7⟩ := (he2 o ho).2
    have hk : o.2.fullName d.reg = f.name := fullName_of d.reg e6
    have hjn := hn f (List.mem_of_getElem? e1)
    refine ⟨by rw [nodeEntry, hk]; exact hjn, by rw [nodeEntry, hk]; exact e5, t, v, e2, e3, ?_⟩
    intro j hjs
    exact e7 j hjs _ (by rw [nodeEntry, hk]; exact hjn)
  have hall : Forall₂ (JField d dv infos tys vals) (as.map (·.1) ++ es.map (·.1)) ((as.map (·.2)).map attrEntry ++ (es.map (·.2)).map (nodeEntry d.reg)) := by
    apply rel_append
    · rw [List.map_map, forall₂_map_left_iff, forall₂_map_right_iff]
      exact forall₂_same.2 hae
    · rw [List.map_map, forall₂_map_left_iff, forall₂_map_right_iff]
      exact forall₂_same.2 hee
  have hdis : (as.map (·.1) ++ es.map (·.1)).Nodup := by
    rw [List.nodup_append]
    refine ⟨ha3, he3, ?_⟩
    rintro i hi i' hi' rfl
    obtain ⟨o, ho, rfl⟩ := List.mem_map.1 hi
    obtain ⟨o', ho', e⟩ := List.mem_map.1 hi'
    obtain ⟨f, t, v, e1, e2, e3, e4, e5, e6, e7, e8⟩ := (ha2 o ho).2
    obtain ⟨f', t', v', g1, g2, g3, g4, g5, g6, g7⟩ := (he2 o' ho').2
    rw [e, e1] at g1
    cases g1
    rw [e4] at g4
    cases g4
  obtain ⟨m, hm1, hm2⟩ := ofNode_entries d.reg name (as.map (·.2)) p (es.map (·.2))
    (by rcases hp with rfl | rfl <;> simp [rdfResourceAttr])
    (by
      intro a ha
      obtain ⟨o, ho, rfl⟩ := List.mem_map.1 ha
      exact (hae o ho).name.1)
    (by
      intro a ha
      obtain ⟨o, ho, rfl⟩ := List.mem_map.1 ha
      exact (hee o ho).name.1)
    (jnames_nodup d dv infos tys vals _ _ _ hall hdis)
  intro j hjs
  rw [hm1, JSame] at hjs
  obtain ⟨m', m'', rfl, hp', hs'⟩ := hjs
  obtain ⟨is, ns, hperm, hread, hum, hmem⟩ := struct_read d dv infos tys vals _ _ hall hm2 ((jsameFields_iff _ _).1 hs') hp'
  have hfin : ∀ nm info, unmarshal d dv (.mk nm [] [] ns) info (.struct z infos tys) (Ty.struct z infos tys).zero = .ok (.struct vals) := by
    intro nm info
    rw [unmarshal]
    simp only [Ty.zero, derefVal, unmarshalAttrs]
    rw [hum _ (hperm.nodup_iff.1 hdis), putAll_complete tys vals is hl2]
    · rfl
    · intro i t v e1 e2
      have hlt : i < tys.length := (List.getElem?_eq_some_iff.1 e1).1
      have hfi : infos[i]? = some (infos[i]'(by omega)) := List.getElem?_eq_getElem _
      rcases hzero i _ t v hfi e1 e2 with hw | hz
      · left
        rw [← hperm.mem_iff, List.mem_append]
        cases hattr : (infos[i]'(by omega)).attr with
        | true => exact Or.inl (ha4 i _ t v (Nat.zero_le _) hfi e1 e2 hattr hw)
        | false => exact Or.inr (he4 i _ t v (Nat.zero_le _) hfi e1 e2 hattr hw)
      · exact Or.inr hz
    · intro i _ t ht
      rw [zeros_get_ty, ht]; rfl
  refine ⟨fun k hk => ⟨.mk ⟨[], k⟩ [] [] ns, ?_, rfl, hfin _⟩, fun _ => ⟨⟨.mk ⟨Json.nsRdf, "li".toList⟩ [] [] ns, ?_, rfl, hfin _⟩, ?_⟩⟩
  · intro node
    rw [Json.toNode, if_neg (jsonName_ne_nil hk.1), hmem, hread]
    rfl
  · rw [Json.toNode, if_pos rfl, hmem, hread]
    rfl
  · rintro m1 e
    cases e
    exact hmem

mutual
theorem jtrips (d : Dec) (dv : Version) (hr : d.reg.getPrefix Json.nsRdf = "rdf".toList) : ∀ t : Ty, TyNames JName t → JTrip d dv t
  | .int bits, _ => fun v name h _ => by
    rw [Faithful] at h
    exact simple_jtrip d dv name h (by simp) (by simp [HasElem]) (fun n => by rw [marshalValue])
  | .uint bits, _ => fun v name h _ => by
    rw [Faithful] at h
    exact simple_jtrip d dv name h (by simp) (by simp [HasElem]) (fun n => by rw [marshalValue])
  | .bool, _ => fun v name h _ => by
    rw [Faithful] at h
    exact simple_jtrip d dv name h (by simp) (by simp [HasElem]) (fun n => by rw [marshalValue])
  | .str, _ => fun v name h _ => by
    rw [Faithful] at h
    exact simple_jtrip d dv name h (by simp) (by simp [HasElem]) (fun n => by rw [marshalValue])
  | .bytes, _ => fun v name h _ => by
    rw [Faithful] at h
    obtain ⟨s, rfl, hs⟩ := h
    exact simple_jtrip d dv name (v := .bytes s) (by simp [LeafFaithful]) (by simp) (by simp [HasElem]) (fun n => by rw [marshalValue])
  | .text c, _ => fun v name h hj => by
    rw [Faithful] at h
    obtain ⟨k, o, rfl, h1, h2⟩ := h
    rw [JVal] at hj
    have hj := hj k rfl o h1
    refine ⟨(Node.new name).setValue (o.getD []), ?_, rfl, fun h => absurd h (by simp [HasElem]), ?_⟩
    · rw [marshalValue]
      simp only [h1]
      cases o <;> rfl
    · intro j hjs
      have key := text_reads d dv (.text c) (.opq k) (o.getD []) j (ofNode_text d.reg name _ j hjs) (by
        intro nm info
        rw [unmarshal]
        simp only [Ty.zero, derefVal, hj, rewrap])
      exact ⟨key.1, fun _ => key.2⟩
  | .alt, _ => alt_jtrip d dv hr
  | .slice typ t, h => slice_jtrip d dv hr typ t (jtrips d dv hr t (by rw [TyNames] at h; exact h))
  | .ptr t, h => fun v name hf hj => by
    rw [Faithful] at hf
    obtain ⟨x, rfl, ht, hf⟩ := hf
    rw [JVal] at hj
    obtain ⟨n, h1, h2, h3, h4⟩ := jtrips d dv hr t (by rw [TyNames] at h; exact h) x name hf (hj x rfl)
    refine ⟨n, by rw [marshalValue]; exact h1, h2, ?_, ?_⟩
    · intro he
      rw [HasElem] at he
      obtain ⟨y, e, he⟩ := he
      cases e
      exact h3 he
    · intro j hjs
      obtain ⟨h5, h6⟩ := h4 j hjs
      refine ⟨fun k hk => ?_, fun hi => ?_⟩
      · obtain ⟨n', g1, g2, g3⟩ := h5 k hk
        exact ⟨n', g1, g2, fun info => unmarshal_ptr d dv _ info t ht x (g3 info)⟩
      · obtain ⟨⟨n', g1, g2, g3⟩, g4⟩ := h6 (by rw [ItemTy] at hi; exact hi)
        exact ⟨⟨n', g1, g2, fun info => unmarshal_ptr d dv _ info t ht x (g3 info)⟩, g4⟩
  | .struct z infos tys, h =>
    have h' : (∀ f ∈ infos, JName f.name) ∧ TysNames JName tys := by rw [TyNames] at h; exact h
    struct_jtrip d dv z infos tys h'.1 (jtrips_all d dv hr tys h'.2)
theorem jtrips_all (d : Dec) (dv : Version) (hr : d.reg.getPrefix Json.nsRdf = "rdf".toList) :
    ∀ ts : List Ty, TysNames JName ts → ∀ t ∈ ts, JTrip d dv t
  | [], _ => fun t ht => by cases ht
  | x :: xs, h => fun t ht => by
    rw [TysNames] at h
    by_cases e : t ∈ xs
    · exact jtrips_all d dv hr xs h.2 t e
    · have : t = x := by
        rcases List.mem_cons.1 ht with h | h
        · exact h
        · exact absurd h e
      rw [this]
      exact jtrips d dv hr x h.1
end

end Xmp.Props
