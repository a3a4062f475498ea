import Verif.Props.DocRead

/-! C46: what the decoder knows about the names of a written document. -/

namespace Xmp.Props

open GoStr

/-- The URI of a prefix in a document. -/
def bindOf (env : Env) (d : XDoc) (p : Str) : Str :=
  match d.findNsByPrefix env p with
  | some ns => ns.uri
  | none => p

theorem bindOf_some {env : Env} {d : XDoc} {p : Str} {ns : Namespace} (h : d.findNsByPrefix env p = some ns) : bindOf env d p = ns.uri := by
  simp [bindOf, h]

theorem map_get_mem {V : Type} {m : GoMap V} {k : Str} {v : V} (h : m.get k = some v) : ∃ e ∈ m, e.2 = v := by
  unfold GoMap.get at h
  rw [Option.map_eq_some_iff] at h
  obtain ⟨e, h1, h2⟩ := h
  exact ⟨e, List.mem_of_find?_eq_some h1, h2⟩

theorem reparse_colon (u : Str → Str) {p loc : Str} (hp : ':' ∉ p) (s : Str) :
    reparseName u ⟨s, p ++ ':' :: loc⟩ = ⟨u p, loc⟩ := by
  unfold reparseName
  rw [show indexChar ':' (p ++ ':' :: loc) = some p.length from indexChar_append hp]
  simp

/-- The declarations of a document: prefixes of `S` with their URIs. -/
def Declares (env : Env) (d : XDoc) (S : Str → Prop) (l : List (Str × Str)) : Prop := ∀ x ∈ l, S x.1 ∧ x.2 = bindOf env d x.1

variable {h : RegHistory} {env : Env} {d : XDoc} {S : Str → Prop} {l : List (Str × Str)}

theorem bind_facts (hd : DocNs h env d S) {p : Str} (hp : S p) : bindOf env d p ≠ [] ∧ bindOf env d p ≠ "xmlns".toList ∧
    (KnownUri (runReg h) (bindOf env d p) p ∨ UnknownUri (runReg h) (bindOf env d p)) := by
  obtain ⟨ns, h1, h2, h3, h4⟩ := hd.found p hp
  rw [bindOf_some h1]
  exact ⟨h2, h3, h4⟩

theorem bind_inj (hd : DocNs h env d S) {p q : Str} (hp : S p) (hq : S q) (e : bindOf env d p = bindOf env d q) : p = q := by
  obtain ⟨ns, h1, -⟩ := hd.found p hp
  obtain ⟨ns', h1', -⟩ := hd.found q hq
  rw [bindOf_some h1, bindOf_some h1'] at e
  exact hd.inj p q ns ns' hp hq h1 h1' e

theorem bind_rdf (hd : DocNs h env d S) : bindOf env d "rdf".toList = nsRDF.uri := bindOf_some hd.rdf
theorem bind_xml (hd : DocNs h env d S) : bindOf env d "xml".toList = nsXML.uri := bindOf_some hd.xml

theorem bind_ne_rdf (hd : DocNs h env d S) {p : Str} (hp : S p) : bindOf env d p ≠ nsRDF.uri := by
  intro e
  obtain ⟨-, -, hk⟩ := bind_facts hd hp
  have hr := (hd.core nsRDF (by simp)).2.1
  rw [e] at hk
  rcases hk with hk | hk
  · have := hk.2.1.symm.trans hr
    exact (hd.plain p hp).2.2.1 this
  · have := hk.symm.trans hr
    cases this

theorem known_ns {p uri : Str} (hk : KnownUri (runReg h) uri p) : ∃ ns, (runReg h).getNamespace p = some ns ∧ ns.name = p ∧ ns.uri = uri := by
  obtain ⟨-, -, ns, h1, h2, h3⟩ := hk
  exact ⟨ns, h1, h2, h3⟩

/-- All namespaces that the decoder finds by prefix. -/
theorem decoder_prefix (hd : DocNs h env d S) (hl : Declares env d S l) {p : Str} {ns : Namespace}
    (hf : (decoder h l).findByPrefix p = some ns) : S p ∧ ns.name = p ∧ (p, bindOf env d p) ∈ l ∧ ns.uri = bindOf env d p ∧
      (KnownUri (runReg h) (bindOf env d p) p ∧ (runReg h).getNamespace p = some ns ∨
        UnknownUri (runReg h) (bindOf env d p) ∧ ns.factory = none) := by
  have ok := decoder_ok h l
  unfold Dec.findByPrefix at hf
  split at hf
  · rename_i e he
    cases hf
    have hn : e.2.name = p := by simpa using List.find?_some he
    obtain ⟨h1, h2, h3⟩ := ok.intNames e (List.mem_of_find?_eq_some he)
    obtain ⟨⟨q, u⟩, hx, hxe⟩ := List.mem_map.1 h1
    obtain ⟨hq1, hq2⟩ := hl _ hx
    simp only at hxe hq1 hq2
    subst hxe
    obtain ⟨-, -, hk⟩ := bind_facts hd hq1
    rw [← hq2] at hk
    rcases hk with hk | hk
    · rw [hk.2.1] at h2
      obtain ⟨ns', h4, h5, h6⟩ := known_ns hk
      rw [h4] at h2
      cases h2
      rw [← h5, hn] at hk hq1 hq2 hx
      rw [← hq2]
      refine ⟨hq1, hn, hx, h6, Or.inl ⟨hk, ?_⟩⟩
      rw [← hn, h5]
      exact h4
    · exact absurd hk h3
  · rw [Option.map_eq_some_iff] at hf
    obtain ⟨e, he, rfl⟩ := hf
    have hn : e.2.name = p := by simpa using List.find?_some he
    obtain ⟨h1, h2, h2u, h3⟩ := ok.extNames e (List.mem_of_find?_eq_some he)
    obtain ⟨hq1, hq2⟩ := hl _ h2
    simp only at hq1 hq2
    rw [hn] at hq1 hq2 h2
    rw [← hq2]
    exact ⟨hq1, hn, h2, h2u, Or.inr ⟨h1, h3⟩⟩

/-- A declared prefix is found. -/
theorem decoder_prefix_some (hd : DocNs h env d S) (hl : Declares env d S l) {p : Str} (hp : (p, bindOf env d p) ∈ l) :
    ∃ ns, (decoder h l).findByPrefix p = some ns := by
  have ok := decoder_ok h l
  obtain ⟨hS, -⟩ := hl _ hp
  obtain ⟨-, -, hk⟩ := bind_facts hd hS
  unfold Dec.findByPrefix
  split
  · exact ⟨_, rfl⟩
  · rename_i hno
    rcases hk with hk | hk
    · exfalso
      have h1 := ok.int (bindOf env d p)
      rw [if_pos ⟨List.mem_map.2 ⟨_, hp, rfl⟩, by rw [hk.2.1]; exact hk.1⟩, hk.2.1] at h1
      obtain ⟨ns, h2, h3, -⟩ := known_ns hk
      rw [h2] at h1
      rw [List.find?_eq_none] at hno
      obtain ⟨e, he, rfl⟩ := (map_get_mem h1)
      exact hno e he (by simp [h3])
    · have h1 := ok.ext (bindOf env d p)
      rw [if_neg (by rw [hk]; simp)] at h1
      cases hf : l.find? (fun x => decide (x.2 = bindOf env d p)) with
      | none =>
        rw [List.find?_eq_none] at hf
        exact absurd (by simp) (hf _ hp)
      | some x =>
        rw [hf] at h1
        obtain ⟨e, he, hee⟩ := map_get_mem h1
        have hx := hl _ (List.mem_of_find?_eq_some hf)
        have hxu : x.2 = bindOf env d p := by simpa using List.find?_some hf
        have : x.1 = p := bind_inj hd hx.1 hS (hx.2.symm.trans hxu)
        cases hf2 : List.find? (fun e => decide (e.2.name = p)) (decoder h l).ext with
        | some e => exact ⟨_, rfl⟩
        | none =>
          rw [List.find?_eq_none] at hf2
          exact absurd (by rw [hee]; simp [this]) (hf2 e he)

/-- A declared URI is found. -/
theorem decoder_uri (hd : DocNs h env d S) (hl : Declares env d S l) {p : Str} (hp : (p, bindOf env d p) ∈ l) :
    ∃ ns, (decoder h l).findByURI (bindOf env d p) = some ns ∧ ns.name = p ∧
      (KnownUri (runReg h) (bindOf env d p) p ∧ (runReg h).getNamespace p = some ns ∨
        UnknownUri (runReg h) (bindOf env d p) ∧ ns.factory = none) := by
  have ok := decoder_ok h l
  obtain ⟨hS, -⟩ := hl _ hp
  obtain ⟨-, -, hk⟩ := bind_facts hd hS
  unfold Dec.findByURI
  rcases hk with hk | hk
  · obtain ⟨ns, h2, h3, -⟩ := known_ns hk
    rw [ok.int, if_pos ⟨List.mem_map.2 ⟨_, hp, rfl⟩, by rw [hk.2.1]; exact hk.1⟩, hk.2.1, h2]
    exact ⟨ns, rfl, h3, Or.inl ⟨hk, rfl⟩⟩
  · rw [ok.int, if_neg (fun h => h.2 hk), ok.ext, if_neg (by rw [hk]; simp)]
    cases hf : l.find? (fun x => decide (x.2 = bindOf env d p)) with
    | none =>
      rw [List.find?_eq_none] at hf
      exact absurd (by simp) (hf _ hp)
    | some x =>
      have hx := hl _ (List.mem_of_find?_eq_some hf)
      have hxu : x.2 = bindOf env d p := by simpa using List.find?_some hf
      have : x.1 = p := bind_inj hd hx.1 hS (hx.2.symm.trans hxu)
      exact ⟨_, rfl, this, Or.inr ⟨hk, rfl⟩⟩

/-- The namespace of a name with a declared prefix, as written or translated. -/
theorem decoder_findNs (hd : DocNs h env d S) (hl : Declares env d S l) {p loc : Str} (hp : (p, bindOf env d p) ∈ l) {q : QName}
    (hq : q = ⟨[], p ++ ':' :: loc⟩ ∨ q = ⟨bindOf env d p, loc⟩) :
    ∃ ns, (decoder h l).findNs q = some ns ∧ ns.name = p ∧
      (KnownUri (runReg h) (bindOf env d p) p ∧ (runReg h).getNamespace p = some ns ∨
        UnknownUri (runReg h) (bindOf env d p) ∧ ns.factory = none) := by
  obtain ⟨hS, -⟩ := hl _ hp
  unfold Dec.findNs
  rcases hq with rfl | rfl
  · simp only [ne_eq, not_true_eq_false, if_false]
    rw [getPrefix_append (hd.plain p hS).2.1]
    obtain ⟨ns, hns⟩ := decoder_prefix_some hd hl hp
    rw [hns]
    obtain ⟨-, h1, -, -, h2⟩ := decoder_prefix hd hl hns
    exact ⟨ns, rfl, h1, h2⟩
  · rw [if_pos (bind_facts hd hS).1]
    obtain ⟨ns, h1, h2, h3⟩ := decoder_uri hd hl hp
    rw [h1]
    exact ⟨ns, rfl, h2, h3⟩

/-- The model that the namespace of a prefix creates. -/
theorem decoder_model {dv : Version} (hd : DocNs h env d S) (hl : Declares env d S l) {r : Root} (hr : RootOK h env d dv S r)
    {p loc : Str} (hp : (p, bindOf env d p) ∈ l) (ho : Owned r p) {q : QName}
    (hq : q = ⟨[], p ++ ':' :: loc⟩ ∨ q = ⟨bindOf env d p, loc⟩) :
    ∃ ns, (decoder h l).findNs q = some ns ∧ ns.name = p ∧ env.newModel ns = r.model.map (fun m => { m with val := m.ty.zero }) := by
  obtain ⟨ns, h1, h2, h3⟩ := decoder_findNs hd hl hp hq
  refine ⟨ns, h1, h2, ?_⟩
  rcases h3 with ⟨-, h3⟩ | ⟨h3, h4⟩
  · exact hr.factory p ns ho h3
  · unfold Env.newModel
    rw [h4]
    cases hm : r.model with
    | none => rfl
    | some m =>
      obtain ⟨ns', hns', -⟩ := hd.found p (hr.own p ho)
      have hk := hr.known m p ns' hm ho hns'
      rw [bindOf_some hns'] at h3
      have := hk.2.1
      rw [h3] at this
      exact absurd this.symm hk.1

/-- A name with a declared prefix is translated back. -/
theorem decoder_back (hd : DocNs h env d S) (hl : Declares env d S l) {p loc : Str} (hp : (p, bindOf env d p) ∈ l) (hloc : loc ≠ []) :
    (decoder h l).translate ⟨bindOf env d p, loc⟩ = ⟨[], p ++ ':' :: loc⟩ := by
  obtain ⟨hS, -⟩ := hl _ hp
  obtain ⟨h1, h2, -⟩ := bind_facts hd hS
  obtain ⟨ns, h3, h4, -⟩ := decoder_findNs hd hl hp (Or.inr rfl : (⟨bindOf env d p, loc⟩ : QName) = ⟨[], p ++ ':' :: loc⟩ ∨ _)
  unfold Dec.translate
  rw [if_neg (by simp only; rintro (h | h); exacts [h1 h, h2 h]), h3]
  simp only [Option.some_or]
  rw [expandName_ne hloc, h4]

/-- So is a name of the core namespaces. -/
theorem decoder_back_core (hd : DocNs h env d S) (hl : Declares env d S l) {ns : Namespace} (hns : ns ∈ [nsX, nsRDF, nsXML])
    {loc : Str} (hloc : loc ≠ []) (hc : ':' ∉ loc) (hS : ¬ S loc) :
    (decoder h l).translate ⟨ns.uri, loc⟩ = ⟨[], ns.name ++ ':' :: loc⟩ := by
  apply translate_known_undeclared h l (hd.core ns hns) _ _ hloc
  · rw [getPrefix_none hc]
    cases hf : (decoder h l).findByPrefix loc with
    | none => rfl
    | some ns => exact absurd (decoder_prefix hd hl hf).1 hS
  · simp only [List.mem_cons, List.not_mem_nil, or_false] at hns
    rcases hns with rfl | rfl | rfl <;> decide
  · simp only [List.mem_cons, List.not_mem_nil, or_false] at hns
    rcases hns with rfl | rfl | rfl <;> decide

/-- The prefix of a name, if it belongs to `S`, is declared. -/
def Bound (env : Env) (d : XDoc) (S : Str → Prop) (l : List (Str × Str)) (q : QName) : Prop :=
  S (getPrefix q.loc) → (getPrefix q.loc, bindOf env d (getPrefix q.loc)) ∈ l

/-- Names of a tree are translated back. -/
theorem name_back (hd : DocNs h env d S) (hl : Declares env d S l) {q : QName} (hq : NameIn S q) (hb : Bound env d S l q) :
    (decoder h l).translate (reparseName (bindOf env d) q) = q := by
  obtain ⟨sp, qloc⟩ := q
  obtain ⟨h1, h2⟩ := hq
  simp only at h1 h2
  subst h1
  rcases h2 with ⟨p, loc, rfl, hc, h0, hS⟩ | ⟨p, loc, rfl, hc, h0, hp, hS⟩
  · have hpc := (hd.plain p hS).2.1
    unfold Bound at hb
    simp only [getPrefix_append hpc] at hb
    rw [reparse_colon _ hpc, decoder_back hd hl (hb hS) h0]
  · rcases hp with rfl | rfl
    · rw [reparse_colon _ (by decide), bind_rdf hd, decoder_back_core hd hl (by simp) h0 hc hS]
      rfl
    · rw [reparse_colon _ (by decide), bind_xml hd, decoder_back_core hd hl (by simp) h0 hc hS]
      rfl

theorem decoder_rdf (hd : DocNs h env d S) (hl : Declares env d S l) : RdfOK (decoder h l) (bindOf env d) := by
  have hr := hd.core nsRDF (by simp)
  refine ⟨⟨?_, ?_⟩, ?_⟩
  · rw [bind_rdf hd]; decide
  · rw [bind_rdf hd, (decoder_ok h l).reg_eq]; exact hr.2.1
  · have := decoder_back_core hd hl (ns := nsRDF) (by simp) (loc := "parseType".toList) (by decide) (by decide)
      (hd.markup _ (by decide))
    rw [show "rdf:parseType".toList = "rdf".toList ++ ':' :: "parseType".toList from by decide, reparse_colon _ (by decide), bind_rdf hd, this]
    rfl

/-- The decoder recognises the names in trees that were written for models. -/
theorem decoder_understands (hd : DocNs h env d S) (hl : Declares env d S l) {x : Node} (hx : NamesP (NameM S) x)
    (hb : ∀ q ∈ allNames x, Bound env d S l q) : Understood (decoder h l) (bindOf env d) x := by
  intro q hq hm
  have hq' : q ∈ allNames x := innerNames_sub x hq
  have h1 := hx q hq'
  have hq0 : q = ⟨[], q.loc⟩ := by
    obtain ⟨sp, lo⟩ := q
    have : sp = [] := h1.1
    subst this
    rfl
  refine ⟨?_, ?_, ?_⟩
  · rw [← hq0]
    exact name_back hd hl (nameM_in hd h1) (hb q hq')
  · rcases h1.2 with ⟨p, loc, e, -, -, hS⟩ | hmm
    · rw [e]
      intro e'
      have := congrArg getPrefix e'
      rw [getPrefix_append (hd.plain p hS).2.1] at this
      exact (hd.plain p hS).2.2.1 (this.trans (by decide))
    · exact absurd hmm hm
  · rcases h1.2 with ⟨p, loc, e, -, -, hS⟩ | hmm
    · rw [e]
      have key : ∀ s : Str, p ++ ':' :: loc = s → p = getPrefix s := by
        intro s e'
        have := congrArg getPrefix e'
        rwa [getPrefix_append (hd.plain p hS).2.1] at this
      simp only [List.mem_cons, List.not_mem_nil, or_false]
      rintro (e' | e' | e')
      · exact (hd.plain p hS).2.2.1 ((key _ e').trans (by decide))
      · exact (hd.plain p hS).2.2.1 ((key _ e').trans (by decide))
      · exact (hd.plain p hS).2.2.2.1 ((key _ e').trans (by decide))
    · exact absurd hmm hm

mutual
/-- A parsed tree is translated back. -/
theorem tree_back (hd : DocNs h env d S) (hl : Declares env d S l) : ∀ n : Node, (∀ q ∈ allNames n, NameIn S q ∧ Bound env d S l q) →
    TrimmedTree n → (n.reparse (bindOf env d)).translate (decoder h l) = n
  | .mk n a v ns, hn, ht => by
    rw [TrimmedTree] at ht
    rw [Node.reparse, Node.translate, trees_back hd hl ns (fun q hq => hn q (by simp [allNames, hq])) ht.2,
      trimSpace_of_trimmed ht.1, List.map_map]
    obtain ⟨h1, h2⟩ := hn n (by simp [allNames])
    rw [name_back hd hl h1 h2]
    congr 1
    conv_rhs => rw [← List.map_id a]
    apply List.map_congr_left
    intro x hx
    obtain ⟨h1, h2⟩ := hn x.name (by
      simp only [allNames, List.cons_append, List.mem_cons, List.mem_append, List.mem_map]
      exact Or.inr (Or.inl ⟨x, hx, rfl⟩))
    simp only [Function.comp, name_back hd hl h1 h2, id]
theorem trees_back (hd : DocNs h env d S) (hl : Declares env d S l) : ∀ ns : List Node, (∀ q ∈ allNamesList ns, NameIn S q ∧ Bound env d S l q) →
    TrimmedTrees ns → Node.translateList (decoder h l) (Node.reparseList (bindOf env d) ns) = ns
  | [], _, _ => rfl
  | x :: xs, hn, ht => by
    rw [TrimmedTrees] at ht
    rw [Node.reparseList, Node.translateList, tree_back hd hl x (fun q hq => hn q (by simp [allNamesList, hq])) ht.1,
      trees_back hd hl xs (fun q hq => hn q (by simp [allNamesList, hq])) ht.2]
end

end Xmp.Props
