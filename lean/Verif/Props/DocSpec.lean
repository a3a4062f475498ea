import Verif.Props.DocGroups

/-! C46: which documents can be written and read back. -/

namespace Xmp.Props

open GoStr

/-! ### Specification -/

/-- A name `p:loc` with a prefix of the set `S`. -/
def NameS (S : Str → Prop) (nm : Str) : Prop := ∃ p loc, nm = p ++ ':' :: loc ∧ ':' ∉ loc ∧ loc ≠ [] ∧ S p

/-- A name of a tree: it has a prefix of the set `S`, or the prefix `rdf` or `xml` and a local name that is no prefix
of `S`. -/
def NameIn (S : Str → Prop) (q : QName) : Prop :=
  q.space = [] ∧ (NameS S q.loc ∨ ∃ p loc, q.loc = p ++ ':' :: loc ∧ ':' ∉ loc ∧ loc ≠ [] ∧
    (p = "rdf".toList ∨ p = "xml".toList) ∧ ¬ S loc)

/-- The prefixes `S` that a document uses.  The registry of the history `h` knows the core namespaces; every prefix
stands for a namespace of the document or registry, different prefixes for different URIs; a URI is either registered
under this prefix or not registered. -/
structure DocNs (h : RegHistory) (env : Env) (d : XDoc) (S : Str → Prop) : Prop where
  reg : env.reg = runReg h
  core : ∀ ns ∈ [nsX, nsRDF, nsXML], KnownUri (runReg h) ns.uri ns.name
  rdf : d.findNsByPrefix env "rdf".toList = some nsRDF
  xml : d.findNsByPrefix env "xml".toList = some nsXML
  plain : ∀ p, S p → p ≠ [] ∧ ':' ∉ p ∧ p ≠ "rdf".toList ∧ p ≠ "xml".toList ∧ p ≠ "xmlns".toList
  found : ∀ p, S p → ∃ ns, d.findNsByPrefix env p = some ns ∧ ns.uri ≠ [] ∧ ns.uri ≠ "xmlns".toList ∧
    (KnownUri (runReg h) ns.uri p ∨ UnknownUri (runReg h) ns.uri)
  inj : ∀ p q ns ns', S p → S q → d.findNsByPrefix env p = some ns → d.findNsByPrefix env q = some ns' →
    ns.uri = ns'.uri → p = q
  markup : ∀ m ∈ ["parseType".toList, "Seq".toList, "Bag".toList, "Alt".toList, "li".toList, "lang".toList], ¬ S m

/-- The prefixes that belong to a top-level node: its own and those of its model. -/
def Owned (r : Root) (p : Str) : Prop := p = r.node.xmlName.loc ∨ ∃ m, r.model = some m ∧ p ∈ m.canNames

/-- The fields of the model of a top-level node. -/
def rootInfos (r : Root) : List FieldInfo :=
  match r.model with
  | some m => (match m.ty with | .struct _ infos _ => infos | _ => [])
  | none => []

/-- The types of the fields. -/
def rootTys (r : Root) : List Ty :=
  match r.model with
  | some m => (match m.ty with | .struct _ _ tys => tys | _ => [])
  | none => []

/-- The values of the fields. -/
def rootVals (r : Root) : List Val :=
  match r.model with
  | some m => (match m.val with | .struct vals => vals | _ => [])
  | none => []

mutual
/-- No text in the tree has surrounding white space. -/
def TrimmedTree : Node → Prop
  | .mk _ _ v l => Trimmed v ∧ TrimmedTrees l
/-- The same for a list of trees. -/
def TrimmedTrees : List Node → Prop
  | [] => True
  | x :: xs => TrimmedTree x ∧ TrimmedTrees xs
end

/-- A top-level node that can be written and read back: its model has faithful fields (C33), is created by the
registered namespaces of its prefixes, and the names of all fields that are written have these prefixes.  Attributes and elements outside of
the model have the same prefixes, distinct names that are no fields, and are not empty. -/
structure RootOK (h : RegHistory) (env : Env) (d : XDoc) (dv : Version) (S : Str → Prop) (r : Root) : Prop where
  space : r.node.xmlName.space = []
  value : r.node.value = []
  own : ∀ p, Owned r p → S p
  known : ∀ m p ns, r.model = some m → Owned r p → d.findNsByPrefix env p = some ns → KnownUri (runReg h) ns.uri p
  factory : ∀ p ns, Owned r p → (runReg h).getNamespace p = some ns →
    env.newModel ns = r.model.map (fun m => { m with val := m.ty.zero })
  head : ∀ m, r.model = some m → ∃ ns0 rest, m.nss = ns0 :: rest ∧ ns0.name = r.node.xmlName.loc
  struct : ∀ m, r.model = some m → ∃ z, m.ty = .struct z (rootInfos r) (rootTys r) ∧ m.val = .struct (rootVals r)
  faithful : FaithfulFields dv (rootTys r) (rootInfos r) 0 (rootInfos r) (rootVals r)
  names : ∀ (i : Nat) f t v, (rootInfos r)[i]? = some f → (rootTys r)[i]? = some t → (rootVals r)[i]? = some v →
    fieldWritten f t v = true → NameS S f.name ∧ (∃ m, r.model = some m ∧ getPrefix f.name ∈ m.canNames) ∧ TyNames (NameS S) t
  attrs : ∀ a ∈ r.node.attrs, a.name.space = [] ∧ NameS S a.name.loc ∧ Owned r (getPrefix a.name.loc) ∧ a.value ≠ [] ∧
    findStructField dv (rootInfos r) a.name.loc = none
  attrNames : (r.node.attrs.map (·.name.loc)).Nodup
  nodes : ∀ x ∈ r.node.nodes, NameS S x.xmlName.loc ∧ NamesP (NameIn S) x ∧ Owned r (getPrefix x.xmlName.loc) ∧
    x.isZero = false ∧ TrimmedTree x ∧ findStructField dv (rootInfos r) x.xmlName.loc = none
  nodeNames : (r.node.nodes.map (·.xmlName.loc)).Nodup

/-- A document whose top-level nodes can all be written and read back and have no prefix in common. -/
structure DocOK (h : RegHistory) (env : Env) (d : XDoc) (dv : Version) (S : Str → Prop) : Prop where
  ns : DocNs h env d S
  roots : ∀ r ∈ d.roots, RootOK h env d dv S r
  disjoint : d.roots.Pairwise (fun r r' => ∀ p, Owned r p → ¬ Owned r' p)

/-- Does a top-level node have content: an attribute, an element, or a field of its model that is written? -/
def HasContent (r : Root) : Prop :=
  r.node.attrs ≠ [] ∨ r.node.nodes ≠ [] ∨
    ∃ (i : Nat) (f : FieldInfo) (t : Ty) (v : Val), (rootInfos r)[i]? = some f ∧ (rootTys r)[i]? = some t ∧ (rootVals r)[i]? = some v ∧ fieldWritten f t v = true

/-! ### Small facts -/

theorem tysNames_get {P : Str → Prop} : ∀ {ts : List Ty}, TysNames P ts → ∀ {i : Nat} {t : Ty}, ts[i]? = some t → TyNames P t
  | [], _, i, t, h => by simp at h
  | t :: ts, hp, 0, t', h => by
    rw [TysNames] at hp
    simp only [List.getElem?_cons_zero, Option.some.injEq] at h
    exact h ▸ hp.1
  | t :: ts, hp, i + 1, t', h => by
    rw [TysNames] at hp
    rw [List.getElem?_cons_succ] at h
    exact tysNames_get hp.2 h

/-- The condition on names holds for all fields if it holds for the type. -/
theorem names_of_static {S : Str → Prop} {r : Root} (h1 : ∀ f ∈ rootInfos r, NameS S f.name ∧ ∃ m, r.model = some m ∧ getPrefix f.name ∈ m.canNames)
    (h2 : TysNames (NameS S) (rootTys r)) (i : Nat) (f : FieldInfo) (t : Ty) (v : Val) (hf : (rootInfos r)[i]? = some f)
    (ht : (rootTys r)[i]? = some t) (_ : (rootVals r)[i]? = some v) (_ : fieldWritten f t v = true) :
    NameS S f.name ∧ (∃ m, r.model = some m ∧ getPrefix f.name ∈ m.canNames) ∧ TyNames (NameS S) t :=
  ⟨(h1 f (List.mem_of_getElem? hf)).1, (h1 f (List.mem_of_getElem? hf)).2, tysNames_get h2 ht⟩

theorem findNs_name {h : RegHistory} {env : Env} {d : XDoc} (hr : env.reg = runReg h) {p : Str} {ns : Namespace}
    (e : d.findNsByPrefix env p = some ns) : ns.name = p := by
  unfold XDoc.findNsByPrefix at e
  split at e
  · rename_i x hx
    cases e
    simpa using List.find?_some hx
  · split at e
    · rename_i x hx
      cases e
      simpa using List.find?_some hx
    · rw [hr, registry_prefix_latest] at e
      cases hl : lastWith (fun e => decide (e.1.name = p)) h with
      | none => rw [hl] at e; cases e
      | some a =>
        rw [hl] at e
        cases e
        simpa using (lastWith_some hl).1

theorem nameS_split {S : Str → Prop} {h : RegHistory} {env : Env} {d : XDoc} (hd : DocNs h env d S) {nm : Str} (hn : NameS S nm) :
    ∃ loc, nm = getPrefix nm ++ ':' :: loc ∧ loc ≠ [] ∧ ':' ∉ loc ∧ S (getPrefix nm) := by
  obtain ⟨p, loc, rfl, h1, h2, h3⟩ := hn
  rw [getPrefix_append (hd.plain p h3).2.1]
  exact ⟨loc, rfl, h2, h1, h3⟩

theorem nameS_markup {S : Str → Prop} {h : RegHistory} {env : Env} {d : XDoc} (hd : DocNs h env d S) {nm : Str} (hn : NameS S nm) :
    nm ∉ markupNames := by
  obtain ⟨p, loc, rfl, h1, h2, h3⟩ := hn
  obtain ⟨-, hc, hr, hx, -⟩ := hd.plain p h3
  intro hm
  have key : ∀ q r : Str, ':' ∉ q → p ++ ':' :: loc = q ++ ':' :: r → p = q := by
    intro q r hq e
    have := congrArg getPrefix e
    rwa [getPrefix_append hc, getPrefix_append hq] at this
  simp only [markupNames, List.mem_cons, List.not_mem_nil, or_false] at hm
  rcases hm with e | e | e | e | e | e
  · exact hr (key "rdf".toList "parseType".toList (by decide) e)
  · exact hr (key "rdf".toList "Seq".toList (by decide) e)
  · exact hr (key "rdf".toList "Bag".toList (by decide) e)
  · exact hr (key "rdf".toList "Alt".toList (by decide) e)
  · exact hr (key "rdf".toList "li".toList (by decide) e)
  · exact hx (key "xml".toList "lang".toList (by decide) e)

/-- A name in a tree written for a model. -/
def NameM (S : Str → Prop) (q : QName) : Prop := q.space = [] ∧ (NameS S q.loc ∨ q.loc ∈ markupNames)

theorem markupP_nameM (S : Str → Prop) : MarkupP (NameM S) := fun _ hm => ⟨rfl, Or.inr hm⟩

theorem nameM_in {S : Str → Prop} {h : RegHistory} {env : Env} {d : XDoc} (hd : DocNs h env d S) {q : QName} (hq : NameM S q) : NameIn S q := by
  obtain ⟨h1, h2 | hm⟩ := hq
  · exact ⟨h1, Or.inl h2⟩
  obtain ⟨sp, m⟩ := q
  refine ⟨h1, Or.inr ?_⟩
  simp only at hm ⊢
  simp only [markupNames, List.mem_cons, List.not_mem_nil, or_false] at hm
  rcases hm with rfl | rfl | rfl | rfl | rfl | rfl
  · exact ⟨"rdf".toList, "parseType".toList, by decide, by decide, by decide, Or.inl rfl, hd.markup _ (by decide)⟩
  · exact ⟨"rdf".toList, "Seq".toList, by decide, by decide, by decide, Or.inl rfl, hd.markup _ (by decide)⟩
  · exact ⟨"rdf".toList, "Bag".toList, by decide, by decide, by decide, Or.inl rfl, hd.markup _ (by decide)⟩
  · exact ⟨"rdf".toList, "Alt".toList, by decide, by decide, by decide, Or.inl rfl, hd.markup _ (by decide)⟩
  · exact ⟨"rdf".toList, "li".toList, by decide, by decide, by decide, Or.inl rfl, hd.markup _ (by decide)⟩
  · exact ⟨"xml".toList, "lang".toList, by decide, by decide, by decide, Or.inr rfl, hd.markup _ (by decide)⟩

end Xmp.Props
