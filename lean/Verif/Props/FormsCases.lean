import Verif.Props.FormsDoc
import Verif.Props.DocXmpCases
import Verif.Model.Uri

/-! C76: forms that are not read alike, and concrete cases. -/

namespace Xmp.Props

open GoStr

variable {env : Env} {d : Dec} {dv : Version} {M : Str → Mdl}

/-! ### Concrete documents -/

/-- A person. -/
def personForm : Ty := .struct none [{ name := "ex:first".toList }, { name := "ex:last".toList }] [.str, .str]

/-- A model with a name, a rating, a person and tags. -/
def formTy : Ty := .struct none [{ name := "ex:name".toList }, { name := "ex:rating".toList }, { name := "ex:person".toList },
  { name := "ex:tags".toList }] [.str, .int 64, personForm, .slice .unordered .str]

/-- The model of the namespace `ex`. -/
def formMdl : Mdl := ⟨[⟨"ex".toList, "u:ex".toList, some 0⟩], ["ex".toList], formTy,
  .struct [.str [], .int 0, .struct [.str [], .str []], .slice [] []]⟩

/-- The sample environment. -/
def formEnv : Env := { reg := runReg docReg, make := fun _ _ => some formMdl }

/-- A name of the namespace `ex`, and one of RDF, as the XML parser gives them. -/
def exN (s : Str) : QName := ⟨"u:ex".toList, s⟩
def rdfN (s : Str) : QName := ⟨nsRDF.uri, s⟩

/-- The declaration of the namespace. -/
def declEx : Attr := ⟨⟨"xmlns".toList, "ex".toList⟩, "u:ex".toList⟩

/-- Two items. -/
def formItems : List Node := [.mk (rdfN "li".toList) [] "a".toList [], .mk (rdfN "li".toList) [] "b".toList []]

/-- One description with attributes; the person is marked as a resource; the tags are in a bag. -/
def formA : Node := .mk (rdfN "RDF".toList) [] []
  [.mk (rdfN "Description".toList) [⟨rdfN "about".toList, "me".toList⟩, declEx, ⟨exN "name".toList, "N".toList⟩,
      ⟨exN "rating".toList, "5".toList⟩] []
    [.mk (exN "person".toList) [⟨rdfN "parseType".toList, "Resource".toList⟩] []
        [.mk (exN "first".toList) [] "F".toList [], .mk (exN "last".toList) [] "L".toList []],
      .mk (exN "tags".toList) [] [] [.mk (rdfN "Bag".toList) [] [] formItems]]]

/-- Two descriptions with elements, in another order; the person is inside of a description, with attributes; the tags are in a
sequence. -/
def formB : Node := .mk (rdfN "RDF".toList) [] []
  [.mk (rdfN "Description".toList) [⟨rdfN "about".toList, "me".toList⟩, declEx] []
    [.mk (exN "tags".toList) [] [] [.mk (rdfN "Seq".toList) [] [] formItems],
      .mk (exN "person".toList) [] []
        [.mk (rdfN "Description".toList) [⟨exN "last".toList, "L".toList⟩, ⟨exN "first".toList, "F".toList⟩] [] []]],
   .mk (rdfN "Description".toList) [⟨rdfN "about".toList, "me".toList⟩, declEx] []
    [.mk (exN "rating".toList) [] "5".toList [], .mk (exN "name".toList) [] "N".toList []]]

/-- The decoder of both. -/
def formDec : Dec := Dec.declare formEnv.reg (Dec.declared formA.nodes)

theorem formMdl_solo : Solo formMdl "ex".toList :=
  ⟨⟨_, _, rfl, by decide⟩, by decide, ⟨_, rfl⟩, rfl⟩

theorem form_belongs {e : Entry} {i : Nat} (hn : formDec.findNs (e.lookup formDec) = some ⟨"ex".toList, "u:ex".toList, some 0⟩)
    (hf : findStructField Version.zero (mdlInfos formMdl) (e.label formDec) = some i) (hm : ¬ e.Mark formDec) :
    Belongs formEnv formDec Version.zero (fun _ => formMdl) e "ex".toList i :=
  ⟨⟨_, hn, rfl, rfl⟩, formMdl_solo, hf, hm⟩

theorem form_person_alike : Alike formDec Version.zero personForm
    (.mk (exN "person".toList) [⟨rdfN "parseType".toList, "Resource".toList⟩] []
        [.mk (exN "first".toList) [] "F".toList [], .mk (exN "last".toList) [] "L".toList []])
    (.mk (exN "person".toList) [] []
        [.mk (rdfN "Description".toList) [⟨exN "last".toList, "L".toList⟩, ⟨exN "first".toList, "F".toList⟩] [] []]) := by
  simp only [personForm, Alike]
  refine ⟨[.attr ⟨exN "first".toList, "F".toList⟩, .attr ⟨exN "last".toList, "L".toList⟩], ?_, ?_, ?_⟩
  · exact List.Perm.swap _ _ _
  · refine .cons ⟨0, by decide +kernel, by decide +kernel, ?_⟩ (.cons ⟨1, by decide +kernel, by decide +kernel, ?_⟩ .nil)
    · simp only [AlikeAt]; exact ⟨trivial, rfl⟩
    · simp only [AlikeAt]; exact ⟨trivial, rfl⟩
  · decide +kernel

theorem form_tags_alike : Alike formDec Version.zero (.slice .unordered .str)
    (.mk (exN "tags".toList) [] [] [.mk (rdfN "Bag".toList) [] [] formItems])
    (.mk (exN "tags".toList) [] [] [.mk (rdfN "Seq".toList) [] [] formItems]) := by
  simp only [Alike]
  refine ⟨_, _, rfl, rfl, ⟨by decide, by decide +kernel⟩, ⟨by decide, by decide +kernel⟩, ?_⟩
  exact .cons rfl (.cons rfl .nil)

/-- The hypotheses of `document_forms_read_alike` and of `forms_read_alike` can be met. -/
theorem forms_alike_sample : AlikeTrees formEnv Version.zero (fun _ => formMdl) formA formB := by
  refine ⟨formA, formB, rfl, rfl, rfl, by decide +kernel, by decide +kernel, ?_⟩
  refine ⟨(docFacts formDec formB.nodes).reverse, List.reverse_perm _, ?_, ?_⟩
  · refine .cons ⟨_, 0, form_belongs (by decide +kernel) (by decide +kernel) (by decide +kernel),
      form_belongs (by decide +kernel) (by decide +kernel) (by decide +kernel), ?_⟩
      (.cons ⟨_, 1, form_belongs (by decide +kernel) (by decide +kernel) (by decide +kernel),
      form_belongs (by decide +kernel) (by decide +kernel) (by decide +kernel), ?_⟩
      (.cons ⟨_, 2, form_belongs (by decide +kernel) (by decide +kernel) (by decide +kernel),
      form_belongs (by decide +kernel) (by decide +kernel) (by decide +kernel), ?_⟩
      (.cons ⟨_, 3, form_belongs (by decide +kernel) (by decide +kernel) (by decide +kernel),
      form_belongs (by decide +kernel) (by decide +kernel) (by decide +kernel), ?_⟩ .nil)))
    · exact ⟨trivial, rfl⟩
    · exact ⟨trivial, rfl⟩
    · exact form_person_alike
    · exact form_tags_alike
  · have hn : ((docFacts formDec formA.nodes).map (fun x => findStructField Version.zero (mdlInfos formMdl) (x.label formDec))).Nodup := by
      decide +kernel
    rw [List.Nodup, List.pairwise_map] at hn
    exact hn.imp (fun {x y} h p i h1 h2 => h (h1.field.trans h2.field.symm))

/-- Both are read, as the same document. -/
example : ∃ p q, Dec.decode formEnv Version.zero formA = .ok p ∧ Dec.decode formEnv Version.zero formB = .ok q ∧
    q.doc.roots.Perm p.doc.roots ∧ q.about = p.about := by
  have hp : ∃ p, Dec.decode formEnv Version.zero formA = .ok p := ⟨_, rfl⟩
  obtain ⟨p, hp⟩ := hp
  obtain ⟨q, hq, h1, -, -, h2⟩ := document_forms_read_alike _ _ _ _ _ forms_alike_sample p hp
  exact ⟨p, q, hp, hq, h1, h2⟩

/-- The person is read, in both forms. -/
example : ∀ n ∈ [(.mk (exN "person".toList) [⟨rdfN "parseType".toList, "Resource".toList⟩] []
        [.mk (exN "first".toList) [] "F".toList [], .mk (exN "last".toList) [] "L".toList []] : Node),
      .mk (exN "person".toList) [] []
        [.mk (rdfN "Description".toList) [⟨exN "last".toList, "L".toList⟩, ⟨exN "first".toList, "F".toList⟩] [] []]],
    unmarshal formDec Version.zero n true personForm personForm.zero = .ok (.struct [.str "F".toList, .str "L".toList]) := by
  intro n hn
  rcases List.mem_cons.1 hn with rfl | hn
  · rfl
  · rw [List.mem_singleton.1 hn]
    exact (forms_read_alike _ _ _ form_person_alike true _ _).1 rfl

/-! ### Refused documents -/

theorem allVals_refused {l : List (Str × Entry)} {x : Str × Entry} (hx : x ∈ l) (hr : ∀ g r, entryVals d dv M x.1 x.2 g ≠ .ok r) :
    ∀ g, allVals d dv M l g = none := by
  induction l with
  | nil => cases hx
  | cons y l ih =>
    intro g
    obtain ⟨p, e⟩ := y
    simp only [allVals]
    rcases List.mem_cons.1 hx with rfl | hx
    · cases h : entryVals d dv M p e g with
      | ok r => exact absurd h (hr g r)
      | err => rfl
      | panic => rfl
    · cases h : entryVals d dv M p e g with
      | ok r => exact ih hx _
      | err => rfl
      | panic => rfl

/-- A document all of whose entries belong to fields of models. -/
structure AllBelong (env : Env) (dv : Version) (M : Str → Mdl) (t : Node) : Prop where
  roots : ∃ a, Dec.rdfRoot env.reg t = some a ∧ (∀ n ∈ a.nodes, n.fullName env.reg = "rdf:Description".toList) ∧
    ∀ e ∈ docFacts (Dec.declare env.reg (Dec.declared a.nodes)) a.nodes, ∃ p i,
      Belongs env (Dec.declare env.reg (Dec.declared a.nodes)) dv M e p i

theorem one_refused {t a : Node} (hroot : Dec.rdfRoot env.reg t = some a) (h : AllBelong env dv M t)
    (hd : d = Dec.declare env.reg (Dec.declared a.nodes)) {e : Entry} (he : e ∈ docFacts d a.nodes) {p : Str} {i : Nat} {ty : Ty}
    (hb : Belongs env d dv M e p i) (hty : (mdlTys (M p))[i]? = some ty) (hr : ∀ v x, readVal d dv e ty v ≠ .ok x) (q : Packet) :
    Dec.decode env dv t ≠ .ok q := by
  obtain ⟨a', ha, hdesc, hall⟩ := h.roots
  rw [hroot] at ha
  cases ha
  subst hd
  have hreg := declare_reg env.reg (Dec.declared a.nodes)
  intro hq
  simp only [Dec.decode, hroot] at hq
  rw [descriptions_decodeAll _ (fun n hn => by rw [hreg]; exact hdesc n hn)] at hq
  have hlab : ∀ l : List Entry, (∀ e ∈ l, ∃ p i, Belongs env (Dec.declare env.reg (Dec.declared a.nodes)) dv M e p i) →
      ∃ c : List (Str × Entry), c.map (·.2) = l ∧ ∀ x ∈ c, ∃ i, Belongs env (Dec.declare env.reg (Dec.declared a.nodes)) dv M x.2 x.1 i := by
    intro l
    induction l with
    | nil => intro _; exact ⟨[], rfl, by simp⟩
    | cons e l ih =>
      intro h
      obtain ⟨c, hc, hc2⟩ := ih (fun x hx => h x (List.mem_cons_of_mem _ hx))
      obtain ⟨p, i, hb⟩ := h e List.mem_cons_self
      refine ⟨(p, e) :: c, by simp [hc], ?_⟩
      intro x hx
      rcases List.mem_cons.1 hx with rfl | hx
      · exact ⟨i, hb⟩
      · exact hc2 x hx
  obtain ⟨c, hc, hc2⟩ := hlab _ hall
  rw [← hc] at hq he
  obtain ⟨x, hx, rfl⟩ := List.mem_map.1 he
  cases hdec : decodeAll env (Dec.declare env.reg (Dec.declared a.nodes)) dv (c.map (·.2)) [] with
  | ok rs =>
    obtain ⟨g, hg, -⟩ := (decodeAll_vals hc2 holds_nil).1 rs hdec
    obtain ⟨j, hj⟩ := hc2 x hx
    obtain ⟨rfl, rfl⟩ := belongs_unique hj hb
    rw [allVals_refused hx] at hg
    · cases hg
    · intro g r hgr
      obtain ⟨k, t, v, w, hk, ht, -, hw, -⟩ := (readEntry_ok hb.notMark).1 hgr
      rw [hb.field] at hk
      cases hk
      rw [hty] at ht
      cases ht
      exact hr v w hw
  | err => rw [hdec] at hq; cases hq
  | panic => rw [hdec] at hq; cases hq

/-- A document whose rating has a qualifier. -/
def formQ : Node := .mk (rdfN "RDF".toList) [] []
  [.mk (rdfN "Description".toList) [declEx, ⟨exN "name".toList, "N".toList⟩] []
    [.mk (exN "rating".toList) [⟨rdfN "parseType".toList, "Resource".toList⟩] []
      [.mk (rdfN "value".toList) [] "5".toList [], .mk (exN "by".toList) [] "me".toList []]]]

/-- A document whose person has a member that is not known. -/
def formU : Node := .mk (rdfN "RDF".toList) [] []
  [.mk (rdfN "Description".toList) [declEx, ⟨exN "name".toList, "N".toList⟩] []
    [.mk (exN "person".toList) [⟨rdfN "parseType".toList, "Resource".toList⟩] [] [.mk (exN "born".toList) [] "1900".toList []]]]

theorem formQ_belong : AllBelong formEnv Version.zero (fun _ => formMdl) formQ := by
  refine ⟨formQ, rfl, by decide +kernel, ?_⟩
  intro e he
  have : ∀ e ∈ docFacts formDec formQ.nodes, formDec.findNs (e.lookup formDec) = some ⟨"ex".toList, "u:ex".toList, some 0⟩ ∧
      (findStructField Version.zero (mdlInfos formMdl) (e.label formDec)).isSome ∧ ¬ e.Mark formDec := by decide +kernel
  obtain ⟨h1, h2, h3⟩ := this e he
  obtain ⟨i, hi⟩ := Option.isSome_iff_exists.1 h2
  exact ⟨_, i, form_belongs h1 hi h3⟩

theorem formU_belong : AllBelong formEnv Version.zero (fun _ => formMdl) formU := by
  refine ⟨formU, rfl, by decide +kernel, ?_⟩
  intro e he
  have : ∀ e ∈ docFacts formDec formU.nodes, formDec.findNs (e.lookup formDec) = some ⟨"ex".toList, "u:ex".toList, some 0⟩ ∧
      (findStructField Version.zero (mdlInfos formMdl) (e.label formDec)).isSome ∧ ¬ e.Mark formDec := by decide +kernel
  obtain ⟨h1, h2, h3⟩ := this e he
  obtain ⟨i, hi⟩ := Option.isSome_iff_exists.1 h2
  exact ⟨_, i, form_belongs h1 hi h3⟩

/-! ### Findings -/

/-- **C76.**  A URI is read from the text of the element. -/
theorem uri_text_read (d : Dec) (dv : Version) (n : Node) (h : ∀ a ∈ n.attrs, a.name.space ≠ "rdf".toList) :
    uriUnmarshal d dv n = .ok (trimSpace n.value) := by
  have hg : n.getAttr "rdf".toList "resource".toList = [] := by
    simp only [Node.getAttr, List.filter_eq_nil_iff]
    intro a ha
    have h1 := h a ha
    have h2 : ("rdf".toList : Str) ≠ [] := by decide
    rw [decide_eq_true h2, decide_eq_true h1]
    exact Bool.false_ne_true
  obtain ⟨q, as, s, ns⟩ := n
  simp only [uriUnmarshal, hg, decodeElement, unmarshal, derefVal, setValue, rewrap, Node.value]

/-- **C76, finding.**  A URI that is given by `rdf:resource` is lost without error: the name of a parsed attribute has the URI of
RDF where xmp/xmp_types.go:453 expects the prefix. -/
theorem uri_resource_lost (d : Dec) (dv : Version) (name : QName) (uri : Str) :
    uriUnmarshal d dv (.mk name [⟨⟨nsRDF.uri, "resource".toList⟩, uri⟩] [] []) = .ok [] := by
  have h : ∀ a ∈ (Node.mk name [⟨⟨nsRDF.uri, "resource".toList⟩, uri⟩] [] []).attrs, a.name.space ≠ "rdf".toList := by
    intro a ha
    rw [List.mem_singleton.1 ha]
    show nsRDF.uri ≠ "rdf".toList
    decide +kernel
  rw [uri_text_read d dv _ h]
  rfl

/-- **C76, finding.**  So is a URI with qualifiers, whatever they are; the comment above of the code says that it is supported. -/
theorem uri_qualified_lost (d : Dec) (dv : Version) (name : QName) (nodes : List Node) :
    uriUnmarshal d dv (.mk name [⟨⟨nsRDF.uri, "parseType".toList⟩, "Resource".toList⟩] [] nodes) = .ok [] := by
  have h : ∀ a ∈ (Node.mk name [⟨⟨nsRDF.uri, "parseType".toList⟩, "Resource".toList⟩] [] nodes).attrs, a.name.space ≠ "rdf".toList := by
    intro a ha
    rw [List.mem_singleton.1 ha]
    show nsRDF.uri ≠ "rdf".toList
    decide +kernel
  rw [uri_text_read d dv _ h]
  rfl

/-- **C76, finding.**  A text with qualifiers, whose value is in `rdf:value`, is read as the empty text. -/
theorem qualified_text_lost (d : Dec) (dv : Version) (name : QName) (attrs : List Attr) (nodes : List Node) (b : Bool) (v : Val) :
    unmarshal d dv (.mk name attrs [] nodes) b .str v = .ok (.str []) := by
  simp only [unmarshal, derefVal, setValue, rewrap, trimSpace]
  rfl

/-- **C76, finding.**  A number with qualifiers, whose value is in `rdf:value`, makes the whole document unreadable. -/
theorem qualified_number_refused (t a : Node) (hroot : Dec.rdfRoot env.reg t = some a) (h : AllBelong env dv M t)
    (hd : d = Dec.declare env.reg (Dec.declared a.nodes)) (name : QName) (attrs : List Attr) (nodes : List Node)
    (he : Entry.elem (.mk name attrs [] nodes) ∈ docFacts d a.nodes) (p : Str) (i k : Nat)
    (hb : Belongs env d dv M (.elem (.mk name attrs [] nodes)) p i) (hty : (mdlTys (M p))[i]? = some (.int k)) (q : Packet) :
    Dec.decode env dv t ≠ .ok q := by
  refine one_refused hroot h hd he hb hty ?_ q
  intro v x hx
  simp only [readVal, unmarshal, derefVal, setValue] at hx
  have : parseInt k [] = none := rfl
  simp [this, failField] at hx

/-- **C76, finding.**  A struct with an entry that the type does not know cannot be read. -/
theorem unknown_entry_refused (z : Option (List Val → Bool)) (infos : List FieldInfo) (tys : List Ty) (n : Node) (e : Entry)
    (he : e ∈ facts d n) (hf : findStructField dv infos (e.label d) = none) (b : Bool) (v x : Val) :
    unmarshal d dv n b (.struct z infos tys) v ≠ .ok x := by
  intro hx
  obtain ⟨vals, r, rfl, rfl, hr⟩ := (unmarshal_struct_ok n b).1 hx
  have : ∀ (l : List Entry) (vals : List Val), e ∈ l → (∀ y ∈ l, ¬ y.Mark d) → ∀ r, readAll d dv infos tys l vals ≠ .ok r := by
    intro l
    induction l with
    | nil => intro _ h; cases h
    | cons y l ih =>
      intro vals h hm r hr
      obtain ⟨w, h1, h2⟩ := readAll_cons_ok.1 hr
      rcases List.mem_cons.1 h with rfl | h
      · obtain ⟨i, _, _, _, hi, -⟩ := (readEntry_ok (hm _ List.mem_cons_self)).1 h1
        rw [hf] at hi
        cases hi
      · exact ih w h (fun z hz => hm z (List.mem_cons_of_mem _ hz)) r h2
  exact this _ _ he (fun y hy => facts_notMark y hy) _ hr

/-- **C76, finding.**  Such a struct makes the whole document unreadable. -/
theorem unknown_entry_refused_document (t a : Node) (hroot : Dec.rdfRoot env.reg t = some a) (h : AllBelong env dv M t)
    (hd : d = Dec.declare env.reg (Dec.declared a.nodes)) (n : Node) (he : Entry.elem n ∈ docFacts d a.nodes) (p : Str) (i : Nat)
    (z : Option (List Val → Bool)) (infos : List FieldInfo) (tys : List Ty)
    (hb : Belongs env d dv M (.elem n) p i) (hty : (mdlTys (M p))[i]? = some (.struct z infos tys)) (e : Entry) (hen : e ∈ facts d n)
    (hf : findStructField dv infos (e.label d) = none) (q : Packet) :
    Dec.decode env dv t ≠ .ok q :=
  one_refused hroot h hd he hb hty (fun v x => unknown_entry_refused z infos tys n e hen hf true v x) q

theorem decodeAll_refused {l : List Entry} {e : Entry} (he : e ∈ l) (hr : ∀ rs r, decodeEntry env d dv rs e ≠ .ok r) :
    ∀ rs r, decodeAll env d dv l rs ≠ .ok r := by
  induction l with
  | nil => cases he
  | cons y l ih =>
    intro rs r h
    simp only [decodeAll] at h
    cases hd : decodeEntry env d dv rs y with
    | ok w =>
      rw [hd] at h
      rcases List.mem_cons.1 he with rfl | he
      · exact hr _ _ hd
      · exact ih he w r h
    | err => rw [hd] at h; cases h
    | panic => rw [hd] at h; cases h

/-- **C76, finding.**  A declaration of a default namespace, `xmlns="..."`, in a description makes the whole document unreadable, in
every document and every program that has no namespace with the prefix `xmlns`: it is taken for a property. -/
theorem default_namespace_refused (t a : Node) (hroot : Dec.rdfRoot env.reg t = some a)
    (hne : (Dec.declare env.reg (Dec.declared a.nodes)).findByPrefix "xmlns".toList = none) (n : Node) (hn : n ∈ a.nodes) (uri : Str)
    (ha : (⟨⟨[], "xmlns".toList⟩, uri⟩ : Attr) ∈ n.attrs) (q : Packet) : Dec.decode env dv t ≠ .ok q := by
  intro hq
  have hreg := declare_reg env.reg (Dec.declared a.nodes)
  simp only [Dec.decode, hroot] at hq
  generalize hd : Dec.declare env.reg (Dec.declared a.nodes) = d at hq hne hreg
  by_cases hdesc : ∀ n ∈ a.nodes, n.fullName d.reg = "rdf:Description".toList
  · rw [descriptions_decodeAll _ hdesc] at hq
    have htr : d.translate ⟨[], "xmlns".toList⟩ = ⟨[], "xmlns".toList⟩ := by simp [Dec.translate]
    have hmem : Entry.attr ⟨⟨[], "xmlns".toList⟩, uri⟩ ∈ docFacts d a.nodes := by
      refine List.mem_flatMap.2 ⟨n, hn, List.mem_append_left _ (List.mem_map_of_mem (List.mem_filter.2 ⟨ha, ?_⟩))⟩
      have h1 : ¬ (([] : Str) = nsRDF.uri) := by decide
      have h2 : ¬ (Entry.attr ⟨⟨[], "xmlns".toList⟩, uri⟩).Mark d := by
        simp only [Entry.Mark, Entry.name, htr]
        decide
      rw [decide_eq_false h1, decide_eq_false h2]
      rfl
    have := decodeAll_refused (env := env) (d := d) (dv := dv) hmem (by
      intro rs r h
      have hs : ¬ (skipName ⟨[], "xmlns".toList⟩ = true) := by decide
      have hf : d.findNs ⟨[], "xmlns".toList⟩ = none := by
        simp only [Dec.findNs, ne_eq, not_true_eq_false, if_false]
        exact hne
      simp only [decodeEntry, Dec.decodeAttribute, htr, if_neg hs, Dec.lookupNode, hf] at h
      cases h) []
    cases hdec : decodeAll env d dv (docFacts d a.nodes) [] with
    | ok rs => exact this rs hdec
    | err => rw [hdec] at hq; cases hq
    | panic => rw [hdec] at hq; cases hq
  · have : ∀ (l : List Node) s, (∃ n ∈ l, n.fullName d.reg ≠ "rdf:Description".toList) → ∀ r, Dec.descriptions env d dv l s ≠ .ok r := by
      intro l
      induction l with
      | nil => rintro s ⟨n, hn, -⟩; cases hn
      | cons m l ih =>
        rintro s ⟨n, hn, hx⟩ r h
        simp only [Dec.descriptions] at h
        by_cases hm : m.fullName d.reg ≠ "rdf:Description".toList
        · rw [if_pos hm] at h; cases h
        · rw [if_neg hm] at h
          have hn' : n ∈ l := by
            rcases List.mem_cons.1 hn with rfl | hn
            · exact absurd hx hm
            · exact hn
          split at h
          · split at h
            · exact ih _ ⟨n, hn', hx⟩ r h
            · cases h
            · cases h
          · cases h
          · cases h
    push Not at hdesc
    cases hdec : Dec.descriptions env d dv a.nodes ([], []) with
    | ok rs => exact this _ _ hdesc rs hdec
    | err => rw [hdec] at hq; cases hq
    | panic => rw [hdec] at hq; cases hq

/-- The hypotheses of `default_namespace_refused` can be met. -/
example (q : Packet) : Dec.decode formEnv Version.zero (.mk (rdfN "RDF".toList) [] []
    [.mk (rdfN "Description".toList) [declEx, ⟨exN "name".toList, "N".toList⟩, ⟨⟨[], "xmlns".toList⟩, "u:other".toList⟩] [] []]) ≠ .ok q :=
  default_namespace_refused _ _ rfl (by decide +kernel) _ List.mem_cons_self "u:other".toList
    (List.mem_cons_of_mem _ (List.mem_cons_of_mem _ List.mem_cons_self)) q

/-- The hypotheses of `qualified_number_refused` can be met. -/
example (q : Packet) : Dec.decode formEnv Version.zero formQ ≠ .ok q :=
  qualified_number_refused (d := formDec) formQ formQ rfl formQ_belong rfl (exN "rating".toList)
    [⟨rdfN "parseType".toList, "Resource".toList⟩] [.mk (rdfN "value".toList) [] "5".toList [], .mk (exN "by".toList) [] "me".toList []]
    (List.mem_cons_of_mem _ List.mem_cons_self) "ex".toList 1 64
    (form_belongs (by decide +kernel) (by decide +kernel) (by decide +kernel)) rfl q

/-- The hypotheses of `unknown_entry_refused_document` and of `unknown_entry_refused` can be met. -/
example (q : Packet) : Dec.decode formEnv Version.zero formU ≠ .ok q :=
  unknown_entry_refused_document (d := formDec) formU formU rfl formU_belong rfl
    (.mk (exN "person".toList) [⟨rdfN "parseType".toList, "Resource".toList⟩] [] [.mk (exN "born".toList) [] "1900".toList []])
    (List.mem_cons_of_mem _ List.mem_cons_self) "ex".toList 2 _ _ _
    (form_belongs (by decide +kernel) (by decide +kernel) (by decide +kernel)) rfl
    (.elem (.mk (exN "born".toList) [] "1900".toList [])) List.mem_cons_self (by decide +kernel) q

/-- The hypothesis of `uri_text_read` can be met. -/
example : uriUnmarshal formDec Version.zero (.mk (exN "base".toList) [] "http://a.b".toList []) = .ok "http://a.b".toList :=
  uri_text_read _ _ _ (by intro a ha; cases ha)

/-- The hypothesis of `description_transparent` can be met: the person without and with `rdf:Description`. -/
example : facts formDec (.mk (exN "person".toList) [⟨rdfN "parseType".toList, "Resource".toList⟩] [] [.mk (exN "first".toList) [] "F".toList []]) =
    facts formDec (.mk (exN "person".toList) [] [] [.mk (rdfN "Description".toList) [] []
      [.mk (rdfN "Description".toList) [⟨rdfN "type".toList, "t".toList⟩] [] [.mk (exN "first".toList) [] "F".toList []]]]) := rfl

end Xmp.Props
