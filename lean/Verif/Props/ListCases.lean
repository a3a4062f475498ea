import Verif.Props.ListDoc

/-! C47: a concrete document whose listing is exact, and entries that do not read back. -/

namespace Xmp.Props

open GoStr

/-! ### A concrete document -/

def listNs (p : String) : Namespace := ⟨p.toList, ("u:" ++ p).toList, none⟩

/-- The sample model, which answers for the prefixes of its fields. -/
def listMdl (v : Val) : Mdl := ⟨[listNs "a", listNs "b"], ["a".toList, "b".toList], listTy, v⟩

/-- A top-level node with the sample model and an attribute and an element that the model does not know. -/
def listRoot1 : Root :=
  { node := .mk ⟨[], "a".toList⟩ [⟨⟨[], "a:extra".toList⟩, "1".toList⟩] [] [.mk ⟨[], "a:note".toList⟩ [] "n".toList []]
    model := some (listMdl listVal) }

/-- A node without model: a value, a struct of another namespace, an array of structs, alternatives. -/
def listRoot2 : Root :=
  { node := .mk ⟨[], "z".toList⟩ [⟨⟨[], "z:at".toList⟩, "2".toList⟩] []
      [.mk ⟨[], "z:val".toList⟩ [⟨⟨[], "y:q".toList⟩, "3".toList⟩] "v".toList [],
       .mk ⟨[], "y:st".toList⟩ [] [] [.mk ⟨[], "y:in".toList⟩ [] "deep".toList []],
       .mk ⟨[], "z:arr".toList⟩ [] [] [.mk ⟨[], "rdf:Seq".toList⟩ [] []
        [.mk ⟨[], "rdf:li".toList⟩ [] [] [.mk ⟨[], "z:k".toList⟩ [] "one".toList []],
         .mk ⟨[], "rdf:li".toList⟩ [] [] [.mk ⟨[], "z:k".toList⟩ [] "two".toList []]]],
       .mk ⟨[], "z:alt".toList⟩ [] [] [.mk ⟨[], "rdf:Alt".toList⟩ [] []
        [.mk ⟨[], "rdf:li".toList⟩ [⟨⟨[], "xml:lang".toList⟩, "en".toList⟩] "E".toList []]]] }

/-- The sample document. -/
def listDoc : XDoc :=
  { roots := [listRoot1, listRoot2]
    intNs := [("u:a".toList, listNs "a"), ("u:b".toList, listNs "b")], extNs := [("u:z".toList, listNs "z")] }

def listEnv : Env := { reg := {}, make := fun _ _ => none }

example : listDoc.listPaths listEnv sortPv =
    .ok (pvs [("a:extra", "1"), ("a:list[0]", "x"), ("a:list[2]", "y"), ("a:name", "n"), ("a:note", "n"),
      ("a:ref/stRef:documentID", "id"), ("a:ref/stRef:parts[0]", "7"), ("a:title[de]", "U"), ("a:title[en]", "T"),
      ("b:refs[0]/stRef:documentID", "id2"), ("z:alt[en]", "E"), ("z:arr[0]/k", "one"), ("z:arr[1]/k", "two"), ("z:at", "2"),
      ("z:val", "v"), ("z:val/y:q", "3"), ("z:y:st/y:in", "deep")]) := by decide +kernel

theorem sortPv_sorted (l : PathValueList) : Sorted (sortPv l) := by
  have hlt : ∀ {a b : PathValue}, PathValueList.less a b = true → PathValueList.less b a = false := by
    intro a b h
    simp only [PathValueList.less, decide_eq_true_eq, decide_eq_false_iff_not, Path] at h ⊢
    exact List.lt_asymm h
  have htr : ∀ {a b c : PathValue}, PathValueList.less b a = false → PathValueList.less c b = false → PathValueList.less c a = false := by
    intro a b c h1 h2
    simp only [PathValueList.less, decide_eq_false_iff_not, Path, List.not_lt] at h1 h2 ⊢
    exact List.le_trans h1 h2
  have hi : ∀ x l, Sorted l → Sorted (sortPv.ins x l) ∧ ∀ y ∈ sortPv.ins x l, y = x ∨ y ∈ l := by
    intro x l
    induction l with
    | nil => intro _; simp [sortPv.ins, Sorted]
    | cons y ys ih =>
      intro hs
      obtain ⟨h1, h2⟩ := List.pairwise_cons.1 hs
      obtain ⟨i1, i2⟩ := ih h2
      rw [sortPv.ins]
      split
      · rename_i hlt'
        constructor
        · refine List.pairwise_cons.2 ⟨?_, i1⟩
          intro z hz
          rcases i2 z hz with rfl | hz
          · exact hlt hlt'
          · exact h1 z hz
        · intro z hz
          rcases List.mem_cons.1 hz with rfl | hz
          · simp
          · rcases i2 z hz with rfl | hz <;> simp [*]
      · rename_i hlt'
        constructor
        · refine List.pairwise_cons.2 ⟨?_, hs⟩
          intro z hz
          rcases List.mem_cons.1 hz with rfl | hz
          · simpa using hlt'
          · exact htr (by simpa using hlt') (h1 z hz)
        · intro z hz
          rcases List.mem_cons.1 hz with rfl | hz <;> simp [*]
  induction l with
  | nil => simp [sortPv, Sorted]
  | cons x xs ih => exact (hi x _ ih).1

theorem attrsOk_nil {n : Node} (h : n.attrs = []) : AttrsOk n := by
  refine ⟨?_, ?_, ?_⟩ <;> simp [h]

theorem nodeOk_leaf {b : Bool} (n : QName) (v : Str) : NodeOk b (.mk n [] v []) :=
  .node (by simp [Node.nodes]) (by simp [Node.nodes]) (attrsOk_nil rfl) (by simp [Node.nodes])

/-- The sample document meets the conditions of the theorems. -/
theorem listDoc_listable : DocListable listEnv listDoc := by
  intro i r hr
  have hi : (i = 0 ∧ r = listRoot1) ∨ (i = 1 ∧ r = listRoot2) := by
    match i with
    | 0 => left; simp [listDoc] at hr; exact ⟨rfl, hr.symm⟩
    | 1 => right; simp [listDoc] at hr; exact ⟨rfl, hr.symm⟩
    | _ + 2 => simp [listDoc] at hr
  rcases hi with ⟨rfl, rfl⟩ | ⟨rfl, rfl⟩
  · refine ⟨?_, by decide +kernel, by decide +kernel, by decide +kernel, ⟨listNs "a", by decide +kernel, by decide +kernel⟩, ?_⟩
    · refine .node ?_ (by decide +kernel) ⟨?_, by decide +kernel, ?_⟩ ?_
      · simp only [listRoot1, Node.nodes, List.mem_singleton, forall_eq, NodeNameOk, FieldNameOk, IsSeq, IsAlt, Node.xmlName]
        decide +kernel
      · simp only [listRoot1, Node.attrs, List.mem_singleton, forall_eq, FieldNameOk]; decide +kernel
      · simp only [listRoot1, Node.attrs, List.mem_singleton, forall_eq]; decide +kernel
      · simp only [listRoot1, Node.nodes, List.mem_singleton, forall_eq]; exact nodeOk_leaf _ _
    · intro m hm
      simp only [listRoot1, Option.some.injEq] at hm
      subst hm
      obtain ⟨w1, w2, w3, w4, w5⟩ := sample_meets
      refine ⟨⟨⟨listNs "a", [listNs "b"], rfl, by decide +kernel⟩, _, _, _, rfl, w1, w2, w3, w4, w5, ?_⟩, rfl, ?_⟩
      · intro f hf
        have : getPrefix f.name = "a".toList ∨ getPrefix f.name = "b".toList := by
          simp only [List.mem_cons, List.not_mem_nil, or_false] at hf
          rcases hf with rfl | rfl | rfl | rfl | rfl | rfl | rfl <;> decide +kernel
        rcases this with h | h <;> rw [h]
        · exact ⟨listNs "a", by decide +kernel, by decide +kernel⟩
        · exact ⟨listNs "b", by decide +kernel, by decide +kernel⟩
      · intro z infos tys h
        simp only [listMdl, listTy, Ty.struct.injEq] at h
        obtain ⟨-, rfl, -⟩ := h
        constructor
        · simp only [listRoot1, Node.nodes, List.mem_singleton, forall_eq]; decide +kernel
        · simp only [listRoot1, Node.attrs, List.mem_singleton, forall_eq]; decide +kernel
  · refine ⟨?_, by decide +kernel, by decide +kernel, by decide +kernel, ⟨listNs "z", by decide +kernel, by decide +kernel⟩, ?_⟩
    · refine .node ?_ (by decide +kernel) ⟨?_, by decide +kernel, ?_⟩ ?_
      · simp only [listRoot2, Node.nodes, List.mem_cons, List.not_mem_nil, or_false, forall_eq_or_imp, forall_eq, NodeNameOk,
          FieldNameOk, IsSeq, IsAlt, Node.xmlName]
        refine ⟨?_, ?_, ?_, ?_⟩ <;> decide +kernel
      · simp only [listRoot2, Node.attrs, List.mem_singleton, forall_eq, FieldNameOk]; decide +kernel
      · simp only [listRoot2, Node.attrs, List.mem_singleton, forall_eq]; decide +kernel
      · simp only [listRoot2, Node.nodes, List.mem_cons, List.not_mem_nil, or_false, forall_eq_or_imp, forall_eq]
        refine ⟨?_, ?_, ?_, ?_⟩
        · refine .node (by simp [Node.nodes]) (by simp [Node.nodes]) ⟨?_, by decide +kernel, ?_⟩ (by simp [Node.nodes])
          · simp only [Node.attrs, List.mem_singleton, forall_eq, FieldNameOk]; decide +kernel
          · simp [Node.nodes]
        · refine .node ?_ (by decide +kernel) (attrsOk_nil rfl) ?_
          · simp only [Node.nodes, List.mem_singleton, forall_eq, NodeNameOk, FieldNameOk, IsSeq, IsAlt, Node.xmlName]
            decide +kernel
          · simp only [Node.nodes, List.mem_singleton, forall_eq]; exact nodeOk_leaf _ _
        · refine .seq rfl (Or.inl rfl) (attrsOk_nil rfl) (by decide +kernel) ?_
          simp only [Node.nodes, List.mem_cons, List.not_mem_nil, or_false, forall_eq_or_imp, forall_eq]
          constructor <;>
          · refine .node ?_ (by decide +kernel) (attrsOk_nil rfl) ?_
            · simp only [Node.nodes, List.mem_singleton, forall_eq, NodeNameOk, FieldNameOk, IsSeq, IsAlt, Node.xmlName]
              decide +kernel
            · simp only [Node.nodes, List.mem_singleton, forall_eq]; exact nodeOk_leaf _ _
        · refine .alt rfl rfl (attrsOk_nil rfl) ?_ (by decide +kernel)
          simp only [Node.nodes, List.mem_singleton, forall_eq]
          decide +kernel
    · intro m hm
      simp [listRoot2] at hm

mutual
/-- A type without codecs of its own. -/
def PlainTy : Ty → Prop
  | .text _ => False
  | .slice _ t => PlainTy t
  | .ptr t => PlainTy t
  | .struct _ _ tys => PlainTys tys
  | _ => True
/-- `PlainTy` of all types of a list. -/
def PlainTys : List Ty → Prop
  | [] => True
  | t :: ts => PlainTy t ∧ PlainTys ts
end

theorem plainTys_at : ∀ {tys : List Ty} {i : Nat} {t : Ty}, PlainTys tys → tys[i]? = some t → PlainTy t
  | [], _, _, _, h => by simp at h
  | _ :: _, 0, _, hp, h => by rw [PlainTys] at hp; simp at h; exact h ▸ hp.1
  | _ :: _, _ + 1, _, hp, h => by rw [PlainTys] at hp; exact plainTys_at hp.2 (by simpa using h)

theorem hasTys_at : ∀ {tys : List Ty} {vals : List Val} {i : Nat} {t : Ty} {v : Val}, HasTys tys vals → tys[i]? = some t →
    vals[i]? = some v → HasTy t v
  | [], _, _, _, _, _, h, _ => by simp at h
  | _ :: _, [], _, _, _, _, _, h => by simp at h
  | _ :: _, _ :: _, 0, _, _, hp, h, h' => by
    rw [HasTys] at hp; simp only [List.getElem?_cons_zero, Option.some.injEq] at h h'; exact h ▸ h' ▸ hp.1
  | _ :: _, _ :: _, _ + 1, _, _, hp, h, h' => by
    rw [HasTys] at hp; exact hasTys_at hp.2 (by simpa using h) (by simpa using h')

theorem plain_leaf {t : Ty} {v : Val} (hl : IsLeaf t) (hp : PlainTy t) (hv : HasTy t v) : ∃ s, leafText t v = some (some s) := by
  cases t <;> cases v <;> simp_all [IsLeaf, PlainTy, HasTy, leafText, marshalSimple]

theorem plain_deref {t : Ty} (h : PlainTy t) : PlainTy t.deref := by
  cases t <;> first | exact h | (rw [PlainTy] at h; exact h)

theorem plain_below {pre : Str} {t : Ty} {v : Val} {suf : Str} {segs : List Str} {x : Option (Option Str)}
    (h : Below pre t v suf segs x) : PlainTy t → HasTy t v → ∃ s, x = some (some s) := by
  induction h with
  | leaf hl => exact plain_leaf hl
  | ptr h ih => intro hp hv; rw [PlainTy] at hp; rw [HasTy] at hv; exact ih hp hv
  | lang h => intro _ _; exact ⟨_, rfl⟩
  | @item ty ety items sp k e h hl hb =>
    intro hp hv
    rw [PlainTy] at hp; rw [HasTy] at hv
    exact plain_leaf hl (plain_deref hp) (hasTy_deref (hv.1 e (List.mem_of_getElem? h)))
  | struct he hf h ih =>
    intro hp hv
    obtain ⟨i, h1, h2, h3, h4⟩ := hf
    rw [PlainTy] at hp; rw [HasTy] at hv
    exact ih (plainTys_at hp h2) (hasTys_at hv h2 h3)
  | @elem ty ety items sp k e z infos tys vals f t v suf segs x hk hd he hf h ih =>
    intro hp hv
    obtain ⟨i, h1, h2, h3, h4⟩ := hf
    rw [PlainTy] at hp; rw [HasTy] at hv
    have hve := hv.1 e (List.mem_of_getElem? hk)
    have hde : ety.deref = .struct z infos tys := by rw [← derefVal_fst hve, hd]
    have hp2 := plain_deref hp
    have hv2 := hasTy_deref hve
    rw [hd, hde] at hv2
    rw [hde, PlainTy] at hp2
    rw [HasTy] at hv2
    exact ih (plainTys_at hp2 h2) (hasTys_at hv2 h2 h3)

/-- All texts of a model whose types have no codecs of their own can be written. -/
theorem plain_holds {t : Ty} {v : Val} (hp : PlainTy t) (hv : HasTy t v) {p : Path} {x : Option (Option Str)}
    (h : ModelHolds t v p x) : ∃ s, x = some (some s) := by
  obtain ⟨z, infos, tys, vals, f, u, fv, suf, segs, rfl, rfl, -, ⟨i, h1, h2, h3, h4⟩, hb, -⟩ := h
  rw [PlainTy] at hp; rw [HasTy] at hv
  exact plain_below hb (plainTys_at hp h2) (hasTys_at hv h2 h3)

theorem listDoc_writable : DocWritable listDoc := by
  intro r hr m hm p x hx
  simp only [listDoc, List.mem_cons, List.not_mem_nil, or_false] at hr
  rcases hr with rfl | rfl
  · simp only [listRoot1, Option.some.injEq] at hm
    subst hm
    refine plain_holds ?_ sample_meets.2.2.2.1 hx
    simp [listMdl, listTy, listRefTy, PlainTy, PlainTys]
  · simp [listRoot2] at hm

/-- The conditions of `doc_listing_exact_partial` hold for the sample. -/
example : ∃ l, listDoc.listPaths listEnv sortPv = .ok l ∧
    ∀ e, e ∈ l ↔ ∃ p s, e = { path := p, value := s } ∧ DocHolds listDoc p s := by
  obtain ⟨l, h1, -, h2⟩ := doc_listing_exact_partial sortPv_perm sortPv_sorted listDoc_listable listDoc_writable
  exact ⟨l, h1, h2⟩

example : listDoc.getPath listEnv "z:y:st/y:in".toList = .ok "deep".toList := by decide +kernel

/-! ### Entries that do not read back -/

/-- The language under which default texts without language are listed. -/
def xDefault : Str := "x-default".toList

/-- Reading a language that an alternative does not have gives nothing. -/
theorem reads_no_lang {a : AltString} {lang : Str} (h1 : lang ≠ []) (h2 : ':' ∉ lang) (h3 : '/' ∉ lang) (h4 : atoi lang = none)
    (h : ∀ y ∈ a, y.lang ≠ lang) : ReadsAt .alt (.alt a) (['['] ++ lang ++ [']']) [] [] := by
  refine ⟨by simp [h2], by simp [h3], by simp, -1, lang, ?_, by decide, ?_⟩
  · intro n hn
    have := segment_lang_roundtrip n lang hn h1 h4
    simpa using this
  · intro fuel q _ _
    simp only [derefVal, getDeref]
    have : a.find? (fun v => decide (v.lang = lang)) = none :=
      List.find?_eq_none.2 (fun y hy => by simpa using h y hy)
    rw [if_pos h1, AltString.get, if_neg h1, this]

/-- Finding: a default text without language (as `NewAltString("text")` makes it) is listed under the language
`x-default`, but reading this path gives nothing. -/
theorem default_text_unreadable {z : Option (List Val → Bool)} {infos : List FieldInfo} {tys : List Ty} {vals : List Val}
    {f : FieldInfo} {a : AltString} {x : AltItem} (hk : NamesOk (.struct z infos tys)) (ha : NamesApart (.struct z infos tys))
    (hne : isEmptyValue (.struct z infos tys) (.struct vals) = false) (hf : InField infos tys vals f .alt (.alt a))
    (hx : x ∈ a) (h1 : x.lang = []) (h2 : x.isDefault = true) (h3 : ∀ y ∈ a, y.lang ≠ xDefault) :
    ∃ p, p = Path.new (getPrefix f.name) [stripPrefix f.name ++ (['['] ++ xDefault ++ [']'])] ∧
    ModelHolds (.struct z infos tys) (.struct vals) p (some (some x.value)) ∧
      getModelPath (.struct z infos tys) (.struct vals) p = .ok [] := by
  refine ⟨_, rfl, ?_⟩
  have hgl : x.getLang = xDefault := by unfold AltItem.getLang; rw [if_pos ⟨h1, h2⟩]; rfl
  have hr : ReadsAt .alt (.alt a) (['['] ++ xDefault ++ [']']) [] [] :=
    reads_no_lang (by decide) (by decide) (by decide) (by decide +kernel) h3
  have hs : '/' ∉ ['['] ++ xDefault ++ [']'] := by decide
  generalize xDefault = lang at *
  refine ⟨⟨z, infos, tys, vals, f, .alt, .alt a, _, [], rfl, rfl, hne, hf, ?_, rfl⟩, ?_⟩
  · have := Below.lang (pre := getPrefix f.name) hx
    rw [hgl] at this
    exact this
  · rw [NamesOk] at hk
    rw [NamesApart] at ha
    obtain ⟨i, g1, g2, g3, g4⟩ := id hf
    have hn := hk.1 f (List.mem_of_getElem? g1)
    unfold getModelPath
    rw [len_new (colon_getPrefix _)]
    · have := read_step (z := z) (pre := getPrefix f.name) hk.1 ha.1 hf hr (fuel := 2) (by simp) (q := getPrefix f.name) (colon_getPrefix _)
      rw [shownName_self] at this
      exact this
    · intro y hy
      rw [List.mem_singleton.1 hy]
      refine ⟨by simp, fun h => ?_⟩
      rcases List.mem_append.1 h with h | h
      · exact stripPrefix_sub hn.2.2.1 h
      · exact hs h

/-- A model with a title that has no language. -/
def titleTy : Ty := .struct none [fld "dc:title"] [.alt]

example : AltString.new [.str "T".toList] = some [⟨"T".toList, [], true⟩] ∧
    listPaths sortPv titleTy (.struct [.alt [⟨"T".toList, [], true⟩]]) "dc:".toList = some (pvs [("dc:title[x-default]", "T")]) ∧
    getModelPath titleTy (.struct [.alt [⟨"T".toList, [], true⟩]]) "dc:title[x-default]".toList = .ok [] ∧
    getModelPath titleTy (.struct [.alt [⟨"T".toList, [], true⟩]]) "dc:title".toList = .ok "T".toList := by decide +kernel

/-- Finding: two fields with the same local name in different namespaces (as in `RiffInfo`, models/riff/model.go:64, 69)
are both listed, but the path of the second reads the first, and writing it changes the first. -/
theorem same_local_name_confused : ∃ ty v, NamesOk ty ∧ HasTy ty v ∧
    listPaths sortPv ty v "riffinfo:".toList = some (pvs [("dc:source", "medium"), ("riffinfo:source", "credit")]) ∧
    getModelPath ty v "riffinfo:source".toList = .ok "medium".toList ∧
    (setModelPath ty v "riffinfo:source".toList "new".toList SyncFlags.REPLACE).2 = .ok ∧
    listPaths sortPv ty (setModelPath ty v "riffinfo:source".toList "new".toList SyncFlags.REPLACE).1 "riffinfo:".toList =
      some (pvs [("dc:source", "new"), ("riffinfo:source", "credit")]) := by
  refine ⟨.struct none [fld "dc:source", fld "riffinfo:source"] [.str, .str], .struct [.str "medium".toList, .str "credit".toList],
    ?_, ?_, by decide +kernel, by decide +kernel, by decide +kernel, by decide +kernel⟩
  · simp only [NamesOk, NamesOkAll, FieldNameOk, fld, and_true]; decide +kernel
  · simp [HasTy, HasTys]

/-- Finding: a field of a namespace that its model does not answer for is listed under a path that leads elsewhere: here
to no node at all, so that reading it is an error. -/
theorem foreign_field_unreadable : ∃ d : XDoc, ∃ m r, d.roots = [r] ∧ r.model = some m ∧
    d.listPaths listEnv sortPv = .ok (pvs [("dc:source", "medium"), ("riffinfo:product", "p")]) ∧
    d.getPath listEnv "riffinfo:product".toList = .ok "p".toList ∧ d.getPath listEnv "dc:source".toList = .err :=
  ⟨{ roots := [⟨Node.new ⟨[], "riffinfo".toList⟩, some ⟨[listNs "riffinfo"], ["riffinfo".toList],
      .struct none [fld "dc:source", fld "riffinfo:product"] [.str, .str], .struct [.str "medium".toList, .str "p".toList]⟩⟩]
     intNs := [("u:riffinfo".toList, listNs "riffinfo"), ("u:dc".toList, listNs "dc")] }, _, _, rfl, rfl,
    by decide +kernel, by decide +kernel, by decide +kernel⟩

/-- Finding: a field whose `MarshalText` gives nil hides all other fields of its struct. -/
theorem nil_text_hides_all (sort : PathValueList → PathValueList) {c : Codec} {n : Nat} (hn : c.enc n = some none)
    {z : Option (List Val → Bool)} {f : FieldInfo} {infos : List FieldInfo} {tys : List Ty} {vals : List Val}
    (hs : fieldListed f (.text c) (.opq n) = true) (path : Path) :
    listPaths sort (.struct z (f :: infos) (.text c :: tys)) (.struct (.opq n :: vals)) path = some [] := by
  rw [listPaths, listFields]
  rw [if_pos hs]
  simp only [listField, leafText, hn, listText, listSeq, listStruct, listEnd]
  split <;> rfl

example : fieldListed (fld "a:date") (.text ⟨fun _ => some none, fun _ _ => none, fun _ => false, false⟩) (.opq 0) = true := rfl

/-- An array of texts in a generic node. -/
def textItems (vals : List Str) : List Node := vals.map (fun s => .mk ⟨[], "rdf:li".toList⟩ [] s [])

/-- Finding: the items of text arrays in generic nodes are never listed, although their paths can be read. -/
theorem text_items_not_listed (r : Registry) (sort : PathValueList → PathValueList) (hsort : ∀ l, (sort l).Perm l)
    (n : QName) (h1 : n.loc = "rdf:Seq".toList ∨ n.loc = "rdf:Bag".toList) (h2 : n.space = []) (vals : List Str) (path : Path) :
    (Node.mk n [] [] (textItems vals)).listPaths r sort path = [] := by
  have key : ∀ i, Node.listLis r sort i (textItems vals) path = [] := by
    induction vals with
    | nil => intro i; rfl
    | cons v vs ih =>
      intro i
      show Node.listLis r sort i (_ :: textItems vs) path = []
      rw [Node.listLis, ih]; rfl
  rw [Node.listPaths, if_pos (by rw [fullName_space (by exact h2)]; exact h1), key 0]
  exact (hsort []).eq_nil

/-- A node with an array of texts. -/
def tagsRoot : Node := .mk ⟨[], "z".toList⟩ [] []
  [.mk ⟨[], "z:tags".toList⟩ [] [] [.mk ⟨[], "rdf:Bag".toList⟩ [] [] (textItems ["x".toList, "y".toList])]]

example : tagsRoot.listPaths {} sortPv "z:".toList = [] ∧ tagsRoot.getPath "z:tags[1]".toList = some "y".toList := by
  decide +kernel

/-- A node with an alternative without language. -/
def plainAlt : Node := .mk ⟨[], "z".toList⟩ [] []
  [.mk ⟨[], "z:t".toList⟩ [] [] [.mk ⟨[], "rdf:Alt".toList⟩ [] [] (textItems ["x".toList, []])]]

/-- Finding: an alternative without language is listed under `x-default`, where it can not be read; alternatives without
text are listed too. -/
theorem node_alt_unreadable : plainAlt.listPaths {} sortPv "z:".toList = pvs [("z:t[x-default]", "x"), ("z:t[x-default]", "")] ∧
    plainAlt.getPath "z:t[x-default]".toList = some [] := by decide +kernel

end Xmp.Props
