import Verif.Props.ListModel
import Verif.Props.ListNodes
import Verif.Props.Listing

/-! C47: listings of generic nodes and of whole documents. -/

namespace Xmp.Props

open GoStr

/-! ### Generic nodes -/

/-- C47: the listing of a top-level node without model names exactly its texts. -/
theorem node_listing_exact {r : Registry} {sort : PathValueList → PathValueList} (hsort : ∀ l, (sort l).Perm l) {n : Node}
    (h : NodeOk true n) (h1 : ¬ (n.fullName r = "rdf:Seq".toList ∨ n.fullName r = "rdf:Bag".toList))
    (h2 : ¬ n.fullName r = "rdf:Alt".toList) {pre : Str} (hp : ':' ∉ pre) (e : PathValue) :
    e ∈ n.listPaths r sort (Path.new pre []) ↔
      ∃ segs s, NRoot pre n segs s ∧ e = { path := Path.new pre segs, value := s } :=
  lists_root hsort h h1 h2 hp e

/-- The segments of a text in a node, with what reading them gives. -/
theorem nroot_reads {pre : Str} {n : Node} {segs : List Str} {s : Str} (h : NodeOk true n) (hr : NRoot pre n segs s) :
    (∀ x ∈ segs, x ≠ [] ∧ '/' ∉ x) ∧ ∀ fuel q, segs.length < fuel → ':' ∉ q → Node.getPathF fuel n (Path.new q segs) = some s := by
  obtain ⟨-, -, r3, idx, lang, r4, -, r6⟩ := nreads_below hr true h
  refine ⟨r3, ?_⟩
  have h1 := r4 ['a'] ⟨by simp, by decide⟩
  rw [plain_suffix ['a'] ⟨by simp, by decide⟩] at h1
  simp only [Prod.mk.injEq, true_and] at h1
  obtain ⟨rfl, rfl⟩ := h1
  intro fuel q hfu hq
  have := r6 fuel q hfu hq
  rwa [nodeGet_plain] at this

/-- C47: every text of a top-level node is what reading its path gives. -/
theorem node_held_is_readable {pre : Str} (hp : ':' ∉ pre) {n : Node} {segs : List Str} {s : Str} (h : NodeOk true n)
    (hr : NRoot pre n segs s) : n.getPath (Path.new pre segs) = some s := by
  obtain ⟨h1, h2⟩ := nroot_reads h hr
  unfold Node.getPath
  rw [len_new hp h1]
  exact h2 _ _ (by omega) hp

/-! ### Documents -/

/-- The namespace prefix `pre` leads to the top-level node `i`. -/
def LeadsTo (env : Env) (d : XDoc) (pre : Str) (i : Nat) : Prop :=
  ∃ ns, d.findNsByPrefix env pre = some ns ∧ d.findNode ns = some i

/-- The model of a top-level node can be listed and read. -/
def ModelListable (env : Env) (d : XDoc) (i : Nat) (m : Mdl) : Prop :=
  (∃ ns nss, m.nss = ns :: nss ∧ ':' ∉ ns.name) ∧
  ∃ z infos tys, m.ty = .struct z infos tys ∧ m.ty.Wf ∧ NamesOk m.ty ∧ NamesApart m.ty ∧ HasTy m.ty m.val ∧
    Addressable m.ty m.val ∧ ∀ f ∈ infos, LeadsTo env d (getPrefix f.name) i

/-- No name below a node is the name of a field. -/
def NotInModel (n : Node) (ty : Ty) : Prop :=
  n.value = [] ∧ ∀ z infos tys, ty = .struct z infos tys →
    (∀ w ∈ n.nodes, findField infos (stripPrefix w.xmlName.loc) = none) ∧
    (∀ a ∈ n.attrs, skipName a.name = false → findField infos (stripPrefix a.name.loc) = none)

/-- A document whose listing can be read: all names can be part of a path, and the prefix of each path leads to the
top-level node it comes from. -/
def DocListable (env : Env) (d : XDoc) : Prop :=
  ∀ (i : Nat) r, d.roots[i]? = some r →
    NodeOk true r.node ∧ ¬ (r.node.fullName env.reg = "rdf:Seq".toList ∨ r.node.fullName env.reg = "rdf:Bag".toList) ∧
    ¬ r.node.fullName env.reg = "rdf:Alt".toList ∧ ':' ∉ r.node.name ∧ LeadsTo env d r.node.name i ∧
    ∀ m, r.model = some m → ModelListable env d i m ∧ NotInModel r.node m.ty

/-- `DocHolds d p s`: the document holds the text `s` at the path `p`, in a model or in a generic node. -/
def DocHolds (d : XDoc) (p : Path) (s : Str) : Prop :=
  ∃ r ∈ d.roots, (∃ m, r.model = some m ∧ s ≠ [] ∧ ModelHolds m.ty m.val p (some (some s))) ∨
    (∃ segs, NRoot r.node.name r.node segs s ∧ p = Path.new r.node.name segs)

/-- All texts of all models can be written. -/
def DocWritable (d : XDoc) : Prop :=
  ∀ r ∈ d.roots, ∀ m, r.model = some m → ∀ p x, ModelHolds m.ty m.val p x → ∃ s, x = some (some s)

theorem pathNs_new {env : Env} {d : XDoc} {pre : Str} (hp : ':' ∉ pre) (l : List Str) :
    d.pathNs env (Path.new pre l) = d.findNsByPrefix env pre := by
  unfold XDoc.pathNs
  rw [Path.new_eq, indexChar_append hp]
  simp

theorem isXmpPath_new (pre : Str) (hp : ':' ∉ pre) (l : List Str) : (Path.new pre l).isXmpPath = true := by
  unfold Path.isXmpPath; rw [Path.new_eq, indexChar_append hp]; rfl

theorem getPath_leads {env : Env} {d : XDoc} {pre : Str} (hp : ':' ∉ pre) {l : List Str} {i : Nat} {r : Root}
    (h : LeadsTo env d pre i) (hr : d.roots[i]? = some r) :
    d.getPath env (Path.new pre l) =
      match r.model with
      | none => XDoc.nodeRes (r.node.getPath (Path.new pre l))
      | some m =>
        match getModelPath m.ty m.val (Path.new pre l) with
        | .ok s => .ok s
        | .err => .err
        | .notFound => XDoc.nodeRes (r.node.getPath (Path.new pre l)) := by
  obtain ⟨ns, h1, h2⟩ := h
  unfold XDoc.getPath
  rw [isXmpPath_new pre hp, pathNs_new hp, h1]
  simp only [Bool.not_true, Bool.false_eq_true, if_false, h2, hr]
  cases r.model <;> rfl

/-- A path whose first segment names no field is not found in a model. -/
theorem getModelPath_notFound {z : Option (List Val → Bool)} {infos : List FieldInfo} {tys : List Ty} {vals : List Val}
    {pre q n suf : Str} {segs : List Str} (hq : ':' ∉ q) (hn : FieldNameOk n) (h1 : '/' ∉ suf) (h2 : ':' ∉ suf)
    (h3 : ∀ s ∈ segs, s ≠ [] ∧ '/' ∉ s) {idx : Int} {lang : Str} (hi : -1 ≤ idx)
    (hparse : ∀ n, FieldName n → parsePathSegment (n ++ suf) = (n, idx, lang))
    (hf : findField infos (stripPrefix n) = none) :
    getModelPath (.struct z infos tys) (.struct vals) (Path.new q ((shownName pre n ++ suf) :: segs)) = .notFound := by
  obtain ⟨q', hq', hpop⟩ := popFront_shown (pre := pre) hq hn h1 h2 h3
  unfold getModelPath
  rw [getModelPathF]
  have hfn : FieldName (stripPrefix n) := ⟨hn.1, stripPrefix_sub hn.2.2.2.1⟩
  simp only [hpop, hparse _ hfn, hf]
  rw [if_neg (by simp [hn.1]), if_neg (by omega)]

/-- A text of a node is no path into the model of this node. -/
theorem node_path_notFound {pre : Str} (hp : ':' ∉ pre) {n : Node} {segs : List Str} {s : Str} (h : NodeOk true n)
    (hr : NRoot pre n segs s) {z : Option (List Val → Bool)} {infos : List FieldInfo} {tys : List Ty} {vals : List Val}
    (hm : NotInModel n (.struct z infos tys)) :
    getModelPath (.struct z infos tys) (.struct vals) (Path.new pre segs) = .notFound := by
  have ha := attrsOk_of h
  obtain ⟨m1, m2⟩ := hm
  obtain ⟨m2, m3⟩ := m2 z infos tys rfl
  unfold NRoot at hr
  generalize hsuf : ([] : Str) = suf at hr
  cases hr with
  | value hx => exact absurd m1 hx
  | @attr _ a ham hs =>
    have := getModelPath_notFound (z := z) (tys := tys) (vals := vals) (pre := pre) (suf := []) (segs := []) hp (ha.1 a ham hs).2 (by simp) (by simp)
      (by simp) (idx := -1) (by decide) plain_suffix (m3 a ham hs)
    rwa [List.append_nil] at this
  | @kid _ w suf segs _ hw hs k1 k2 hb' =>
    cases h with
    | node hn hd _ hk =>
      obtain ⟨r1, r2, r3, idx, lang, r4, r5, -⟩ := nreads_below hb' false (hk w hw)
      exact getModelPath_notFound hp (hn w hw).1.2.2 r2 r1 r3 r5 r4 (m2 w hw)
  | elem h => simp at hsuf
  | lang h => simp at hsuf

/-- C47: every text that a document holds is what `GetPath` gives for its path. -/
theorem doc_held_is_readable {env : Env} {d : XDoc} (hd : DocListable env d) {p : Path} {s : Str} (h : DocHolds d p s) :
    d.getPath env p = .ok s := by
  obtain ⟨r, hr, h⟩ := h
  obtain ⟨i, hi⟩ := List.getElem?_of_mem hr
  obtain ⟨n1, n2, n3, n4, n5, n6⟩ := hd i r hi
  rcases h with ⟨m, hm, hne, hh⟩ | ⟨segs, hh, rfl⟩
  · obtain ⟨-, z, infos, tys, m1, m2, m3, m4, m5, m6, m7⟩ := (n6 m hm).1
    rw [m1] at hh m2 m3 m4 m5 m6
    have hread := held_is_readable m2 m3 m4 m6 m5 hh
    obtain ⟨z', infos', tys', vals, f, t, fv, suf, segs, e1, e2, -, hf, -, rfl⟩ := hh
    cases e1
    obtain ⟨j, hj, -⟩ := hf
    rw [getPath_leads (colon_getPrefix _) (m7 f (List.mem_of_getElem? hj)) hi, hm]
    simp only [m1, hread]
  · rw [getPath_leads n4 n5 hi]
    have hread := node_held_is_readable n4 n1 hh
    cases hm : r.model with
    | none => simp only [hread, XDoc.nodeRes]
    | some m =>
      obtain ⟨⟨-, z, infos, tys, m1, m2, m3, m4, m5, m6, m7⟩, hnot⟩ := n6 m hm
      rw [m1] at hnot m5
      cases hval : m.val with
      | struct vals =>
        have := node_path_notFound n4 n1 hh (vals := vals) hnot
        simp only [m1, hval, this, hread, XDoc.nodeRes]
      | _ => rw [hval] at m5; simp [HasTy] at m5

/-- The listing before the doubles are removed. -/
theorem listRoots_sound {env : Env} {sort : PathValueList → PathValueList} (hsort : ∀ l, (sort l).Perm l) {d : XDoc}
    (hd : DocListable env d) (rs : List Root) (hrs : ∀ r ∈ rs, r ∈ d.roots) {l : PathValueList}
    (h : XDoc.listRoots env sort rs = .ok l) : ∀ e ∈ l, ∃ p s, e = { path := p, value := s } ∧ DocHolds d p s := by
  induction rs generalizing l with
  | nil => rw [XDoc.listRoots] at h; cases h; simp
  | cons r rs ih =>
    obtain ⟨i, hi⟩ := List.getElem?_of_mem (hrs r List.mem_cons_self)
    obtain ⟨n1, n2, n3, n4, n5, n6⟩ := hd i r hi
    rw [XDoc.listRoots] at h
    split at h
    · rename_i l1 hl1
      split at h
      · rename_i l2 hl2
        cases h
        intro e he
        rcases List.mem_append.1 he with he | he
        · rcases List.mem_append.1 he with he | he
          · cases hm : r.model with
            | none => rw [Root.listModel, hm] at hl1; cases hl1; simp at he
            | some m =>
              rw [Root.listModel, hm] at hl1
              simp only at hl1
              obtain ⟨⟨⟨ns, nss, hns, hc⟩, z, infos, tys, m1, m2, m3, m4, m5, m6, m7⟩, -⟩ := n6 m hm
              unfold listModelPaths at hl1
              rw [hns] at hl1
              simp only at hl1
              cases hlp : listPaths sort m.ty m.val (Path.new ns.name []) with
              | none => rw [hlp] at hl1; cases hl1
              | some l' =>
                rw [hlp] at hl1
                cases hl1
                rw [m1] at hlp m2 m3 m5
                obtain ⟨hfull, q1, q2⟩ := listed_is_held hsort hc m2 m3 m5 hlp e he
                refine ⟨e.path, e.value, hfull, r, hrs r List.mem_cons_self, Or.inl ⟨m, hm, q1, ?_⟩⟩
                rw [m1]; exact q2
          · obtain ⟨segs, s, h1, rfl⟩ := (lists_root hsort n1 n2 n3 n4 e).1 he
            exact ⟨_, _, rfl, r, hrs r List.mem_cons_self, Or.inr ⟨segs, h1, rfl⟩⟩
        · exact ih (fun r hr => hrs r (List.mem_cons_of_mem _ hr)) hl2 e he
      · rename_i hne
        exact absurd h (hne l)
    · rename_i hne
      exact absurd h (hne l)

theorem listRoots_complete {env : Env} {sort : PathValueList → PathValueList} (hsort : ∀ l, (sort l).Perm l) {d : XDoc}
    (hd : DocListable env d) (hw : DocWritable d) (rs : List Root) (hrs : ∀ r ∈ rs, r ∈ d.roots) :
    ∃ l, XDoc.listRoots env sort rs = .ok l ∧ ∀ p s, DocHolds { d with roots := rs } p s → { path := p, value := s } ∈ l := by
  induction rs with
  | nil => exact ⟨[], rfl, by rintro p s ⟨r, hr, -⟩; simp at hr⟩
  | cons r rs ih =>
    obtain ⟨i, hi⟩ := List.getElem?_of_mem (hrs r List.mem_cons_self)
    obtain ⟨n1, n2, n3, n4, n5, n6⟩ := hd i r hi
    obtain ⟨l2, hl2, h2⟩ := ih (fun r hr => hrs r (List.mem_cons_of_mem _ hr))
    have hmod : ∃ l1, r.listModel sort = Res.ok l1 ∧
        ∀ m, r.model = some m → ∀ p s, s ≠ [] → ModelHolds m.ty m.val p (some (some s)) → { path := p, value := s } ∈ l1 := by
      unfold Root.listModel
      cases hm : r.model with
      | none => exact ⟨[], rfl, by simp⟩
      | some m =>
        obtain ⟨⟨⟨ns, nss, hns, hc⟩, z, infos, tys, m1, m2, m3, m4, m5, m6, m7⟩, -⟩ := n6 m hm
        have hw' := hw r (hrs r List.mem_cons_self) m hm
        rw [m1] at m2 m3 m5 hw'
        obtain ⟨l1, h1, h1'⟩ := held_is_listed hsort hc m2 m3 m5 hw'
        refine ⟨l1, ?_, ?_⟩
        · simp only [listModelPaths, hns, m1, h1, Res.ofOption]
        · intro m' hm'
          cases hm'
          rw [m1]; exact h1'
    obtain ⟨l1, hl1, h1⟩ := hmod
    refine ⟨l1 ++ r.node.listPaths env.reg sort (Path.new r.node.name []) ++ l2, ?_, ?_⟩
    · rw [XDoc.listRoots, hl1]
      simp only [hl2]
    · rintro p s ⟨r', hr', h⟩
      rcases List.mem_cons.1 hr' with rfl | hr'
      · rcases h with ⟨m, hm, hne, hh⟩ | ⟨segs, hh, rfl⟩
        · exact List.mem_append_left _ (List.mem_append_left _ (h1 m hm p s hne hh))
        · refine List.mem_append_left _ (List.mem_append_right _ ?_)
          exact (lists_root hsort n1 n2 n3 n4 _).2 ⟨segs, s, hh, rfl⟩
      · exact List.mem_append_right _ (h2 p s ⟨r', hr', h⟩)

theorem unique_sublist (l : PathValueList) : List.Sublist (PathValueList.unique l) l := by
  have key : ∀ (l : PathValueList) last, List.Sublist (PathValueList.uniqueFrom last l) l := by
    intro l
    induction l with
    | nil => intro last; exact List.Sublist.refl _
    | cons v vs ih =>
      intro last
      rw [PathValueList.uniqueFrom]
      split
      · exact (ih _).cons_cons _
      · exact (ih _).cons _
  exact key l []

/-- C47: every entry of the listing of a document is a text of the document, and `GetPath` gives it back.  Missing for
the full claim: documents outside `DocListable`, for which the claim is false (Props/ListCases.lean). -/
theorem doc_listed_is_readable_partial {env : Env} {sort : PathValueList → PathValueList} (hsort : ∀ l, (sort l).Perm l) {d : XDoc}
    (hd : DocListable env d) {l : PathValueList} (h : d.listPaths env sort = .ok l) :
    ∀ e ∈ l, DocHolds d e.path e.value ∧ d.getPath env e.path = .ok e.value := by
  unfold XDoc.listPaths at h
  cases hr : XDoc.listRoots env sort d.roots with
  | ok raw =>
    rw [hr] at h
    cases h
    intro e he
    have hmem : e ∈ raw := (hsort raw).mem_iff.1 ((unique_sublist _).subset he)
    obtain ⟨p, s, rfl, hh⟩ := listRoots_sound hsort hd d.roots (fun r hr => hr) hr e hmem
    exact ⟨hh, doc_held_is_readable hd hh⟩
  | err => rw [hr] at h; cases h
  | panic => rw [hr] at h; cases h

/-- C47: the listing of a document whose texts can all be written succeeds and is exact: it names each text once, with
its path, in the order of the paths, and nothing else.  Missing for the full claim: as above. -/
theorem doc_listing_exact_partial {env : Env} {sort : PathValueList → PathValueList} (hsort : ∀ l, (sort l).Perm l)
    (hsorted : ∀ l, Sorted (sort l)) {d : XDoc} (hd : DocListable env d) (hw : DocWritable d) :
    ∃ l, d.listPaths env sort = .ok l ∧ l.Pairwise (fun a b => a.path < b.path) ∧
      ∀ e, e ∈ l ↔ ∃ p s, e = { path := p, value := s } ∧ DocHolds d p s := by
  obtain ⟨raw, hraw, hall⟩ := listRoots_complete hsort hd hw d.roots (fun r hr => hr)
  have hsound := listRoots_sound hsort hd d.roots (fun r hr => hr) hraw
  obtain ⟨u1, u2, u3⟩ := listing_unique raw (sort raw) (hsort raw) (hsorted raw)
  refine ⟨PathValueList.unique (sort raw), ?_, u1, ?_⟩
  · unfold XDoc.listPaths; rw [hraw]
  · intro e
    constructor
    · intro he
      exact hsound e (u3 e he).1
    · rintro ⟨p, s, rfl, hh⟩
      have hp : p ≠ [] := by
        obtain ⟨r, -, ⟨m, -, -, _, _, _, _, f, _, _, _, _, _, _, _, _, _, rfl⟩ | ⟨segs, -, rfl⟩⟩ := hh <;>
          simp [Path.new]
      obtain ⟨w, hw1, hw2⟩ := (u2 p).2 ⟨hp, _, hall p s hh, rfl⟩
      obtain ⟨p', s', rfl, hh'⟩ := hsound w (u3 w hw1).1
      simp only at hw2
      subst hw2
      have e1 := doc_held_is_readable hd hh
      have e2 := doc_held_is_readable hd hh'
      rw [e1] at e2
      cases e2
      exact hw1

end Xmp.Props
