import Verif.Props.Saved
import Verif.Props.SetClean
import Verif.Props.DocPath
import Verif.Props.JsonDoc

/-! C78: values set by path in the models of the library are in the saved document. -/

namespace Xmp.Props

open GoStr SyncFlags Utf8 XmlBytes Shipped

/-! ### Specification -/

/-- A document of models of the library that can be saved: without the hidden elements of backing arrays it can be written and
read back (C72), and its values have their types. -/
structure Savable (P : List Str) (K : Str → Codec) (Z : Str → List Val → Bool) (d : XDoc) : Prop where
  shipped : ShippedDoc P K Z (visibleDoc d)
  typed : ∀ r ∈ d.roots, ∀ m, r.model = some m → HasTy m.ty m.val

/-- The methods `IsZero` in models of the packages `P` hold only of structs all of whose fields count as empty (C65 shows
which do not), and look at the elements of slices only. -/
structure ZeroMethods (P : List Str) (K : Str → Codec) (Z : Str → List Val → Bool) : Prop where
  law : ∀ pk ∈ packages, pk.name ∈ P → ∀ dc ∈ pk.models, ∀ s, (dc.typ, s) ∈ modelTypes → ZeroLaw (s.modelTy K Z)
  sees : ∀ pk ∈ packages, pk.name ∈ P → ∀ dc ∈ pk.models, ∀ s, (dc.typ, s) ∈ modelTypes → SeesVisible (s.modelTy K Z)

/-- The top-level node of a new model. -/
def freshRoot (K : Str → Codec) (Z : Str → List Val → Bool) (dc : Decl) (s : Sk) : Root :=
  ⟨Node.new ⟨[], dc.ns.name⟩, some (shippedMdl K Z dc s (s.modelTy K Z).zero)⟩

/-- A call of `SetPath` that sets a value of a model of the library: the path starts with the prefix of the model and leads, in
the model of the document or, if there is none, in a new model (which can be saved), to a value that exists or is next to be
appended; the field of the model belongs to the namespace; the text is not empty, without surrounding blanks and the text of the
value that is read from it; the flags allow to create and to replace, as the default flags do. -/
structure Edit (P : List Str) (K : Str → Codec) (Z : Str → List Val → Bool) (d : XDoc) (desc : PathValue) : Prop where
  flagsR : (eff desc.flags).has REPLACE = true
  flagsC : (eff desc.flags).has CREATE = true
  value : desc.value ≠ []
  target : ∃ pk ∈ packages, pk.name ∈ P ∧ ∃ dc ∈ pk.models, ∃ s, (dc.typ, s) ∈ modelTypes ∧
    desc.path.namespacePrefix = dc.ns.name ∧
    ∃ v, ((∃ r ∈ d.roots, r.node.xmlName.loc = dc.ns.name ∧ r.model = some (shippedMdl K Z dc s v)) ∨
        ((∀ r ∈ d.roots, r.node.xmlName.loc ≠ dc.ns.name) ∧ v = (s.modelTy K Z).zero ∧ ShippedRoot P K Z (freshRoot K Z dc s))) ∧
      (∃ cur, getModelPath (s.modelTy K Z) v desc.path = .ok cur) ∧
      (∀ infos tys z, s.modelTy K Z = .struct z infos tys → ∀ i fi fty idx lang, Names infos tys desc.path i fi fty idx lang →
        (dc.typ, fi.name) ∉ foreignFields) ∧
      ∃ t k w, Sets (s.modelTy K Z) v desc.path t k ∧ (∀ u, HasTy t u → parseLeaf t u desc.value = some w) ∧
        leafText t w = some (some desc.value) ∧ Clean t w ∧ LeafFaithful t w ∧ (k = false → isEmptyValue t w = false)

/-- The documents that a list of calls of `SetPath` makes, one after the other, all of them edits as above. -/
inductive Edits (P : List Str) (K : Str → Codec) (Z : Str → List Val → Bool) (env : Env) : XDoc → List PathValue → XDoc → Prop
  | nil {d} : Edits P K Z env d [] d
  | cons {d desc l d'} (h : Edit P K Z d desc) (hr : Edits P K Z env (d.setPath env desc).1 l d') : Edits P K Z env d (desc :: l) d'

/-! ### Types -/

theorem textTy_wf (K : Str → Codec) : ∀ s : Sk, s.soundAttr = true → (s.textTy K).Wf
  | .leaf n h k, _ => by
    unfold Sk.textTy
    split
    · cases k <;> simp [Ty.Wf]
    · simp [Ty.Wf]
  | .list _ _ _, _ => by simp [Sk.textTy, Ty.Wf]
  | .struct _ _ _ _, _ => by simp [Sk.textTy, Ty.Wf]
  | .ptr s, h => by
    rw [Sk.soundAttr, Bool.and_eq_true] at h
    rw [Sk.textTy, Ty.Wf]
    cases s with
    | struct n h fs ts => simp [Sk.textTy, Ty.Wf, Ty.deref]
    | _ => simp [Sk.isStruct] at h

theorem tys_length (K : Str → Codec) (Z : Str → List Val → Bool) : ∀ (fs : List FieldInfo) (ts : List Sk), fs.length = ts.length →
    fs.length = (Sk.tys K Z fs ts).length
  | [], _, _ => by simp [Sk.tys]
  | _ :: _, [], h => by simp at h
  | f :: fs, t :: ts, h => by
    simp only [List.length_cons, Nat.add_right_cancel_iff] at h
    rw [Sk.tys, List.length_cons, List.length_cons, ← tys_length K Z fs ts h]

mutual
theorem ty_wf (K : Str → Codec) (Z : Str → List Val → Bool) : ∀ s : Sk, s.distinct = true → (s.ty K Z).Wf
  | .leaf n h k, _ => by
    rw [Sk.ty]
    split
    · exact textTy_wf K _ (by simp [Sk.soundAttr, Sk.writesAttr, Sk.readsAttr])
    · simp [lost, Ty.Wf]
  | .list n h e, hd => by
    rw [Sk.distinct] at hd
    rw [Sk.ty]
    split
    · split
      · simp [Ty.Wf]
      · simp [Ty.Wf]
      · rw [Ty.Wf]; exact ty_wf K Z e hd
    · simp [lost, Ty.Wf]
  | .ptr s, hd => by
    rw [Sk.distinct] at hd
    rw [Sk.ty]
    split
    · rename_i hs
      rw [Sk.sound, Bool.and_eq_true] at hs
      rw [Ty.Wf]
      exact ⟨ty_wf K Z s hd, ty_struct_deref K Z s hs.1⟩
    · simp [lost, Ty.Wf]
  | .struct n h fs ts, hd => by
    rw [Sk.distinct, Bool.and_eq_true, Bool.and_eq_true, decide_eq_true_eq] at hd
    rw [Sk.ty]
    split
    · split
      · simp [Ty.Wf]
      · rw [Ty.Wf]; exact ⟨tys_length K Z fs ts hd.1.1, tys_wf K Z fs ts hd.2⟩
    · simp [lost, Ty.Wf]
theorem tys_wf (K : Str → Codec) (Z : Str → List Val → Bool) : ∀ (fs : List FieldInfo) (ts : List Sk), Sk.distincts ts = true →
    Ty.WfAll (Sk.tys K Z fs ts)
  | [], _, _ => by simp [Sk.tys, Ty.WfAll]
  | _ :: _, [], _ => by simp [Sk.tys, Ty.WfAll]
  | f :: fs, t :: ts, hd => by
    rw [Sk.distincts, Bool.and_eq_true] at hd
    rw [Sk.tys, Ty.WfAll]
    refine ⟨?_, tys_wf K Z fs ts hd.2⟩
    split
    · split
      · rename_i h; exact textTy_wf K t h
      · simp [lost, Ty.Wf]
    · exact ty_wf K Z t hd.1
end

/-- The types of the models are well formed. -/
theorem modelTy_wf (K : Str → Codec) (Z : Str → List Val → Bool) {pk : Pkg} (hp : pk ∈ packages) {dc : Decl} (hd : dc ∈ pk.models) {s : Sk}
    (hs : (dc.typ, s) ∈ modelTypes) : (s.modelTy K Z).Wf ∧ ∃ z infos tys, s.modelTy K Z = .struct z infos tys := by
  obtain ⟨n, hk, fs, ts, rfl, h1, h2, h3, -⟩ := model_checked hp hd hs
  rw [Sk.distinct, Bool.and_eq_true, Bool.and_eq_true, decide_eq_true_eq] at h1
  rw [Sk.modelTy, if_pos h2]
  refine ⟨?_, _, _, _, rfl⟩
  rw [Ty.Wf]
  exact ⟨tys_length K Z fs ts h3, tys_wf K Z fs ts h1.2⟩

/-! ### Nodes of shipped documents -/

section

variable {P : List Str} {h : RegHistory} {K : Str → Codec} {Z : Str → List Val → Bool} {env : Env}

theorem savable_root {d : XDoc} (hd : Savable P K Z d) {r : Root} (hr : r ∈ d.roots) : ShippedRoot P K Z (Root.visible r) :=
  hd.shipped.roots _ (List.mem_map.2 ⟨r, hr, rfl⟩)

/-- A top-level node matches exactly its own prefix, and so does its model. -/
theorem savable_matches {d : XDoc} (hd : Savable P K Z d) {r : Root} (hr : r ∈ d.roots) (pfx : Str) :
    (XDoc.rootMatches pfx r = true ↔ r.node.xmlName.loc = pfx) ∧ XDoc.modelMatches pfx r = XDoc.rootMatches pfx r ∧ r.node.xmlName.space = [] := by
  obtain ⟨pk, hpk, hpP, dc, hdc, s, hs, hnode, v, hmod, -⟩ := (savable_root hd hr).exact
  have hreg := models_registered pk hpk dc hdc
  have hn : r.node = Node.new ⟨[], dc.ns.name⟩ := hnode
  have hplain : ':' ∉ dc.ns.name := by
    obtain ⟨e, he, h1⟩ := List.mem_map.1 hreg.1
    rw [← h1]
    have : e ∈ shippedRegs := regsOf_sub P e (pkg_regs_in hpk hpP he)
    exact (regs_plain.1 e this).2.1
  have hname : r.node.name = dc.ns.name := by rw [hn]; exact stripPrefix_none hplain
  have hloc : r.node.xmlName = ⟨[], dc.ns.name⟩ := by rw [hn]; rfl
  cases hm : r.model with
  | none => simp [Root.visible, hm] at hmod
  | some m =>
    have hcan : m.canNames = [dc.ns.name] := by
      simp only [Root.visible, hm, Option.map_some, Option.some.injEq] at hmod
      have := congrArg Mdl.canNames hmod
      simp only [shippedMdl] at this
      rw [this, hreg.2.2]
    unfold XDoc.rootMatches XDoc.modelMatches
    rw [hm, hname, hloc]
    simp only [Mdl.can, hcan, List.mem_singleton]
    refine ⟨?_, ?_, trivial⟩
    · simp [@eq_comm Str pfx]
    · by_cases e : dc.ns.name = pfx
      · simp [e]
      · simp [e, Ne.symm e]

theorem findIdx_congr {α : Type} {p q : α → Bool} : ∀ {l : List α}, (∀ x ∈ l, p x = q x) → l.findIdx? p = l.findIdx? q
  | [], _ => rfl
  | x :: xs, h => by
    rw [List.findIdx?_cons, List.findIdx?_cons, h x (List.mem_cons_self ..), findIdx_congr (fun y hy => h y (List.mem_cons_of_mem _ hy))]

theorem savable_find {d : XDoc} (hd : Savable P K Z d) (ns : Namespace) : d.findModel ns = d.findNode ns :=
  findIdx_congr (fun _ hr => (savable_matches hd hr ns.name).2.1)

theorem savable_empty : Savable P K Z {} := by
  refine ⟨⟨?_, List.Pairwise.nil, ?_, ?_⟩, ?_⟩
  · intro r hr; simp [visibleDoc] at hr
  · intro e he; simp [visibleDoc] at he
  · intro e he; simp [visibleDoc] at he
  · intro r hr; simp at hr

theorem mem_goset {V : Type} {m : GoMap V} {k : Str} {v : V} {e : Str × V} (he : e ∈ m.set k v) : e ∈ m ∨ e.2 = v := by
  unfold GoMap.set GoMap.del at he
  rcases List.mem_cons.1 he with rfl | he
  · exact Or.inr rfl
  · exact Or.inl (List.mem_filter.1 he).1

/-- Before the value is written the document has the model: it is there, or it is created. -/
theorem edit_prepared (he : ShippedEnv P h K Z env) {d : XDoc} (hd : Savable P K Z d) {pk : Pkg} (hpk : pk ∈ packages)
    (hpP : pk.name ∈ P) {dc : Decl} (hdc : dc ∈ pk.models) {s : Sk} (hs : (dc.typ, s) ∈ modelTypes) {v : Val}
    (hv : (∃ r ∈ d.roots, r.node.xmlName.loc = dc.ns.name ∧ r.model = some (shippedMdl K Z dc s v)) ∨
        ((∀ r ∈ d.roots, r.node.xmlName.loc ≠ dc.ns.name) ∧ v = (s.modelTy K Z).zero ∧ ShippedRoot P K Z (freshRoot K Z dc s))) :
    ∃ d1 j r, d.prepare env dc.ns = (some j, some j, d1) ∧ Savable P K Z d1 ∧ d1.findNode dc.ns = some j ∧ d1.roots[j]? = some r ∧
      r.node.xmlName.loc = dc.ns.name ∧ r.model = some (shippedMdl K Z dc s v) ∧ ∃ l, d1.roots = d.roots ++ l := by
  have hreg := models_registered pk hpk dc hdc
  rcases hv with ⟨r, hr, hloc, hm⟩ | ⟨hno, rfl, hfr⟩
  · have hsome : ∃ j, d.findNode dc.ns = some j := by
      cases e : d.findNode dc.ns with
      | some j => exact ⟨j, rfl⟩
      | none =>
        unfold XDoc.findNode at e
        rw [List.findIdx?_eq_none_iff] at e
        have := e r hr
        rw [((savable_matches hd hr dc.ns.name).1).2 hloc] at this
        cases this
    obtain ⟨j, hj⟩ := hsome
    have hmod : d.findModel dc.ns = some j := by rw [savable_find hd, hj]
    have hj' := hj
    unfold XDoc.findNode at hj'
    rw [List.findIdx?_eq_some_iff_getElem] at hj'
    obtain ⟨hlt, hmj, -⟩ := hj'
    have hlj := ((savable_matches hd (List.getElem_mem hlt) dc.ns.name).1).1 hmj
    have hsame : d.roots[j] = r := by
      obtain ⟨b, hb, eb⟩ := List.getElem_of_mem hr
      have hpw := List.pairwise_iff_getElem.1 hd.shipped.distinct
      have hsp := (savable_matches hd (List.getElem_mem hlt) dc.ns.name).2.2
      have hsp' := (savable_matches hd hr dc.ns.name).2.2
      have heq : (d.roots[j]).node.xmlName = (d.roots[b]).node.xmlName := by
        rw [eb]
        generalize (d.roots[j]).node.xmlName = x at *
        generalize r.node.xmlName = y at *
        cases x; cases y
        simp only at hlj hloc hsp hsp'
        subst hlj hsp hsp'
        rw [hloc]
      have get : ∀ (a : Nat) (ha : a < d.roots.length), ((visibleDoc d).roots[a]'(by simpa [visibleDoc] using ha)).node = (d.roots[a]).node := by
        intro a ha
        simp [visibleDoc, Root.visible]
      rcases Nat.lt_trichotomy j b with hab | hab | hab
      · exact absurd (by rw [get j hlt, get b hb]; exact heq) (hpw j b (by simpa [visibleDoc] using hlt) (by simpa [visibleDoc] using hb) hab)
      · subst hab; exact eb
      · exact absurd (by rw [get j hlt, get b hb]; exact heq.symm) (hpw b j (by simpa [visibleDoc] using hb) (by simpa [visibleDoc] using hlt) hab)
    refine ⟨d, j, r, ?_, hd, hj, ?_, hloc, hm, [], by simp⟩
    · unfold XDoc.prepare
      rw [hmod, hj]
    · rw [List.getElem?_eq_getElem hlt, hsame]
  · have hnone : d.findNode dc.ns = none := by
      unfold XDoc.findNode
      rw [List.findIdx?_eq_none_iff]
      intro r hr
      cases e : XDoc.rootMatches dc.ns.name r with
      | false => rfl
      | true => exact absurd (((savable_matches hd hr dc.ns.name).1).1 e) (hno r hr)
    have hmod : d.findModel dc.ns = none := by rw [savable_find hd, hnone]
    obtain ⟨e, hem, hen⟩ := List.mem_map.1 hreg.1
    have hreg2 := pkg_regs_in hpk hpP hem
    have hnew : env.newModel dc.ns = some (shippedMdl K Z dc s (s.modelTy K Z).zero) := by
      rw [← hen]
      exact he.make e hreg2 dc (by rw [hen]; exact hreg.2.1) s hs
    have hnode : (⟨Node.new ⟨[], expandName dc.ns.name []⟩, some (shippedMdl K Z dc s (s.modelTy K Z).zero)⟩ : Root) = freshRoot K Z dc s := by
      unfold freshRoot expandName
      rw [if_pos rfl]
    have hprep : d.prepare env dc.ns = (some d.roots.length, some d.roots.length,
        { d with roots := d.roots ++ [freshRoot K Z dc s], intNs := d.intNs.set dc.ns.uri dc.ns, dirty := true }) := by
      unfold XDoc.prepare
      rw [hmod, hnone, hnew]
      simp only [XDoc.addModel, shippedMdl, hnone, Doc.trackNs, List.foldl_cons, List.foldl_nil]
      rw [show (⟨Node.new ⟨[], expandName dc.ns.name []⟩, some ⟨[dc.ns], [dc.can], s.modelTy K Z, (s.modelTy K Z).zero⟩⟩ : Root) = freshRoot K Z dc s from hnode]
    have hvis : Root.visible (freshRoot K Z dc s) = freshRoot K Z dc s := by
      simp [Root.visible, freshRoot, shippedMdl, visible_zero]
    have hdm : dc.ns ∈ (regsOf P).map (·.1) := List.mem_map.2 ⟨e, hreg2, hen⟩
    refine ⟨_, _, freshRoot K Z dc s, hprep, ⟨⟨?_, ?_, ?_, ?_⟩, ?_⟩, ?_, ?_, rfl, rfl, [freshRoot K Z dc s], rfl⟩
    · intro r hr
      simp only [visibleDoc, List.map_append, List.mem_append] at hr
      rcases hr with hr | hr
      · exact hd.shipped.roots r hr
      · rw [List.map_singleton, List.mem_singleton, hvis] at hr
        rw [hr]; exact hfr
    · simp only [visibleDoc, List.map_append, List.pairwise_append]
      refine ⟨hd.shipped.distinct, by simp, ?_⟩
      intro a ha b hb
      rw [List.map_singleton, List.mem_singleton, hvis] at hb
      obtain ⟨r, hr, rfl⟩ := List.mem_map.1 ha
      intro e
      apply hno r hr
      rw [hb] at e
      exact congrArg QName.loc e
    · intro x hx
      rcases mem_goset hx with hx | hx
      · exact hd.shipped.int x hx
      · rw [hx]; exact hdm
    · exact hd.shipped.ext
    · intro r hr m hm
      rcases List.mem_append.1 hr with hr | hr
      · exact hd.typed r hr m hm
      · rw [List.mem_singleton] at hr
        rw [hr] at hm
        cases hm
        exact hasTy_zero _
    · unfold XDoc.findNode at hnone ⊢
      simp only
      rw [List.findIdx?_append, hnone]
      have hplain : ':' ∉ dc.ns.name := by
        rw [← hen]
        exact (regs_plain.1 e (regsOf_sub P e hreg2)).2.1
      have : XDoc.rootMatches dc.ns.name (freshRoot K Z dc s) = true := by
        unfold XDoc.rootMatches
        have : (freshRoot K Z dc s).node.name = dc.ns.name := stripPrefix_none hplain
        rw [this]
        simp
      simp [List.findIdx?_cons, this]
    · simp

/-- Changing one field of a model by a value that can be read back. -/
theorem savable_setVal {d : XDoc} (hd : Savable P K Z d) {j : Nat} {r : Root} (hr : d.roots[j]? = some r) {pk : Pkg} (hpk : pk ∈ packages)
    (hpP : pk.name ∈ P) {dc : Decl} (hdc : dc ∈ pk.models) {s : Sk} (hs : (dc.typ, s) ∈ modelTypes) {vals : List Val}
    (hloc : r.node.xmlName.loc = dc.ns.name) (hm : r.model = some (shippedMdl K Z dc s (.struct vals))) {z : Option (List Val → Bool)}
    {infos : List FieldInfo} {tys : List Ty} (hty : s.modelTy K Z = .struct z infos tys) {i : Nat} {fi : FieldInfo} {x : Val} (hfi : infos[i]? = some fi)
    (hff : (dc.typ, fi.name) ∉ foreignFields) (hc : Clean (s.modelTy K Z) (visible (.struct (vals.set i x))))
    (ht : HasTy (s.modelTy K Z) (.struct (vals.set i x))) (b : Bool) : Savable P K Z { d.setVal j (.struct (vals.set i x)) with dirty := b } := by
  have hlt : j < d.roots.length := (List.getElem?_eq_some_iff.mp hr).1
  have hmem : r ∈ d.roots := List.mem_of_getElem? hr
  have hroots : ∀ r' ∈ (d.setVal j (.struct (vals.set i x))).roots, r' ∈ d.roots ∨ r' = ⟨r.node, some (shippedMdl K Z dc s (.struct (vals.set i x)))⟩ := by
    intro r' hr'
    obtain ⟨a, ha, e⟩ := List.getElem_of_mem hr'
    have e2 : (d.roots.modify j (fun r => { r with model := r.model.map (fun m => { m with val := .struct (vals.set i x) }) }))[a]? = some r' := by
      rw [← e]; exact List.getElem?_eq_getElem ha
    rw [List.getElem?_modify] at e2
    by_cases hja : j = a
    · subst hja
      rw [hr] at e2
      simp only [if_true, Option.map_eq_map, Option.map_some, hm, Option.some.injEq] at e2
      exact Or.inr e2.symm
    · simp only [if_neg hja] at e2
      refine Or.inl ?_
      cases hx : d.roots[a]? with
      | none => rw [hx] at e2; cases e2
      | some y => rw [hx] at e2; cases e2; exact List.mem_of_getElem? hx
  obtain ⟨pk', hpk', hpP', dc', hdc', s', hs', hnode, v0, hmod, hclean0, hforeign⟩ := (savable_root hd hmem).exact
  have hdceq : dc' = dc := by
    have h1 := (models_registered pk hpk dc hdc).2.1
    have h2 := (models_registered pk' hpk' dc' hdc').2.1
    have h3 : dc'.ns = dc.ns := by
      simp only [Root.visible, hm, Option.map_some, Option.some.injEq] at hmod
      have := congrArg Mdl.nss hmod
      simpa [shippedMdl] using this.symm
    rw [h3, h1] at h2
    exact (Option.some.inj h2).symm
  subst hdceq
  refine ⟨⟨?_, ?_, hd.shipped.int, hd.shipped.ext⟩, ?_⟩
  · intro r' hr'
    obtain ⟨r'', hr'', rfl⟩ := List.mem_map.1 hr'
    rcases hroots r'' hr'' with h | h
    · exact savable_root hd h
    · subst h
      refine ⟨pk, hpk, hpP, dc', hdc, s, hs, hnode, visible (.struct (vals.set i x)), rfl, hc, ?_⟩
      intro a f t w h1 h2 h3 hwr
      have hi' : (rootInfos ⟨r.node, some (shippedMdl K Z dc' s (visible (.struct (vals.set i x))))⟩) = infos := by simp [rootInfos, shippedMdl, hty]
      have hi0 : rootInfos (Root.visible r) = infos := by simp [rootInfos, Root.visible, hm, shippedMdl, hty]
      have ht' : (rootTys ⟨r.node, some (shippedMdl K Z dc' s (visible (.struct (vals.set i x))))⟩) = tys := by simp [rootTys, shippedMdl, hty]
      have ht0 : rootTys (Root.visible r) = tys := by simp [rootTys, Root.visible, hm, shippedMdl, hty]
      have hv0 : rootVals (Root.visible r) = visibles vals := by simp [rootVals, Root.visible, hm, shippedMdl, visible]
      have hv' : (rootVals ⟨r.node, some (shippedMdl K Z dc' s (visible (.struct (vals.set i x))))⟩) = visibles (vals.set i x) := by
        simp [rootVals, shippedMdl, visible]
      have e1 : infos[a]? = some f := by rw [← hi']; exact h1
      have e2 : tys[a]? = some t := by rw [← ht']; exact h2
      have e3 : (visibles (vals.set i x))[a]? = some w := by rw [← hv']; exact h3
      by_cases hia : i = a
      · subst hia
        rw [hfi] at e1
        cases e1
        exact hff
      · refine hforeign a f t w (by rw [hi0]; exact e1) (by rw [ht0]; exact e2) ?_ hwr
        rw [hv0]
        rw [visibles_get, List.getElem?_set_ne hia] at e3
        rw [visibles_get]; exact e3
  · have hnames : (visibleDoc { d.setVal j (.struct (vals.set i x)) with dirty := b }).roots.map (fun r => r.node.xmlName) =
        (visibleDoc d).roots.map (fun r => r.node.xmlName) := by
      apply List.ext_getElem?
      intro a
      simp only [visibleDoc, XDoc.setVal, List.getElem?_map, List.getElem?_modify]
      by_cases hja : j = a
      · subst hja; rw [hr]; simp [Root.visible]
      · simp only [if_neg hja]; cases d.roots[a]? <;> rfl
    have hpw : ∀ l : List Root, l.Pairwise (fun r r' => r.node.xmlName ≠ r'.node.xmlName) ↔ (l.map (fun r => r.node.xmlName)).Pairwise (· ≠ ·) := by
      intro l; rw [List.pairwise_map]
    rw [hpw, hnames, ← hpw]
    exact hd.shipped.distinct
  · intro r' hr' m hm'
    rcases hroots r' hr' with h | h
    · exact hd.typed r' h m hm'
    · subst h
      cases hm'
      exact ht

theorem addr_popFront {ty t : Ty} {p : Path} {k : Bool} (ha : Addr ty p t k) : p.popFront.1 ≠ [] := by
  cases ha with
  | leaf hn _ _ => exact hn.1
  | elem hn _ _ _ _ _ => exact hn.1
  | field hn _ _ _ _ => exact hn.1
  | item hn _ _ _ _ _ => exact hn.1

/-- The document in which the value is written: the model is there, and the same is written as if it had always been. -/
theorem edit_via (hp : Program P h) (he : ShippedEnv P h K Z env) {d : XDoc} (hd : Savable P K Z d) {desc : PathValue}
    (hvalue : desc.value ≠ []) (hcreate : (eff desc.flags).has CREATE = true) {pk : Pkg} (hpk : pk ∈ packages)
    (hpP : pk.name ∈ P) {dc : Decl} (hdc : dc ∈ pk.models) {s : Sk} (hs : (dc.typ, s) ∈ modelTypes)
    (hpre : desc.path.namespacePrefix = dc.ns.name) {v : Val}
    (hv : (∃ r ∈ d.roots, r.node.xmlName.loc = dc.ns.name ∧ r.model = some (shippedMdl K Z dc s v)) ∨
        ((∀ r ∈ d.roots, r.node.xmlName.loc ≠ dc.ns.name) ∧ v = (s.modelTy K Z).zero ∧ ShippedRoot P K Z (freshRoot K Z dc s)))
    {t : Ty} {k : Bool} (hsets : Sets (s.modelTy K Z) v desc.path t k) :
    ∃ d1 j r, Savable P K Z d1 ∧ d1.findNode dc.ns = some j ∧ d1.roots[j]? = some r ∧ r.node.xmlName.loc = dc.ns.name ∧
      r.model = some (shippedMdl K Z dc s v) ∧ (∃ l, d1.roots = d.roots ++ l) ∧ desc.path.isXmpPath = true ∧ 0 < desc.path.len ∧
      d1.pathNs env desc.path = some dc.ns ∧ d1.findModel dc.ns = some j ∧ Served env d1 dc.ns ∧
      d.setPath env desc = d1.setPath env desc := by
  obtain ⟨d1, j, r, hprep, hd1, hj, hr, hloc, hm, hext⟩ := edit_prepared he hd hpk hpP hdc hs hv
  have haddr := sets_addr hsets
  have hx := addr_isXmpPath haddr
  have hpop := addr_popFront haddr
  have hlen := len_pos_of_popFront hpop
  have hreg := models_registered pk hpk dc hdc
  obtain ⟨e, hem, hen⟩ := List.mem_map.1 hreg.1
  have hns : ∀ d0 : XDoc, (∀ e ∈ d0.intNs, e.2 ∈ (regsOf P).map (·.1)) → (∀ e ∈ d0.extNs, e.2 ∈ (regsOf P).map (·.1)) →
      d0.pathNs env desc.path = some dc.ns := by
    intro d0 h1 h2
    have := shipped_findNs hp he.reg h1 h2 (pkg_regs_in hpk hpP hem)
    rw [hen] at this
    unfold XDoc.pathNs
    unfold Path.namespacePrefix at hpre
    unfold Path.isXmpPath at hx
    cases hi : indexChar ':' desc.path with
    | none => rw [hi] at hx; cases hx
    | some i =>
      rw [hi] at hpre
      simp only at hpre ⊢
      rw [hpre]; exact this
  have hns0 := hns d hd.shipped.int hd.shipped.ext
  have hns1 := hns d1 hd1.shipped.int hd1.shipped.ext
  have hmod : d1.findModel dc.ns = some j := by rw [savable_find hd1, hj]
  have hserved : Served env d1 dc.ns := ⟨j, r, hj, hr, Or.inl ⟨_, hm, hmod⟩⟩
  have hres : d.resolveNs env desc = some (dc.ns, env.reg) := by unfold XDoc.resolveNs; rw [hns0]
  have hsame : d.setPath env desc = d1.setPath env desc := by
    rw [setPath_served hserved hx hns1 (Or.inl hlen), if_neg (by rintro ⟨h1, _⟩; exact hvalue h1)]
    unfold XDoc.setPath
    have hc := hcreate
    unfold eff at hc
    simp only [hx, Bool.not_true, Bool.false_eq_true, if_false, hres, hc, Bool.true_eq_false, and_false]
    rw [if_neg (by rintro ⟨h1, _⟩; exact hvalue h1), if_neg (by rintro ⟨h1, _⟩; omega)]
    rw [show ({ env with reg := env.reg } : Env) = env from rfl, hprep, hmod, hj]
    rfl
  exact ⟨d1, j, r, hd1, hj, hr, hloc, hm, hext, hx, hlen, hns1, hmod, hserved, hsame⟩

/-- **C78.** One call: an edit succeeds, the value is what is read afterwards, and the document can be saved again. -/
theorem edit_saves (hp : Program P h) (he : ShippedEnv P h K Z env) (hz : ZeroMethods P K Z) {d : XDoc} (hd : Savable P K Z d) {desc : PathValue}
    (hE : Edit P K Z d desc) : Savable P K Z (d.setPath env desc).1 ∧ (d.setPath env desc).2.2 = .ok ∧ (d.setPath env desc).2.1 = env.reg ∧
      (d.setPath env desc).1.getPath env desc.path = .ok desc.value := by
  obtain ⟨pk, hpk, hpP, dc, hdc, s, hs, hpre, v, hv, ⟨cur, hcur⟩, hff, t, k, w, hsets, hparse, hleaf, hcl, hlf, hne⟩ := hE.target
  obtain ⟨d1, j, r, hd1, hj, hr, hloc, hm, -, hx, hlen, hns1, hmod, hserved, hsame⟩ :=
    edit_via hp he hd hE.value hE.flagsC hpk hpP hdc hs hpre hv hsets
  obtain ⟨hwf, z, infos, tys, hty⟩ := modelTy_wf K Z hpk hdc hs
  have haddr := sets_addr hsets
  have hht : HasTy (s.modelTy K Z) v := hd1.typed r (List.mem_of_getElem? hr) _ hm
  have hzl : ZeroLaw (s.modelTy K Z) := hz.law pk hpk hpP dc hdc s hs
  have hsv : SeesVisible (s.modelTy K Z) := hz.sees pk hpk hpP dc hdc s hs
  have hwrites := setPath_writes (env := env) (desc := desc) (m := shippedMdl K Z dc s v) (cur := cur) (t := t) (k := k) (w := w) hj hmod hr hm hx hns1
    hE.value hlen hE.flagsR hE.flagsC hwf hzl hht haddr hparse hleaf hne hcur
  rw [hsame]
  refine ⟨?_, hwrites.1, ?_, hwrites.2.1⟩
  · rw [setPath_served hserved hx hns1 (Or.inl hlen), if_neg (by rintro ⟨h1, _⟩; exact hE.value h1), hmod, hj]
    simp only
    have hcurr : d1.current (some j) (some j) desc.path = some (.ok cur) := by
      unfold XDoc.current
      simp only [Option.bind_some, hr, hm, shippedMdl, hcur]
    unfold XDoc.update
    simp only [hcurr]
    split
    · exact hd1
    split
    · exact hd1
    split
    · exact hd1
    have hok := model_write_succeeds haddr hwf hht hparse hE.value (flags := eff desc.flags) (Or.inr ⟨hE.flagsR, hE.flagsC⟩)
    have hwr : d1.write env (some j) (some j) desc.path desc.value (eff desc.flags) =
        (d1.setVal j (setModelPath (s.modelTy K Z) v desc.path desc.value (eff desc.flags)).1, .ok) := by
      unfold XDoc.write
      simp only [hr, Option.bind_some, hm, shippedMdl, hok]
    rw [hwr]
    simp only
    obtain ⟨vals, rfl⟩ : ∃ vals, v = .struct vals := by
      rw [hty] at hht
      cases v with
      | struct vals => exact ⟨vals, rfl⟩
      | _ => simp [HasTy] at hht
    have hcf : CleanFields tys infos (visibles vals) := by
      obtain ⟨_, _, _, dc', _, s', _, _, v0, hmod', hc0, -⟩ := (savable_root hd1 (List.mem_of_getElem? hr)).exact
      simp only [Root.visible, hm, Option.map_some, Option.some.injEq] at hmod'
      have e1 := congrArg Mdl.ty hmod'
      have e2 := congrArg Mdl.val hmod'
      simp only [shippedMdl] at e1 e2
      rw [← e1, ← e2, hty, visible, Clean] at hc0
      obtain ⟨vs, e, hcf, -⟩ := hc0
      cases e
      exact hcf
    rw [hty] at hsets hwf hzl hsv hht hok
    have := set_clean hsets hparse hcl hlf hne hE.value hwf hzl hsv hht hcf (flags := eff desc.flags)
      (v' := (setModelPath (.struct z infos tys) (.struct vals) desc.path desc.value (eff desc.flags)).1) (Prod.ext rfl hok)
    obtain ⟨hclean, htyped, i, fi, fty, idx, lang, x, hnames, hx'⟩ := this
    rw [hty]
    rw [hx'] at hclean htyped ⊢
    exact savable_setVal hd1 hr hpk hpP hdc hs hloc hm hty hnames.2.2.2.1 (hff infos tys z hty i fi fty idx lang hnames)
      (by rw [hty]; exact hclean) (by rw [hty]; exact htyped) true
  · rw [setPath_served hserved hx hns1 (Or.inl hlen), if_neg (by rintro ⟨h1, _⟩; exact hE.value h1)]

theorem edits_savable (hp : Program P h) (he : ShippedEnv P h K Z env) (hz : ZeroMethods P K Z) {d d' : XDoc} {l : List PathValue}
    (hE : Edits P K Z env d l d') (hd : Savable P K Z d) : Savable P K Z d' := by
  induction hE with
  | nil => exact hd
  | cons h _ ih => exact ih (edit_saves hp he hz hd h).1

theorem savable_sees (hz : ZeroMethods P K Z) {d : XDoc} (hd : Savable P K Z d) : DocSees d := by
  intro r hr m hm
  obtain ⟨pk, hpk, hpP, dc, hdc, s, hs, _, v, hmod, -⟩ := (savable_root hd hr).exact
  simp only [Root.visible, hm, Option.map_some, Option.some.injEq] at hmod
  have e1 := congrArg Mdl.ty hmod
  simp only [shippedMdl] at e1
  rw [e1]
  exact hz.sees pk hpk hpP dc hdc s hs

/-- **C78.** Documents with values set by path are saved with them.  Start from any document of models of the library that can
be saved, the empty one for example, and set values by path, any number of them, in any order, in models that exist or not, in
fields, in array elements that exist or are next, in structs and in structs that are array elements.  Every call succeeds and
the document that results can be written, as a tree and as bytes, and reading it succeeds, and every path that gives a text
in the document gives the same text in the document that is read. -/
theorem edits_saved_partial (P : List Str) (hc : Closed P) (hx : "xmp_tpg".toList ∈ P → "xmp_base".toList ∈ P)
    (h : RegHistory) (hp : Program P h) (K : Str → Codec) (Z : Str → List Val → Bool) (hz : ZeroMethods P K Z) (env : Env) (he : ShippedEnv P h K Z env)
    (d : XDoc) (hd : Savable P K Z d) (l : List PathValue) (p : Packet) (hE : Edits P K Z env d l p.doc)
    (order : Node → List Namespace → List Namespace) (ho : ∀ w l, (order w l).Perm l) :
    (∀ ind, Blank ind → ∃ q, docTrip env Version.zero order ind p = some q ∧
      ∀ path s, s ≠ [] → p.doc.getPath env path = .ok s → q.doc.getPath env path = .ok s) ∧
    ∀ uni, (∀ e ∈ h, e ∉ shippedRegs → DeclOK uni e.1) → XmlTexts { p with doc := visibleDoc p.doc } → ∀ ind, IndentOK ind →
      ∃ t q, Enc.encode env order p = some t ∧ (∀ w, unmarshalText uni env Version.zero (printTree ind t ++ w) = .ok q) ∧
        ∀ path s, s ≠ [] → p.doc.getPath env path = .ok s → q.doc.getPath env path = .ok s := by
  have hsav := edits_savable hp he hz hE hd
  have hsees := savable_sees hz hsav
  have hok : DocOK h env (visibleDoc p.doc) Version.zero (UsablePrefix P) := shipped_docOK hc hx hp he hsav.shipped
  have hun : ∀ r ∈ (visibleDoc p.doc).roots, UnmixedAll r.node.nodes := by
    intro r hr
    obtain ⟨_, _, _, _, _, _, _, hnode, _⟩ := (hsav.shipped.roots r hr).exact
    rw [hnode]
    trivial
  refine ⟨?_, ?_⟩
  · intro ind hb
    obtain ⟨t, t', q, h1, h2, h3, h4, -, -, h5⟩ := document_roundtrip_partial h env Version.zero (UsablePrefix P) { p with doc := visibleDoc p.doc } hok order ho
      ind hb (fun _ => hun)
    rw [encode_visible env order p hsees] at h1
    refine ⟨q, ?_, ?_⟩
    · unfold docTrip
      simp only [h1, h2, h3]
    · intro path s hs hg
      rw [← getPath_visible env p.doc hsees] at hg
      exact getPath_kept hok q.doc (fun r => by rw [h4, mem_withContent]) h5 hs hg
  · intro uni hn ht ind hi
    obtain ⟨t, q, h1, h2, -, h3, h4, -⟩ := document_bytes_roundtrip_partial h env Version.zero (UsablePrefix P) { p with doc := visibleDoc p.doc } hok uni
      (shipped_xmlPacket uni hn he hsav.shipped ht) order ho ind hi (fun _ => hun)
    rw [encode_visible env order p hsees] at h1
    refine ⟨t, q, h1, h4, ?_⟩
    intro path s hs hg
    rw [← getPath_visible env p.doc hsees] at hg
    exact getPath_kept hok q.doc (fun r => by rw [h2, mem_withContent]) h3 hs hg

end

end Xmp.Props
