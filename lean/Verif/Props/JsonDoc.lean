import Mathlib.Data.List.Pairwise
import Verif.Props.JsonDocSpec

/-! C53: documents survive being written as JSON and read back. -/

namespace Xmp.Props

open GoStr List

/-! ### Namespaces -/

theorem mem_set {V : Type} {m : GoMap V} {k : Str} {v : V} {x : Str × V} : x ∈ m.set k v ↔ x = (k, v) ∨ x ∈ m ∧ x.1 ≠ k := by
  simp [GoMap.set, GoMap.del]

theorem addNs_sound (P : Str × Str → Prop) : ∀ (l : List Namespace) (m : GoMap Str), (∀ ns ∈ l, P (ns.name, ns.uri)) → (∀ x ∈ m, P x) →
    ∀ x ∈ JDoc.addNamespaces l m, P x
  | [], m, _, h2, x, hx => h2 x hx
  | ns :: l, m, h1, h2, x, hx => by
    rw [JDoc.addNamespaces] at hx
    refine addNs_sound P l _ (fun n hn => h1 n (by simp [hn])) ?_ x hx
    split
    · exact h2
    · intro y hy
      rcases mem_set.1 hy with rfl | hy
      · exact h1 ns (by simp)
      · exact h2 y hy.1

theorem addNs_keeps (b : Str → Str) : ∀ (l : List Namespace) (m : GoMap Str), (∀ ns ∈ l, ns.uri = b ns.name) → ∀ k, (k, b k) ∈ m →
    (k, b k) ∈ JDoc.addNamespaces l m
  | [], m, _, k, hk => hk
  | ns :: l, m, h1, k, hk => by
    rw [JDoc.addNamespaces]
    refine addNs_keeps b l _ (fun n hn => h1 n (by simp [hn])) k ?_
    split
    · exact hk
    · rw [mem_set]
      by_cases e : k = ns.name
      · left; rw [e, h1 ns (by simp)]
      · exact Or.inr ⟨hk, e⟩

theorem addNs_complete (b : Str → Str) : ∀ (l : List Namespace) (m : GoMap Str), (∀ ns ∈ l, ns.uri = b ns.name) → ∀ ns ∈ l,
    ¬ (ns = nsX ∨ ns = nsXML ∨ ns = nsRDF) → (ns.name, b ns.name) ∈ JDoc.addNamespaces l m
  | [], m, _, ns, hk, _ => by cases hk
  | n :: l, m, h1, ns, hk, hc => by
    rw [JDoc.addNamespaces]
    rcases mem_cons.1 hk with rfl | hk
    · refine addNs_keeps b l _ (fun n hn => h1 n (by simp [hn])) _ ?_
      rw [if_neg hc, mem_set, h1 ns (by simp)]
      exact Or.inl rfl
    · exact addNs_complete b l _ (fun n hn => h1 n (by simp [hn])) ns hk hc

section
variable {h : RegHistory} {env : Env} {d : XDoc} {dv : Version} {S : Str → Prop} {l : List (Str × Str)} {r : Root}

theorem json_ns_sound (hd : DocNs h env d S) : ∀ (ws : List Node) (m : GoMap Str), (∀ w ∈ ws, WrapOK S none w) → Declares env d S m →
    Declares env d S (JDoc.namespacesOf env d ws m)
  | [], m, _, h2 => h2
  | w :: ws, m, h1, h2 => by
    rw [JDoc.namespacesOf]
    refine json_ns_sound hd ws _ (fun x hx => h1 x (by simp [hx])) ?_
    intro x hx
    refine addNs_sound (fun x => S x.1 ∧ x.2 = bindOf env d x.1) _ _ ?_ h2 x hx
    intro ns hns
    have := wrap_ns_sound hd (h1 w (by simp)) hns
    exact ⟨this.1, this.2.2⟩

theorem json_ns_keeps (hd : DocNs h env d S) (k : Str) : ∀ (ws : List Node) (m : GoMap Str), (∀ w ∈ ws, WrapOK S none w) →
    (k, bindOf env d k) ∈ m → (k, bindOf env d k) ∈ JDoc.namespacesOf env d ws m
  | [], m, _, h2 => h2
  | w :: ws, m, h1, h2 => by
    rw [JDoc.namespacesOf]
    refine json_ns_keeps hd k ws _ (fun x hx => h1 x (by simp [hx])) ?_
    exact addNs_keeps (bindOf env d) _ _ (fun ns hns => (wrap_ns_sound hd (h1 w (by simp)) hns).2.2) k h2

theorem json_ns_complete (hd : DocNs h env d S) (hx : ¬ S "x".toList) : ∀ (ws : List Node) (m : GoMap Str), (∀ w ∈ ws, WrapOK S none w) →
    ∀ w ∈ ws, ∀ q ∈ allNames w, Bound env d S (JDoc.namespacesOf env d ws m) q
  | [], m, _, w, hw, _, _ => by cases hw
  | w0 :: ws, m, h1, w, hw, q, hq => by
    rw [JDoc.namespacesOf]
    rcases mem_cons.1 hw with rfl | hw
    · intro hS
      obtain ⟨ns, h2, h3⟩ := wrap_ns_complete hd (h1 w (by simp)) hq hS
      have h4 := wrap_ns_sound hd (h1 w (by simp)) h2
      refine json_ns_keeps hd _ ws _ (fun x hx => h1 x (by simp [hx])) ?_
      rw [← h3]
      refine addNs_complete (bindOf env d) _ _ (fun ns hns => (wrap_ns_sound hd (h1 w (by simp)) hns).2.2) ns h2 ?_
      rintro (rfl | rfl | rfl)
      · exact hx h4.1
      · exact (hd.plain _ h4.1).2.2.2.1 rfl
      · exact (hd.plain _ h4.1).2.2.1 rfl
    · exact json_ns_complete hd hx ws _ (fun x hx => h1 x (by simp [hx])) w hw q hq

/-! ### Writing -/

theorem models_written (reg : Registry) : ∀ (ws : List Node) (m : GoMap Json), (ws.map (·.namespace_) ++ m.map (·.1)).Nodup →
    JDoc.modelsOf reg ws m ~ (ws.filter (fun w => !w.isZero)).map (fun w => (w.namespace_, Json.ofNode reg w)) ++ m
  | [], m, _ => .refl _
  | w :: ws, m, hn => by
    rw [JDoc.modelsOf]
    rw [map_cons, cons_append, nodup_cons, mem_append] at hn
    cases hz : w.isZero with
    | true =>
      rw [if_pos rfl, filter_cons_of_neg (by simp [hz])]
      exact models_written reg ws m hn.2
    | false =>
      rw [if_neg (by simp), filter_cons_of_pos (by simp [hz]), set_fresh _ (fun hc => hn.1 (Or.inr hc))]
      refine (models_written reg ws _ ?_).trans ?_
      · rw [map_cons]
        refine perm_middle.nodup_iff.2 (nodup_cons.2 ⟨?_, hn.2⟩)
        rw [mem_append]
        exact hn.1
      · rw [map_cons, cons_append]
        exact perm_middle

/-! ### Groups of a top-level node -/

theorem zero_group (hr : RootOK h env d dv S r) {reg : Registry} (hj : JRootOK reg r) {G : List Grp} (hG : Grouped dv S r G) {g : Grp} (hg : g ∈ G)
    {fs : List (Str × Tree)} (hsay : Says reg (.struct fs) r.node) (hz : (g.fin r.node).isZero = true) : specOf r fs g = [] := by
  obtain ⟨-, hA, hN⟩ := (nodeZero_iff _).1 hz
  have hA : ∀ a ∈ g.attrs.map (·.2) ++ g.extA r.node, a.value = [] := hA
  have hN : ∀ x ∈ g.nodes.map (·.2) ++ g.extN r.node, x.isZero = true := hN
  have e1 : g.attrs = [] := by
    rw [eq_nil_iff_forall_not_mem]
    intro o ho
    have h1 := hA o.2 (by rw [mem_append]; exact Or.inl (mem_map_of_mem ho))
    obtain ⟨-, -, t, v, ht, hv, -, -, ⟨f, hf0, -, hf1, hf2, -, hf3⟩, -⟩ := hG.attrs g hg o ho
    rw [h1] at hf3
    exact hj.solidA _ f t v hf0 ht hv hf2 hf1 hf3
  have e2 : g.nodes = [] := by
    rw [eq_nil_iff_forall_not_mem]
    intro o ho
    have h1 := hN o.2 (by rw [mem_append]; exact Or.inl (mem_map_of_mem ho))
    obtain ⟨-, -, -, t, v, nm, ht, hv, -, -, ⟨f, hf0, -, hf1, hf2, -, hf3⟩, -⟩ := hG.nodes g hg o ho
    rw [hj.solidN _ f t v hf0 ht hv hf2 hf1 _ (by assumption)] at h1
    cases h1
  unfold specOf Grp.idx
  rw [e1, e2, map_nil, map_nil, append_nil, map_nil, nil_append]
  split
  · rename_i hk
    have hattrs : r.node.attrs = [] := by
      rw [eq_nil_iff_forall_not_mem]
      intro a ha
      refine (hr.attrs a ha).2.2.2.1 (hA a ?_)
      rw [mem_append]
      right
      unfold Grp.extA
      rw [if_pos hk]; exact ha
    have hnodes : r.node.nodes = [] := by
      rw [eq_nil_iff_forall_not_mem]
      intro x hx
      have := hN x (by
        rw [mem_append]
        right
        unfold Grp.extN
        rw [if_pos hk]; exact hx)
      rw [(hr.nodes x hx).2.2.2.1] at this
      cases this
    rw [Says, hattrs, hnodes] at hsay
    obtain ⟨fsA, fsN, rfl, h1, h2⟩ := saysFields_split _ _ _ _ hsay.2
    cases h1
    cases h2
    rfl
  · rfl

/-- All parts of a top-level node. -/
def rootSpec (fs : List (Str × Tree)) (G : List Grp) : List Sp := (G.flatMap Grp.idx).map .fld ++ fs.map (fun e => .ext e.1 e.2)

theorem rootSpec_perm {G : List Grp} (hG : Grouped dv S r G) (fs : List (Str × Tree)) : G.flatMap (specOf r fs) ~ rootSpec fs G := by
  unfold specOf rootSpec
  refine (flatMap_append_perm G _ _).symm.trans ?_
  rw [← map_flatMap]
  refine Perm.append_left _ (.of_eq ?_)
  exact flatMap_own r.node.xmlName.loc _ G hG.keys hG.own

theorem rootSpec_nil {reg : Registry} {G : List Grp} (hr : RootOK h env d dv S r) (hG : Grouped dv S r G) {fs : List (Str × Tree)}
    (hd : DocNs h env d S) (hsay : Says reg (.struct fs) r.node) : HasContent r ↔ rootSpec fs G ≠ [] := by
  rw [content_iff hG, extA_all hG, extN_all hG, Ne, not_iff_not]
  unfold rootSpec
  rw [append_eq_nil_iff, map_eq_nil_iff, map_eq_nil_iff]
  refine and_congr_right (fun _ => ?_)
  have hfil : r.node.attrs.filter (fun a => decide (a.name.loc ≠ "rdf:parseType".toList)) = r.node.attrs := by
    rw [List.filter_eq_self]
    intro a ha
    rw [decide_eq_true_eq]
    intro e
    have := (nameS_jname hd (hr.attrs a ha).2.1).1.2
    rw [e] at this
    exact this (by simp)
  rw [Says, hfil] at hsay
  obtain ⟨fsA, fsN, rfl, h1, h2⟩ := saysFields_split _ _ _ _ hsay.2
  have l1 := h1.length_eq
  have l2 := h2.length_eq
  rw [append_eq_nil_iff, ← length_eq_zero_iff, ← length_eq_zero_iff, ← length_eq_zero_iff, ← length_eq_zero_iff, l1, l2]

theorem rootSpec_keys {G : List Grp} (hG : Grouped dv S r G) {fs : List (Str × Tree)} (hfs : (fs.map (·.1)).Nodup) :
    ((rootSpec fs G).map Sp.key).Nodup := by
  have hidx : (G.flatMap Grp.idx).Nodup := (idx_perm G).nodup_iff.2 hG.idx
  unfold rootSpec
  rw [List.map_append, List.map_map, List.map_map, List.nodup_append]
  refine ⟨hidx.map (fun a b e => by simpa [Sp.key] using e), ?_, ?_⟩
  · have : (Sp.key ∘ fun e : Str × Tree => Sp.ext e.1 e.2) = Sum.inr ∘ Prod.fst := rfl
    rw [this, ← List.map_map]
    exact hfs.map (fun a b e => by simpa using e)
  · intro a ha b hb
    obtain ⟨i, -, rfl⟩ := List.mem_map.1 ha
    obtain ⟨x, -, rfl⟩ := List.mem_map.1 hb
    simp [Sp.key]

/-! ### Reading -/

theorem decodeNodes_app (dd : Dec) : ∀ (a b : List Node) (rs : List Root), Dec.decodeNodes env dd dv (a ++ b) rs =
    match Dec.decodeNodes env dd dv a rs with
    | .ok rs => Dec.decodeNodes env dd dv b rs
    | .err => .err
    | .panic => .panic
  | [], b, rs => by rw [nil_append, Dec.decodeNodes]
  | x :: a, b, rs => by
    rw [cons_append, Dec.decodeNodes, Dec.decodeNodes]
    cases Dec.decodeNode env dd dv rs x with
    | ok rs => exact decodeNodes_app dd a b rs
    | err => rfl
    | panic => rfl

theorem decodeTrees_flat (dd : Dec) : ∀ (ns : List Node), (∀ n ∈ ns, n.attrs = []) → ∀ rs, JDoc.decodeTrees env dd dv ns rs =
    Dec.decodeNodes env dd dv (ns.flatMap Node.nodes) rs
  | [], _, rs => by rw [flatMap_nil, JDoc.decodeTrees, Dec.decodeNodes]
  | n :: ns, h1, rs => by
    rw [flatMap_cons, decodeNodes_app, JDoc.decodeTrees, h1 n (by simp), JDoc.decodeAttributes]
    simp only
    cases Dec.decodeNodes env dd dv n.nodes rs with
    | ok rs => exact decodeTrees_flat dd ns (fun x hx => h1 x (by simp [hx])) rs
    | err => rfl
    | panic => rfl

/-- A namespace and what is read from it. -/
def WrapRead (h : RegHistory) (env : Env) (d : XDoc) (dv : Version) (S : Str → Prop) (l : List (Str × Str)) (F : Root → List (Str × Tree))
    (y : Root × Grp) (e : Str × Json) : Prop :=
  ∃ L : List (Sp × Node), Json.toModel e.1 e.2 = .ok (.mk ⟨[], e.1⟩ [] [] (L.map (·.2))) ∧ L.map (·.1) ~ specOf y.1 (F y.1) y.2 ∧
    ∀ z ∈ L, EntryOK h env d dv S l y.1 z.1 z.2

theorem read_all (F : Root → List (Str × Tree)) : ∀ (WL : List (Root × Grp)) (m : List (Str × Json)), Forall₂ (WrapRead h env d dv S l F) WL m →
    ∃ (ns : List Node) (E : List (Root × Sp × Node)), JDoc.nodesOf m = .ok ns ∧ (∀ n ∈ ns, n.attrs = []) ∧ E.map (·.2.2) = ns.flatMap Node.nodes ∧
      E.map (fun e => (e.1, e.2.1)) ~ WL.flatMap (fun y => (specOf y.1 (F y.1) y.2).map (Prod.mk y.1)) ∧
      ∀ e ∈ E, EntryOK h env d dv S l e.1 e.2.1 e.2.2 := by
  intro WL m h1
  induction h1 with
  | nil => exact ⟨[], [], rfl, by simp, rfl, .refl _, by simp⟩
  | cons h2 hrest ih =>
    rename_i y e WL m
    obtain ⟨L, h3, h4, h5⟩ := h2
    obtain ⟨ns, E, h6, h7, h8, h9, h10⟩ := ih
    obtain ⟨k, j⟩ := e
    refine ⟨.mk ⟨[], k⟩ [] [] (L.map (·.2)) :: ns, L.map (Prod.mk y.1) ++ E, ?_, ?_, ?_, ?_, ?_⟩
    · rw [JDoc.nodesOf, h3, h6]
    · intro n hn
      rcases mem_cons.1 hn with rfl | hn
      · rfl
      · exact h7 n hn
    · rw [map_append, h8, flatMap_cons, map_map]
      rfl
    · rw [map_append, flatMap_cons, map_map]
      refine Perm.append ?_ h9
      have := h4.map (Prod.mk y.1)
      rw [map_map] at this
      exact this
    · intro e he
      rcases mem_append.1 he with he | he
      · obtain ⟨z, hz, rfl⟩ := mem_map.1 he
        exact h5 z hz
      · exact h10 e he

theorem flatMap_one {α γ κ β : Type} [DecidableEq κ] (k : α → κ) (f : α × γ → List β) : ∀ (l : List (α × γ)), (l.map (fun y => k y.1)).Nodup →
    ∀ x ∈ l, ((l.flatMap (fun y => (f y).map (Prod.mk y.1))).filter (fun z => decide (k z.1 = k x.1))).map (·.2) = f x
  | [], _, x, hx => by cases hx
  | y :: l, hn, x, hx => by
    rw [map_cons, nodup_cons] at hn
    have hself : ∀ (a : α × γ), ((f a).map (Prod.mk a.1)).filter (fun z => decide (k z.1 = k a.1)) = (f a).map (Prod.mk a.1) := by
      intro a
      rw [filter_eq_self]
      intro z hz
      obtain ⟨b, -, rfl⟩ := mem_map.1 hz
      simp
    have hother : ∀ (a b : α × γ), k a.1 ≠ k b.1 → ((f a).map (Prod.mk a.1)).filter (fun z => decide (k z.1 = k b.1)) = [] := by
      intro a b hab
      rw [filter_eq_nil_iff]
      intro z hz
      obtain ⟨c, -, rfl⟩ := mem_map.1 hz
      simpa using hab
    rw [flatMap_cons, filter_append, map_append]
    rcases mem_cons.1 hx with rfl | hx
    · rw [hself]
      have : (l.flatMap (fun y => (f y).map (Prod.mk y.1))).filter (fun z => decide (k z.1 = k x.1)) = [] := by
        rw [filter_eq_nil_iff]
        intro z hz
        obtain ⟨a, ha, hz⟩ := mem_flatMap.1 hz
        obtain ⟨c, -, rfl⟩ := mem_map.1 hz
        simp only [decide_eq_true_eq]
        intro e
        exact hn.1 (mem_map.2 ⟨a, ha, e⟩)
      rw [this, map_nil, append_nil, map_map]
      exact map_id' _
    · rw [hother y x (fun e => hn.1 (mem_map.2 ⟨x, hx, e.symm⟩)), map_nil, nil_append]
      exact flatMap_one k f l hn.2 x hx

/-- The tree of an element. -/
def Sp.tree : Sp → Option (Str × Tree)
  | .fld _ => none
  | .ext k t => some (k, t)

theorem tells_exts (dd : Dec) (hdd : dd = decoder h l) : ∀ (L : List (Sp × Node)), (∀ e ∈ L, EntryOK h env d dv S l r e.1 e.2) →
    Forall₂ (fun e n => e.1 = n.fullName dd.reg ∧ Tells dd.reg e.2 n) ((L.map (·.1)).filterMap Sp.tree) (exts dd L)
  | [], _ => .nil
  | (sp, x) :: L, h1 => by
    have ih := tells_exts dd hdd L (fun e he => h1 e (by simp [he]))
    obtain ⟨nm, h2, h3, h4, h5⟩ := h1 (sp, x) (by simp)
    simp only at h2 h3 h4 h5
    subst hdd
    cases sp with
    | fld i => exact ih
    | ext k t =>
      obtain ⟨-, h5⟩ := h5
      have hk : nm = k := by
        unfold targetOf at h4
        split at h4
        · simp [Sp.key] at h4
        · simpa [Sp.key] using h4
      subst hk
      have hx : (x.translate (decoder h l)).xmlName = ⟨[], nm⟩ := by
        rw [xmlName_translate, h2, translate_fix _ _ (Or.inl rfl)]
      have : exts (decoder h l) ((Sp.ext nm t, x) :: L) = x.translate (decoder h l) :: exts (decoder h l) L := rfl
      rw [this]
      exact .cons ⟨(fullName_of _ hx).symm, h5⟩ ih

theorem tells_join (reg : Registry) : ∀ (fs : List (Str × Tree)) (ns : List Node), Forall₂ (fun e n => e.1 = n.fullName reg ∧ Tells reg e.2 n) fs ns →
    ∃ fs' : List (Str × Tree), Forall₂ (fun a b => a.1 = b.1 ∧ a.2.Same b.2) fs fs' ∧ Forall₂ (fun e n => e.1 = n.fullName reg ∧ Says reg e.2 n) fs' ns := by
  intro fs ns h1
  induction h1 with
  | nil => exact ⟨[], .nil, .nil⟩
  | cons h2 hrest ih =>
    rename_i e n fs ns
    obtain ⟨fs', h3, h4⟩ := ih
    obtain ⟨h5, t', h6, h7⟩ := h2
    exact ⟨(e.1, t') :: fs', .cons ⟨rfl, h6⟩ h3, .cons ⟨h5, h7⟩ h4⟩

theorem sameFields_of : ∀ (fs fs' : List (Str × Tree)), Forall₂ (fun a b => a.1 = b.1 ∧ a.2.Same b.2) fs fs' → Tree.SameFields fs fs' := by
  intro fs fs' h1
  induction h1 with
  | nil => rw [Tree.SameFields]
  | cons h2 hrest ih =>
    rename_i e e' fs fs'
    obtain ⟨k, t⟩ := e
    obtain ⟨k', t'⟩ := e'
    obtain ⟨rfl, h3⟩ := h2
    rw [Tree.SameFields]
    exact ⟨t', fs', rfl, h3, ih⟩

/-- What is said about a top-level node that was written as JSON and read back: it has the same name and the same model,
and its other content says the same. -/
def RootSame (reg : Registry) (r r' : Root) : Prop :=
  r'.model = r.model ∧ r'.node.xmlName = r.node.xmlName ∧ ∃ fs, Shape (.struct fs) ∧ Says reg (.struct fs) r.node ∧ Tells reg (.struct fs) r'.node

theorem root_rebuilt (hr : RootOK h env d dv S r) {G : List Grp} (hG : Grouped dv S r G) {fs : List (Str × Tree)} {reg : Registry}
    (hreg : (decoder h l).reg = reg) (hs : Shape (.struct fs))
    (hsay : Says reg (.struct fs) r.node) {L : List (Sp × Node)} (hL : ∀ e ∈ L, EntryOK h env d dv S l r e.1 e.2)
    (hp : L.map (·.1) ~ rootSpec fs G) : RootSame reg r (build r (flds L) [] (exts (decoder h l) L)) := by
  subst hreg
  refine ⟨?_, rfl, fs, hs, hsay, ?_⟩
  · have := build_done hr (is := flds L) (by
      intro i f t v h1 h2 h3 h4
      have h5 : Sp.fld i ∈ L.map (·.1) := by
        rw [hp.mem_iff]
        unfold rootSpec
        rw [mem_append]
        exact Or.inl (mem_map_of_mem ((idx_perm G).mem_iff.2 (hG.all i f t v h1 h2 h3 h4)))
      obtain ⟨e, he, h6⟩ := mem_map.1 h5
      exact mem_filterMap.2 ⟨e, he, by rw [h6]⟩)
    exact (congrArg Root.model this : (build r (flds L) r.node.attrs r.node.nodes).model = r.model)
  · have h1 := tells_exts (decoder h l) rfl L hL
    obtain ⟨fs', h2, h3⟩ := tells_join _ _ _ h1
    have h4 : (L.map (·.1)).filterMap Sp.tree ~ fs := by
      refine (hp.filterMap _).trans (.of_eq ?_)
      unfold rootSpec
      rw [filterMap_append, filterMap_map, filterMap_map]
      have e1 : ∀ l : List Nat, l.filterMap (Sp.tree ∘ Sp.fld) = [] := by
        intro l; rw [filterMap_eq_nil_iff]; intro _ _; rfl
      have e2 : (Sp.tree ∘ fun e : Str × Tree => Sp.ext e.1 e.2) = some := rfl
      rw [e1, e2, nil_append, filterMap_some]
    have c : Relation.Comp (Forall₂ (fun (a b : Str × Tree) => a.1 = b.1 ∧ a.2.Same b.2)) Perm fs fs' := by
      rw [forall₂_comp_perm_eq_perm_comp_forall₂]
      exact ⟨_, h4.symm, h2⟩
    obtain ⟨fs'', h5, h6⟩ := c
    refine ⟨.struct fs', ?_, ?_⟩
    · rw [Tree.Same]
      exact ⟨fs', fs'', rfl, h6, sameFields_of _ _ h5⟩
    · rw [Says]
      exact ⟨rfl, saysFields_join _ _ _ h3⟩

theorem mem_withContent {rs : List Root} {r : Root} : r ∈ withContent rs ↔ r ∈ rs ∧ HasContent r := by
  unfold withContent
  rw [mem_filter]
  simp

theorem roots_nodup (hok : DocOK h env d dv S) : (d.roots.map (fun r => r.node.xmlName.loc)).Nodup := by
  rw [List.Nodup, pairwise_map]
  exact hok.disjoint.imp (fun {a b} hab e => hab _ (Or.inl rfl) (Or.inl e))

theorem roots_apart (hok : DocOK h env d dv S) : RootsApart h env d dv S d.roots := by
  refine ⟨hok.roots, ?_⟩
  intro r hr r' hr' hne q hq hq'
  have hs : Std.Symm (fun r r' : Root => ∀ p, Owned r p → ¬ Owned r' p) := ⟨fun a b hab p hb ha => hab p ha hb⟩
  exact List.Pairwise.forall hok.disjoint hr hr' hne q hq hq'

theorem groups_keys {Gs : List (Root × List Grp)} (hdis : (Gs.map (·.1)).Pairwise (fun r r' => ∀ p, Owned r p → ¬ Owned r' p))
    (h2 : ∀ x ∈ Gs, Grouped dv S x.1 x.2) : (Gs.flatMap (fun x => x.2.map (·.key))).Nodup := by
  rw [nodup_flatMap]
  refine ⟨fun x hx => (h2 x hx).keys, ?_⟩
  rw [pairwise_map] at hdis
  refine hdis.imp_of_mem ?_
  intro a b ha hb hab k hka hkb
  obtain ⟨g, hg, rfl⟩ := mem_map.1 hka
  obtain ⟨g', hg', e⟩ := mem_map.1 hkb
  refine hab g.key ((h2 a ha).owned g hg) ?_
  rw [← e]
  exact (h2 b hb).owned g' hg'

theorem itemsOf_proj (E : List (Root × Sp × Node)) (r : Root) :
    (itemsOf E r).map (·.1) = ((E.map (fun e => (e.1, e.2.1))).filter (fun z => decide (z.1.node.xmlName.loc = r.node.xmlName.loc))).map (·.2) := by
  unfold itemsOf
  rw [filter_map, map_map, map_map]
  rfl

/-! ### Documents -/

/-- **C53** A document whose nodes have content of the documented shapes is written as JSON.  Reading this, with the
entries of all objects in any order, gives the top-level nodes with content, each with the same name and model, and other
content that says the same; their order is not kept.  `about` and the toolkit survive, a missing toolkit becomes the
version of the library.  Every prefix that the nodes use keeps its URI. -/
theorem json_document_roundtrip_partial (h : RegHistory) (env : Env) (dv : Version) (S : Str → Prop) (p : Packet) (hok : DocOK h env p.doc dv S)
    (hx : ¬ S "x".toList) (hj : ∀ r ∈ p.doc.roots, JRootOK env.reg r) :
    ∃ jd, JDoc.ofDoc env p = some jd ∧ ∀ jd', JDocSame jd jd' → ∃ p', JDoc.toDoc env dv jd' = .ok p' ∧
      p'.about = p.about ∧ p'.toolkit = (if p.toolkit = [] then Enc.toolkitVersion else p.toolkit) ∧
      (∃ rs, rs ~ withContent p.doc.roots ∧ Forall₂ (RootSame env.reg) rs p'.doc.roots) ∧
      ∀ r ∈ withContent p.doc.roots, ∀ q, Uses r q → S q → ∃ ns, p'.doc.findNsByPrefix env q = some ns ∧ ns.uri = bindOf env p.doc q := by
  have hd := hok.ns
  obtain ⟨Gs, h1, h2, h3⟩ := roots_encoded hd p.doc.roots [] hok.roots hok.disjoint (by intro r _ q _ w hw; cases hw)
  rw [nil_append] at h3
  have hmemr : ∀ x ∈ Gs, x.1 ∈ p.doc.roots := by
    intro x hx
    rw [← h1]
    exact mem_map_of_mem hx
  have hrok : ∀ x ∈ Gs, RootOK h env p.doc dv S x.1 := fun x hx => hok.roots _ (hmemr x hx)
  have hW : ∀ w ∈ Gs.flatMap (fun x => x.2.map (Grp.fin x.1.node)), WrapOK S none w := by
    intro w hw
    obtain ⟨x, hx, hw⟩ := mem_flatMap.1 hw
    obtain ⟨g, hg, rfl⟩ := mem_map.1 hw
    exact wrapOK_of hd (hrok x hx) (h2 x hx) hg (fun hi => by cases hi)
  have hof : JDoc.ofDoc env p = some ⟨p.about, if p.toolkit = [] then Enc.toolkitVersion else p.toolkit,
      JDoc.namespacesOf env p.doc (Gs.flatMap (fun x => x.2.map (Grp.fin x.1.node))) [],
      JDoc.modelsOf env.reg (Gs.flatMap (fun x => x.2.map (Grp.fin x.1.node))) []⟩ := by
    unfold JDoc.ofDoc
    rw [h3]
  refine ⟨_, hof, ?_⟩
  rintro ⟨ab, tk, l, M⟩ ⟨e1, e2, hns, m1, hm1, hm2⟩
  simp only at e1 e2 hns hm1 hm2
  subst e1 e2
  -- namespaces
  have hl : Declares env p.doc S l := by
    intro x hx
    exact json_ns_sound hd _ _ hW (by intro x hx; cases hx) x (hns.mem_iff.2 hx)
  have hbound : ∀ w ∈ Gs.flatMap (fun x => x.2.map (Grp.fin x.1.node)), ∀ q ∈ allNames w, Bound env p.doc S l q := by
    intro w hw q hq hS
    exact hns.mem_iff.1 (json_ns_complete hd hx _ _ hW w hw q hq hS)
  have hreg : (decoder h l).reg = env.reg := by rw [(decoder_ok h l).reg_eq, hd.reg]
  -- trees
  have hF : ∀ r, ∃ fs, r ∈ p.doc.roots → Shape (.struct fs) ∧ Says env.reg (.struct fs) r.node ∧ ∀ e ∈ fs, Full e.2 := by
    intro r
    by_cases hr : r ∈ p.doc.roots
    · obtain ⟨fs, hfs⟩ := (hj r hr).shape
      exact ⟨fs, fun _ => hfs⟩
    · exact ⟨[], fun hc => absurd hc hr⟩
  choose F hF using hF
  -- the entries
  generalize hWL : Gs.flatMap (fun x => x.2.map (Prod.mk x.1)) = WL
  have hmemW : ∀ y ∈ WL, ∃ x ∈ Gs, y.1 = x.1 ∧ y.2 ∈ x.2 := by
    intro y hy
    rw [← hWL] at hy
    obtain ⟨x, hx, hy⟩ := mem_flatMap.1 hy
    obtain ⟨g, hg, rfl⟩ := mem_map.1 hy
    exact ⟨x, hx, rfl, hg⟩
  have hws : Gs.flatMap (fun x => x.2.map (Grp.fin x.1.node)) = WL.map (fun y => y.2.fin y.1.node) := by
    rw [← hWL, map_flatMap]
    congr 1
    funext x
    rw [map_map]
    rfl
  have hkey : ∀ y ∈ WL, (y.2.fin y.1.node).namespace_ = y.2.key := by
    intro y hy
    obtain ⟨x, hx, e, hg⟩ := hmemW y hy
    have hS := (hrok x hx).own _ ((h2 x hx).owned _ hg)
    show getPrefix y.2.key = y.2.key
    exact getPrefix_none (hd.plain _ hS).2.1
  have hmodels : JDoc.modelsOf env.reg (Gs.flatMap (fun x => x.2.map (Grp.fin x.1.node))) [] ~
      (WL.filter (fun y => !(y.2.fin y.1.node).isZero)).map (fun y => (y.2.key, Json.ofNode env.reg (y.2.fin y.1.node))) := by
    refine (models_written _ _ _ ?_).trans (.of_eq ?_)
    · rw [map_nil, append_nil, hws, map_map]
      have : WL.map ((fun w : Node => w.namespace_) ∘ fun y : Root × Grp => y.2.fin y.1.node) = Gs.flatMap (fun x => x.2.map (·.key)) := by
        rw [show WL.map ((fun w : Node => w.namespace_) ∘ fun y : Root × Grp => y.2.fin y.1.node) = WL.map (fun y => y.2.key) from map_congr_left hkey,
          ← hWL, map_flatMap]
        congr 1
        funext x
        rw [map_map]
        rfl
      rw [this]
      exact groups_keys (by rw [h1]; exact hok.disjoint) h2
    · rw [append_nil, hws, filter_map, map_map]
      apply map_congr_left
      intro y hy
      show ((y.2.fin y.1.node).namespace_, _) = _
      rw [hkey y (mem_of_mem_filter hy)]
  have c1 : Relation.Comp Perm (Forall₂ (fun (a b : Str × Json) => a.1 = b.1 ∧ JSame a.2 b.2))
      ((WL.filter (fun y => !(y.2.fin y.1.node).isZero)).map (fun y => (y.2.key, Json.ofNode env.reg (y.2.fin y.1.node)))) M := by
    have : Relation.Comp Perm (Forall₂ (fun (a b : Str × Json) => a.1 = b.1 ∧ JSame a.2 b.2))
        (JDoc.modelsOf env.reg (Gs.flatMap (fun x => x.2.map (Grp.fin x.1.node))) []) M := by
      rw [← forall₂_comp_perm_eq_perm_comp_forall₂]
      exact ⟨m1, hm1, hm2⟩
    obtain ⟨m2, q1, q2⟩ := this
    exact ⟨m2, hmodels.symm.trans q1, q2⟩
  obtain ⟨m2, q1, q2⟩ := c1
  have c2 : Relation.Comp Perm (Forall₂ (fun (y : Root × Grp) (e : Str × Json) => (y.2.key, Json.ofNode env.reg (y.2.fin y.1.node)) = e))
      (WL.filter (fun y => !(y.2.fin y.1.node).isZero)) m2 := by
    rw [← forall₂_comp_perm_eq_perm_comp_forall₂]
    refine ⟨_, ?_, q1⟩
    rw [forall₂_map_right_iff]
    exact forall₂_same.2 (fun _ _ => rfl)
  obtain ⟨WL', q3, q4⟩ := c2
  have hmem' : ∀ y ∈ WL', y ∈ WL := fun y hy => mem_of_mem_filter (q3.mem_iff.2 hy)
  have hread : Forall₂ (WrapRead h env p.doc dv S l F) WL' M := by
    have : Forall₂ (fun (y : Root × Grp) (e : Str × Json) => y.2.key = e.1 ∧ JSame (Json.ofNode env.reg (y.2.fin y.1.node)) e.2) WL' M := by
      clear q3 q1 hm2 hm1 hmem'
      induction q4 generalizing M with
      | nil => cases q2; exact .nil
      | cons a1 a2 ih =>
        cases q2 with
        | cons b1 b2 =>
          subst a1
          exact .cons b1 (ih _ b2)
    have aux : ∀ (A : List (Root × Grp)) (B : List (Str × Json)), (∀ y ∈ A, y ∈ WL) →
        Forall₂ (fun (y : Root × Grp) (e : Str × Json) => y.2.key = e.1 ∧ JSame (Json.ofNode env.reg (y.2.fin y.1.node)) e.2) A B →
        Forall₂ (WrapRead h env p.doc dv S l F) A B := by
      intro A B hA hAB
      induction hAB with
      | nil => exact .nil
      | cons a1 a2 ih =>
        rename_i y e A B
        refine .cons ?_ (ih (fun z hz => hA z (by simp [hz])))
        obtain ⟨⟨r, G⟩, hxG, er, hg⟩ := hmemW y (hA y (by simp))
        obtain ⟨r', g⟩ := y
        simp only at er hg
        subst er
        obtain ⟨k, j⟩ := e
        obtain ⟨rfl, a3⟩ := a1
        obtain ⟨f1, f2, f3⟩ := hF r' (hmemr _ hxG)
        have hok' : GrpOK env p.doc dv S l r' g := grpOK_of hd (hrok _ hxG) (h2 _ hxG) hg
          (hbound _ (mem_flatMap.2 ⟨_, hxG, mem_map_of_mem hg⟩))
        rw [← hreg] at a3 f2
        exact group_read hd hl (hrok _ hxG) (h2 _ hxG) hg hok' (hj _ (hmemr _ hxG)).vals f1 f2 f3 a3
    exact aux _ _ hmem' this
  obtain ⟨ns, E, r1, r2, r3, r4, r5⟩ := read_all F WL' M hread
  -- what the elements are
  have hE : E.map (fun e => (e.1, e.2.1)) ~ Gs.flatMap (fun x => (rootSpec (F x.1) x.2).map (Prod.mk x.1)) := by
    refine r4.trans ((q3.symm.flatMap_right _).trans ?_)
    have z1 : (WL.filter (fun y => !(y.2.fin y.1.node).isZero)).flatMap (fun y => (specOf y.1 (F y.1) y.2).map (Prod.mk y.1)) =
        WL.flatMap (fun y => (specOf y.1 (F y.1) y.2).map (Prod.mk y.1)) := by
      have : ∀ A : List (Root × Grp), (∀ y ∈ A, y ∈ WL) → (A.filter (fun y => !(y.2.fin y.1.node).isZero)).flatMap (fun y => (specOf y.1 (F y.1) y.2).map (Prod.mk y.1)) =
          A.flatMap (fun y => (specOf y.1 (F y.1) y.2).map (Prod.mk y.1)) := by
        intro A
        induction A with
        | nil => intro _; rfl
        | cons y A ih =>
          intro hA
          have ih := ih (fun z hz => hA z (by simp [hz]))
          cases hz : (y.2.fin y.1.node).isZero with
          | false => rw [filter_cons_of_pos (by simp [hz]), flatMap_cons, flatMap_cons, ih]
          | true =>
            obtain ⟨⟨r, G⟩, hxG, er, hg⟩ := hmemW y (hA y (by simp))
            obtain ⟨r', g⟩ := y
            simp only at er hg
            subst er
            rw [filter_cons_of_neg (by simp [hz]), flatMap_cons, ih]
            have := zero_group (hrok _ hxG) (hj _ (hmemr _ hxG)) (h2 _ hxG) hg (hF r' (hmemr _ hxG)).2.1 hz
            simp only
            rw [this, map_nil, nil_append]
      exact this WL (fun _ h => h)
    rw [z1, ← hWL, flatMap_assoc]
    have z2 : ∀ A : List (Root × List Grp), (∀ x ∈ A, x ∈ Gs) →
        A.flatMap (fun x => (x.2.map (Prod.mk x.1)).flatMap (fun y => (specOf y.1 (F y.1) y.2).map (Prod.mk y.1))) ~
        A.flatMap (fun x => (rootSpec (F x.1) x.2).map (Prod.mk x.1)) := by
      intro A
      induction A with
      | nil => intro _; exact .refl _
      | cons x A ih =>
        intro hA
        rw [flatMap_cons, flatMap_cons]
        refine Perm.append ?_ (ih (fun z hz => hA z (by simp [hz])))
        rw [flatMap_map]
        have e1 : x.2.flatMap (fun a => (specOf x.1 (F x.1) a).map (Prod.mk x.1)) = (x.2.flatMap (specOf x.1 (F x.1))).map (Prod.mk x.1) := by
          rw [← map_flatMap]
        refine (Perm.of_eq e1).trans ?_
        exact (rootSpec_perm (h2 x (hA x (by simp))) _).map _
    exact z2 Gs (fun _ h => h)
  have hnames : (Gs.map (fun y => y.1.node.xmlName.loc)).Nodup := by
    have := roots_nodup hok
    rw [← h1, map_map] at this
    exact this
  have hitems : ∀ x ∈ Gs, (itemsOf E x.1).map (·.1) ~ rootSpec (F x.1) x.2 := by
    intro x hx
    rw [itemsOf_proj]
    refine ((hE.filter _).map _).trans (.of_eq ?_)
    exact flatMap_one (fun r : Root => r.node.xmlName.loc) (fun x => rootSpec (F x.1) x.2) Gs hnames x hx
  have hEmem : ∀ r, (∃ e ∈ E, e.1 = r) ↔ ∃ x ∈ Gs, x.1 = r ∧ rootSpec (F x.1) x.2 ≠ [] := by
    intro r
    constructor
    · rintro ⟨e, he, rfl⟩
      have : (e.1, e.2.1) ∈ E.map (fun e => (e.1, e.2.1)) := mem_map_of_mem (f := fun e : Root × Sp × Node => (e.1, e.2.1)) he
      rw [hE.mem_iff] at this
      obtain ⟨x, hx, hy⟩ := mem_flatMap.1 this
      obtain ⟨sp, hsp, e1⟩ := mem_map.1 hy
      rw [Prod.mk.injEq] at e1
      exact ⟨x, hx, e1.1, ne_nil_of_mem hsp⟩
    · rintro ⟨x, hx, rfl, hne⟩
      obtain ⟨sp, hsp⟩ := exists_mem_of_ne_nil _ hne
      have : (x.1, sp) ∈ Gs.flatMap (fun x => (rootSpec (F x.1) x.2).map (Prod.mk x.1)) :=
        mem_flatMap.2 ⟨x, hx, mem_map_of_mem hsp⟩
      rw [← hE.mem_iff] at this
      obtain ⟨e, he, e1⟩ := mem_map.1 this
      rw [Prod.mk.injEq] at e1
      exact ⟨e, he, e1.1⟩
  have hQ := roots_apart hok
  obtain ⟨Rs', t1, t2, t3⟩ := loop_any hd hl hQ E [] [] .nil (by simp) (by
      intro e he
      rw [nil_append] at he
      obtain ⟨x, hx, hxe, -⟩ := (hEmem e.1).1 ⟨e, he, rfl⟩
      exact ⟨by rw [← hxe]; exact hmemr x hx, r5 e he⟩) (by simp) (by
      intro r hr
      rw [← h1] at hr
      obtain ⟨x, hx, rfl⟩ := mem_map.1 hr
      rw [nil_append]
      have e1 : (itemsOf E x.1).map (·.1.key) = ((itemsOf E x.1).map (·.1)).map Sp.key := by rw [map_map]; rfl
      rw [e1]
      refine ((hitems x hx).map _).nodup_iff.2 (rootSpec_keys (h2 x hx) ?_)
      have := (hF x.1 (hmemr x hx)).1
      rw [Shape] at this
      exact this.1)
  rw [nil_append, show stateOf (decoder h l) [] [] = [] from rfl, r3, ← decodeTrees_flat (decoder h l) ns r2] at t1
  have hto : JDoc.toDoc env dv ⟨p.about, if p.toolkit = [] then Enc.toolkitVersion else p.toolkit, l, M⟩ =
      .ok { doc := { roots := stateOf (decoder h l) Rs' E, intNs := (decoder h l).int, extNs := (decoder h l).ext }, about := p.about,
            toolkit := if p.toolkit = [] then Enc.toolkitVersion else p.toolkit } := by
    unfold JDoc.toDoc
    simp only [r1]
    rw [hd.reg, show Dec.declare (runReg h) l = decoder h l from rfl, t1]
  have hcont : ∀ r, r ∈ Rs' ↔ r ∈ withContent p.doc.roots := by
    intro r
    rw [t3, hEmem, mem_withContent]
    constructor
    · rintro (hc | ⟨x, hx, rfl, hne⟩)
      · cases hc
      · exact ⟨hmemr x hx, (rootSpec_nil (hrok x hx) (h2 x hx) hd (hF _ (hmemr x hx)).2.1).2 hne⟩
    · rintro ⟨hr, hc⟩
      right
      rw [← h1] at hr
      obtain ⟨x, hx, rfl⟩ := mem_map.1 hr
      exact ⟨x, hx, rfl, (rootSpec_nil (hrok x hx) (h2 x hx) hd (hF _ (hmemr x hx)).2.1).1 hc⟩
  refine ⟨_, hto, rfl, rfl, ⟨Rs', ?_, ?_⟩, ?_⟩
  · refine (perm_ext_iff_of_nodup t2 ?_).2 hcont
    exact (roots_nodup hok).of_map.filter _
  · show Forall₂ _ Rs' (Rs'.map _)
    rw [forall₂_map_right_iff]
    refine forall₂_same.2 ?_
    intro r hr
    obtain ⟨hr1, -⟩ := mem_withContent.1 ((hcont r).1 hr)
    rw [← h1] at hr1
    obtain ⟨x, hx, rfl⟩ := mem_map.1 hr1
    obtain ⟨f1, f2, -⟩ := hF x.1 (hmemr x hx)
    refine root_rebuilt (hrok x hx) (h2 x hx) hreg f1 f2 ?_ (hitems x hx)
    intro e he
    obtain ⟨r', u1, u2⟩ := itemsOf_mem he
    have u3 := r5 _ u1
    simp only at u3
    obtain ⟨y, hy, hye, -⟩ := (hEmem r').1 ⟨_, u1, rfl⟩
    have : r' = x.1 := hQ.inj (by rw [← hye]; exact hmemr y hy) (hmemr x hx) u2
    rw [← this]
    exact u3
  · intro r hr q hq hS
    refine uses_kept hok h1 h2 hl ?_ _ (mem_withContent.1 hr) hq hS
    intro w hw
    exact hbound w (mem_of_mem_filter hw)

end

end Xmp.Props
