import Verif.Model.DocXmp
import Verif.Props.TypedXmpCases
import Verif.Props.TypedUnmixed
import Verif.Lemmas.Path
import Mathlib.Data.List.Perm.Basic

/-! C46: how the content of a document is divided among `rdf:Description` elements. -/

namespace Xmp.Props

open GoStr

/-! ### Groups: the content of a wrapper node, with the number of the field each part comes from -/

/-- The attributes and elements of one namespace. -/
structure Grp where
  key : Str
  attrs : List (Nat × Attr) := []
  nodes : List (Nat × Node) := []

/-- The wrapper node of a group. -/
def Grp.node (g : Grp) : Node := .mk ⟨[], g.key⟩ (g.attrs.map (·.2)) [] (g.nodes.map (·.2))

/-- Change the group of a namespace, creating it if missing. -/
def putGrp (p : Str) (f : Grp → Grp) : List Grp → List Grp
  | [] => [f ⟨p, [], []⟩]
  | g :: l => if g.key = p then f g :: l else g :: putGrp p f l

/-- Add an attribute to the group of its prefix. -/
def putA (l : List Grp) (o : Nat × Attr) : List Grp :=
  putGrp (getPrefix o.2.name.loc) (fun g => { g with attrs := g.attrs ++ [o] }) l

/-- Add an element to the group of its prefix. -/
def putN (l : List Grp) (o : Nat × Node) : List Grp :=
  putGrp (getPrefix o.2.xmlName.loc) (fun g => { g with nodes := g.nodes ++ [o] }) l

theorem getPrefix_no_colon (s : Str) : ':' ∉ getPrefix s := by
  unfold getPrefix
  cases h : indexChar ':' s with
  | none => exact indexChar_none.1 h
  | some i =>
    obtain ⟨a, b, h1, h2, h3⟩ := indexChar_some h
    subst h3
    rw [h1]
    simpa using h2

theorem put_none (p : Str) (f : Grp → Grp) (l : List Grp) (h : ∀ g ∈ l, g.key ≠ p) : putGrp p f l = l ++ [f ⟨p, [], []⟩] := by
  induction l with
  | nil => rfl
  | cons g l ih =>
    rw [putGrp, if_neg (h g (by simp)), ih (fun x hx => h x (by simp [hx]))]
    rfl

theorem put_some (p : Str) (f : Grp → Grp) (l1 l2 : List Grp) (g : Grp) (h : ∀ x ∈ l1, x.key ≠ p) (hg : g.key = p) :
    putGrp p f (l1 ++ g :: l2) = l1 ++ f g :: l2 := by
  induction l1 with
  | nil => rw [List.nil_append, putGrp, if_pos hg]; rfl
  | cons x l ih =>
    rw [List.cons_append, putGrp, if_neg (h x (by simp)), ih (fun y hy => h y (by simp [hy]))]
    rfl

/-- Either no group of the namespace exists, or there is a first one. -/
theorem grp_cases (p : Str) (l : List Grp) :
    (∀ g ∈ l, g.key ≠ p) ∨ ∃ l1 g l2, l = l1 ++ g :: l2 ∧ (∀ x ∈ l1, x.key ≠ p) ∧ g.key = p := by
  induction l with
  | nil => left; intro g hg; cases hg
  | cons x l ih =>
    by_cases hx : x.key = p
    · right; exact ⟨[], x, l, rfl, by simp, hx⟩
    · rcases ih with h | ⟨l1, g, l2, h1, h2, h3⟩
      · left
        intro g hg
        rcases List.mem_cons.1 hg with rfl | hg
        · exact hx
        · exact h g hg
      · right
        refine ⟨x :: l1, g, l2, by rw [h1]; rfl, ?_, h3⟩
        intro y hy
        rcases List.mem_cons.1 hy with rfl | hy
        · exact hx
        · exact h2 y hy

/-- The keys after a change: the same, or one more. -/
theorem put_keys (p : Str) (f : Grp → Grp) (hf : ∀ g, (f g).key = g.key) (l : List Grp) :
    (putGrp p f l).map (·.key) = if p ∈ l.map (·.key) then l.map (·.key) else l.map (·.key) ++ [p] := by
  rcases grp_cases p l with h | ⟨l1, g, l2, h1, h2, h3⟩
  · rw [put_none p f l h, if_neg, List.map_append]
    · simp [hf]
    · intro hm
      obtain ⟨g, hg, e⟩ := List.mem_map.1 hm
      exact h g hg e
  · subst h1
    rw [put_some p f l1 l2 g h2 h3, if_pos]
    · simp [hf]
    · simp [h3]

theorem put_keys_nodup (p : Str) (f : Grp → Grp) (hf : ∀ g, (f g).key = g.key) (l : List Grp) (h : (l.map (·.key)).Nodup) :
    ((putGrp p f l).map (·.key)).Nodup := by
  rw [put_keys p f hf]
  split
  · exact h
  · rename_i hp
    rw [List.nodup_append]
    refine ⟨h, by simp, ?_⟩
    intro a ha b hb
    rw [List.mem_singleton] at hb
    subst hb
    intro e
    subst e
    exact hp ha

/-- Which groups there are after a change. -/
theorem mem_put {p : Str} {f : Grp → Grp} {l : List Grp} {g : Grp} (h : g ∈ putGrp p f l) :
    g ∈ l ∨ ∃ x, (x ∈ l ∨ x = ⟨p, [], []⟩) ∧ x.key = p ∧ g = f x := by
  rcases grp_cases p l with hn | ⟨l1, x, l2, h1, h2, h3⟩
  · rw [put_none p f l hn, List.mem_append, List.mem_singleton] at h
    rcases h with h | h
    · exact Or.inl h
    · exact Or.inr ⟨_, Or.inr rfl, rfl, h⟩
  · subst h1
    rw [put_some p f l1 l2 x h2 h3] at h
    simp only [List.mem_append, List.mem_cons] at h
    rcases h with h | h | h
    · left; simp [h]
    · right; exact ⟨x, by simp, h3, h⟩
    · left; simp [h]

theorem putA_attrs (l : List Grp) (o : Nat × Attr) : ((putA l o).flatMap (·.attrs)).Perm (l.flatMap (·.attrs) ++ [o]) := by
  unfold putA
  rcases grp_cases (getPrefix o.2.name.loc) l with hn | ⟨l1, x, l2, h1, h2, h3⟩
  · rw [put_none _ _ l hn, List.flatMap_append]
    simp
  · subst h1
    rw [put_some _ _ l1 l2 x h2 h3]
    simp only [List.flatMap_append, List.flatMap_cons, List.append_assoc]
    refine List.Perm.append_left _ (List.Perm.append_left _ ?_)
    exact List.perm_append_comm

theorem putA_nodes (l : List Grp) (o : Nat × Attr) : (putA l o).flatMap (·.nodes) = l.flatMap (·.nodes) := by
  unfold putA
  rcases grp_cases (getPrefix o.2.name.loc) l with hn | ⟨l1, x, l2, h1, h2, h3⟩
  · rw [put_none _ _ l hn, List.flatMap_append]
    simp
  · subst h1
    rw [put_some _ _ l1 l2 x h2 h3]
    simp

theorem putN_nodes (l : List Grp) (o : Nat × Node) : ((putN l o).flatMap (·.nodes)).Perm (l.flatMap (·.nodes) ++ [o]) := by
  unfold putN
  rcases grp_cases (getPrefix o.2.xmlName.loc) l with hn | ⟨l1, x, l2, h1, h2, h3⟩
  · rw [put_none _ _ l hn, List.flatMap_append]
    simp
  · subst h1
    rw [put_some _ _ l1 l2 x h2 h3]
    simp only [List.flatMap_append, List.flatMap_cons, List.append_assoc]
    refine List.Perm.append_left _ (List.Perm.append_left _ ?_)
    exact List.perm_append_comm

theorem putN_attrs (l : List Grp) (o : Nat × Node) : (putN l o).flatMap (·.attrs) = l.flatMap (·.attrs) := by
  unfold putN
  rcases grp_cases (getPrefix o.2.xmlName.loc) l with hn | ⟨l1, x, l2, h1, h2, h3⟩
  · rw [put_none _ _ l hn, List.flatMap_append]
    simp
  · subst h1
    rw [put_some _ _ l1 l2 x h2 h3]
    simp

theorem foldA_attrs (outs : List (Nat × Attr)) : ∀ l : List Grp,
    ((outs.foldl putA l).flatMap (·.attrs)).Perm (l.flatMap (·.attrs) ++ outs) := by
  induction outs with
  | nil => intro l; simp
  | cons o outs ih =>
    intro l
    rw [List.foldl_cons]
    refine (ih _).trans ?_
    rw [show l.flatMap (·.attrs) ++ o :: outs = (l.flatMap (·.attrs) ++ [o]) ++ outs by simp]
    exact List.Perm.append_right _ (putA_attrs l o)

theorem foldA_nodes (outs : List (Nat × Attr)) : ∀ l : List Grp, (outs.foldl putA l).flatMap (·.nodes) = l.flatMap (·.nodes) := by
  induction outs with
  | nil => intro l; rfl
  | cons o outs ih => intro l; rw [List.foldl_cons, ih, putA_nodes]

theorem foldN_nodes (outs : List (Nat × Node)) : ∀ l : List Grp,
    ((outs.foldl putN l).flatMap (·.nodes)).Perm (l.flatMap (·.nodes) ++ outs) := by
  induction outs with
  | nil => intro l; simp
  | cons o outs ih =>
    intro l
    rw [List.foldl_cons]
    refine (ih _).trans ?_
    rw [show l.flatMap (·.nodes) ++ o :: outs = (l.flatMap (·.nodes) ++ [o]) ++ outs by simp]
    exact List.Perm.append_right _ (putN_nodes l o)

theorem foldN_attrs (outs : List (Nat × Node)) : ∀ l : List Grp, (outs.foldl putN l).flatMap (·.attrs) = l.flatMap (·.attrs) := by
  induction outs with
  | nil => intro l; rfl
  | cons o outs ih => intro l; rw [List.foldl_cons, ih, putN_attrs]

/-- A property of groups that all changes keep. -/
theorem foldA_inv (P : Grp → Prop) (outs : List (Nat × Attr)) (h0 : ∀ o ∈ outs, P ⟨getPrefix o.2.name.loc, [], []⟩)
    (hs : ∀ o ∈ outs, ∀ g, g.key = getPrefix o.2.name.loc → P g → P { g with attrs := g.attrs ++ [o] }) :
    ∀ l : List Grp, (∀ g ∈ l, P g) → ∀ g ∈ outs.foldl putA l, P g := by
  induction outs with
  | nil => intro l hl; exact hl
  | cons o outs ih =>
    intro l hl
    rw [List.foldl_cons]
    refine ih (fun x hx => h0 x (by simp [hx])) (fun x hx => hs x (by simp [hx])) _ ?_
    intro g hg
    rcases mem_put hg with hg | ⟨x, hx, hk, rfl⟩
    · exact hl g hg
    · refine hs o (by simp) x hk ?_
      rcases hx with hx | rfl
      · exact hl x hx
      · exact h0 o (by simp)

theorem foldN_inv (P : Grp → Prop) (outs : List (Nat × Node)) (h0 : ∀ o ∈ outs, P ⟨getPrefix o.2.xmlName.loc, [], []⟩)
    (hs : ∀ o ∈ outs, ∀ g, g.key = getPrefix o.2.xmlName.loc → P g → P { g with nodes := g.nodes ++ [o] }) :
    ∀ l : List Grp, (∀ g ∈ l, P g) → ∀ g ∈ outs.foldl putN l, P g := by
  induction outs with
  | nil => intro l hl; exact hl
  | cons o outs ih =>
    intro l hl
    rw [List.foldl_cons]
    refine ih (fun x hx => h0 x (by simp [hx])) (fun x hx => hs x (by simp [hx])) _ ?_
    intro g hg
    rcases mem_put hg with hg | ⟨x, hx, hk, rfl⟩
    · exact hl g hg
    · refine hs o (by simp) x hk ?_
      rcases hx with hx | rfl
      · exact hl x hx
      · exact h0 o (by simp)

theorem foldA_keys (outs : List (Nat × Attr)) : ∀ l : List Grp, (l.map (·.key)).Nodup → ((outs.foldl putA l).map (·.key)).Nodup := by
  induction outs with
  | nil => intro l h; exact h
  | cons o outs ih =>
    intro l h
    rw [List.foldl_cons]
    exact ih _ (by first | exact put_keys_nodup _ (fun g => { g with attrs := g.attrs ++ [o] }) (fun _ => rfl) l h | exact put_keys_nodup _ (fun g => { g with nodes := g.nodes ++ [o] }) (fun _ => rfl) l h)

theorem foldN_keys (outs : List (Nat × Node)) : ∀ l : List Grp, (l.map (·.key)).Nodup → ((outs.foldl putN l).map (·.key)).Nodup := by
  induction outs with
  | nil => intro l h; exact h
  | cons o outs ih =>
    intro l h
    rw [List.foldl_cons]
    exact ih _ (by first | exact put_keys_nodup _ (fun g => { g with attrs := g.attrs ++ [o] }) (fun _ => rfl) l h | exact put_keys_nodup _ (fun g => { g with nodes := g.nodes ++ [o] }) (fun _ => rfl) l h)

/-! ### The wrapper nodes of the encoder are those of the groups -/

/-- The namespace has no wrapper among these nodes. -/
def Avoids (pre : List Node) (p : Str) : Prop := ∀ w ∈ pre, w.xmlName.loc ≠ p ∧ w.name ≠ p

theorem findIdx?_mid {α : Type} (P : α → Bool) (a : List α) (b : α) (c : List α) (ha : ∀ x ∈ a, P x = false) (hb : P b = true) :
    (a ++ b :: c).findIdx? P = some a.length := by
  induction a with
  | nil => simp [List.findIdx?_cons, hb]
  | cons x a ih =>
    rw [List.cons_append, List.findIdx?_cons, ha x (by simp)]
    simp [ih (fun y hy => ha y (by simp [hy]))]

theorem findIdx?_no {α : Type} (P : α → Bool) (a : List α) (ha : ∀ x ∈ a, P x = false) : a.findIdx? P = none := by
  rw [List.findIdx?_eq_none_iff]
  exact ha

theorem expandName_nil (p : Str) : expandName p [] = p := rfl

theorem grp_name {g : Grp} (h : ':' ∉ g.key) : g.node.name = g.key := stripPrefix_none h

theorem wrapper_put (ns : Namespace) (F : Node → Option Node) (f : Grp → Grp) (pre : List Node) (L : List Grp)
    (hpre : Avoids pre ns.name) (hL : ∀ g ∈ L, ':' ∉ g.key) (hf : ∀ g, (f g).key = g.key)
    (hF : ∀ g, (g ∈ L ∨ g = ⟨ns.name, [], []⟩) → g.key = ns.name → F g.node = some (f g).node) :
    Enc.inWrapper ns F (pre ++ L.map Grp.node) = some (pre ++ (putGrp ns.name f L).map Grp.node) := by
  have hpre' : ∀ w ∈ pre, decide (w.name = ns.name) = false := fun w hw => decide_eq_false (hpre w hw).2
  rcases grp_cases ns.name L with hn | ⟨l1, g, l2, h1, h2, h3⟩
  · have hnone : (pre ++ L.map Grp.node).findIdx? (fun w => decide (w.name = ns.name)) = none := by
      apply findIdx?_no
      intro w hw
      rcases List.mem_append.1 hw with hw | hw
      · exact hpre' w hw
      · obtain ⟨g, hg, rfl⟩ := List.mem_map.1 hw
        exact decide_eq_false (by rw [grp_name (hL g hg)]; exact hn g hg)
    unfold Enc.inWrapper
    rw [hnone]
    simp only
    rw [expandName_nil]
    have : (Node.new ⟨[], ns.name⟩) = (Grp.node ⟨ns.name, [], []⟩) := rfl
    rw [this, hF _ (Or.inr rfl) rfl]
    simp only [Option.map_some]
    rw [addNode_fresh, put_none _ _ _ hn]
    · simp
    · intro w hw
      show w.xmlName.loc ≠ (f ⟨ns.name, [], []⟩).key
      rw [hf]
      rcases List.mem_append.1 hw with hw | hw
      · exact (hpre w hw).1
      · obtain ⟨g, hg, rfl⟩ := List.mem_map.1 hw
        exact hn g hg
  · subst h1
    have e : pre ++ (l1 ++ g :: l2).map Grp.node = (pre ++ l1.map Grp.node) ++ g.node :: l2.map Grp.node := by simp
    have hsome : ((pre ++ l1.map Grp.node) ++ g.node :: l2.map Grp.node).findIdx? (fun w => decide (w.name = ns.name)) =
        some (pre ++ l1.map Grp.node).length := by
      apply findIdx?_mid
      · intro w hw
        rcases List.mem_append.1 hw with hw | hw
        · exact hpre' w hw
        · obtain ⟨x, hx, rfl⟩ := List.mem_map.1 hw
          exact decide_eq_false (by rw [grp_name (hL x (by simp [hx]))]; exact h2 x hx)
      · exact decide_eq_true (by rw [grp_name (hL g (by simp))]; exact h3)
    rw [e]
    unfold Enc.inWrapper
    rw [hsome]
    simp only [List.getElem?_append_right (Nat.le_refl _), Nat.sub_self,
      List.getElem?_cons_zero]
    rw [hF g (Or.inl (by simp)) h3]
    simp only [Option.map_some]
    rw [put_some _ _ l1 l2 g h2 h3]
    simp [List.set_append_right]

/-! ### The fields of a model -/

/-- What an element written for field `i` means to every decoder that recognises its names. -/
def GoodElem (dv : Version) (all : List FieldInfo) (tf : List Ty) (vf : List Val) (i : Nat) (x : Node) : Prop :=
  ∃ t v nm, tf[i]? = some t ∧ vf[i]? = some v ∧ x.xmlName = ⟨[], nm⟩ ∧ findStructField dv all nm = some i ∧
    (∃ f, all[i]? = some f ∧ nm = f.name ∧ f.attr = false ∧ fieldWritten f t v = true ∧ Faithful dv t v ∧
      marshalValue t v (Node.new ⟨[], f.name⟩) = some x) ∧ Unmixed x ∧
    ∀ d uri, RdfOK d uri → Understood d uri x → unmarshal d dv (x.reparse uri) true t t.zero = .ok v

/-- A faithful value is written in a way that every decoder reads. -/
theorem roundtrips_every (dv : Version) (t : Ty) (ht : TyNames (· ∉ markupNames) t) (v : Val) (name : QName)
    (hf : Faithful dv t v) : ∃ n, marshalValue t v (Node.new name) = some n ∧ n.xmlName = name ∧
      ∀ d uri, RdfOK d uri → Understood d uri n → ∀ info, unmarshal d dv (n.reparse uri) info t t.zero = .ok v := by
  obtain ⟨n, h1, h2, -⟩ := roundtrips sampleDec dv sampleUri sampleRdf t ht v name hf
  refine ⟨n, h1, h2, ?_⟩
  intro d uri hr hu info
  obtain ⟨n', h1', -, h3⟩ := roundtrips d dv uri hr t ht v name hf
  rw [h1] at h1'
  cases h1'
  exact h3 hu info

/-- The prefix of a field has a namespace that is not among the wrappers `pre`. -/
def FieldNs (env : Env) (d : XDoc) (pre : List Node) (f : FieldInfo) : Prop :=
  ∃ ns, d.findNsByPrefix env (getPrefix f.name) = some ns ∧ ns.name = getPrefix f.name ∧ Avoids pre ns.name

theorem enc_findNs (env : Env) (d : XDoc) (loc : Str) : Enc.findNs env d ⟨[], loc⟩ = d.findNsByPrefix env (getPrefix loc) := by
  simp [Enc.findNs]

theorem attrs_grouped (env : Env) (d : XDoc) (pre : List Node) (dv : Version) (all : List FieldInfo) (tf : List Ty)
    (vf : List Val) : ∀ (ts : List Ty) (k : Nat) (fs : List FieldInfo) (vs : List Val) (L : List Grp),
    FaithfulFields dv ts all k fs vs → (∀ j, tf[k + j]? = ts[j]?) → (∀ j, vf[k + j]? = vs[j]?) →
    (∀ j, all[k + j]? = fs[j]?) →
    (∀ (j : Nat) f t v, fs[j]? = some f → ts[j]? = some t → vs[j]? = some v → fieldWritten f t v = true → FieldNs env d pre f) →
    (∀ g ∈ L, ':' ∉ g.key) →
    (∀ g ∈ L, ∀ o ∈ g.attrs, ∃ j, j < k ∧ findStructField dv all o.2.name.loc = some j) →
    ∃ outs : List (Nat × Attr), Enc.attrs env d fs ts vs (pre ++ L.map Grp.node) =
        some (pre ++ (outs.foldl putA L).map Grp.node) ∧
      (∀ o ∈ outs, k ≤ o.1 ∧ GoodAttr dv all tf vf o.1 o.2) ∧ (outs.map (·.1)).Nodup ∧
      (∀ i f t v, k ≤ i → all[i]? = some f → tf[i]? = some t → vf[i]? = some v → f.attr = true →
        fieldWritten f t v = true → i ∈ outs.map (·.1)) ∧
      (∀ o ∈ outs, ∃ f t v, all[o.1]? = some f ∧ tf[o.1]? = some t ∧ vf[o.1]? = some v ∧ f.attr = true ∧ fieldWritten f t v = true) := by
  intro ts
  induction ts with
  | nil =>
    intro k fs vs L hf ht hv ha hns hc hfresh
    rw [FaithfulFields] at hf
    obtain ⟨rfl, rfl⟩ := hf
    refine ⟨[], ?_, by simp, by simp, ?_, by simp⟩
    · simp [Enc.attrs]
    · intro i f t v hi h1 h2
      have := ht (i - k)
      rw [show k + (i - k) = i by omega, h2] at this
      simp at this
  | cons t ts ih =>
    intro k fs vs L hf ht hv ha hns hcol hfresh
    rw [FaithfulFields] at hf
    obtain ⟨f, fs, v, vs, rfl, rfl, hc, hrest⟩ := hf
    have ht0 : tf[k]? = some t := by have := ht 0; simpa using this
    have hv0 : vf[k]? = some v := by have := hv 0; simpa using this
    have ha0 : all[k]? = some f := by have := ha 0; simpa using this
    have ht' : ∀ j, tf[k + 1 + j]? = ts[j]? := fun j => by have := ht (j + 1); rw [List.getElem?_cons_succ] at this; rw [← this]; congr 1; omega
    have hv' : ∀ j, vf[k + 1 + j]? = vs[j]? := fun j => by have := hv (j + 1); rw [List.getElem?_cons_succ] at this; rw [← this]; congr 1; omega
    have ha' : ∀ j, all[k + 1 + j]? = fs[j]? := fun j => by have := ha (j + 1); rw [List.getElem?_cons_succ] at this; rw [← this]; congr 1; omega
    have hns' : ∀ (j : Nat) f t v, fs[j]? = some f → ts[j]? = some t → vs[j]? = some v → fieldWritten f t v = true → FieldNs env d pre f :=
      fun j f t v h1 h2 h3 => hns (j + 1) f t v h1 h2 h3
    rw [Enc.attrs]
    by_cases hw : (f.attr && fieldWritten f t v) = true
    · rw [if_pos hw]
      simp only [Bool.and_eq_true] at hw
      rw [if_pos hw.2, if_pos hw.1] at hc
      obtain ⟨s, hs1, hs2⟩ := attr_reads hc.2
      obtain ⟨ns, hn1, hn2, hn3⟩ := hns 0 f t v rfl rfl rfl hw.2
      rw [enc_findNs, hn1]
      simp only
      have hstep : Enc.inWrapper ns (marshalAttr f t v) (pre ++ L.map Grp.node) =
          some (pre ++ (putA L (k, ⟨⟨[], f.name⟩, s⟩)).map Grp.node) := by
        unfold putA
        rw [wrapper_put ns _ (fun g => { g with attrs := g.attrs ++ [(k, ⟨⟨[], f.name⟩, s⟩)] }) pre L hn3 hcol (fun _ => rfl)]
        · rw [hn2]
        · intro g hg hk
          unfold marshalAttr
          rw [hs1]
          simp only [Option.some.injEq]
          unfold Node.addAttr
          rw [addAttr_fresh]
          · simp [Grp.node, Node.setAttrs, Node.attrs]
          · intro x hx he
            rcases hg with hg | rfl
            · simp only [Grp.node, Node.attrs] at hx
              obtain ⟨o, ho, rfl⟩ := List.mem_map.1 hx
              obtain ⟨j, hj1, hj2⟩ := hfresh g hg o ho
              simp only at he
              rw [he, hc.1] at hj2
              have := Option.some.inj hj2
              omega
            · cases hx
      rw [hstep]
      simp only
      have hcol' : ∀ g ∈ putA L (k, ⟨⟨[], f.name⟩, s⟩), ':' ∉ g.key := by
        intro g hg
        rcases mem_put hg with hg | ⟨x, hx, hk, rfl⟩
        · exact hcol g hg
        · simp only [hk]
          exact getPrefix_no_colon _
      have hfresh' : ∀ g ∈ putA L (k, ⟨⟨[], f.name⟩, s⟩), ∀ o ∈ g.attrs, ∃ j, j < k + 1 ∧ findStructField dv all o.2.name.loc = some j := by
        intro g hg o ho
        rcases mem_put hg with hg | ⟨x, hx, hk, rfl⟩
        · obtain ⟨j, h1, h2⟩ := hfresh g hg o ho
          exact ⟨j, by omega, h2⟩
        · rcases List.mem_append.1 ho with ho | ho
          · rcases hx with hx | rfl
            · obtain ⟨j, h1, h2⟩ := hfresh x hx o ho
              exact ⟨j, by omega, h2⟩
            · cases ho
          · rw [List.mem_singleton] at ho
            subst ho
            exact ⟨k, by omega, hc.1⟩
      obtain ⟨outs, h1, h2, h3, h4, h5⟩ := ih (k + 1) fs vs _ hrest ht' hv' ha' hns' hcol' hfresh'
      refine ⟨(k, ⟨⟨[], f.name⟩, s⟩) :: outs, ?_, ?_, ?_, ?_, ?_⟩
      · rw [h1]; rfl
      · intro o ho
        rcases List.mem_cons.1 ho with rfl | ho
        · exact ⟨Nat.le_refl _, t, v, ht0, hv0, hc.1, rfl, ⟨f, ha0, rfl, hw.1, hw.2, hc.2, hs1⟩, hs2⟩
        · have := h2 o ho
          exact ⟨by omega, this.2⟩
      · rw [List.map_cons, List.nodup_cons]
        refine ⟨?_, h3⟩
        intro hk
        obtain ⟨o, ho, hok⟩ := List.mem_map.1 hk
        have := (h2 o ho).1
        simp only at hok
        omega
      · intro i f' t' v' hi e1 e2 e3 e4 e5
        rw [List.map_cons, List.mem_cons]
        by_cases hik : i = k
        · exact Or.inl hik
        · exact Or.inr (h4 i f' t' v' (by omega) e1 e2 e3 e4 e5)
      · intro o ho
        rcases List.mem_cons.1 ho with rfl | ho
        · exact ⟨f, t, v, ha0, ht0, hv0, hw.1, hw.2⟩
        · exact h5 o ho
    · rw [if_neg hw]
      have hfresh' : ∀ g ∈ L, ∀ o ∈ g.attrs, ∃ j, j < k + 1 ∧ findStructField dv all o.2.name.loc = some j := by
        intro g hg o ho
        obtain ⟨j, h1, h2⟩ := hfresh g hg o ho
        exact ⟨j, by omega, h2⟩
      obtain ⟨outs, h1, h2, h3, h4, h5⟩ := ih (k + 1) fs vs _ hrest ht' hv' ha' hns' hcol hfresh'
      refine ⟨outs, h1, ?_, h3, ?_, h5⟩
      · intro o ho
        have := h2 o ho
        exact ⟨by omega, this.2⟩
      · intro i f' t' v' hi e1 e2 e3 e4 e5
        by_cases hik : i = k
        · subst hik
          rw [ha0] at e1; rw [ht0] at e2; rw [hv0] at e3
          cases e1; cases e2; cases e3
          exact absurd (by simp [e4, e5]) hw
        · exact h4 i f' t' v' (by omega) e1 e2 e3 e4 e5

theorem fields_grouped (env : Env) (d : XDoc) (pre : List Node) (dv : Version) (P : QName → Prop) (hm : MarkupP P)
    (all : List FieldInfo) (tf : List Ty)
    (vf : List Val) : ∀ (ts : List Ty) (k : Nat) (fs : List FieldInfo) (vs : List Val) (L : List Grp),
    FaithfulFields dv ts all k fs vs → (∀ j, tf[k + j]? = ts[j]?) → (∀ j, vf[k + j]? = vs[j]?) →
    (∀ j, all[k + j]? = fs[j]?) →
    (∀ (j : Nat) f t v, fs[j]? = some f → ts[j]? = some t → vs[j]? = some v → fieldWritten f t v = true → TyNames (fun nm => nm ∉ markupNames ∧ P ⟨[], nm⟩) t ∧ P ⟨[], f.name⟩ ∧ FieldNs env d pre f) →
    (∀ g ∈ L, ':' ∉ g.key) →
    (∀ g ∈ L, ∀ o ∈ g.nodes, ∃ j, j < k ∧ findStructField dv all o.2.xmlName.loc = some j) →
    ∃ outs : List (Nat × Node), Enc.fields env d fs ts vs (pre ++ L.map Grp.node) =
        some (pre ++ (outs.foldl putN L).map Grp.node) ∧
      (∀ o ∈ outs, k ≤ o.1 ∧ GoodElem dv all tf vf o.1 o.2 ∧ NamesP P o.2) ∧ (outs.map (·.1)).Nodup ∧
      (∀ i f t v, k ≤ i → all[i]? = some f → tf[i]? = some t → vf[i]? = some v → f.attr = false →
        fieldWritten f t v = true → i ∈ outs.map (·.1)) ∧
      (∀ o ∈ outs, ∃ f t v, all[o.1]? = some f ∧ tf[o.1]? = some t ∧ vf[o.1]? = some v ∧ f.attr = false ∧ fieldWritten f t v = true) := by
  intro ts
  induction ts with
  | nil =>
    intro k fs vs L hf ht hv ha hns hc hfresh
    rw [FaithfulFields] at hf
    obtain ⟨rfl, rfl⟩ := hf
    refine ⟨[], ?_, by simp, by simp, ?_, by simp⟩
    · simp [Enc.fields]
    · intro i f t v hi h1 h2
      have := ht (i - k)
      rw [show k + (i - k) = i by omega, h2] at this
      simp at this
  | cons t ts ih =>
    intro k fs vs L hf ht hv ha hns hcol hfresh
    rw [FaithfulFields] at hf
    obtain ⟨f, fs, v, vs, rfl, rfl, hc, hrest⟩ := hf
    have ht0 : tf[k]? = some t := by have := ht 0; simpa using this
    have hv0 : vf[k]? = some v := by have := hv 0; simpa using this
    have ha0 : all[k]? = some f := by have := ha 0; simpa using this
    have ht' : ∀ j, tf[k + 1 + j]? = ts[j]? := fun j => by have := ht (j + 1); rw [List.getElem?_cons_succ] at this; rw [← this]; congr 1; omega
    have hv' : ∀ j, vf[k + 1 + j]? = vs[j]? := fun j => by have := hv (j + 1); rw [List.getElem?_cons_succ] at this; rw [← this]; congr 1; omega
    have ha' : ∀ j, all[k + 1 + j]? = fs[j]? := fun j => by have := ha (j + 1); rw [List.getElem?_cons_succ] at this; rw [← this]; congr 1; omega
    have hns' : ∀ (j : Nat) f t v, fs[j]? = some f → ts[j]? = some t → vs[j]? = some v → fieldWritten f t v = true →
        TyNames (fun nm => nm ∉ markupNames ∧ P ⟨[], nm⟩) t ∧ P ⟨[], f.name⟩ ∧ FieldNs env d pre f :=
      fun j f t v h1 h2 h3 => hns (j + 1) f t v h1 h2 h3
    rw [Enc.fields]
    by_cases hw : (!f.attr && fieldWritten f t v) = true
    · rw [if_pos hw]
      simp only [Bool.and_eq_true, Bool.not_eq_true'] at hw
      rw [if_pos hw.2, if_neg (by simp [hw.1])] at hc
      obtain ⟨hty, hfn, ns, hn1, hn2, hn3⟩ := hns 0 f t v rfl rfl rfl hw.2
      obtain ⟨x, hx1, hx2, hx3⟩ := roundtrips_every dv t (tyNames_mono (fun _ h => h.1) t hty) v ⟨[], f.name⟩ hc.2
      have hx4 : NamesP P x := keepsP_names (marshal_inner hm t v _ x (tyNames_mono (fun _ h => h.2) t hty) (innerP_new _) hx1)
        hfn
      rw [enc_findNs, hn1]
      simp only
      have hxn : x.xmlName.loc = f.name := by rw [hx2]
      have hstep : Enc.inWrapper ns (fun w => (marshalValue t v (Node.new ⟨[], f.name⟩)).map w.addNode) (pre ++ L.map Grp.node) =
          some (pre ++ (putN L (k, x)).map Grp.node) := by
        unfold putN
        rw [wrapper_put ns _ (fun g => { g with nodes := g.nodes ++ [(k, x)] }) pre L hn3 hcol (fun _ => rfl)]
        · rw [hn2, hxn]
        · intro g hg hk
          rw [hx1]
          simp only [Option.map_some, Option.some.injEq]
          unfold Node.addNode
          rw [addNode_fresh]
          · simp [Grp.node, Node.setNodes, Node.nodes]
          · intro y hy he
            rcases hg with hg | rfl
            · simp only [Grp.node, Node.nodes] at hy
              obtain ⟨o, ho, rfl⟩ := List.mem_map.1 hy
              obtain ⟨j, hj1, hj2⟩ := hfresh g hg o ho
              rw [he, hxn, hc.1] at hj2
              have := Option.some.inj hj2
              omega
            · cases hy
      rw [hstep]
      simp only
      have hcol' : ∀ g ∈ putN L (k, x), ':' ∉ g.key := by
        intro g hg
        rcases mem_put hg with hg | ⟨x, hx, hk, rfl⟩
        · exact hcol g hg
        · simp only [hk]
          exact getPrefix_no_colon _
      have hfresh' : ∀ g ∈ putN L (k, x), ∀ o ∈ g.nodes, ∃ j, j < k + 1 ∧ findStructField dv all o.2.xmlName.loc = some j := by
        intro g hg o ho
        rcases mem_put hg with hg | ⟨y, hy, hk, rfl⟩
        · obtain ⟨j, h1, h2⟩ := hfresh g hg o ho
          exact ⟨j, by omega, h2⟩
        · rcases List.mem_append.1 ho with ho | ho
          · rcases hy with hy | rfl
            · obtain ⟨j, h1, h2⟩ := hfresh y hy o ho
              exact ⟨j, by omega, h2⟩
            · cases ho
          · rw [List.mem_singleton] at ho
            subst ho
            exact ⟨k, by omega, by rw [hxn]; exact hc.1⟩
      obtain ⟨outs, h1, h2, h3, h4, h5⟩ := ih (k + 1) fs vs _ hrest ht' hv' ha' hns' hcol' hfresh'
      refine ⟨(k, x) :: outs, ?_, ?_, ?_, ?_, ?_⟩
      · rw [h1]; rfl
      · intro o ho
        rcases List.mem_cons.1 ho with rfl | ho
        · exact ⟨Nat.le_refl _, ⟨t, v, f.name, ht0, hv0, hx2, hc.1, ⟨f, ha0, rfl, hw.1, hw.2, hc.2, hx1⟩, marshal_unmixed t v _ x rfl rfl hx1, fun d uri hr hu => hx3 d uri hr hu true⟩, hx4⟩
        · have := h2 o ho
          exact ⟨by omega, this.2⟩
      · rw [List.map_cons, List.nodup_cons]
        refine ⟨?_, h3⟩
        intro hk
        obtain ⟨o, ho, hok⟩ := List.mem_map.1 hk
        have := (h2 o ho).1
        simp only at hok
        omega
      · intro i f' t' v' hi e1 e2 e3 e4 e5
        rw [List.map_cons, List.mem_cons]
        by_cases hik : i = k
        · exact Or.inl hik
        · exact Or.inr (h4 i f' t' v' (by omega) e1 e2 e3 e4 e5)
      · intro o ho
        rcases List.mem_cons.1 ho with rfl | ho
        · exact ⟨f, t, v, ha0, ht0, hv0, hw.1, hw.2⟩
        · exact h5 o ho
    · rw [if_neg hw]
      have hfresh' : ∀ g ∈ L, ∀ o ∈ g.nodes, ∃ j, j < k + 1 ∧ findStructField dv all o.2.xmlName.loc = some j := by
        intro g hg o ho
        obtain ⟨j, h1, h2⟩ := hfresh g hg o ho
        exact ⟨j, by omega, h2⟩
      obtain ⟨outs, h1, h2, h3, h4, h5⟩ := ih (k + 1) fs vs _ hrest ht' hv' ha' hns' hcol hfresh'
      refine ⟨outs, h1, ?_, h3, ?_, h5⟩
      · intro o ho
        have := h2 o ho
        exact ⟨by omega, this.2⟩
      · intro i f' t' v' hi e1 e2 e3 e4 e5
        by_cases hik : i = k
        · subst hik
          rw [ha0] at e1; rw [ht0] at e2; rw [hv0] at e3
          cases e1; cases e2; cases e3
          exact absurd (by simp [e4, e5]) hw
        · exact h4 i f' t' v' (by omega) e1 e2 e3 e4 e5

end Xmp.Props
