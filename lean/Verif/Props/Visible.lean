import Verif.Props.ModelPath
import Verif.Model.DocXmp

/-! C78: what a document shows of its values.  The backing array of a slice may hold more elements than the slice; writing a
document and reading its paths do not depend on them. -/

namespace Xmp.Props

open GoStr

/-! ### Specification -/

mutual
/-- A value without the elements that backing arrays hold beyond the length of slices. -/
def visible : Val → Val
  | .slice l _ => .slice (visibles l) []
  | .ptr v => .ptr (visible v)
  | .struct vals => .struct (visibles vals)
  | .int i => .int i
  | .bool b => .bool b
  | .str s => .str s
  | .bytes s => .bytes s
  | .opq n => .opq n
  | .alt a => .alt a
  | .nil => .nil
/-- The same for a list of values. -/
def visibles : List Val → List Val
  | [] => []
  | v :: vs => visible v :: visibles vs
end

mutual
/-- The `IsZero` methods of a type look at nothing else. -/
def SeesVisible : Ty → Prop
  | .slice _ t => SeesVisible t
  | .ptr t => SeesVisible t
  | .struct z _ tys => (∀ zf, z = some zf → ∀ vals, zf (visibles vals) = zf vals) ∧ SeesVisibleAll tys
  | _ => True
/-- The same for a list of types. -/
def SeesVisibleAll : List Ty → Prop
  | [] => True
  | t :: ts => SeesVisible t ∧ SeesVisibleAll ts
end

/-- A top-level node without hidden elements in its model. -/
def Root.visible (r : Root) : Root := { r with model := r.model.map (fun m => { m with val := Props.visible m.val }) }

/-- A document without hidden elements. -/
def visibleDoc (d : XDoc) : XDoc := { d with roots := d.roots.map Root.visible }

/-! ### Values -/

theorem visibles_eq : ∀ l : List Val, visibles l = l.map visible
  | [] => by simp [visibles]
  | v :: vs => by rw [visibles, visibles_eq vs, List.map_cons]

theorem visibles_get (l : List Val) (i : Nat) : (visibles l)[i]? = l[i]?.map visible := by
  rw [visibles_eq, List.getElem?_map]

theorem visibles_set (l : List Val) (i : Nat) (x : Val) : visibles (l.set i x) = (visibles l).set i (visible x) := by
  rw [visibles_eq, visibles_eq, List.map_set]

theorem visibles_isEmpty (l : List Val) : (visibles l).isEmpty = l.isEmpty := by
  rw [visibles_eq]; cases l <;> rfl

mutual
theorem visible_zero : ∀ t : Ty, visible t.zero = t.zero
  | .int _ => by simp [Ty.zero, visible]
  | .uint _ => by simp [Ty.zero, visible]
  | .bool => by simp [Ty.zero, visible]
  | .str => by simp [Ty.zero, visible]
  | .bytes => by simp [Ty.zero, visible]
  | .text _ => by simp [Ty.zero, visible]
  | .alt => by simp [Ty.zero, visible]
  | .slice _ _ => by simp [Ty.zero, visible, visibles]
  | .ptr _ => by simp [Ty.zero, visible]
  | .struct _ _ tys => by rw [Ty.zero, visible, visibles_zero tys]
theorem visibles_zero : ∀ ts : List Ty, visibles (Ty.zeros ts) = Ty.zeros ts
  | [] => by simp [Ty.zeros, visibles]
  | t :: ts => by rw [Ty.zeros, visibles, visible_zero t, visibles_zero ts]
end

theorem visible_isNil (v : Val) : (visible v).isNil = v.isNil := by cases v <;> simp [visible, Val.isNil]

theorem marshalSimple_visible (v : Val) : marshalSimple (visible v) = marshalSimple v := by cases v <;> simp [visible, marshalSimple]

theorem leafText_visible (t : Ty) (v : Val) : leafText t (visible v) = leafText t v := by
  cases t <;> cases v <;> simp [visible, leafText, marshalSimple]

theorem visible_rewrap (t : Ty) (v : Val) : visible (rewrap t v) = rewrap t (visible v) := by
  cases t <;> simp [rewrap, visible]

theorem derefVal_visible (t : Ty) (v : Val) : derefVal t (visible v) = ((derefVal t v).1, visible (derefVal t v).2) := by
  cases t <;> cases v <;> simp [visible, derefVal, visible_zero]

theorem seesVisible_get {ts : List Ty} (h : SeesVisibleAll ts) {i : Nat} {t : Ty} (ht : ts[i]? = some t) : SeesVisible t := by
  induction ts generalizing i with
  | nil => simp at ht
  | cons a as ih =>
    rw [SeesVisibleAll] at h
    cases i with
    | zero => simp only [List.getElem?_cons_zero, Option.some.injEq] at ht; exact ht ▸ h.1
    | succ i => simp only [List.getElem?_cons_succ] at ht; exact ih h.2 ht

theorem seesVisible_deref {t : Ty} (h : SeesVisible t) : SeesVisible t.deref := by
  cases t with
  | ptr t => rw [SeesVisible] at h; exact h
  | _ => exact h

theorem isEmptyValue_visible : ∀ (t : Ty) (v : Val), SeesVisible t → isEmptyValue t (visible v) = isEmptyValue t v
  | .ptr t, v, h => by
    rw [SeesVisible] at h
    cases v with
    | ptr v => rw [visible, isEmptyValue, isEmptyValue, isEmptyValue_visible t v h]
    | _ => simp [visible, isEmptyValue]
  | .struct z _ _, v, h => by
    rw [SeesVisible] at h
    cases z with
    | none => cases v <;> simp [isEmptyValue]
    | some zf =>
      cases v with
      | struct vals => rw [visible, isEmptyValue, isEmptyValue, h.1 zf rfl]
      | _ => simp [visible, isEmptyValue]
  | .slice _ _, v, _ => by
    cases v with
    | slice l sp => rw [visible, isEmptyValue, isEmptyValue, visibles_isEmpty]
    | _ => simp [visible, isEmptyValue]
  | .int _, v, _ => by cases v <;> simp [visible, isEmptyValue]
  | .uint _, v, _ => by cases v <;> simp [visible, isEmptyValue]
  | .bool, v, _ => by cases v <;> simp [visible, isEmptyValue]
  | .str, v, _ => by cases v <;> simp [visible, isEmptyValue]
  | .bytes, v, _ => by cases v <;> simp [visible, isEmptyValue]
  | .text _, v, _ => by cases v <;> simp [visible, isEmptyValue]
  | .alt, v, _ => by cases v <;> simp [visible, isEmptyValue]

theorem fieldWritten_visible {t : Ty} (h : SeesVisible t) (f : FieldInfo) (v : Val) : fieldWritten f t (visible v) = fieldWritten f t v := by
  unfold fieldWritten
  rw [visible_isNil, isEmptyValue_visible t v h]

/-! ### Writing -/

theorem attrText_visible (t : Ty) (v : Val) : attrText t (visible v) = attrText t v := by
  cases t <;> cases v <;> simp [visible, attrText, leafText_visible] <;> simp [leafText, marshalSimple]

theorem marshalAttr_visible (f : FieldInfo) (t : Ty) (v : Val) (n : Node) : marshalAttr f t (visible v) n = marshalAttr f t v n := by
  unfold marshalAttr
  rw [attrText_visible]

theorem marshalAttrs_visible : ∀ (fs : List FieldInfo) (ts : List Ty) (vs : List Val) (n : Node), SeesVisibleAll ts →
    marshalAttrs fs ts (visibles vs) n = marshalAttrs fs ts vs n
  | [], _, _, _, _ => by simp [marshalAttrs]
  | _ :: _, [], _, _, _ => by simp [marshalAttrs]
  | _ :: _, _ :: _, [], _, _ => by simp [visibles, marshalAttrs]
  | f :: fs, t :: ts, v :: vs, n, h => by
    rw [SeesVisibleAll] at h
    rw [visibles, marshalAttrs, marshalAttrs, fieldWritten_visible h.1, marshalAttr_visible]
    simp only [marshalAttrs_visible fs ts vs _ h.2]

theorem mapM_visible {f : Val → Option Node} (h : ∀ v, f (visible v) = f v) : ∀ l : List Val, (visibles l).mapM f = l.mapM f
  | [] => by simp [visibles]
  | v :: vs => by simp only [visibles, List.mapM_cons, h v, mapM_visible h vs]

theorem marshalArray_visible {enc : Val → Node → Option Node} (h : ∀ v n, enc (visible v) n = enc v n) (typ : ArrayType) (l : List Val)
    (n : Node) : marshalArray enc typ (visibles l) n = marshalArray enc typ l n := by
  unfold marshalArray
  rw [mapM_visible (fun v => h v liNode)]
  have : (visibles l).length = l.length := by rw [visibles_eq, List.length_map]
  rw [this]

mutual
theorem marshalValue_visible : ∀ (t : Ty) (v : Val) (n : Node), SeesVisible t → marshalValue t (visible v) n = marshalValue t v n
  | .ptr t, v, n, h => by
    rw [SeesVisible] at h
    cases v with
    | ptr v => simp only [visible, marshalValue]; exact marshalValue_visible t v n h
    | _ => simp [visible, marshalValue]
  | .struct z infos tys, v, n, h => by
    rw [SeesVisible] at h
    cases v with
    | struct vals =>
      simp only [visible, marshalValue, marshalAttrs_visible infos tys vals n h.2]
      cases marshalAttrs infos tys vals n with
      | none => rfl
      | some n => simp only [marshalFields_visible tys infos vals n h.2]
    | _ => simp [visible, marshalValue]
  | .slice _ t, v, n, h => by
    rw [SeesVisible] at h
    cases v with
    | slice l sp =>
      simp only [visible, marshalValue]
      exact marshalArray_visible (fun v n => marshalValue_visible t v n h) _ l n
    | _ => simp [visible, marshalValue]
  | .int _, v, n, _ => by rw [marshalValue, marshalValue, marshalSimple_visible]
  | .uint _, v, n, _ => by rw [marshalValue, marshalValue, marshalSimple_visible]
  | .bool, v, n, _ => by rw [marshalValue, marshalValue, marshalSimple_visible]
  | .str, v, n, _ => by rw [marshalValue, marshalValue, marshalSimple_visible]
  | .bytes, v, n, _ => by rw [marshalValue, marshalValue, marshalSimple_visible]
  | .text _, v, n, _ => by cases v <;> simp [visible, marshalValue]
  | .alt, v, n, _ => by cases v <;> simp [visible, marshalValue]
theorem marshalFields_visible : ∀ (ts : List Ty) (fs : List FieldInfo) (vs : List Val) (n : Node), SeesVisibleAll ts →
    marshalFields ts fs (visibles vs) n = marshalFields ts fs vs n
  | [], _, _, _, _ => by simp [marshalFields]
  | _ :: _, [], _, _, _ => by simp [marshalFields]
  | _ :: _, _ :: _, [], _, _ => by simp [visibles, marshalFields]
  | t :: ts, f :: fs, v :: vs, n, h => by
    rw [SeesVisibleAll] at h
    rw [visibles, marshalFields, marshalFields, fieldWritten_visible h.1, marshalValue_visible t v _ h.1]
    simp only [marshalFields_visible ts fs vs _ h.2]
end

/-! ### Reading paths -/

theorem leafRes_visible (t : Ty) (v : Val) : leafRes t (visible v) = leafRes t v := by
  unfold leafRes; rw [leafText_visible]

theorem getDeref_visible {recur : Ty → Val → GetRes} {t : Ty} (hs : SeesVisible t) (hr : ∀ t v, SeesVisible t → recur t (visible v) = recur t v)
    (v : Val) (plen : Nat) (idx : Int) (lang : Str) : getDeref recur t (visible v) plen idx lang = getDeref recur t v plen idx lang := by
  cases t with
  | struct z infos tys =>
    cases v with
    | struct vals =>
      have h1 := hr _ (.struct vals) hs
      have h2 := leafRes_visible (.struct z infos tys) (.struct vals)
      rw [visible] at h1 h2
      simp only [visible, getDeref, h1, h2]
    | _ => simp [visible, getDeref, leafRes, leafText, marshalSimple]
  | slice a t =>
    rw [SeesVisible] at hs
    cases v with
    | slice l sp =>
      simp only [visible, getDeref, visibles_get]
      cases l[idx.toNat]? with
      | none => rfl
      | some e =>
        simp only [Option.map_some, derefVal_visible, leafRes_visible]
        rw [hr _ _ (by cases t <;> cases e <;> exact hs)]
    | _ => simp [visible, getDeref, leafRes, leafText, marshalSimple]
  | alt => cases v <;> simp [visible, getDeref, leafRes, leafText, marshalSimple]
  | _ =>
    cases v <;> simp [visible, getDeref, leafRes, leafText, marshalSimple]

theorem getField_visible {recur : Ty → Val → GetRes} {t : Ty} (hs : SeesVisible t) (hr : ∀ t v, SeesVisible t → recur t (visible v) = recur t v)
    (fi : FieldInfo) (v : Val) (plen : Nat) (idx : Int) (lang : Str) :
    getField recur fi t (visible v) plen idx lang = getField recur fi t v plen idx lang := by
  by_cases hv : v = .nil
  · subst hv; rfl
  · have hv' : visible v ≠ .nil := by cases v <;> simp_all [visible]
    have key : ∀ w, w ≠ .nil → getField recur fi t w plen idx lang =
        (if fi.omitted || (!fi.empty && isEmptyValue t w) then .ok [] else getDeref recur (derefVal t w).1 (derefVal t w).2 plen idx lang) := by
      intro w hw
      unfold getField
      split
      · exact absurd rfl hw
      · rfl
    rw [key _ hv', key _ hv, isEmptyValue_visible t v hs, derefVal_visible]
    have : SeesVisible (derefVal t v).1 := by
      cases t <;> cases v <;> exact hs
    simp only [getDeref_visible this hr]

theorem getModelPathF_visible : ∀ (f : Nat) (t : Ty) (v : Val) (p : Path), SeesVisible t →
    getModelPathF f t (visible v) p = getModelPathF f t v p
  | 0, _, _, _, _ => by simp [getModelPathF]
  | f + 1, t, v, p, hs => by
    rw [getModelPathF, getModelPathF]
    dsimp only
    split
    · rfl
    · split
      · rfl
      · cases t with
        | struct z infos tys =>
          cases v with
          | struct vals =>
            rw [SeesVisible] at hs
            simp only [visible, visibles_get]
            split
            · rfl
            · rename_i i _
              cases infos[i]? <;> cases ht : tys[i]? <;> cases vals[i]? <;> simp only [Option.map_none, Option.map_some]
              exact getField_visible (seesVisible_get hs.2 ht) (fun t v h => getModelPathF_visible f t v _ h) _ _ _ _ _
          | _ => simp [visible]
        | _ => cases v <;> simp

theorem getModelPath_visible {t : Ty} (hs : SeesVisible t) (v : Val) (p : Path) : getModelPath t (visible v) p = getModelPath t v p :=
  getModelPathF_visible _ t v p hs

/-! ### Documents -/

theorem enc_attrs_visible (env : Env) (d : XDoc) : ∀ (fs : List FieldInfo) (ts : List Ty) (vs : List Val) (ws : List Node), SeesVisibleAll ts →
    Enc.attrs env (visibleDoc d) fs ts (visibles vs) ws = Enc.attrs env d fs ts vs ws
  | [], _, _, _, _ => by simp [Enc.attrs]
  | _ :: _, [], _, _, _ => by simp [Enc.attrs]
  | _ :: _, _ :: _, [], _, _ => by simp [visibles, Enc.attrs]
  | f :: fs, t :: ts, v :: vs, ws, h => by
    rw [SeesVisibleAll] at h
    have h1 : marshalAttr f t (visible v) = marshalAttr f t v := funext (marshalAttr_visible f t v)
    have h2 : Enc.findNs env (visibleDoc d) ⟨[], f.name⟩ = Enc.findNs env d ⟨[], f.name⟩ := rfl
    rw [visibles, Enc.attrs, Enc.attrs, fieldWritten_visible h.1, h1, h2]
    simp only [enc_attrs_visible env d fs ts vs _ h.2]

theorem enc_fields_visible (env : Env) (d : XDoc) : ∀ (fs : List FieldInfo) (ts : List Ty) (vs : List Val) (ws : List Node), SeesVisibleAll ts →
    Enc.fields env (visibleDoc d) fs ts (visibles vs) ws = Enc.fields env d fs ts vs ws
  | [], _, _, _, _ => by simp [Enc.fields]
  | _ :: _, [], _, _, _ => by simp [Enc.fields]
  | _ :: _, _ :: _, [], _, _ => by simp [visibles, Enc.fields]
  | f :: fs, t :: ts, v :: vs, ws, h => by
    rw [SeesVisibleAll] at h
    have h2 : Enc.findNs env (visibleDoc d) ⟨[], f.name⟩ = Enc.findNs env d ⟨[], f.name⟩ := rfl
    rw [visibles, Enc.fields, Enc.fields, fieldWritten_visible h.1, marshalValue_visible t v _ h.1, h2]
    simp only [enc_fields_visible env d fs ts vs _ h.2]

theorem enc_model_visible (env : Env) (d : XDoc) (m : Mdl) (hs : SeesVisible m.ty) (ws : List Node) :
    Enc.model env (visibleDoc d) { m with val := visible m.val } ws = Enc.model env d m ws := by
  obtain ⟨nss, can, ty, val⟩ := m
  simp only at hs
  cases ty with
  | struct z infos tys =>
    rw [SeesVisible] at hs
    cases val with
    | struct vals =>
      simp only [Enc.model, visible, enc_attrs_visible env d infos tys vals _ hs.2]
      split
      · rfl
      · exact enc_fields_visible env d infos tys vals _ hs.2
    | _ => simp [Enc.model, visible]
  | _ => cases val <;> simp [Enc.model]

/-- The models of a document have `IsZero` methods that look at visible values only. -/
def DocSees (d : XDoc) : Prop := ∀ r ∈ d.roots, ∀ m, r.model = some m → SeesVisible m.ty

theorem enc_roots_visible (env : Env) (d : XDoc) : ∀ (rs : List Root) (ws : List Node), (∀ r ∈ rs, ∀ m, r.model = some m → SeesVisible m.ty) →
    Enc.roots env (visibleDoc d) (rs.map Root.visible) ws = Enc.roots env d rs ws
  | [], _, _ => by simp [Enc.roots]
  | r :: rs, ws, h => by
    have hx : ∀ ws, Enc.external env (visibleDoc d) r.node ws = Enc.external env d r.node ws := fun _ => rfl
    have next : ∀ ws, (match Enc.external env (visibleDoc d) r.node ws with
        | none => none | some ws => Enc.roots env (visibleDoc d) (rs.map Root.visible) ws) =
        (match Enc.external env d r.node ws with | none => none | some ws => Enc.roots env d rs ws) := by
      intro ws
      rw [hx]
      cases Enc.external env d r.node ws with
      | none => rfl
      | some ws => exact enc_roots_visible env d rs ws (fun r' hr' => h r' (List.mem_cons_of_mem _ hr'))
    rw [List.map_cons, Enc.roots, Enc.roots]
    cases hr : r.model with
    | none =>
      simp only [Root.visible, hr, Option.map_none]
      exact next ws
    | some m =>
      simp only [Root.visible, hr, Option.map_some, enc_model_visible env d m (h r (List.mem_cons_self ..) m hr) ws]
      cases Enc.model env d m ws with
      | none => rfl
      | some ws => exact next ws

mutual
theorem namespaces_visible (env : Env) (d : XDoc) : ∀ n : Node, Enc.namespaces env (visibleDoc d) n = Enc.namespaces env d n
  | .mk n a v l => by
    rw [Enc.namespaces, Enc.namespaces, namespacesAll_visible env d l]
    rfl
theorem namespacesAll_visible (env : Env) (d : XDoc) : ∀ l : List Node, Enc.namespacesAll env (visibleDoc d) l = Enc.namespacesAll env d l
  | [] => by simp [Enc.namespacesAll]
  | x :: xs => by rw [Enc.namespacesAll, Enc.namespacesAll, namespaces_visible env d x, namespacesAll_visible env d xs]
end

/-- What is written of a document depends on its visible values only. -/
theorem encode_visible (env : Env) (order : Node → List Namespace → List Namespace) (p : Packet) (hs : DocSees p.doc) :
    Enc.encode env order { p with doc := visibleDoc p.doc } = Enc.encode env order p := by
  have hd : Enc.describe env order (visibleDoc p.doc) p.about = Enc.describe env order p.doc p.about := by
    funext w
    unfold Enc.describe
    rw [namespaces_visible]
  unfold Enc.encode
  dsimp only
  rw [show (visibleDoc p.doc).roots = p.doc.roots.map Root.visible from rfl, enc_roots_visible env p.doc _ _ hs, hd]

theorem findIdx_visible (q : Root → Bool) (hq : ∀ r, q (Root.visible r) = q r) (l : List Root) : (l.map Root.visible).findIdx? q = l.findIdx? q := by
  induction l with
  | nil => rfl
  | cons r rs ih => rw [List.map_cons, List.findIdx?_cons, List.findIdx?_cons, hq, ih]

theorem rootMatches_visible (pfx : Str) (r : Root) : XDoc.rootMatches pfx (Root.visible r) = XDoc.rootMatches pfx r := by
  unfold XDoc.rootMatches Root.visible
  cases r.model <;> rfl

/-- What is read by path depends on visible values only. -/
theorem getPath_visible (env : Env) (d : XDoc) (hs : DocSees d) (p : Path) : (visibleDoc d).getPath env p = d.getPath env p := by
  unfold XDoc.getPath
  split
  · rfl
  · rw [show (visibleDoc d).pathNs env p = d.pathNs env p from rfl]
    cases d.pathNs env p with
    | none => rfl
    | some ns =>
      dsimp only
      rw [show (visibleDoc d).findNode ns = d.findNode ns from findIdx_visible _ (rootMatches_visible ns.name) d.roots]
      cases d.findNode ns with
      | none => rfl
      | some i =>
        dsimp only
        rw [show (visibleDoc d).roots[i]? = d.roots[i]?.map Root.visible from List.getElem?_map]
        cases hr : d.roots[i]? with
        | none => rfl
        | some r =>
          cases hm : r.model with
          | none => simp [Root.visible, hm]
          | some m =>
            simp only [Option.map_some, Root.visible, hm, getModelPath_visible (hs r (List.mem_of_getElem? hr) m hm)]

end Xmp.Props
