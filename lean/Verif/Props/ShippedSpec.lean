import Verif.Model.ShippedTypes
import Verif.Props.TypedXmpCases
import Verif.Props.DocSpec

/-! C72: which values of the shipped models can be written and read back. -/

namespace Xmp.Props

open GoStr Shipped

/-! ### Specification -/

mutual
/-- Values that can be read back from an element: numbers in range, strings without surrounding white space, values that
their type reads back from the text it writes, language alternatives that are lawful (C16), arrays that are not empty,
pointers that are not nil and structs with fields that can be read back.  A struct for which `IsZero` is true must have the
zero value (methods `MarshalXMP` write nothing in this case). -/
def Clean : Ty → Val → Prop
  | .int bits, v => LeafFaithful (.int bits) v
  | .uint bits, v => LeafFaithful (.uint bits) v
  | .bool, v => LeafFaithful .bool v
  | .str, v => LeafFaithful .str v
  | .bytes, v => ∃ s, v = .bytes s ∧ Trimmed s
  | .text c, v => ∃ k o, v = .opq k ∧ c.enc k = some o ∧ c.dec 0 (trimSpace (o.getD [])) = some k
  | .alt, v => ∃ a, v = .alt a ∧ AltFaithful a
  | .slice _ t, v => ∃ l, v = .slice l [] ∧ l ≠ [] ∧ ∀ x ∈ l, Clean t x
  | .ptr t, v => ∃ x, v = .ptr x ∧ Clean t x
  | .struct zero infos tys, v => ∃ vals, v = .struct vals ∧ CleanFields tys infos vals ∧
      ∀ z, zero = some z → z vals = true → vals = Ty.zeros tys
/-- Each field of a struct can be read back from its attribute or element, or it is not written and has its zero value. -/
def CleanFields : List Ty → List FieldInfo → List Val → Prop
  | [], fs, vs => fs = [] ∧ vs = []
  | t :: ts, fs, vs => ∃ f fs' v vs', fs = f :: fs' ∧ vs = v :: vs' ∧
      (if fieldWritten f t v then (if f.attr then AttrFaithful t v else Clean t v) else v = t.zero) ∧ CleanFields ts fs' vs'
end

mutual
/-- The fields of all structs inside of a type have distinct names, and no pointer points to a pointer. -/
def DistinctTy : Ty → Prop
  | .slice _ t => DistinctTy t
  | .ptr t => t.deref = t ∧ DistinctTy t
  | .struct _ infos tys => (infos.map (·.name)).Nodup ∧ DistinctTys tys
  | _ => True
/-- The same for a list of types. -/
def DistinctTys : List Ty → Prop
  | [] => True
  | t :: ts => DistinctTy t ∧ DistinctTys ts
end

/-! ### Values that can be read back are faithful (C33) -/

mutual
theorem clean_faithful : ∀ (t : Ty) (v : Val), DistinctTy t → Clean t v → Faithful Version.zero t v
  | .int _, v, _, h => by rw [Clean] at h; rw [Faithful]; exact h
  | .uint _, v, _, h => by rw [Clean] at h; rw [Faithful]; exact h
  | .bool, v, _, h => by rw [Clean] at h; rw [Faithful]; exact h
  | .str, v, _, h => by rw [Clean] at h; rw [Faithful]; exact h
  | .bytes, v, _, h => by rw [Clean] at h; rw [Faithful]; exact h
  | .text _, v, _, h => by rw [Clean] at h; rw [Faithful]; exact h
  | .alt, v, _, h => by rw [Clean] at h; rw [Faithful]; exact h
  | .slice _ t, v, hd, h => by
    rw [Clean] at h; rw [Faithful]; rw [DistinctTy] at hd
    obtain ⟨l, h1, h2, h3⟩ := h
    exact ⟨l, h1, h2, fun x hx => clean_faithful t x hd (h3 x hx)⟩
  | .ptr t, v, hd, h => by
    rw [Clean] at h; rw [Faithful]; rw [DistinctTy] at hd
    obtain ⟨x, h1, h2⟩ := h
    exact ⟨x, h1, hd.1, clean_faithful t x hd.2 h2⟩
  | .struct _ infos tys, v, hd, h => by
    rw [Clean] at h; rw [Faithful]; rw [DistinctTy] at hd
    obtain ⟨vals, h1, h2, -⟩ := h
    exact ⟨vals, h1, cleanFields_faithful tys infos 0 infos vals hd.1 hd.2 (fun j => by simp) h2⟩
theorem cleanFields_faithful : ∀ (ts : List Ty) (all : List FieldInfo) (k : Nat) (fs : List FieldInfo) (vs : List Val),
    (all.map (·.name)).Nodup → DistinctTys ts → (∀ j : Nat, all[k + j]? = fs[j]?) → CleanFields ts fs vs →
    FaithfulFields Version.zero ts all k fs vs
  | [], _, _, _, _, _, _, _, h => by rw [CleanFields] at h; rw [FaithfulFields]; exact h
  | t :: ts, all, k, fs, vs, hn, hd, ha, h => by
    rw [CleanFields] at h; rw [FaithfulFields]; rw [DistinctTys] at hd
    obtain ⟨f, fs', v, vs', rfl, rfl, hc, hrest⟩ := h
    refine ⟨f, fs', v, vs', rfl, rfl, ?_, cleanFields_faithful ts all (k + 1) fs' vs' hn hd.2 ?_ hrest⟩
    · split
      · rename_i hw
        rw [if_pos hw] at hc
        refine ⟨field_found hn (by have := ha 0; simpa using this), ?_⟩
        split
        · rename_i hat; rwa [if_pos hat] at hc
        · rename_i hat
          rw [if_neg hat] at hc
          exact clean_faithful t v hd.1 hc
      · rename_i hw
        rwa [if_neg hw] at hc
    · intro j
      have := ha (j + 1)
      rw [List.getElem?_cons_succ] at this
      rw [← this]
      congr 1
      omega
end

/-! ### Types of the table -/

theorem distinctNames_nodup : ∀ l : List Str, distinctNames l = true → l.Nodup
  | [], _ => List.nodup_nil
  | x :: xs, h => by
    rw [distinctNames, Bool.and_eq_true] at h
    refine List.nodup_cons.2 ⟨fun hm => ?_, distinctNames_nodup xs h.2⟩
    have := List.all_eq_true.1 h.1 x hm
    simp at this

theorem textTy_distinct (K : Str → Codec) : ∀ s : Sk, s.soundAttr = true → DistinctTy (s.textTy K) ∧ (s.isStruct = true → (s.textTy K).deref = s.textTy K)
  | .leaf n h k, _ => by
    refine ⟨?_, by simp [Sk.isStruct]⟩
    unfold Sk.textTy
    split
    · cases k <;> simp [DistinctTy]
    · simp [DistinctTy]
  | .list _ _ _, _ => by simp [Sk.textTy, DistinctTy, Sk.isStruct]
  | .struct _ _ _ _, _ => by simp [Sk.textTy, DistinctTy, Ty.deref]
  | .ptr s, h => by
    rw [Sk.soundAttr, Bool.and_eq_true] at h
    have := textTy_distinct K s h.2
    rw [Sk.textTy, DistinctTy]
    exact ⟨⟨this.2 h.1, this.1⟩, by simp [Sk.isStruct]⟩

theorem lost_distinct : DistinctTy lost ∧ lost.deref = lost := by simp [lost, DistinctTy, Ty.deref]

theorem ty_struct_deref (K : Str → Codec) (Z : Str → List Val → Bool) (s : Sk) (h : s.isStruct = true) : (s.ty K Z).deref = s.ty K Z := by
  cases s with
  | struct n h fs ts =>
    rw [Sk.ty]
    split
    · split <;> simp [Ty.deref]
    · exact lost_distinct.2
  | _ => simp [Sk.isStruct] at h

mutual
theorem ty_distinct (K : Str → Codec) (Z : Str → List Val → Bool) : ∀ s : Sk, s.distinct = true → DistinctTy (s.ty K Z)
  | .leaf n h k, _ => by
    rw [Sk.ty]
    split
    · unfold Sk.textTy
      split
      · cases k <;> simp [DistinctTy]
      · simp [DistinctTy]
    · exact lost_distinct.1
  | .list n h e, hd => by
    rw [Sk.distinct] at hd
    rw [Sk.ty]
    split
    · split
      · simp [DistinctTy]
      · simp [DistinctTy]
      · rw [DistinctTy]; exact ty_distinct K Z e hd
    · exact lost_distinct.1
  | .ptr s, hd => by
    rw [Sk.distinct] at hd
    rw [Sk.ty]
    split
    · rename_i hs
      rw [Sk.sound, Bool.and_eq_true] at hs
      rw [DistinctTy]
      exact ⟨ty_struct_deref K Z s hs.1, ty_distinct K Z s hd⟩
    · exact lost_distinct.1
  | .struct n h fs ts, hd => by
    rw [Sk.distinct, Bool.and_eq_true, Bool.and_eq_true, decide_eq_true_eq] at hd
    rw [Sk.ty]
    split
    · split
      · simp [DistinctTy]
      · rw [DistinctTy]; exact ⟨distinctNames_nodup _ hd.1.2, tys_all_distinct K Z fs ts hd.2⟩
    · exact lost_distinct.1
theorem tys_all_distinct (K : Str → Codec) (Z : Str → List Val → Bool) : ∀ (fs : List FieldInfo) (ts : List Sk), Sk.distincts ts = true →
    DistinctTys (Sk.tys K Z fs ts)
  | [], _, _ => by simp [Sk.tys, DistinctTys]
  | _ :: _, [], _ => by simp [Sk.tys, DistinctTys]
  | f :: fs, t :: ts, hd => by
    rw [Sk.distincts, Bool.and_eq_true] at hd
    rw [Sk.tys, DistinctTys]
    refine ⟨?_, tys_all_distinct K Z fs ts hd.2⟩
    split
    · split
      · rename_i h; exact (textTy_distinct K t h).1
      · exact lost_distinct.1
    · exact ty_distinct K Z t hd.1
end

theorem textTy_names (K : Str → Codec) (P : Str → Prop) : ∀ s : Sk, TyNames P (s.textTy K)
  | .leaf n h k => by
    unfold Sk.textTy
    split
    · cases k <;> simp [TyNames]
    · simp [TyNames]
  | .list _ _ _ => by simp [Sk.textTy, TyNames]
  | .struct _ _ _ _ => by simp [Sk.textTy, TyNames]
  | .ptr s => by rw [Sk.textTy, TyNames]; exact textTy_names K P s

theorem lost_names (P : Str → Prop) : TyNames P lost := by simp [lost, TyNames]

theorem list_sound_form {n : Str} {h : Hooks} {e : Sk} (hs : (Sk.list n h e).sound = true) :
    (Sk.list n h e).writes = .text ∨ (Sk.list n h e).writes = .array ∨ (Sk.list n h e).writes = .alt := by
  rw [Sk.sound, Bool.and_eq_true, Bool.and_eq_true, decide_eq_true_eq, decide_eq_true_eq] at hs
  simpa using hs.1.2

theorem struct_sound_form {n : Str} {h : Hooks} {fs : List FieldInfo} {ts : List Sk} (hs : (Sk.struct n h fs ts).sound = true) :
    (Sk.struct n h fs ts).writes = .text ∨ (Sk.struct n h fs ts).writes = .fields := by
  rw [Sk.sound, Bool.and_eq_true, decide_eq_true_eq, decide_eq_true_eq] at hs
  simpa using hs.2

mutual
theorem ty_names (K : Str → Codec) (Z : Str → List Val → Bool) (P : Str → Prop) : ∀ s : Sk, (∀ nm ∈ s.names, P nm) → TyNames P (s.ty K Z)
  | .leaf n h k, _ => by
    rw [Sk.ty]
    split
    · exact textTy_names K P _
    · exact lost_names P
  | .list n h e, hp => by
    rw [Sk.names] at hp
    rw [Sk.ty]
    split
    · rename_i hs
      rcases list_sound_form hs with hw | hw | hw
      · simp only [hw]; simp [TyNames]
      · simp only [hw]
        rw [if_pos (by simp [hs, hw])] at hp
        rw [TyNames]; exact ty_names K Z P e hp
      · simp only [hw]; simp [TyNames]
    · exact lost_names P
  | .ptr s, hp => by
    rw [Sk.names] at hp
    rw [Sk.ty]
    split
    · rename_i hs
      rw [if_pos hs] at hp
      rw [TyNames]; exact ty_names K Z P s hp
    · exact lost_names P
  | .struct n h fs ts, hp => by
    rw [Sk.names] at hp
    rw [Sk.ty]
    split
    · rename_i hs
      rcases struct_sound_form hs with hw | hw
      · simp only [hw]; simp [TyNames]
      · simp only [hw]
        rw [if_pos (by simp [hs, hw])] at hp
        rw [TyNames]
        exact ⟨fun f hf => hp _ (List.mem_append_left _ (List.mem_map.2 ⟨f, hf, rfl⟩)),
          tys_names K Z P fs ts (fun nm hnm => hp _ (List.mem_append_right _ hnm))⟩
    · exact lost_names P
theorem tys_names (K : Str → Codec) (Z : Str → List Val → Bool) (P : Str → Prop) : ∀ (fs : List FieldInfo) (ts : List Sk),
    (∀ nm ∈ Sk.fieldNames fs ts, P nm) → TysNames P (Sk.tys K Z fs ts)
  | [], _, _ => by simp [Sk.tys, TysNames]
  | _ :: _, [], _ => by simp [Sk.tys, TysNames]
  | f :: fs, t :: ts, hp => by
    rw [Sk.fieldNames] at hp
    rw [Sk.tys, TysNames]
    refine ⟨?_, tys_names K Z P fs ts (fun nm hnm => hp _ (List.mem_append_right _ hnm))⟩
    split
    · split
      · exact textTy_names K P _
      · exact lost_names P
    · rename_i hat
      refine ty_names K Z P t (fun nm hnm => hp _ (List.mem_append_left _ ?_))
      rwa [if_neg hat]
end

/-- The type of field `i`. -/
theorem tys_get (K : Str → Codec) (Z : Str → List Val → Bool) : ∀ (fs : List FieldInfo) (ts : List Sk) (i : Nat) (f : FieldInfo) (t : Ty),
    fs[i]? = some f → (Sk.tys K Z fs ts)[i]? = some t → ∃ s, ts[i]? = some s ∧
      t = (if f.attr then (if s.soundAttr then s.textTy K else lost) else s.ty K Z)
  | [], _, i, f, t, h, _ => by simp at h
  | _ :: _, [], i, f, t, _, h => by simp [Sk.tys] at h
  | f0 :: fs, s0 :: ts, 0, f, t, h1, h2 => by
    rw [Sk.tys] at h2
    simp only [List.getElem?_cons_zero, Option.some.injEq] at h1 h2
    subst h1
    exact ⟨s0, rfl, h2.symm⟩
  | f0 :: fs, s0 :: ts, i + 1, f, t, h1, h2 => by
    rw [Sk.tys] at h2
    simp only [List.getElem?_cons_succ] at h1 h2
    exact tys_get K Z fs ts i f t h1 h2

theorem nameIn_nameS {ps : List Str} {nm : Str} (h : nameIn ps nm = true) : NameS (· ∈ ps) nm ∧ getPrefix nm ∈ ps := by
  simp only [nameIn, Bool.and_eq_true, decide_eq_true_eq] at h
  obtain ⟨⟨⟨h1, h2⟩, h3⟩, h4⟩ := h
  refine ⟨⟨getPrefix nm, stripPrefix nm, ?_, h4, h3, h2⟩, h2⟩
  cases hi : indexChar ':' nm with
  | none => exact absurd h1 (indexChar_none.1 hi)
  | some i =>
    obtain ⟨a, b, rfl, ha, -⟩ := indexChar_some hi
    rw [getPrefix_append ha, stripPrefix_append ha]

end Xmp.Props
