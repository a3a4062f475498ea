import Verif.Props.IxmlBack

/-!
# C77: what is read from an iXML chunk can be written
-/

namespace Xmp.Props

open Xmp Xmp.GoStr Xmp.Ixml Xmp.Codec

/-! ### Plain XML -/

mutual
/-- All names of elements and attributes are without prefix, and no default namespace is declared. -/
def PlainXml : Xml → Prop
  | .elem n a c => n ≠ [] ∧ ':' ∉ n ∧ (∀ x ∈ a, x.1 ≠ [] ∧ ':' ∉ x.1 ∧ x.1 ≠ "xmlns".toList) ∧ PlainXmls c
  | _ => True
/-- The content of an element. -/
def PlainXmls : List Xml → Prop
  | [] => True
  | x :: xs => PlainXml x ∧ PlainXmls xs
end

theorem plainXmls_mem {c : List Xml} (h : PlainXmls c) : ∀ x ∈ c, PlainXml x := by
  induction c with
  | nil => intro x hx; cases hx
  | cons y c ih =>
    intro x hx
    rcases List.mem_cons.1 hx with rfl | hx
    · exact h.1
    · exact ih h.2 x hx

theorem value_trimmed : ∀ (c : List Xml) (v : Str), trimSpace v = v → trimSpace (Xml.value c v) = Xml.value c v
  | [], v, h => by simpa [Xml.value] using h
  | .text s :: xs, v, _ => by
    rw [Xml.value]
    exact value_trimmed xs _ (trimSpace_idem s)
  | .elem n a k :: xs, v, h => by
    rw [Xml.value]
    · exact value_trimmed xs v h
    · intro s hs; cases hs
  | .other :: xs, v, h => by
    rw [Xml.value]
    · exact value_trimmed xs v h
    · intro s hs; cases hs

mutual
theorem plainXml_read (uri : Str → Str) : ∀ x : Xml, PlainXml x → PlainExts (Xml.read uri x)
  | .elem n a c, h => by
    obtain ⟨h1, h2, h3, h4⟩ := h
    rw [Xml.read]
    refine ⟨⟨?_, ?_, ?_, ?_, ?_, plainXmls_read _ c h4⟩, trivial⟩
    · rw [reparseName_plain (by exact h2)]
    · rw [reparseName_plain (by exact h2)]; exact h1
    · rw [reparseName_plain (by exact h2)]; exact h2
    · exact value_trimmed c [] rfl
    · intro x hx
      obtain ⟨y, hy, rfl⟩ := List.mem_map.1 hx
      obtain ⟨h5, h6, h7⟩ := h3 y hy
      simp only
      rw [reparseName_plain (by exact h6)]
      exact ⟨rfl, h5, h6, h7⟩
  | .text s, _ => by rw [Xml.read]; exact trivial; intro n a c h; cases h
  | .other, _ => by rw [Xml.read]; exact trivial; intro n a c h; cases h
theorem plainXmls_read (uri : Str → Str) : ∀ c : List Xml, PlainXmls c → PlainExts (Xml.reads uri c)
  | [], _ => by rw [Xml.reads]; exact trivial
  | x :: c, h => by
    rw [Xml.reads]
    have h1 := plainXml_read uri x h.1
    have h2 := plainXmls_read uri c h.2
    generalize Xml.read uri x = l at h1
    induction l with
    | nil => exact h2
    | cons y l ih => exact ⟨h1.1, ih h1.2⟩
end

/-- An element without prefixes is read as one plain node of its name. -/
theorem plainXml_ext (uri : Str → Str) {n : Str} {a : List (Str × Str)} {c : List Xml} (h : PlainXml (.elem n a c)) :
    ∃ e, Xml.read uri (.elem n a c) = [e] ∧ PlainExt e ∧ e.xmlName.loc = n := by
  have h1 := plainXml_read uri _ h
  rw [Xml.read] at h1 ⊢
  refine ⟨_, rfl, h1.1, ?_⟩
  show (reparseName _ _).loc = n
  rw [reparseName_plain (by exact h.2.1)]

/-! ### Ranges -/

theorem parseInt_range {b : Nat} {s : Str} {i : Int} (h : parseInt b s = some i) : -(2 ^ (b - 1) : Int) ≤ i ∧ i < (2 ^ (b - 1) : Int) := by
  unfold parseInt at h
  split at h
  · split at h
    · injection h with h; subst h; assumption
    · cases h
  · cases h

theorem range_zero (b : Nat) : -(2 ^ (b - 1) : Int) ≤ 0 ∧ (0 : Int) < (2 ^ (b - 1) : Int) := by
  have : (0 : Int) < 2 ^ (b - 1) := Int.pow_pos (by decide)
  omega

theorem scanInt_range {s rest : Str} {i : Int} (h : scanInt s = some (i, rest)) : InI64 i := by
  unfold scanInt at h
  simp only at h
  split at h
  · cases h
  · rw [Option.map_eq_some_iff] at h
    obtain ⟨j, hj, he⟩ := h
    injection he with he
    subst he
    exact parseInt_range hj

/-- Rationals that are read have parts in the range of Go's integers, if those with a point have. -/
theorem ratParse_range {dec : Str → Option Rational} (hd : ∀ s r, dec s = some r → InI64 r.num ∧ InI64 r.den) {old r : Rational} {s : Str}
    (ho : InI64 old.num ∧ InI64 old.den) (h : ratParse dec old s = some r) : InI64 r.num ∧ InI64 r.den := by
  unfold ratParse at h
  split at h
  · injection h with h; subst h; exact ho
  · split at h
    · exact hd _ _ h
    · split at h
      · unfold scanSlash at h
        split at h
        · next h1 =>
          split at h
          · next h2 =>
            injection h with h
            subst h
            exact ⟨scanInt_range h1, scanInt_range h2⟩
          · cases h
        · cases h
      · split at h
        · unfold scanSpace at h
          split at h
          · next h1 =>
            split at h
            · split at h
              · next h2 =>
                injection h with h
                subst h
                exact ⟨scanInt_range h1, scanInt_range h2⟩
              · cases h
            · cases h
          · cases h
        · rw [Option.map_eq_some_iff] at h
          obtain ⟨j, hj, rfl⟩ := h
          exact ⟨parseInt_range hj, (by decide : InI64 1)⟩

/-! ### Empty values -/

mutual
/-- Types whose empty value survives. -/
def zeroFits : XTy → Bool
  | .texts => false
  | .flag => false
  | .exts => false
  | .record fs ts => decide (fs.length = ts.length) && zerosFit fs ts
  | _ => true
/-- Structs whose fields are left out when they are empty, or have an empty value that survives. -/
def zerosFit : List XField → List XTy → Bool
  | f :: fs, t :: ts => ((f.omitempty && t.zero.isEmpty) || (f.any && XTy.isExts t) || zeroFits t) && zerosFit fs ts
  | _, _ => true
end

mutual
/-- The structs in a type are such ones. -/
def startOk : XTy → Bool
  | .record fs ts => zeroFits (.record fs ts) && startsOk ts
  | .ptr t => startOk t
  | .items _ _ t => startOk t
  | _ => true
/-- The structs in several types. -/
def startsOk : List XTy → Bool
  | [] => true
  | t :: ts => startOk t && startsOk ts
end

mutual
theorem zero_fits : ∀ t : XTy, zeroFits t = true → FitsXml t t.zero
  | .str, _ => by simp [FitsXml, XTy.zero]
  | .int b, _ => by
    rw [XTy.zero, FitsXml]
    exact range_zero b
  | .bool, _ => by simp [FitsXml, XTy.zero]
  | .texts, h => by cases h
  | .flag, h => by cases h
  | .rat, _ => by rw [XTy.zero, FitsXml]; decide
  | .record fs ts, h => by
    rw [zeroFits, Bool.and_eq_true] at h
    rw [XTy.zero, FitsXml]
    exact zeros_fit fs fs ts (of_decide_eq_true h.1) h.2
  | .ptr t, _ => by simp [FitsXml, XTy.zero]
  | .items _ _ _, _ => by simp [FitsXml, XTy.zero]
  | .exts, h => by cases h
theorem zeros_fit (all : List XField) : ∀ (fs : List XField) (ts : List XTy), fs.length = ts.length → zerosFit fs ts = true →
    FitsAll all fs ts (XTy.zeros ts)
  | [], [], _, _ => by simp [FitsAll, XTy.zeros]
  | f :: fs, t :: ts, hl, h => by
    rw [zerosFit, Bool.and_eq_true, Bool.or_eq_true, Bool.or_eq_true, Bool.and_eq_true, Bool.and_eq_true] at h
    rw [XTy.zeros, FitsAll]
    refine ⟨?_, zeros_fit all fs ts (by simpa using hl) h.2⟩
    rcases h.1 with (h | h) | h
    · exact Or.inl ⟨h.1, h.2, rfl⟩
    · have := isExts_eq h.2
      subst this
      exact Or.inr (Or.inl ⟨h.1, [], by rw [XTy.zero], by simp⟩)
    · exact Or.inr (Or.inr (zero_fits t h))
  | [], t :: ts, hl, _ => by simp at hl
  | f :: fs, [], hl, _ => by simp at hl
end

/-- Types whose old value does not matter when an element is read. -/
def XTy.fresh : XTy → Bool
  | .texts => true
  | .flag => true
  | _ => false

/-- Values into which an element can be read. -/
def Before (t : XTy) (v : XVal) : Prop := FitsXml t v ∨ (XTy.fresh t = true)

theorem before_zero {t : XTy} (h : startOk t = true) (he : XTy.isExts t = false) : Before t t.zero := by
  cases t with
  | texts => exact Or.inr rfl
  | flag => exact Or.inr rfl
  | exts => cases he
  | record fs ts =>
    rw [startOk, Bool.and_eq_true] at h
    exact Or.inl (zero_fits _ h.1)
  | _ => exact Or.inl (zero_fits _ rfl)

/-! ### Fields -/

theorem fitsAll_length (all : List XField) : ∀ (fs : List XField) (ts : List XTy) (vs : List XVal), FitsAll all fs ts vs →
    fs.length = ts.length ∧ vs.length = ts.length
  | [], [], [], _ => ⟨rfl, rfl⟩
  | f :: fs, t :: ts, v :: vs, h => by
    obtain ⟨h1, h2⟩ := fitsAll_length all fs ts vs h.2
    simp [h1, h2]
  | [], t :: ts, vs, h => by cases vs <;> exact h.elim
  | f :: fs, [], vs, h => by cases vs <;> exact h.elim
  | [], [], v :: vs, h => h.elim
  | f :: fs, t :: ts, [], h => h.elim

/-- What holds for a field. -/
def FieldFits (all : List XField) (f : XField) (t : XTy) (v : XVal) : Prop :=
  (f.omitempty = true ∧ v.isEmpty = true ∧ v = t.zero) ∨
    (f.any = true ∧ ∃ l, v = .exts l ∧ ∀ e ∈ l, PlainExt e ∧ ∀ g ∈ all, g.any = false → g.chardata = false → g.name ≠ e.xmlName.loc) ∨
    FitsXml t v

theorem fitsAll_get (all : List XField) : ∀ (fs : List XField) (ts : List XTy) (vs : List XVal), FitsAll all fs ts vs →
    ∀ (i : Nat) (f : XField), fs[i]? = some f → ∃ t v, ts[i]? = some t ∧ vs[i]? = some v ∧ FieldFits all f t v
  | f :: fs, t :: ts, v :: vs, h, 0, g, hg => by
    simp only [List.getElem?_cons_zero, Option.some.injEq] at hg
    subst hg
    exact ⟨t, v, rfl, rfl, h.1⟩
  | f :: fs, t :: ts, v :: vs, h, i + 1, g, hg => by
    simp only [List.getElem?_cons_succ] at hg ⊢
    exact fitsAll_get all fs ts vs h.2 i g hg
  | [], ts, vs, _, i, g, hg => by simp at hg
  | f :: fs, [], vs, h, i, g, hg => by cases vs <;> exact h.elim
  | f :: fs, t :: ts, [], h, i, g, hg => h.elim

theorem fitsAll_set (all : List XField) : ∀ (fs : List XField) (ts : List XTy) (vs : List XVal), FitsAll all fs ts vs →
    ∀ (i : Nat) (f : XField) (t : XTy) (v : XVal), fs[i]? = some f → ts[i]? = some t → FieldFits all f t v → FitsAll all fs ts (vs.set i v)
  | f :: fs, t :: ts, v :: vs, h, 0, g, u, w, hg, hu, hw => by
    simp only [List.getElem?_cons_zero, Option.some.injEq] at hg hu
    subst hg hu
    exact ⟨hw, h.2⟩
  | f :: fs, t :: ts, v :: vs, h, i + 1, g, u, w, hg, hu, hw => by
    simp only [List.getElem?_cons_succ] at hg hu
    exact ⟨h.1, fitsAll_set all fs ts vs h.2 i g u w hg hu hw⟩
  | [], ts, vs, _, i, g, u, w, hg, _, _ => by simp at hg
  | f :: fs, [], vs, h, i, g, u, w, hg, _, _ => by cases vs <;> exact h.elim
  | f :: fs, t :: ts, [], h, i, g, u, w, hg, _, _ => h.elim

theorem tysOk_get (all : List XField) : ∀ (fs : List XField) (ts : List XTy) (k : Nat), tysOk all k fs ts = true →
    ∀ (i : Nat) (f : XField) (t : XTy), fs[i]? = some f → ts[i]? = some t → fieldOk all (k + i) f t = true ∧ tyOk t = true
  | f :: fs, t :: ts, k, h, 0, g, u, hg, hu => by
    simp only [List.getElem?_cons_zero, Option.some.injEq] at hg hu
    subst hg hu
    rw [tysOk, Bool.and_eq_true, Bool.and_eq_true] at h
    exact h.1
  | f :: fs, t :: ts, k, h, i + 1, g, u, hg, hu => by
    simp only [List.getElem?_cons_succ] at hg hu
    rw [tysOk, Bool.and_eq_true, Bool.and_eq_true] at h
    have := tysOk_get all fs ts (k + 1) h.2 i g u hg hu
    rwa [Nat.add_assoc, Nat.add_comm 1 i] at this
  | [], ts, k, _, i, g, u, hg, _ => by simp at hg
  | f :: fs, [], k, _, i, g, u, _, hu => by simp at hu

theorem startsOk_get : ∀ (ts : List XTy), startsOk ts = true → ∀ (i : Nat) (t : XTy), ts[i]? = some t → startOk t = true
  | t :: ts, h, 0, u, hu => by
    simp only [List.getElem?_cons_zero, Option.some.injEq] at hu
    subst hu
    rw [startsOk, Bool.and_eq_true] at h
    exact h.1
  | t :: ts, h, i + 1, u, hu => by
    simp only [List.getElem?_cons_succ] at hu
    rw [startsOk, Bool.and_eq_true] at h
    exact startsOk_get ts h.2 i u hu
  | [], h, i, u, hu => by simp at hu

theorem mapM_all {α β : Type} {f : α → Option β} {P : β → Prop} : ∀ {l : List α} {r : List β}, l.mapM f = some r →
    (∀ x ∈ l, ∀ y, f x = some y → P y) → ∀ y ∈ r, P y
  | [], r, h, _ => by
    rw [List.mapM_nil] at h
    injection h with h
    subst h
    intro y hy; cases hy
  | x :: l, r, h, hp => by
    rw [List.mapM_cons] at h
    cases hx : f x with
    | none => rw [hx] at h; cases h
    | some y =>
      rw [hx] at h
      cases hr : l.mapM f with
      | none => rw [hr] at h; cases h
      | some r' =>
        rw [hr] at h
        injection h with h
        subst h
        intro z hz
        rcases List.mem_cons.1 hz with rfl | hz
        · exact hp x (by simp) _ hx
        · exact mapM_all hr (fun x' hx' => hp x' (by simp [hx'])) z hz

theorem kidsNamed_mem {item : Str} : ∀ {c : List Xml} {x : Str × List (Str × Str) × List Xml}, x ∈ kidsNamed item c → .elem x.1 x.2.1 x.2.2 ∈ c
  | .elem n a k :: c, x, h => by
    rw [kidsNamed] at h
    split at h
    · rcases List.mem_cons.1 h with rfl | h
      · simp
      · exact List.mem_cons_of_mem _ (kidsNamed_mem h)
    · exact List.mem_cons_of_mem _ (kidsNamed_mem h)
  | .text s :: c, x, h => List.mem_cons_of_mem _ (kidsNamed_mem (c := c) h)
  | .other :: c, x, h => List.mem_cons_of_mem _ (kidsNamed_mem (c := c) h)

/-- Reading an element into the field at a place, when the type there is known. -/
theorem unmAt_get (dec : Str → Option Rational) : ∀ (ts : List XTy) (i : Nat) (t : XTy) (n : Str) (a : List (Str × Str)) (c : List Xml) (v : XVal),
    ts[i]? = some t → unmAt dec ts i n a c v = unm dec t n a c v
  | t :: ts, 0, u, n, a, c, v, h => by
    simp only [List.getElem?_cons_zero, Option.some.injEq] at h
    subst h
    rw [unmAt]
  | t :: ts, i + 1, u, n, a, c, v, h => by
    simp only [List.getElem?_cons_succ] at h
    rw [unmAt]
    exact unmAt_get dec ts i u n a c v h
  | [], i, u, n, a, c, v, h => by simp at h

/-- A field for a name is the field of this name, or the one for unknown names. -/
theorem findField_cases {fs : List XField} {n : Str} {i : Nat} (h : Ixml.findField fs n = some i) :
    (∃ f, fs[i]? = some f ∧ f.any = false ∧ f.chardata = false ∧ f.name = n) ∨
      ((∃ f, fs[i]? = some f ∧ f.any = true) ∧ ∀ g ∈ fs, g.any = false → g.chardata = false → g.name ≠ n) := by
  unfold Ixml.findField at h
  split at h
  · next j hj =>
    injection h with h
    subst h
    rw [List.findIdx?_eq_some_iff_getElem] at hj
    obtain ⟨h1, h2, _⟩ := hj
    simp only [Bool.and_eq_true, Bool.not_eq_true', decide_eq_true_eq] at h2
    exact Or.inl ⟨_, List.getElem?_eq_getElem h1, h2.1.2, h2.1.1, h2.2⟩
  · next hj =>
    rw [List.findIdx?_eq_none_iff] at hj
    rw [List.findIdx?_eq_some_iff_getElem] at h
    obtain ⟨h1, h2, _⟩ := h
    refine Or.inr ⟨⟨_, List.getElem?_eq_getElem h1, h2⟩, ?_⟩
    intro g hg ha hc he
    have := hj g hg
    simp [ha, hc, he] at this

/-- What is read from an element fits. -/
def ReadFits (dec : Str → Option Rational) (t : XTy) : Prop :=
  ∀ (n : Str) (a : List (Str × Str)) (c : List Xml) (v w : XVal), tyOk t = true → startOk t = true → XTy.isExts t = false →
    PlainXmls c → Before t v → unm dec t n a c v = some w → FitsXml t w

theorem steps_fit {dec : Str → Option Rational} {fs : List XField} {ts : List XTy} (ht : tysOk fs 0 fs ts = true) (hs : startsOk ts = true)
    (hr : ∀ (i : Nat) (t : XTy), ts[i]? = some t → ReadFits dec t) : ∀ (c : List Xml) (vs ws : List XVal), PlainXmls c → FitsAll fs fs ts vs →
      c.foldlM (step dec fs ts) vs = some ws → FitsAll fs fs ts ws
  | [], vs, ws, _, hb, h => by
    injection h with h
    subst h
    exact hb
  | x :: c, vs, ws, hp, hb, h => by
    rw [List.foldlM_cons] at h
    cases hx : step dec fs ts vs x with
    | none => rw [hx] at h; cases h
    | some us =>
      rw [hx] at h
      refine steps_fit ht hs hr c us ws hp.2 ?_ h
      cases x with
      | text s => injection hx with hx; subst hx; exact hb
      | other => injection hx with hx; subst hx; exact hb
      | elem n a k =>
        have hpx : PlainXml (.elem n a k) := hp.1
        unfold step at hx
        simp only at hx
        split at hx
        · next i hi =>
          rw [localName_plain hpx.2.1] at hi
          have hcases := findField_cases hi
          obtain ⟨f, hf⟩ : ∃ f, fs[i]? = some f := by
            rcases hcases with ⟨f, hf, _⟩ | ⟨⟨f, hf, _⟩, _⟩ <;> exact ⟨f, hf⟩
          obtain ⟨t, v, h1, h2, h3⟩ := fitsAll_get fs fs ts vs hb i f hf
          rw [h2] at hx
          simp only at hx
          rw [unmAt_get dec ts i t n a k v h1, Option.map_eq_some_iff] at hx
          obtain ⟨y, hy, rfl⟩ := hx
          refine fitsAll_set fs fs ts vs hb i f t y hf h1 ?_
          obtain ⟨h4, h5⟩ := tysOk_get fs fs ts 0 ht i f t hf h1
          unfold fieldOk at h4
          rcases hcases with ⟨g, hg, ha, hc, hn⟩ | ⟨⟨g, hg, ha⟩, hn⟩
          · rw [hf] at hg
            injection hg with hg
            subst hg
            rw [if_neg (by simp [hc]), if_neg (by simp [ha]), Bool.and_eq_true, Bool.and_eq_true] at h4
            have he : XTy.isExts t = false := by simpa using h4.2
            refine Or.inr (Or.inr (hr i t h1 n a k v y h5 (startsOk_get ts hs i t h1) he hpx.2.2.2 ?_ hy))
            rcases h3 with h3 | h3 | h3
            · rw [h3.2.2]
              exact before_zero (startsOk_get ts hs i t h1) he
            · rw [ha] at h3; cases h3.1
            · exact Or.inl h3
          · rw [hf] at hg
            injection hg with hg
            subst hg
            have hc : f.chardata = false := by
              cases hc : f.chardata with
              | false => rfl
              | true =>
                rw [if_pos hc, Bool.and_eq_true, ha] at h4
                cases h4.2
            rw [if_neg (by simp [hc]), if_pos ha, Bool.and_eq_true] at h4
            have := isExts_eq h4.2
            subst this
            obtain ⟨l, rfl, hl⟩ : ∃ l, v = .exts l ∧
                ∀ e ∈ l, PlainExt e ∧ ∀ g ∈ fs, g.any = false → g.chardata = false → g.name ≠ e.xmlName.loc := by
              rcases h3 with h3 | h3 | h3
              · exact ⟨[], by rw [h3.2.2, XTy.zero], by simp⟩
              · exact h3.2
              · cases v <;> exact h3.elim
            obtain ⟨e, h6, h7, h8⟩ := plainXml_ext Xml.baseScope hpx
            rw [unm, h6] at hy
            injection hy with hy
            subst hy
            refine Or.inr (Or.inl ⟨ha, _, rfl, ?_⟩)
            intro e' he'
            rcases List.mem_append.1 he' with he' | he'
            · exact hl e' he'
            · rw [List.mem_singleton] at he'
              subst he'
              exact ⟨h7, fun g hg h9 h10 => by rw [h8]; exact hn g hg h9 h10⟩
        · injection hx with hx
          subst hx
          exact hb

mutual
/-- Whatever is read fits. -/
theorem unm_fits {dec : Str → Option Rational} (hdec : ∀ s r, dec s = some r → InI64 r.num ∧ InI64 r.den) :
    ∀ (t : XTy) (n : Str) (a : List (Str × Str)) (c : List Xml) (v w : XVal), tyOk t = true → startOk t = true → XTy.isExts t = false →
      PlainXmls c → Before t v → unm dec t n a c v = some w → FitsXml t w
  | .str, n, a, c, v, w, _, _, _, _, _, h => by
    rw [unm] at h; injection h with h; subst h; simp [FitsXml]
  | .int b, n, a, c, v, w, _, _, _, _, _, h => by
    rw [unm, Option.map_eq_some_iff] at h
    obtain ⟨i, hi, rfl⟩ := h
    rw [FitsXml]
    unfold intOf at hi
    split at hi
    · injection hi with hi
      subst hi
      exact range_zero b
    · exact parseInt_range hi
  | .bool, n, a, c, v, w, _, _, _, _, _, h => by
    rw [unm, Option.map_eq_some_iff] at h
    obtain ⟨i, hi, rfl⟩ := h
    simp [FitsXml]
  | .texts, n, a, c, v, w, _, _, _, _, _, h => by
    rw [unm] at h
    injection h with h
    subst h
    rw [FitsXml]
    exact ⟨split_ne_nil _ _, split_no_sep_mem _ _⟩
  | .flag, n, a, c, v, w, _, _, _, _, _, h => by
    rw [unm, Option.map_eq_some_iff] at h
    obtain ⟨s, hs, rfl⟩ := h
    rw [ixml_flag_iff] at hs
    rw [FitsXml, hs.1]
    exact hs.2
  | .rat, n, a, c, v, w, _, _, _, _, hb, h => by
    have hb : FitsXml .rat v := by rcases hb with h | h; exact h; cases h
    match v, hb with
    | .rat r, hb =>
      rw [unm] at h
      rw [Option.map_eq_some_iff] at h
      obtain ⟨s, hs, rfl⟩ := h
      rw [FitsXml] at hb ⊢
      exact ratParse_range hdec hb hs
  | .exts, n, a, c, v, w, _, _, he, _, _, h => by cases he
  | .ptr t, n, a, c, v, w, ht, hs, _, hp, hb, h => by
    rw [tyOk, Bool.and_eq_true] at ht
    rw [startOk] at hs
    have he : XTy.isExts t = false := by cases t <;> first | rfl | cases ht.1
    have hb : FitsXml (.ptr t) v := by rcases hb with h | h; exact h; cases h
    match v, hb with
    | .nil, _ =>
      rw [unm] at h
      · rw [Option.map_eq_some_iff] at h
        obtain ⟨y, hy, rfl⟩ := h
        rw [FitsXml]
        exact unm_fits hdec t n a c _ y ht.2 hs he hp (before_zero hs he) hy
      · intro w hw; cases hw
    | .ptr v, hb =>
      rw [unm] at h
      rw [Option.map_eq_some_iff] at h
      obtain ⟨y, hy, rfl⟩ := h
      rw [FitsXml] at hb ⊢
      exact unm_fits hdec t n a c _ y ht.2 hs he hp (Or.inl hb) hy
  | .items item count t, n, a, c, v, w, ht, hs, _, hp, hb, h => by
    rw [tyOk, Bool.and_eq_true, Bool.and_eq_true, Bool.and_eq_true] at ht
    rw [startOk] at hs
    have he : XTy.isExts t = false := by cases t <;> first | rfl | cases ht.1.2
    have hb : FitsXml (.items item count t) v := by rcases hb with h | h; exact h; cases h
    match v, hb with
    | .items l, hb =>
      rw [unm_items, Option.map_eq_some_iff] at h
      obtain ⟨r, hr, rfl⟩ := h
      rw [FitsXml] at hb ⊢
      intro v hv
      rcases List.mem_append.1 hv with hv | hv
      · exact hb v hv
      · refine mapM_all hr ?_ v hv
        intro x hx y hy
        have hpx : PlainXml (.elem x.1 x.2.1 x.2.2) := plainXmls_mem hp _ (kidsNamed_mem hx)
        exact unm_fits hdec t _ _ _ _ y ht.2 hs he hpx.2.2.2 (before_zero hs he) hy
  | .record fs ts, n, a, c, v, w, ht, hs, _, hp, hb, h => by
    rw [tyOk, Bool.and_eq_true] at ht
    rw [startOk, Bool.and_eq_true] at hs
    have hb : FitsXml (.record fs ts) v := by rcases hb with h | h; exact h; cases h
    match v, hb with
    | .record vs, hb =>
      rw [FitsXml] at hb
      rw [unm_record] at h
      cases hf : c.foldlM (step dec fs ts) vs with
      | none => rw [hf] at h; cases h
      | some ws =>
        rw [hf] at h
        simp only at h
        have hw : FitsAll fs fs ts ws := steps_fit ht.2 hs.2 (unms_fits hdec ts) c vs ws hp hb hf
        cases hc : fs.findIdx? (·.chardata) with
        | none =>
          rw [hc] at h
          injection h with h
          subst h
          rw [FitsXml]
          exact hw
        | some i =>
          rw [hc] at h
          injection h with h
          subst h
          rw [FitsXml]
          have hi := hc
          rw [List.findIdx?_eq_some_iff_getElem] at hi
          obtain ⟨h1, h2, _⟩ := hi
          have h3 : fs[i]? = some fs[i] := List.getElem?_eq_getElem h1
          obtain ⟨t, v, h4, _, _⟩ := fitsAll_get fs fs ts ws hw i _ h3
          have h5 := (tysOk_get fs fs ts 0 ht.2 i _ t h3 h4).1
          unfold fieldOk at h5
          rw [if_pos h2, Bool.and_eq_true, Bool.and_eq_true] at h5
          have h6 := isStr_eq h5.1.2
          subst h6
          exact fitsAll_set fs fs ts ws hw i _ _ _ h3 h4 (Or.inr (Or.inr (by simp [FitsXml])))
theorem unms_fits {dec : Str → Option Rational} (hdec : ∀ s r, dec s = some r → InI64 r.num ∧ InI64 r.den) :
    ∀ (ts : List XTy) (i : Nat) (t : XTy), ts[i]? = some t → ReadFits dec t
  | t :: ts, 0, u, h => by
    simp only [List.getElem?_cons_zero, Option.some.injEq] at h
    subst h
    exact fun n a c v w h1 h2 h3 h4 h5 h6 => unm_fits hdec t n a c v w h1 h2 h3 h4 h5 h6
  | t :: ts, i + 1, u, h => by
    simp only [List.getElem?_cons_succ] at h
    exact unms_fits hdec ts i u h
  | [], i, u, h => by simp at h
end

end Xmp.Props
