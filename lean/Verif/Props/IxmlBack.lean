import Verif.Props.IxmlXml

/-!
# C77: iXML chunks survive as XML
-/

namespace Xmp.Props

open Xmp Xmp.GoStr Xmp.Ixml Xmp.Codec

/-! ### Types that can be read back -/

/-- Is it the type of texts? -/
def XTy.isStr : XTy → Bool
  | .str => true
  | _ => false
/-- Is it the type of extensions? -/
def XTy.isExts : XTy → Bool
  | .exts => true
  | _ => false
/-- A type whose values are written as exactly one element. -/
def XTy.single : XTy → Bool
  | .exts => false
  | .ptr _ => false
  | .items _ _ _ => false
  | _ => true

/-- A field that can be found again. -/
def fieldOk (all : List XField) (i : Nat) (f : XField) (t : XTy) : Bool :=
  if f.chardata then decide (all.findIdx? (·.chardata) = some i) && XTy.isStr t && !f.any
  else if f.any then decide (all.findIdx? (·.any) = some i) && XTy.isExts t
  else decide (localName f.name = f.name) && decide (Ixml.findField all f.name = some i) && !XTy.isExts t

mutual
/-- Types in which every field can be found again. -/
def tyOk : XTy → Bool
  | .record fs ts => decide (fs.length = ts.length) && tysOk fs 0 fs ts
  | .ptr t => XTy.single t && tyOk t
  | .items item count t => decide (localName item = item) && decide (localName count ≠ item) && XTy.single t && tyOk t
  | _ => true
/-- The fields. -/
def tysOk (all : List XField) : Nat → List XField → List XTy → Bool
  | i, f :: fs, t :: ts => fieldOk all i f t && tyOk t && tysOk all (i + 1) fs ts
  | _, _, _ => true
end

/-! ### Values that survive -/

mutual
/-- An extension that survives: names without prefix, values without blanks around them. -/
def PlainExt : Node → Prop
  | .mk n a v l => n.space = [] ∧ n.loc ≠ [] ∧ ':' ∉ n.loc ∧ trimSpace v = v ∧
      (∀ x ∈ a, x.name.space = [] ∧ x.name.loc ≠ [] ∧ ':' ∉ x.name.loc ∧ x.name.loc ≠ "xmlns".toList) ∧ PlainExts l
/-- Several extensions. -/
def PlainExts : List Node → Prop
  | [] => True
  | x :: xs => PlainExt x ∧ PlainExts xs
end

mutual
/-- Values that survive: numbers in their range, lists of texts without commas in them and not empty, one of the two timecode
flags.  A field with `omitempty` may have the empty value of its type.  Extensions do not have the name of a field. -/
def FitsXml : XTy → XVal → Prop
  | .str, .str _ => True
  | .int b, .int i => -(2 ^ (b - 1) : Int) ≤ i ∧ i < (2 ^ (b - 1) : Int)
  | .bool, .bool _ => True
  | .texts, .texts l => l ≠ [] ∧ ∀ s ∈ l, ',' ∉ s
  | .flag, .flag s => s = "DF".toList ∨ s = "NDF".toList
  | .rat, .rat r => InI64 r.num ∧ InI64 r.den
  | .record fs ts, .record vs => FitsAll fs fs ts vs
  | .ptr _, .nil => True
  | .ptr t, .ptr v => FitsXml t v
  | .items _ _ t, .items l => ∀ v ∈ l, FitsXml t v
  | _, _ => False
/-- The fields; `all` are all fields of the struct. -/
def FitsAll (all : List XField) : List XField → List XTy → List XVal → Prop
  | [], [], [] => True
  | f :: fs, t :: ts, v :: vs =>
    ((f.omitempty = true ∧ v.isEmpty = true ∧ v = t.zero) ∨
      (f.any = true ∧ ∃ l, v = .exts l ∧ ∀ e ∈ l, PlainExt e ∧ ∀ g ∈ all, g.any = false → g.chardata = false → g.name ≠ e.xmlName.loc) ∨
      FitsXml t v) ∧ FitsAll all fs ts vs
  | _, _, _ => False
end

/-! ### Parts -/

theorem charData_chunk (s : Str) : charData (Xml.chunk s) = s := by
  unfold Xml.chunk
  split
  · subst s; rfl
  · simp [charData]

theorem charData_append (a b : List Xml) : charData (a ++ b) = charData a ++ charData b := by
  induction a with
  | nil => rfl
  | cons x a ih => cases x <;> simp [charData, ih]

theorem reparseName_plain {uri : Str → Str} {q : QName} (h : ':' ∉ q.loc) : reparseName uri q = q := by
  unfold reparseName
  rw [indexChar_none.2 h]

theorem localName_plain {n : Str} (h : ':' ∉ n) : localName n = n := by
  unfold localName
  rw [reparseName_plain (by exact h)]

mutual
theorem plainExt_reparse (uri : Str → Str) : ∀ e : Node, PlainExt e → e.reparse uri = e
  | .mk n a v l, h => by
    obtain ⟨h1, h2, h3, h4, h5, h6⟩ := h
    rw [Node.reparse, reparseName_plain h3, h4, plainExts_reparse uri l h6]
    congr 1
    conv => rhs; rw [← List.map_id a]
    apply List.map_congr_left
    intro x hx
    rw [reparseName_plain (h5 x hx).2.2.1]
    rfl
theorem plainExts_reparse (uri : Str → Str) : ∀ l : List Node, PlainExts l → Node.reparseList uri l = l
  | [], _ => by simp [Node.reparseList]
  | x :: l, h => by rw [Node.reparseList, plainExt_reparse uri x h.1, plainExts_reparse uri l h.2]
end

mutual
theorem plainExt_named : ∀ e : Node, PlainExt e → XmlNamed e ∧ ∀ q ∈ allNames e, ':' ∉ q.loc
  | .mk n a v l, h => by
    obtain ⟨h1, h2, h3, h4, h5, h6⟩ := h
    obtain ⟨h7, h8⟩ := plainExts_named l h6
    refine ⟨⟨h1, h2, fun x hx => ⟨(h5 x hx).1, (h5 x hx).2.1⟩, h7⟩, ?_⟩
    intro q hq
    simp only [allNames, List.cons_append, List.mem_cons, List.mem_append, List.mem_map] at hq
    rcases hq with rfl | ⟨x, hx, rfl⟩ | hq
    · exact h3
    · exact (h5 x hx).2.2.1
    · exact h8 q hq
theorem plainExts_named : ∀ l : List Node, PlainExts l → XmlNamedAll l ∧ ∀ q ∈ allNamesList l, ':' ∉ q.loc
  | [], _ => ⟨trivial, by simp [allNamesList]⟩
  | x :: l, h => by
    obtain ⟨h1, h2⟩ := plainExt_named x h.1
    obtain ⟨h3, h4⟩ := plainExts_named l h.2
    refine ⟨⟨h1, h3⟩, ?_⟩
    intro q hq
    simp only [allNamesList, List.mem_append] at hq
    rcases hq with hq | hq
    · exact h2 q hq
    · exact h4 q hq
end

/-- An extension is written as one element, which is read as it. -/
theorem plainExt_back {e : Node} (h : PlainExt e) : ∃ a c, Xml.ofNode none 0 e = [.elem e.xmlName.loc a c] ∧
    Xml.read Xml.baseScope (.elem e.xmlName.loc a c) = [e] := by
  obtain ⟨h1, h2⟩ := plainExt_named e h
  have h3 := reads_plain none trivial e 0 Xml.baseScope h1
    (fun q hq p hp => h2 q hq (by rw [hp]; simp)) (fun hi => by cases hi)
  rw [plainExt_reparse _ e h] at h3
  obtain ⟨n, a, v, l⟩ := e
  have hn : n.loc ≠ [] := h.2.1
  rw [Xml.ofNode, if_neg hn] at h3 ⊢
  refine ⟨_, _, rfl, ?_⟩
  rw [Xml.reads, Xml.reads, List.append_nil] at h3
  exact h3

/-! ### All types -/

/-- A value is left out, being empty, or written as one element from which it is read. -/
def Back (dec : Str → Option Rational) (t : XTy) (v : XVal) : Prop :=
  ∀ name, (mar t name v = [] ∧ v = t.zero ∧ XTy.single t = false) ∨
    ∃ c, mar t name v = [.elem name [] c] ∧ ∀ n, unm dec t n [] c t.zero = some v

theorem back_single {dec : Str → Option Rational} {t : XTy} {v : XVal} (h : Back dec t v) (hs : XTy.single t = true) (name : Str) :
    ∃ c, mar t name v = [.elem name [] c] ∧ ∀ n, unm dec t n [] c t.zero = some v := by
  rcases h name with h | h
  · rw [hs] at h; cases h.2.2
  · exact h

theorem kidsNamed_back (dec : Str → Option Rational) {item : Str} (hi : localName item = item) {t : XTy} (hs : XTy.single t = true) :
    ∀ l : List XVal, (∀ v ∈ l, Back dec t v) →
      (kidsNamed item (l.flatMap (fun v => mar t item v))).mapM (fun x => unm dec t x.1 x.2.1 x.2.2 t.zero) = some l
  | [], _ => by simp [kidsNamed]
  | v :: l, h => by
    obtain ⟨c, h1, h2⟩ := back_single (h v (by simp)) hs item
    rw [List.flatMap_cons, h1, List.singleton_append, kidsNamed, if_pos hi, List.mapM_cons, h2,
      kidsNamed_back dec hi hs l (fun w hw => h w (by simp [hw]))]
    rfl

/-- The fields with the character data left out. -/
def hide : List XField → List XVal → List XVal
  | f :: fs, v :: vs => (if f.chardata then .str [] else v) :: hide fs vs
  | _, _ => []

theorem foldlM_append {α β : Type} (f : β → α → Option β) (a b : List α) (x : β) :
    (a ++ b).foldlM f x = (a.foldlM f x).bind (fun y => b.foldlM f y) := by
  rw [List.foldlM_append]
  rfl

/-- An element for a field. -/
theorem step_field (dec : Str → Option Rational) (all : List XField) (ts1 ts2 : List XTy) (t : XTy) (done rest : List XVal)
    (w v : XVal) (n : Str) (a : List (Str × Str)) (c : List Xml) (hd : done.length = ts1.length)
    (hf : Ixml.findField all (localName n) = some done.length) (hu : unm dec t n a c w = some v) :
    step dec all (ts1 ++ t :: ts2) (done ++ w :: rest) (.elem n a c) = some (done ++ v :: rest) := by
  have h1 : unmAt dec (ts1 ++ t :: ts2) done.length n a c w = some v := by rw [hd, unmAt_append, hu]
  simp [step, hf, h1]

/-- Extensions are appended. -/
theorem exts_back (dec : Str → Option Rational) (all : List XField) (ts1 ts2 : List XTy) (done rest : List XVal)
    (hd : done.length = ts1.length) (ha : all.findIdx? (·.any) = some done.length) :
    ∀ (l out : List Node), (∀ e ∈ l, PlainExt e ∧ ∀ g ∈ all, g.any = false → g.chardata = false → g.name ≠ e.xmlName.loc) →
      (Xml.ofNodes none 0 l).foldlM (step dec all (ts1 ++ .exts :: ts2)) (done ++ .exts out :: rest) =
        some (done ++ .exts (out ++ l) :: rest)
  | [], out, _ => by simp [Xml.ofNodes]
  | e :: l, out, h => by
    obtain ⟨a, c, h1, h2⟩ := plainExt_back (h e (by simp)).1
    have hn : ':' ∉ e.xmlName.loc := by
      have := (h e (by simp)).1
      obtain ⟨n, a, v, l⟩ := e
      exact this.2.2.1
    rw [Xml.ofNodes, h1, List.singleton_append, List.foldlM_cons]
    have hf : Ixml.findField all (localName e.xmlName.loc) = some done.length := by
      rw [localName_plain hn]
      unfold Ixml.findField
      have : all.findIdx? (fun f => !f.chardata && !f.any && decide (f.name = e.xmlName.loc)) = none := by
        rw [List.findIdx?_eq_none_iff]
        intro g hg
        have := (h e (by simp)).2 g hg
        cases h3 : g.chardata <;> cases h4 : g.any <;> simp_all
      rw [this]
      exact ha
    have hu : unm dec .exts e.xmlName.loc a c (.exts out) = some (.exts (out ++ [e])) := by rw [unm, h2]
    rw [step_field dec all ts1 ts2 .exts done rest _ _ _ a c hd hf hu]
    show List.foldlM _ _ _ = _
    rw [exts_back dec all ts1 ts2 done rest hd ha l (out ++ [e]) (fun e' he => h e' (by simp [he])), List.append_assoc]
    rfl

theorem isExts_eq {t : XTy} (h : XTy.isExts t = true) : t = .exts := by cases t <;> first | rfl | cases h
theorem isStr_eq {t : XTy} (h : XTy.isStr t = true) : t = .str := by cases t <;> first | rfl | cases h

/-- The text of a value. -/
def strOf : XVal → Str
  | .str s => s
  | _ => []

/-- The character data of the fields. -/
def chars : List XField → List XVal → Str
  | f :: fs, v :: vs => (if f.chardata then strOf v else []) ++ chars fs vs
  | _, _ => []

theorem charData_elems {l : List Xml} (h : Elems l) : charData l = [] := by
  induction l with
  | nil => rfl
  | cons x l ih =>
    cases x with
    | elem n a c => rw [charData]; exact ih (fun y hy => h y (by simp [hy])); intro s hs; cases hs
    | text s => obtain ⟨_, _, _, h⟩ := h (.text s) (by simp); cases h
    | other => obtain ⟨_, _, _, h⟩ := h .other (by simp); cases h

theorem charData_mar : ∀ (t : XTy) (name : Str) (v : XVal), charData (mar t name v) = []
  | .ptr t, name, v => by
    cases v <;> rw [mar] <;> first | rfl | exact charData_mar t name _ | simp
  | .items item count t, name, v => by
    cases v <;> rw [mar] <;> first | rfl | (split <;> rfl) | simp
  | .exts, name, v => by
    cases v <;> rw [mar] <;> first | rfl | exact charData_elems (elems_ofNodes _ _ _) | simp
  | .record fs ts, name, v => by
    cases v <;> rw [mar] <;> first | rfl | simp
  | .str, name, v => by cases v <;> rw [mar] <;> first | rfl | simp
  | .int _, name, v => by cases v <;> rw [mar] <;> first | rfl | simp
  | .bool, name, v => by cases v <;> rw [mar] <;> first | rfl | simp
  | .texts, name, v => by cases v <;> rw [mar] <;> first | rfl | simp
  | .flag, name, v => by cases v <;> rw [mar] <;> first | rfl | simp
  | .rat, name, v => by cases v <;> rw [mar] <;> first | rfl | simp

theorem charData_fields : ∀ (ts : List XTy) (fs : List XField) (vs : List XVal), ts.length = fs.length →
    charData (marFields ts fs vs) = chars fs vs
  | [], [], vs, _ => by simp [marFields, chars, charData]
  | t :: ts, f :: fs, [], _ => by simp [marFields, chars, charData]
  | t :: ts, f :: fs, v :: vs, h => by
    rw [marFields, chars, charData_append, charData_fields ts fs vs (by simpa using h)]
    congr 1
    by_cases hc : f.chardata = true
    · rw [if_pos hc, if_pos hc]
      split
      · next ho =>
        rw [Bool.and_eq_true] at ho
        cases v with
        | str s =>
          have := ho.2
          simp only [XVal.isEmpty, decide_eq_true_eq] at this
          rw [this]; rfl
        | _ => rfl
      · cases v <;> first | rfl | exact charData_chunk _
    · rw [if_neg hc, if_neg hc]
      split
      · rfl
      · exact charData_mar _ _ _

theorem hide_back (all : List XField) : ∀ (fs : List XField) (ts : List XTy) (vs : List XVal) (k : Nat), tysOk all k fs ts = true →
    FitsAll all fs ts vs → all.drop k = fs →
    ((∀ i, all.findIdx? (·.chardata) = some i → i < k) → hide fs vs = vs ∧ chars fs vs = []) ∧
      ∀ i, all.findIdx? (·.chardata) = some i → k ≤ i → (hide fs vs).set (i - k) (.str (chars fs vs)) = vs
  | fs, [], vs, k, _, h, hd => by
    match fs, vs, h with
    | [], [], _ => exact ⟨fun _ => ⟨rfl, rfl⟩, fun i _ _ => rfl⟩
  | fs, t :: ts, vs, k, hok, h, hd => by
    match fs, vs, h with
    | f :: fs, v :: vs, h =>
      rw [tysOk, Bool.and_eq_true, Bool.and_eq_true] at hok
      obtain ⟨⟨h1, _⟩, h3⟩ := hok
      have hd' : all.drop (k + 1) = fs := by
        rw [← List.drop_drop, hd]; rfl
      obtain ⟨ih1, ih2⟩ := hide_back all fs ts vs (k + 1) h3 h.2 hd'
      by_cases hc : f.chardata = true
      · unfold fieldOk at h1
        rw [if_pos hc, Bool.and_eq_true, Bool.and_eq_true] at h1
        obtain ⟨⟨h4, h5⟩, h6⟩ := h1
        have hk := of_decide_eq_true h4
        have hs := isStr_eq h5
        subst hs
        obtain ⟨s, rfl⟩ : ∃ s, v = .str s := by
          rcases h.1 with h | ⟨ha, _⟩ | h
          · exact ⟨[], by rw [h.2.2, XTy.zero]⟩
          · rw [ha] at h6; cases h6
          · cases v <;> first | exact ⟨_, rfl⟩ | exact h.elim
        obtain ⟨h7, h8⟩ := ih1 (fun i hi => by rw [hk] at hi; injection hi with hi; omega)
        refine ⟨fun hx => absurd (hx k hk) (by omega), fun i hi _ => ?_⟩
        rw [hk] at hi
        injection hi with hi
        subst hi
        rw [hide, chars, h7, h8, if_pos hc, if_pos hc, Nat.sub_self]
        simp [strOf]
      · refine ⟨fun hx => ?_, fun i hi hki => ?_⟩
        · obtain ⟨h7, h8⟩ := ih1 (fun i hi => by have := hx i hi; omega)
          rw [hide, chars, h7, h8, if_neg hc, if_neg hc]
          simp
        · have hne : k ≠ i := by
            rintro rfl
            rw [List.findIdx?_eq_some_iff_getElem] at hi
            obtain ⟨h9, h10, _⟩ := hi
            have : all[k] = f := by
              have h11 : (all.drop k)[0]? = some f := by rw [hd]; rfl
              rw [List.getElem?_drop, Nat.add_zero, List.getElem?_eq_getElem h9] at h11
              injection h11
            rw [this] at h10
            exact hc h10
          have := ih2 i hi (by omega)
          have he : i - k = (i - (k + 1)) + 1 := by omega
          rw [hide, chars, if_neg hc, if_neg hc, he, List.nil_append, List.set_cons_succ, this]

theorem empty_zero (t : XTy) (v : XVal) (h : FitsXml t v) (he : v.isEmpty = true) : v = t.zero := by
  cases t <;> cases v <;> first | exact h.elim | skip
  all_goals simp only [XVal.isEmpty, decide_eq_true_eq, Bool.not_eq_true', List.isEmpty_iff, Bool.false_eq_true] at he
  all_goals first | (subst he; rw [XTy.zero]) | rw [XTy.zero]

mutual
/-- Every value that fits is read back, whatever its type. -/
theorem fits_back (dec : Str → Option Rational) : ∀ (t : XTy) (v : XVal), tyOk t = true → FitsXml t v → Back dec t v
  | .str, v, _, h => by
    match v, h with
    | .str s, _ => exact fun name => Or.inr ⟨_, by rw [mar], fun n => by rw [unm, charData_chunk]⟩
  | .int b, v, _, h => by
    match v, h with
    | .int i, h =>
      refine fun name => Or.inr ⟨_, by rw [mar], fun n => ?_⟩
      rw [unm, charData, charData, List.append_nil, intOf, if_neg (itoa_ne_nil i), trimSpace_itoa, parseInt_itoa h.1 h.2]
      rfl
  | .bool, v, _, h => by
    match v, h with
    | .bool b, _ =>
      refine fun name => Or.inr ⟨_, by rw [mar], fun n => ?_⟩
      rw [unm, charData, charData, List.append_nil, ixml_bool_roundtrip]
      rfl
  | .texts, v, _, h => by
    match v, h with
    | .texts l, h =>
      refine fun name => Or.inr ⟨_, by rw [mar], fun n => ?_⟩
      rw [unm, charData_chunk, ixml_list_roundtrip h.1 h.2]
  | .flag, v, _, h => by
    match v, h with
    | .flag s, h =>
      refine fun name => Or.inr ⟨_, by rw [mar], fun n => ?_⟩
      rw [unm, charData_chunk, (ixml_flag_iff s s).2 ⟨rfl, h⟩]
      rfl
  | .rat, v, _, h => by
    match v, h with
    | .rat r, h =>
      refine fun name => Or.inr ⟨_, by rw [mar], fun n => ?_⟩
      rw [XTy.zero, unm]
      simp only [charData, List.append_nil]
      rw [rational_roundtrip dec _ h.1 h.2]
      rfl
  | .ptr t, v, ht, h => by
    rw [tyOk, Bool.and_eq_true] at ht
    match v, h with
    | .nil, _ => exact fun name => Or.inl ⟨by rw [mar] <;> simp, by rw [XTy.zero], rfl⟩
    | .ptr v, h =>
      intro name
      obtain ⟨c, h1, h2⟩ := back_single (fits_back dec t v ht.2 h) ht.1 name
      refine Or.inr ⟨c, by rw [mar, h1], fun n => ?_⟩
      rw [XTy.zero, unm]
      · simp only [h2]
        rfl
      · intro w hw; cases hw
  | .items item count t, v, ht, h => by
    rw [tyOk, Bool.and_eq_true, Bool.and_eq_true, Bool.and_eq_true] at ht
    obtain ⟨⟨⟨h1, h2⟩, h3⟩, h4⟩ := ht
    match v, h with
    | .items l, h =>
      intro name
      cases hl : l.isEmpty with
      | true =>
        rw [List.isEmpty_iff] at hl
        subst hl
        exact Or.inl ⟨by rw [mar]; rfl, by rw [XTy.zero], rfl⟩
      | false =>
        refine Or.inr ⟨.elem count [] [.text (itoa l.length)] :: l.flatMap (fun v => mar t item v), by rw [mar, hl]; rfl, fun n => ?_⟩
        rw [XTy.zero, unm_items, kidsNamed, if_neg (of_decide_eq_true h2),
          kidsNamed_back dec (of_decide_eq_true h1) h3 l (fun v hv => fits_back dec t v h4 (h v hv))]
        rfl
  | .exts, v, _, h => by
    match v, h with
    | .str _, h => exact h.elim
    | .int _, h => exact h.elim
    | .bool _, h => exact h.elim
    | .texts _, h => exact h.elim
    | .flag _, h => exact h.elim
    | .rat _, h => exact h.elim
    | .record _, h => exact h.elim
    | .nil, h => exact h.elim
    | .ptr _, h => exact h.elim
    | .items _, h => exact h.elim
    | .exts _, h => exact h.elim
  | .record fs ts, v, ht, h => by
    rw [tyOk, Bool.and_eq_true] at ht
    match v, h with
    | .record vs, h =>
      refine fun name => Or.inr ⟨marFields ts fs vs, by rw [mar], fun n => ?_⟩
      have hlen : fs.length = ts.length := of_decide_eq_true ht.1
      have hfold := fields_back dec fs ts [] fs ts vs [] ht.2 h rfl rfl
      rw [XTy.zero, unm_record]
      simp only [List.nil_append] at hfold
      rw [hfold]
      have hch := hide_back fs fs ts vs 0 ht.2 h rfl
      simp only
      cases hc : fs.findIdx? (·.chardata) with
      | none =>
        simp only
        rw [(hch.1 (by intro i hi; rw [hc] at hi; cases hi)).1]
      | some i =>
        simp only
        rw [charData_fields ts fs vs hlen.symm]
        have := hch.2 i hc (Nat.zero_le i)
        rw [Nat.sub_zero] at this
        rw [this]
/-- The fields of a struct, from some place on. -/
theorem fields_back (dec : Str → Option Rational) (all : List XField) (tall : List XTy) :
    ∀ (ts1 : List XTy) (fs : List XField) (ts : List XTy) (vs done : List XVal), tysOk all done.length fs ts = true → FitsAll all fs ts vs →
      tall = ts1 ++ ts → done.length = ts1.length →
      (marFields ts fs vs).foldlM (step dec all tall) (done ++ XTy.zeros ts) = some (done ++ hide fs vs)
  | ts1, fs, [], vs, done, hok, hfit, ht, hdl => by
    match fs, vs, hfit with
    | [], [], _ => simp [marFields, XTy.zeros, hide]
  | ts1, fs, t :: ts, vs, done, hok, hfit, ht, hdl => by
    match fs, vs, hfit with
    | f :: fs, v :: vs, hfit =>
      obtain ⟨hv, hrest⟩ := hfit
      rw [tysOk, Bool.and_eq_true, Bool.and_eq_true] at hok
      obtain ⟨⟨h1, h2⟩, h3⟩ := hok
      rw [marFields, XTy.zeros, hide, foldlM_append]
      have hnext : ∀ w, (marFields ts fs vs).foldlM (step dec all tall) (done ++ w :: XTy.zeros ts) = some (done ++ w :: hide fs vs) := by
        intro w
        have := fields_back dec all tall (ts1 ++ [t]) fs ts vs (done ++ [w]) (by simpa using h3) hrest (by simp [ht]) (by simp [hdl])
        simpa using this
      have key : ∀ b : List Xml, b.foldlM (step dec all tall) (done ++ t.zero :: XTy.zeros ts) =
          some (done ++ (if f.chardata then .str [] else v) :: XTy.zeros ts) →
          (b.foldlM (step dec all tall) (done ++ t.zero :: XTy.zeros ts)).bind (fun y => (marFields ts fs vs).foldlM (step dec all tall) y) =
            some (done ++ (if f.chardata then .str [] else v) :: hide fs vs) := by
        intro b hb
        rw [hb]
        exact hnext _
      apply key
      unfold fieldOk at h1
      by_cases hc : f.chardata = true
      · rw [if_pos hc, Bool.and_eq_true, Bool.and_eq_true] at h1
        obtain ⟨⟨_, hstr⟩, _⟩ := h1
        have := isStr_eq hstr
        subst this
        rw [if_pos hc, XTy.zero]
        have hfold : ∀ s, (Xml.chunk s).foldlM (step dec all tall) (done ++ .str [] :: XTy.zeros ts) = some (done ++ .str [] :: XTy.zeros ts) := by
          intro s
          unfold Xml.chunk
          split
          · rfl
          · rfl
        split
        · rfl
        · cases v <;> first | exact hfold _ | rfl
      · rw [if_neg hc] at h1
        rw [if_neg hc]
        split
        · next hom =>
          rw [Bool.and_eq_true] at hom
          have hz : v = t.zero := by
            rcases hv with h | ⟨ha, l, rfl, _⟩ | h
            · exact h.2.2
            · rw [if_pos ha, Bool.and_eq_true] at h1
              have := isExts_eq h1.2
              subst this
              have hl : l.isEmpty = true := hom.2
              rw [List.isEmpty_iff] at hl
              rw [hl, XTy.zero]
            · exact empty_zero t v h hom.2
          rw [hz]
          rfl
        · next hom =>
          rcases hv with h | ⟨ha, l, rfl, hl⟩ | h
          · exact absurd (by rw [Bool.and_eq_true]; exact ⟨h.1, h.2.1⟩) hom
          · rw [if_pos ha, Bool.and_eq_true] at h1
            have := isExts_eq h1.2
            subst this
            rw [XTy.zero, mar, ht]
            exact exts_back dec all ts1 ts done (XTy.zeros ts) hdl (of_decide_eq_true h1.1) l [] hl
          · have hb := fits_back dec t v h2 h
            by_cases ha : f.any = true
            · rw [if_pos ha, Bool.and_eq_true] at h1
              have := isExts_eq h1.2
              subst this
              cases v <;> exact h.elim
            · rw [if_neg ha, Bool.and_eq_true, Bool.and_eq_true] at h1
              obtain ⟨⟨h4, h5⟩, _⟩ := h1
              rcases hb f.name with ⟨hm, hz, _⟩ | ⟨c, hm, hu⟩
              · rw [hm, hz]; rfl
              · rw [hm, List.foldlM_cons, ht, step_field dec all ts1 ts t done _ _ v f.name [] c hdl
                  (by rw [of_decide_eq_true h4]; exact of_decide_eq_true h5) (hu f.name)]
                rfl
end

end Xmp.Props
