import Verif.Model.TextLists
import Verif.Model.TypedXmp
import Verif.Props.ArrayXmp
import Verif.Props.Dates

/-! Languages and dates of Dublin Core may be arrays or one text (C82). -/

namespace Xmp.Props

open GoStr

/-! ### Specification -/

/-- The two forms of a list of texts: one text that is not empty, or an array of any kind, whose elements are named `rdf:li`. -/
inductive TextsForm (r : Registry) : Node → List Str → Prop
  | one (n : Node) (hn : n.nodes = []) (hv : n.value ≠ []) : TextsForm r n [n.value]
  | many (n arr : Node) (hn : n.nodes = [arr]) (hk : arr.name ∈ ["Seq".toList, "Bag".toList, "Alt".toList])
      (hl : ∀ e ∈ arr.nodes, e.fullName r = "rdf:li".toList) : TextsForm r n (arr.nodes.map Node.value)

/-- A text of a date: nothing is the zero date. -/
def DateOf (s : Str) (t : GoTime) : Prop := (s = [] ∧ t = zeroDate) ∨ (s ≠ [] ∧ parseDate s = some t)

/-! ### Helpers -/

theorem mapM_li {α : Type} (r : Registry) (dec : Node → Option α) : ∀ (l : List Node) (ts : List α),
    l.mapM (fun n => if n.fullName r ≠ "rdf:li".toList then none else dec n) = some ts ↔
      (∀ e ∈ l, e.fullName r = "rdf:li".toList) ∧ List.Forall₂ (fun n t => dec n = some t) l ts
  | [], ts => by
    cases ts <;> simp
  | n :: l, ts => by
    rw [List.mapM_cons]
    by_cases hn : n.fullName r = "rdf:li".toList
    · rw [if_neg (by simpa using hn)]
      cases hd : dec n with
      | none =>
        simp only [Option.bind_eq_bind, Option.bind_none, reduceCtorEq, false_iff]
        rintro ⟨-, h⟩
        cases h with
        | cons h _ => rw [hd] at h; cases h
      | some t =>
        simp only [Option.bind_eq_bind, Option.bind_some, Option.bind_eq_some_iff, Option.pure_def, Option.some.injEq]
        constructor
        · rintro ⟨us, hu, rfl⟩
          obtain ⟨h1, h2⟩ := (mapM_li r dec l us).1 hu
          refine ⟨fun e he => ?_, .cons hd h2⟩
          rcases List.mem_cons.1 he with rfl | he
          · exact hn
          · exact h1 e he
        · rintro ⟨h1, h2⟩
          cases h2 with
          | cons h3 h4 =>
            rename_i u us
            rw [hd] at h3
            cases h3
            exact ⟨us, (mapM_li r dec l us).2 ⟨fun e he => h1 e (List.mem_cons_of_mem _ he), h4⟩, rfl⟩
    · rw [if_pos hn]
      simp only [Option.bind_eq_bind, Option.bind_none, reduceCtorEq, false_iff]
      rintro ⟨h, -⟩
      exact hn (h n (List.mem_cons_self ..))

theorem unmarshalArray_iff {α : Type} (r : Registry) (dec : Node → Option α) (n : Node) (out x : List α) :
    unmarshalArray r dec n out = some x ↔ ∃ arr ts, n.nodes = [arr] ∧ arr.name ∈ ["Seq".toList, "Bag".toList, "Alt".toList] ∧
      (∀ e ∈ arr.nodes, e.fullName r = "rdf:li".toList) ∧ List.Forall₂ (fun n t => dec n = some t) arr.nodes ts ∧ x = out ++ ts := by
  unfold unmarshalArray arrayItems
  constructor
  · intro h
    split at h
    · cases h
    · rename_i lis hi
      split at hi
      · rename_i arr ha
        split at hi
        · rename_i hk
          cases hi
          rw [Option.map_eq_some_iff] at h
          obtain ⟨ts, h1, h2⟩ := h
          obtain ⟨h3, h4⟩ := (mapM_li r dec _ _).1 h1
          exact ⟨arr, ts, ha, hk, h3, h4, h2.symm⟩
        · cases hi
      · cases hi
  · rintro ⟨arr, ts, ha, hk, h3, h4, rfl⟩
    rw [ha]
    simp only [if_pos hk]
    rw [(mapM_li r dec _ _).2 ⟨h3, h4⟩]
    rfl

theorem forall₂_map_left {α β γ : Type} {f : α → β} {R : β → γ → Prop} {l : List α} {ts : List γ} :
    List.Forall₂ R (l.map f) ts ↔ List.Forall₂ (fun a t => R (f a) t) l ts := List.forall₂_map_left_iff

theorem forall₂_some_map {α : Type} {f : α → Str} {l : List α} {ts : List Str} :
    List.Forall₂ (fun a t => some (f a) = some t) l ts ↔ ts = l.map f := by
  induction l generalizing ts with
  | nil => cases ts <;> simp
  | cons a l ih =>
    cases ts with
    | nil => simp
    | cons t ts => rw [List.forall₂_cons, ih]; simp [eq_comm]

/-! ### C82 -/

/-- **C82.**  Languages in either form are read completely and in order, after those that are there.  (Texts of XML have no
white space around them.) -/
theorem locales_read (r : Registry) (n : Node) (out l : List Str) (h : TextsForm r n l) (ht : ∀ s ∈ l, Trimmed s) :
    localesUnmarshal r n out = some (out ++ l) := by
  cases h with
  | one hn hv =>
    rw [localesUnmarshal, if_pos ⟨by simp [hn], List.length_pos_iff.2 hv⟩]
  | many arr hn hk hl =>
    rw [localesUnmarshal, if_neg (by simp [hn]), unmarshalArray_iff]
    refine ⟨arr, arr.nodes.map Node.value, hn, hk, hl, ?_, rfl⟩
    simp only [decodeString]
    rw [forall₂_some_map]
    apply List.map_congr_left
    intro e he
    exact (trimSpace_of_trimmed (ht _ (List.mem_map_of_mem he))).symm

/-- **C82.**  Everything else is refused: an element without text and children, several arrays, other elements. -/
theorem locales_refused (r : Registry) (n : Node) (out : List Str) :
    localesUnmarshal r n out = none ↔ ¬ ∃ l, TextsForm r n l := by
  constructor
  · rintro h ⟨l, hf⟩
    cases hf with
    | one hn hv =>
      rw [localesUnmarshal, if_pos ⟨by simp [hn], List.length_pos_iff.2 hv⟩] at h
      cases h
    | many arr hn hk hl =>
      rw [localesUnmarshal, if_neg (by simp [hn])] at h
      rw [(unmarshalArray_iff r decodeString n out (out ++ arr.nodes.map (fun n => trimSpace n.value))).2
        ⟨arr, _, hn, hk, hl, by simp only [decodeString]; rw [forall₂_some_map], rfl⟩] at h
      cases h
  · intro h
    rw [localesUnmarshal, if_neg]
    · cases hu : unmarshalArray r decodeString n out with
      | none => rfl
      | some x =>
        obtain ⟨arr, ts, hn, hk, hl, -, -⟩ := (unmarshalArray_iff ..).1 hu
        exact absurd ⟨_, TextsForm.many n arr hn hk hl⟩ h
    · rintro ⟨hn, hv⟩
      exact h ⟨_, .one n (List.length_eq_zero_iff.1 hn) (List.length_pos_iff.1 hv)⟩

/-- **C82.**  Dates in either form: what is read, exactly.  A text that is no date is an error in both forms. -/
theorem dates_read (r : Registry) (n : Node) (out x : List GoTime) :
    datesUnmarshal r n out = some x ↔ ∃ l ts, TextsForm r n l ∧ List.Forall₂ DateOf l ts ∧ x = out ++ ts := by
  have hd : ∀ (s : Str) (t : GoTime), dateUnmarshal s = some t ↔ DateOf s t := by
    intro s t
    unfold dateUnmarshal DateOf
    by_cases hs : s = []
    · simp [hs, eq_comm]
    · simp [hs]
  have hm : unmarshalArray r decodeDate n out = some x ↔ ∃ arr ts, n.nodes = [arr] ∧ arr.name ∈ ["Seq".toList, "Bag".toList, "Alt".toList] ∧
      (∀ e ∈ arr.nodes, e.fullName r = "rdf:li".toList) ∧ List.Forall₂ DateOf (arr.nodes.map Node.value) ts ∧ x = out ++ ts := by
    rw [unmarshalArray_iff]
    simp only [decodeDate, hd, forall₂_map_left]
  unfold datesUnmarshal
  by_cases hc : n.nodes.length = 0 ∧ n.value.length > 0
  · rw [if_pos hc]
    have hn := List.length_eq_zero_iff.1 hc.1
    have hv := List.length_pos_iff.1 hc.2
    constructor
    · intro h
      split at h
      · cases h
      · rename_i t hp
        cases h
        exact ⟨_, [t], .one n hn hv, .cons (.inr ⟨hv, hp⟩) .nil, rfl⟩
    · rintro ⟨l, ts, hf, h2, rfl⟩
      cases hf with
      | one =>
        cases h2 with
        | cons h3 h4 =>
          cases h4
          rcases h3 with ⟨h3, -⟩ | ⟨-, h3⟩
          · exact absurd h3 hv
          · rw [h3]
      | many arr hn' => rw [hn] at hn'; cases hn'
  · rw [if_neg hc, hm]
    constructor
    · rintro ⟨arr, ts, hn, hk, hl, h2, hx⟩
      exact ⟨_, ts, .many n arr hn hk hl, h2, hx⟩
    · rintro ⟨l, ts, hf, h2, hx⟩
      cases hf with
      | one hn hv => exact absurd ⟨by simp [hn], List.length_pos_iff.2 hv⟩ hc
      | many arr hn hk hl => exact ⟨arr, ts, hn, hk, hl, h2, hx⟩

/-- **C82.**  One text is saved as an array and found again: in the tree and in its XML text. -/
theorem locales_saved (r : Registry) (uri : Str → Str) (hb : RdfBound r uri) (n node : Node) (l : List Str) (h : TextsForm r n l)
    (hne : l ≠ []) (ht : ∀ s ∈ l, Trimmed s) (hnode : node.nodes = []) :
    ∃ x t, localesUnmarshal r n [] = some x ∧ localesMarshal x node = some t ∧
      (∃ arr, t.nodes = [arr] ∧ arr.xmlName.loc = "rdf:Bag".toList ∧ arr.nodes.map Node.value = l) ∧
      (∀ u ∈ Views uri t, localesUnmarshal r u [] = some l) ∧ localesDefault x = l.headD [] := by
  obtain ⟨t, h1, h2⟩ := strings_roundtrip r uri hb .unordered l hne ht node hnode
  refine ⟨l, t, locales_read r n [] l h ht, h1, ?_, ?_, by cases l <;> rfl⟩
  · unfold marshalArray at h1
    rw [if_neg (by simpa using hne), mapM_some_of (fun v => encodeString v liNode) (fun s => liNode.setValue s) _ (fun _ _ => rfl)] at h1
    simp only [Option.map_some, Option.some.injEq] at h1
    subst h1
    refine ⟨_, nodes_addNode_fresh _ _ hnode, rfl, ?_⟩
    simp only [Node.setNodes, Node.new, Node.nodes, List.map_map]
    conv_rhs => rw [← List.map_id l]
    apply List.map_congr_left
    intro s _
    rfl
  · intro u hu
    have hu' := h2 u hu
    have hn : u.nodes.length ≠ 0 := by
      obtain ⟨arr, _, hn, _⟩ := (unmarshalArray_iff ..).1 hu'
      simp [hn]
    rw [localesUnmarshal, if_neg (fun hc => hn hc.1)]
    exact hu'

/-- The text of a date has no white space. -/
theorem dateString_trimmed {t : GoTime} (h : ValidDate t) : Trimmed (dateString t) := by
  have h4 := rfc_known.2.2.2
  have ho : okFrac (layoutToks rfc3339) = true := by rw [h4]; rfl
  have hk : fmtFrac true (fracDigits (layoutToks rfc3339)) t.nsec =
      if 0 = 0 then [] else '.' :: digitsW 0 (t.nsec / 10 ^ (9 - 0)) := by
    rw [h4]; rfl
  apply trimmed_of_visible
  rw [dateString, format_sym h ho hk, h4]
  intro c hc
  obtain ⟨x, hx, rfl⟩ := List.mem_map.1 hc
  have ha : ∀ neg utc : Bool, ∀ x ∈ [Tok.year4, .lit '-', .month, .lit '-', .day, .lit 'T', .hour, .lit ':', .min, .lit ':', .sec,
      .tzIso].flatMap (symFmt 0 neg utc), x.isDig = true ∨ x ∈ [SC.ch '-', .ch 'T', .ch ':', .ch 'Z', .ch '+'] := by
    decide
  rcases ha _ _ x hx with hd | hd
  · exact visible_of_isDigit (by rw [isDig_conc]; exact hd)
  · simp only [List.mem_cons, List.not_mem_nil, or_false] at hd
    rcases hd with rfl | rfl | rfl | rfl | rfl <;> (show Visible _; simp only [SC.conc]; decide)

/-- The node of a date. -/
def dateLi (t : GoTime) : Node :=
  match dateMarshal t with
  | none => liNode
  | some s => liNode.setValue s

theorem encodeDate_li (t : GoTime) : encodeDate t liNode = some (dateLi t) := by
  unfold encodeDate dateLi
  cases dateMarshal t <;> rfl

/-- What is left of a date: no fractions of a second. -/
def dateSeen (t : GoTime) : GoTime := if t.isZero then zeroDate else { t with nsec := 0 }

theorem dateLi_read {t : GoTime} (h : ValidDate t) (uri : Str → Str) :
    decodeDate (dateLi t) = some (dateSeen t) ∧ decodeDate ((dateLi t).reparse uri) = some (dateSeen t) := by
  unfold decodeDate dateLi dateSeen
  rw [value_reparse]
  cases hz : t.isZero with
  | true =>
    rw [(date_zero_round_trip hz).1]
    have : trimSpace [] = [] := by decide
    simp [liNode, Node.new, Node.value, dateUnmarshal, this]
  | false =>
    obtain ⟨s, h1, h2⟩ := date_round_trip h hz
    have hs : s = dateString t := by
      rw [dateMarshal, hz] at h1; exact (Option.some.inj h1).symm
    rw [h1]
    have ht := trimSpace_of_trimmed (hs ▸ dateString_trimmed h)
    simp [Node.setValue, liNode, Node.new, Node.value, ht, h2]

/-- **C82.**  Dates are saved as an ordered array and found again, in the tree and in its XML text, in the same order, up to
fractions of seconds. -/
theorem dates_saved (r : Registry) (uri : Str → Str) (hb : RdfBound r uri) (node : Node) (ts out : List GoTime) (hne : ts ≠ [])
    (hv : ∀ t ∈ ts, ValidDate t) (hnode : node.nodes = []) :
    ∃ t, datesMarshal ts node = some t ∧ ∀ u ∈ Views uri t, datesUnmarshal r u out = some (out ++ ts.map dateSeen) := by
  refine ⟨node.addNode ((Node.new ⟨[], "rdf:".toList ++ ArrayType.ordered.toStr⟩).setNodes (ts.map dateLi)), ?_, ?_⟩
  · unfold datesMarshal marshalArray
    rw [if_neg (by simpa using hne), mapM_some_of _ dateLi _ (fun t _ => encodeDate_li t)]
    rfl
  · intro u hu
    have hname : ∀ t, (dateLi t).xmlName = ⟨[], "rdf:li".toList⟩ := by
      intro t; unfold dateLi; cases dateMarshal t <;> rfl
    have hf : ∀ (l : List GoTime) (g : Node → Node), (∀ t ∈ l, decodeDate (g (dateLi t)) = some (dateSeen t)) →
        List.Forall₂ (fun n t => decodeDate n = some t) ((l.map dateLi).map g) (l.map dateSeen) := by
      intro l g hl
      induction l with
      | nil => exact .nil
      | cons t l ih => exact .cons (hl t (by simp)) (ih (fun u hu => hl u (by simp [hu])))
    have hf' : ∀ l : List GoTime, (∀ t ∈ l, decodeDate (dateLi t) = some (dateSeen t)) →
        List.Forall₂ (fun n t => decodeDate n = some t) (l.map dateLi) (l.map dateSeen) := by
      intro l hl
      have := hf l id hl
      rwa [List.map_id] at this
    have main : unmarshalArray r decodeDate u out = some (out ++ ts.map dateSeen) := by
      rcases arrayItems_view uri .ordered (ts.map dateLi) node hnode u hu with h | h
      · unfold unmarshalArray
        rw [h]
        simp only
        rw [(mapM_li r decodeDate _ _).2 ⟨?_, hf' ts (fun t ht => (dateLi_read (hv t ht) uri).1)⟩]
        · rfl
        · intro e he
          obtain ⟨t, -, rfl⟩ := List.mem_map.1 he
          exact fullName_li_mem r _ (hname t)
      · unfold unmarshalArray
        rw [h]
        simp only
        rw [(mapM_li r decodeDate _ _).2 ⟨?_, hf ts (Node.reparse uri) (fun t ht => (dateLi_read (hv t ht) uri).2)⟩]
        · rfl
        · intro e he
          obtain ⟨e', he', rfl⟩ := List.mem_map.1 he
          obtain ⟨t, -, rfl⟩ := List.mem_map.1 he'
          exact fullName_li_parsed r uri hb _ (by rw [xmlName_reparse, hname, reparseName_li])
    have hn : u.nodes.length ≠ 0 := by
      obtain ⟨arr, _, hn, _⟩ := (unmarshalArray_iff ..).1 main
      simp [hn]
    rw [datesUnmarshal, if_neg (fun hc => hn hc.1)]
    exact main

/-- **C82.**  A date that was read from one text is saved as an array and found again. -/
theorem dates_text_saved (r : Registry) (uri : Str → Str) (hb : RdfBound r uri) (n node : Node) (t : GoTime) (hn : n.nodes = [])
    (hp : parseDate n.value = some t) (ho : t.off ≠ 90000 ∧ t.off ≠ -90000) (hnode : node.nodes = []) :
    ∃ x v, datesUnmarshal r n [] = some x ∧ datesMarshal x node = some v ∧
      ∀ u ∈ Views uri v, datesUnmarshal r u [] = some [dateSeen t] := by
  have hv : n.value ≠ [] := by
    intro h
    rw [h] at hp
    cases hp
  obtain ⟨v, h1, h2⟩ := dates_saved r uri hb node [t] [] (by simp) (by simpa using date_read_valid hp ho) hnode
  exact ⟨[t], v, (dates_read r n [] [t]).2 ⟨_, [t], .one n hn hv, .cons (.inr ⟨hv, hp⟩) .nil, rfl⟩, h1, h2⟩

/-- **C82, finding.**  One text is taken with the white space around it, the elements of an array are not. -/
theorem locales_untrimmed (r : Registry) (s : Str) (hs : s ≠ []) (ht : trimSpace s ≠ s) (n arr li : Node) (hn : n.nodes = [])
    (hv : n.value = s) (m : Node) (hm : m.nodes = [arr]) (hk : arr.name ∈ ["Seq".toList, "Bag".toList, "Alt".toList])
    (hl : arr.nodes = [li]) (hf : li.fullName r = "rdf:li".toList) (hw : li.value = s) :
    localesUnmarshal r n [] = some [s] ∧ localesUnmarshal r m [] = some [trimSpace s] ∧ [s] ≠ [trimSpace s] := by
  refine ⟨?_, ?_, fun h => ht (List.cons.inj h).1.symm⟩
  · rw [localesUnmarshal, if_pos ⟨by simp [hn], by rw [hv]; exact List.length_pos_iff.2 hs⟩, hv]; rfl
  · rw [localesUnmarshal, if_neg (by simp [hm]), unmarshalArray_iff]
    refine ⟨arr, [trimSpace s], hm, hk, by simp [hl, hf], ?_, rfl⟩
    rw [hl]
    exact .cons (by rw [decodeString, hw]) .nil

/-! ### The types of the shipped models -/

theorem unmarshalItems_eq {α : Type} (d : Dec) (dv : Version) (t : Ty) (f : α → Val) (dec : Node → Option α)
    (hd : ∀ n, unmarshal d dv n false t t.zero = Res.ofOption ((dec n).map f)) : ∀ (l : List Node) (out : List α),
    unmarshalItems d dv l t (out.map f) =
      Res.ofOption (((l.mapM (fun n => if n.fullName d.reg ≠ "rdf:li".toList then none else dec n)).map (out ++ ·)).map (List.map f))
  | [], out => by
    rw [unmarshalItems]
    simp [Res.ofOption]
  | n :: l, out => by
    rw [unmarshalItems, List.mapM_cons]
    by_cases hn : n.fullName d.reg = "rdf:li".toList
    · rw [if_neg (by simpa using hn), if_neg (by simpa using hn), hd]
      cases hx : dec n with
      | none => rfl
      | some x =>
        simp only [Option.map_some, Res.ofOption]
        rw [show out.map f ++ [f x] = (out ++ [x]).map f by simp, unmarshalItems_eq d dv t f dec hd l]
        cases l.mapM (fun n => if n.fullName d.reg ≠ "rdf:li".toList then none else dec n) <;> simp [Res.ofOption]
    · rw [if_pos hn, if_pos hn]
      rfl

theorem unmarshal_slice_eq {α : Type} (d : Dec) (dv : Version) (k : ArrayType) (t : Ty) (f : α → Val) (dec : Node → Option α)
    (hd : ∀ n, unmarshal d dv n false t t.zero = Res.ofOption ((dec n).map f)) (i : Bool) (n : Node) (out : List α) :
    unmarshal d dv n i (.slice k t) (.slice (out.map f) []) =
      Res.ofOption ((unmarshalArray d.reg dec n out).map (fun l => Val.slice (l.map f) [])) := by
  obtain ⟨name, attrs, value, nodes⟩ := n
  rw [unmarshal]
  simp only [derefVal, rewrap]
  unfold unmarshalArray arrayItems
  simp only [Node.nodes]
  match nodes with
  | [] => rfl
  | [.mk an aa av lis] =>
    rw [unmarshalArr, unmarshalArr1]
    by_cases hk : stripPrefix an.loc ∈ ["Seq".toList, "Bag".toList, "Alt".toList]
    · have hk' : (Node.mk an aa av lis).name ∈ ["Seq".toList, "Bag".toList, "Alt".toList] := hk
      simp only [if_pos hk']
      rw [if_pos hk, unmarshalItems_eq d dv t f dec hd]
      cases lis.mapM (fun n => if n.fullName d.reg ≠ "rdf:li".toList then none else dec n) <;> simp [Res.ofOption]
    · have hk' : (Node.mk an aa av lis).name ∉ ["Seq".toList, "Bag".toList, "Alt".toList] := hk
      simp only [if_neg hk']
      rw [if_neg hk]
      rfl
  | _ :: _ :: _ => rfl

/-- **C82.**  The model of the shipped types (C72) reads languages as the method does, apart from the form of one text. -/
theorem locales_typed (d : Dec) (dv : Version) (i : Bool) (n : Node) (out : List Str) (h : n.nodes ≠ [] ∨ n.value = []) :
    unmarshal d dv n i (.slice .unordered .str) (.slice (out.map .str) []) =
      Res.ofOption ((localesUnmarshal d.reg n out).map (fun l => Val.slice (l.map .str) [])) := by
  rw [localesUnmarshal, if_neg]
  · refine unmarshal_slice_eq d dv _ _ _ decodeString (fun n => ?_) i n out
    obtain ⟨name, attrs, value, nodes⟩ := n
    rw [unmarshal]
    rfl
  · rintro ⟨h1, h2⟩
    rcases h with h | h
    · exact h (List.length_eq_zero_iff.1 h1)
    · rw [h] at h2; cases h2

/-- **C82.**  The same for dates, with any numbering of dates in which zero is the zero date. -/
theorem dates_typed (d : Dec) (dv : Version) (i : Bool) (c : Codec) (code : GoTime → Nat)
    (hc : ∀ s, c.dec 0 s = (dateUnmarshal s).map code) (n : Node) (out : List GoTime) (h : n.nodes ≠ [] ∨ n.value = []) :
    unmarshal d dv n i (.slice .ordered (.text c)) (.slice (out.map (fun t => .opq (code t))) []) =
      Res.ofOption ((datesUnmarshal d.reg n out).map (fun l => Val.slice (l.map (fun t => .opq (code t))) [])) := by
  rw [datesUnmarshal, if_neg]
  · refine unmarshal_slice_eq d dv _ _ _ decodeDate (fun n => ?_) i n out
    obtain ⟨name, attrs, value, nodes⟩ := n
    rw [unmarshal]
    simp only [derefVal, Ty.zero, hc, decodeDate, Node.value, rewrap]
    cases dateUnmarshal value <;> rfl
  · rintro ⟨h1, h2⟩
    rcases h with h | h
    · exact h (List.length_eq_zero_iff.1 h1)
    · rw [h] at h2; cases h2

/-! ### Cases -/

example (d : Dec) (dv : Version) : unmarshal d dv (Node.new ⟨[], "dc:language".toList⟩) true (.slice .unordered .str) (.slice (["en".toList].map .str) []) =
    Res.ofOption ((localesUnmarshal d.reg (Node.new ⟨[], "dc:language".toList⟩) ["en".toList]).map (fun l => Val.slice (l.map .str) [])) :=
  locales_typed d dv true _ _ (.inr rfl)

/-- `<dc:language>en</dc:language>`. -/
def oneLanguage : Node := .mk ⟨[], "dc:language".toList⟩ [] "en".toList []

/-- The same as an alternative. -/
def someLanguages : Node := .mk ⟨[], "dc:language".toList⟩ [] [] [.mk ⟨[], "rdf:Alt".toList⟩ [] []
  [.mk ⟨[], "rdf:li".toList⟩ [] "en".toList [], .mk ⟨[], "rdf:li".toList⟩ [] "de".toList []]]

theorem oneLanguage_form : TextsForm rdfRegistry oneLanguage ["en".toList] := .one oneLanguage rfl (by decide)

theorem someLanguages_form : TextsForm rdfRegistry someLanguages ["en".toList, "de".toList] :=
  .many someLanguages (.mk ⟨[], "rdf:Alt".toList⟩ [] [] [.mk ⟨[], "rdf:li".toList⟩ [] "en".toList [], .mk ⟨[], "rdf:li".toList⟩ [] "de".toList []])
    rfl (by decide) (by decide)

example : localesUnmarshal rdfRegistry oneLanguage ["fr".toList] = some ["fr".toList, "en".toList] :=
  locales_read _ _ ["fr".toList] _ oneLanguage_form (by decide)

example : localesUnmarshal rdfRegistry someLanguages ["fr".toList] = some ["fr".toList, "en".toList, "de".toList] :=
  locales_read _ _ ["fr".toList] _ someLanguages_form (by decide)

example : ∃ x t, localesUnmarshal rdfRegistry oneLanguage [] = some x ∧
    localesMarshal x (Node.new ⟨[], "dc:language".toList⟩) = some t ∧
      (∃ arr, t.nodes = [arr] ∧ arr.xmlName.loc = "rdf:Bag".toList ∧ arr.nodes.map Node.value = ["en".toList]) ∧
      (∀ u ∈ Views rdfBinding t, localesUnmarshal rdfRegistry u [] = some ["en".toList]) ∧
      localesDefault x = ["en".toList].headD [] :=
  locales_saved _ _ rdfBound_example _ _ _ oneLanguage_form (by decide) (by decide) rfl

/-- Nothing at all is refused. -/
example : localesUnmarshal rdfRegistry (Node.new ⟨[], "dc:language".toList⟩) [] = none := by decide

/-- White space. -/
example : localesUnmarshal rdfRegistry (.mk ⟨[], "dc:language".toList⟩ [] " en".toList []) [] = some [" en".toList] := by decide

/-- `<dc:date>2010-02</dc:date>`. -/
def oneDate : Node := .mk ⟨[], "dc:date".toList⟩ [] "2010-02".toList []

def feb2010 : GoTime := { year := 2010, month := 2, day := 1 }

example : datesUnmarshal rdfRegistry oneDate [zeroDate] = some [zeroDate, feb2010] :=
  (dates_read _ _ _ _).2 ⟨["2010-02".toList], [feb2010], .one oneDate rfl (by decide), .cons (.inr ⟨by decide, by decide +kernel⟩) .nil, rfl⟩

example : ∃ x v, datesUnmarshal rdfRegistry oneDate [] = some x ∧ datesMarshal x (Node.new ⟨[], "dc:date".toList⟩) = some v ∧
    ∀ u ∈ Views rdfBinding v, datesUnmarshal rdfRegistry u [] = some [dateSeen feb2010] :=
  dates_text_saved _ _ rdfBound_example _ _ _ rfl (by decide +kernel) (by decide) rfl

example : datesUnmarshal rdfRegistry (.mk ⟨[], "dc:date".toList⟩ [] "soon".toList []) [] = none := by decide +kernel

example : ∃ t, datesMarshal [feb2010, zeroDate] (Node.new ⟨[], "dc:date".toList⟩) = some t ∧
    ∀ u ∈ Views rdfBinding t, datesUnmarshal rdfRegistry u [] = some ([] ++ [feb2010, zeroDate].map dateSeen) :=
  dates_saved _ _ rdfBound_example _ _ _ (by decide) (by
    intro t ht
    simp only [List.mem_cons, List.not_mem_nil, or_false] at ht
    rcases ht with rfl | rfl <;> constructor <;> decide) rfl

end Xmp.Props
