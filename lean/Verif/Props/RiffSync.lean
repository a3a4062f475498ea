import Verif.Props.Riff
import Verif.Props.AltString

/-! C59: texts and exchange of the metadata of RIFF files. -/

namespace Xmp.Props

open Xmp Xmp.GoStr

/-! ### Texts -/

/-- The text contains the separator of lists, a semicolon and a blank. -/
def HasSemi (p : Str) : Prop := "; ".toList <:+: p

/-- The items of a list with the separator between them. -/
def semiText : List Str → Str
  | [] => []
  | [p] => p
  | p :: q :: ps => p ++ "; ".toList ++ semiText (q :: ps)

theorem splitSemi_cons {c : Char} {r : Str} (h : ∀ r', c = ';' → r ≠ ' ' :: r') : Riff.splitSemi (c :: r) = Riff.consHead c (Riff.splitSemi r) := by
  rw [Riff.splitSemi]
  intro r' hc hr
  exact h r' hc hr

theorem splitSemi_sep (p r : Str) (h : ¬ HasSemi p) : Riff.splitSemi (p ++ "; ".toList ++ r) = p :: Riff.splitSemi r := by
  induction p with
  | nil => rfl
  | cons c q ih =>
    have hq : ¬ HasSemi q := fun ⟨a, b, e⟩ => h ⟨c :: a, b, by rw [← e]; simp⟩
    rw [List.append_assoc, List.cons_append, splitSemi_cons, ← List.append_assoc, ih hq]
    · rfl
    · rintro r' rfl e
      cases q with
      | nil => simp at e
      | cons d q =>
        simp only [List.cons_append, List.cons.injEq] at e
        obtain ⟨rfl, -⟩ := e
        exact h ⟨[], q, rfl⟩

theorem splitSemi_none (p : Str) (h : ¬ HasSemi p) : Riff.splitSemi p = [p] := by
  induction p with
  | nil => rfl
  | cons c q ih =>
    have hq : ¬ HasSemi q := fun ⟨a, b, e⟩ => h ⟨c :: a, b, by rw [← e]; simp⟩
    rw [splitSemi_cons, ih hq]
    · rfl
    · rintro r' rfl rfl
      exact h ⟨[], r', rfl⟩

theorem splitSemi_text : ∀ (l : List Str), l ≠ [] → (∀ p ∈ l, ¬ HasSemi p) → Riff.splitSemi (semiText l) = l
  | [], h, _ => absurd rfl h
  | [p], _, h => splitSemi_none p (h p (by simp))
  | p :: q :: ps, _, h => by
    rw [semiText, splitSemi_sep p _ (h p (by simp)), splitSemi_text (q :: ps) (by simp) (fun x hx => h x (List.mem_cons_of_mem _ hx))]

theorem splitSemi_ne (s : Str) : Riff.splitSemi s ≠ [] := by
  fun_induction Riff.splitSemi s with
  | case1 => simp
  | case2 => simp
  | case3 c r _ ih => cases h : Riff.splitSemi r <;> simp [Riff.consHead]

theorem semiText_cons (c : Char) {l : List Str} (h : l ≠ []) : semiText (Riff.consHead c l) = c :: semiText l := by
  cases l with
  | nil => exact absurd rfl h
  | cons p ps => cases ps <;> rfl

theorem semiText_split (s : Str) : semiText (Riff.splitSemi s) = s := by
  fun_induction Riff.splitSemi s with
  | case1 => rfl
  | case2 r ih =>
    cases h : Riff.splitSemi r with
    | nil => exact absurd h (splitSemi_ne r)
    | cons p ps => rw [h] at ih; rw [semiText, ih]; rfl
  | case3 c r _ ih => rw [semiText_cons c (splitSemi_ne r), ih]

theorem splitSemi_parts (s : Str) : ∀ p ∈ Riff.splitSemi s, ¬ HasSemi p := by
  fun_induction Riff.splitSemi s with
  | case1 => intro p hp; rw [List.mem_singleton.mp hp]; rintro ⟨a, b, e⟩; simp at e
  | case2 r ih =>
    intro p hp
    rcases List.mem_cons.mp hp with rfl | hp
    · rintro ⟨a, b, e⟩; simp at e
    · exact ih p hp
  | case3 c r hcr ih =>
    have ht := semiText_split r
    cases h : Riff.splitSemi r with
    | nil => exact absurd h (splitSemi_ne r)
    | cons q qs =>
      rw [h] at ih ht
      intro p hp
      rcases List.mem_cons.mp hp with rfl | hp
      · rintro ⟨a, b, e⟩
        cases a with
        | nil =>
          simp at e
          obtain ⟨rfl, rfl⟩ := e
          cases qs with
          | nil => exact hcr b rfl (by rw [← ht]; rfl)
          | cons q' qs => exact hcr _ rfl (by rw [← ht]; rfl)
        | cons d a =>
          simp only [List.cons_append, List.cons.injEq] at e
          exact ih q (by simp) ⟨a, b, by simpa using e.2⟩
      · exact ih p (List.mem_cons_of_mem _ hp)

/-- **C59.** The text of a list is cut exactly where a semicolon and a blank stand: no item contains them and the items with them between
give back the text; lists of such items are read as they are. -/
theorem riff_list_text (s : Str) :
    (∀ l : List Str, Riff.stringsText s = l ↔ l ≠ [] ∧ (∀ p ∈ l, ¬ HasSemi p) ∧ semiText l = s) := by
  intro l
  unfold Riff.stringsText
  constructor
  · rintro rfl
    exact ⟨splitSemi_ne s, splitSemi_parts s, semiText_split s⟩
  · rintro ⟨h1, h2, rfl⟩
    exact splitSemi_text l h1 h2

/-- **C59**, finding: an empty text is read as a list with one empty item. -/
theorem riff_list_empty : Riff.stringsText [] = [[]] := rfl

/-- An item in the language that RIFF texts are given. -/
def engItem (d : Bool) (v : Str) : AltItem := { value := v, lang := "eng".toList, isDefault := d }

theorem addEng_more {d : AltItem} (hd : d.isDefault = true) : ∀ (vs : List Str) (r : AltString), (∀ x ∈ r, x.isDefault = false) →
    Riff.addEng (d :: r) vs = some (d :: r ++ (vs.filter (· ≠ [])).map (engItem false)) := by
  intro vs
  induction vs with
  | nil => intro r _; simp [Riff.addEng]
  | cons v vs ih =>
    intro r hr
    unfold Riff.addEng
    by_cases hv : v = []
    · subst hv
      simp only [AltString.add, if_true]
      rw [ih r hr]
      simp
    · have h1 : AltString.add (d :: r) "eng".toList v = some (d :: r ++ [engItem false v]) := add_wf hd hr _ _ hv
      rw [h1]
      simp only
      rw [List.cons_append, ih (r ++ [engItem false v]) (by
        intro x hx
        rcases List.mem_append.mp hx with hx | hx
        · exact hr x hx
        · rw [List.mem_singleton.mp hx]; rfl)]
      simp [hv]

theorem addEng_all (vs : List Str) : Riff.addEng [] vs =
    some (match vs.filter (· ≠ []) with | [] => [] | p :: ps => engItem true p :: ps.map (engItem false)) := by
  induction vs with
  | nil => rfl
  | cons v vs ih =>
    by_cases hv : v = []
    · subst hv
      unfold Riff.addEng
      simp only [AltString.add, if_true]
      rw [ih]
      simp
    · unfold Riff.addEng
      rw [show AltString.add [] "eng".toList v = some [engItem true v] from add_nil _ _ hv]
      simp only
      rw [addEng_more (d := engItem true v) rfl vs [] (by simp)]
      simp [hv]

/-- **C59.** The text of a language alternative never panics; its items that are not empty become texts in English, and the first is the
default. -/
theorem riff_alt_text (s : Str) : Riff.altText s =
    some (match (Riff.stringsText s).filter (· ≠ []) with | [] => [] | p :: ps => engItem true p :: ps.map (engItem false)) :=
  addEng_all _

/-- **C59**, finding: all items have the same language, so that only the first can be read. -/
theorem riff_alt_first {s p : Str} {ps : List Str} (h : (Riff.stringsText s).filter (· ≠ []) = p :: ps) :
    ∃ a, Riff.altText s = some a ∧ a.length = ps.length + 1 ∧
      ∀ lang, a.get lang = p ∨ a.get lang = [] := by
  refine ⟨engItem true p :: ps.map (engItem false), by rw [riff_alt_text, h], by simp, ?_⟩
  intro lang
  unfold AltString.get AltString.default
  by_cases hl : lang = []
  · left; rw [if_pos hl]; simp [engItem]
  · rw [if_neg hl]
    by_cases he : lang = "eng".toList
    · left; simp [engItem, he]
    · right
      have : ∀ x ∈ engItem true p :: ps.map (engItem false), ¬ (x.lang = lang) := by
        intro x hx
        rcases List.mem_cons.mp hx with rfl | hx
        · exact fun e => he e.symm
        · obtain ⟨q, -, rfl⟩ := List.mem_map.mp hx
          exact fun e => he e.symm
      rw [List.find?_eq_none.mpr (by simpa using this)]

/-! ### Exchange -/

variable {T : Type}

/-- The value after an exchange: the new one if there is one. -/
def Taken {α : Type} (empty : α) (new old result : α) : Prop := (new ≠ empty → result = new) ∧ (new = empty → result = old)

theorem taken_ite {α : Type} [DecidableEq α] (e n o : α) : Taken e n o (if n ≠ e then n else o) := by
  constructor
  · intro h; rw [if_pos h]
  · intro h; rw [if_neg (by simpa using h)]

/-- **C59.** What other models say is taken over, what they do not say is kept. -/
theorem riff_sync_from_partial (x : Riff.Info T) (d : Riff.Doc T) :
    (∀ m, d.dc = some m → Taken [] m.rights x.copyright (Riff.syncFrom x d).copyright ∧
      Taken [] m.subject x.keywords (Riff.syncFrom x d).keywords ∧ Taken [] m.type x.sourceType (Riff.syncFrom x d).sourceType ∧
      Taken [] m.description x.description (Riff.syncFrom x d).description ∧ Taken [] m.title x.title (Riff.syncFrom x d).title) ∧
    (∀ m, d.base = some m → Taken none m.createDate x.createDate (Riff.syncFrom x d).createDate) ∧
    (∀ m, d.dm = some m → Taken [] m.artist x.artist (Riff.syncFrom x d).artist ∧
      Taken [] m.logComment x.comments (Riff.syncFrom x d).comments ∧ Taken [] m.genre x.genre (Riff.syncFrom x d).genre ∧
      Taken [] m.engineer x.engineer (Riff.syncFrom x d).engineer) ∧
    (d.dc = none → (Riff.syncFrom x d).copyright = x.copyright ∧ (Riff.syncFrom x d).keywords = x.keywords ∧
      (Riff.syncFrom x d).sourceType = x.sourceType ∧ (Riff.syncFrom x d).description = x.description ∧
      (Riff.syncFrom x d).title = x.title ∧ (Riff.syncFrom x d).sourceMedium = x.sourceMedium) ∧
    (d.base = none → (Riff.syncFrom x d).createDate = x.createDate ∧ (Riff.syncFrom x d).software = x.software) ∧
    (d.dm = none → (Riff.syncFrom x d).artist = x.artist ∧ (Riff.syncFrom x d).comments = x.comments ∧
      (Riff.syncFrom x d).genre = x.genre ∧ (Riff.syncFrom x d).engineer = x.engineer) := by
  obtain ⟨dc, base, dm⟩ := d
  have hdate : ∀ n o : Option T, Taken none n o (if n.isSome then n else o) := by
    intro n o
    cases n <;> exact ⟨fun h => by simp_all, fun h => by simp_all⟩
  refine ⟨?_, ?_, ?_, ?_, ?_, ?_⟩
  · rintro m rfl
    cases base <;> cases dm <;>
      exact ⟨taken_ite _ _ _, taken_ite _ _ _, taken_ite _ _ _, taken_ite _ _ _, taken_ite _ _ _⟩
  · rintro m rfl
    cases dc <;> cases dm <;> exact hdate _ _
  · rintro m rfl
    cases dc <;> cases base <;> exact ⟨taken_ite _ _ _, taken_ite _ _ _, taken_ite _ _ _, taken_ite _ _ _⟩
  · rintro rfl
    cases base <;> cases dm <;> exact ⟨rfl, rfl, rfl, rfl, rfl, rfl⟩
  · rintro rfl
    cases dc <;> cases dm <;> exact ⟨rfl, rfl⟩
  · rintro rfl
    cases dc <;> cases base <;> exact ⟨rfl, rfl, rfl, rfl⟩

/-- **C59**, finding: the source medium and the software are overwritten even if the other models have none. -/
theorem riff_sync_clears (x : Riff.Info T) (d : Riff.Doc T) :
    (∀ m, d.dc = some m → (Riff.syncFrom x d).sourceMedium = m.source) ∧
    (∀ m, d.base = some m → (Riff.syncFrom x d).software = m.creatorTool) := by
  obtain ⟨dc, base, dm⟩ := d
  constructor
  · rintro m rfl; cases base <;> cases dm <;> rfl
  · rintro m rfl; cases dc <;> cases dm <;> rfl

/-- **C59.** Writing to XMP fills the title of Dublin Core only if it is empty, changes nothing else in the document, uses second fields only
where the first are empty, and repeating it changes nothing. -/
theorem riff_sync_to (x : Riff.Info T) (d : Riff.Doc T) :
    (∃ m, (Riff.syncTo x d).2.dc = some m ∧
      (∀ o, d.dc = some o → m.rights = o.rights ∧ m.subject = o.subject ∧ m.type = o.type ∧ m.description = o.description ∧
        m.source = o.source ∧ (o.title ≠ [] → m.title = o.title) ∧ (o.title = [] → m.title = x.title)) ∧
      (d.dc = none → m.title = x.title)) ∧
    (Riff.syncTo x d).2.base = d.base ∧ (Riff.syncTo x d).2.dm = d.dm ∧
    (x.encodedBy ≠ [] → (Riff.syncTo x d).1.encodedBy = x.encodedBy) ∧
    (x.encodedBy = [] → (Riff.syncTo x d).1.encodedBy = x.encodedBy2) ∧
    (x.dateTimeOriginal ≠ [] → (Riff.syncTo x d).1.dateTimeOriginal = x.dateTimeOriginal) ∧
    (x.dateTimeOriginal = [] → (Riff.syncTo x d).1.dateTimeOriginal = x.dateTimeOriginal2) ∧
    (x.starring ≠ [] → (Riff.syncTo x d).1.starring = x.starring) ∧
    (x.starring = [] → (Riff.syncTo x d).1.starring = x.starring2) ∧
    (Riff.syncTo x d).1.title = x.title ∧
    Riff.syncTo (Riff.syncTo x d).1 (Riff.syncTo x d).2 = Riff.syncTo x d := by
  have o1 : ∀ a b : Str, a ≠ [] → Riff.orElse a b = a := by
    intro a b h; unfold Riff.orElse; rw [if_neg (fun e => h e.2)]
  have o2 : ∀ a b : Str, a = [] → Riff.orElse a b = b := by
    rintro a b rfl; unfold Riff.orElse; split
    · rfl
    · next h => by_cases hb : b = [] <;> simp_all
  have o3 : ∀ a b : Str, Riff.orElse (Riff.orElse a b) b = Riff.orElse a b := by
    intro a b
    by_cases h : a = []
    · rw [o2 a b h]; unfold Riff.orElse; split <;> rfl
    · rw [o1 a b h, o1 a b h]
  refine ⟨⟨_, rfl, ?_, ?_⟩, rfl, rfl, fun h => o1 _ _ h, fun h => o2 _ _ h, fun h => o1 _ _ h, fun h => o2 _ _ h,
    fun h => o1 _ _ h, fun h => o2 _ _ h, rfl, ?_⟩
  · intro o ho
    simp only [ho, Option.getD_some]
    exact ⟨trivial, trivial, trivial, trivial, trivial, fun h => by rw [if_neg h], fun h => by rw [if_pos h]⟩
  · intro h
    simp only [h, Option.getD_none, Riff.Dc.new, if_true]
  · simp only [Riff.syncTo, o3, Option.getD_some]
    congr 4
    split
    · simp
    · rfl

/-- **C59**, finding: writing to XMP makes an empty Dublin Core model, from which the next reading takes the empty source: the medium is lost. -/
theorem riff_medium_lost (x : Riff.Info T) (d : Riff.Doc T) (h : d.dc = none) :
    (Riff.syncFrom (Riff.syncTo x d).1 (Riff.syncTo x d).2).sourceMedium = [] := by
  rw [(riff_sync_clears _ _).1 _ rfl]
  simp only [h, Option.getD_none, Riff.Dc.new]

/-! ### Examples -/

example : Riff.stringsText "a; b;c;; d".toList = ["a".toList, "b;c;".toList, "d".toList] := rfl
example : ¬ HasSemi "b;c;".toList := splitSemi_parts "a; b;c;; d".toList _ (by decide)
example : (Riff.altText "one; two".toList).map (·.length) = some 2 := rfl
example : PlainTag "riffinfo".toList (Riff.mkField ("Artist", "IART", "xmpDM:artist")) "IART".toList :=
  ⟨rfl, rfl, by decide, by decide, by decide⟩
example : List.Forall₂ (PlainTag "riffinfo".toList) [Riff.mkField ("Artist", "IART", "xmpDM:artist"), Riff.mkField ("Genre", "IGNR", "-")]
    ["IART".toList, "IGNR".toList] :=
  .cons ⟨rfl, rfl, by decide, by decide, by decide⟩ (.cons ⟨rfl, rfl, by decide, by decide, by decide⟩ .nil)
example : ((Riff.syncFrom ({
    copyright := [], keywords := [], sourceType := [], description := [], title := [],
    sourceMedium := "tape".toList, createDate := none, software := [], artist := "A".toList, comments := [], genre := [], engineer := [],
    dateTimeOriginal := [], dateTimeOriginal2 := [], encodedBy := [], encodedBy2 := [], starring := [], starring2 := [] } : Riff.Info Nat)
    ⟨some Riff.Dc.new, none, none⟩).sourceMedium) = [] := rfl

end Xmp.Props
