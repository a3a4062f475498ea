import Verif.Model.Exchange
import Verif.Lemmas.GoStr

/-! # Exchange of PDF and TIFF properties with Dublin Core and XMP base

The specification lists, for each property of the document, the values which the models offer for it, in the order of the models. -/

namespace Xmp.Props

open Xmp Xmp.GoStr Xmp.Exchange

/-! ### Specification -/

/-- `v` is the first value of the list that is not empty; if all are empty, it is empty. -/
def FirstOf {α : Type} (empty : α → Bool) (cs : List α) (v : α) : Prop :=
  (∃ pre post, cs = pre ++ v :: post ∧ (∀ c ∈ pre, empty c = true) ∧ empty v = false) ∨ ((∀ c ∈ cs, empty c = true) ∧ empty v = true)

/-- A text without language as the default of a list of alternatives. -/
def bareAlt (s : Str) : AltString := if s = [] then [] else [{ value := s, lang := [], isDefault := true }]

/-- What a model offers as titles. -/
def titles : Src → List AltString
  | .pdf x => [x.title]
  | .tiff _ => []

/-- What a model offers as creators: PDF authors, TIFF artists, and artists in the wrong place, separated by commas. -/
def creators : Src → List (List Str)
  | .pdf x => [x.author]
  | .tiff x => [x.artist, if x.xArtist = [] then [] else split ',' x.xArtist]

/-- What a model offers as descriptions. -/
def descriptions : Src → List AltString
  | .pdf x => [x.subject]
  | .tiff x => [x.imageDescription, x.xImageDescription]

/-- What a model offers as rights. -/
def rights : Src → List AltString
  | .pdf x => [bareAlt x.copyright]
  | .tiff x => [x.copyright, x.xCopyright]

/-- What a model offers as date of creation. -/
def createDates : Src → List GoTime
  | .pdf x => [x.creationDate]
  | .tiff _ => []

/-- What a model offers as date of modification. -/
def modifyDates : Src → List GoTime
  | .pdf x => [x.modifyDate]
  | .tiff x => [x.dateTime, x.xDateTime]

/-- What a model offers as tool. -/
def tools : Src → List Str
  | .pdf x => [x.creator]
  | .tiff x => [x.software]

/-! ### Filling places -/

/-- Values are put into a place as long as it is empty. -/
def fillAll {α : Type} (empty : α → Bool) (v : α) (cs : List α) : α := cs.foldl (fun m c => if empty m then c else m) v

theorem fillAll_full {α : Type} {empty : α → Bool} {v : α} (h : empty v = false) (cs : List α) : fillAll empty v cs = v := by
  induction cs with
  | nil => rfl
  | cons c cs ih => unfold fillAll at *; rw [List.foldl_cons, if_neg (by rw [h]; exact Bool.false_ne_true)]; exact ih

theorem fillAll_first {α : Type} (empty : α → Bool) (v : α) (cs : List α) : FirstOf empty (v :: cs) (fillAll empty v cs) := by
  induction cs generalizing v with
  | nil =>
    cases h : empty v with
    | true => exact Or.inr ⟨by simpa using h, h⟩
    | false => exact Or.inl ⟨[], [], rfl, by simp, h⟩
  | cons c cs ih =>
    cases h : empty v with
    | false => rw [fillAll_full h]; exact Or.inl ⟨[], c :: cs, rfl, by simp, h⟩
    | true =>
      have e : fillAll empty v (c :: cs) = fillAll empty c cs := by
        unfold fillAll
        rw [List.foldl_cons, if_pos h]
      rw [e]
      rcases ih c with ⟨pre, post, h1, h2, h3⟩ | ⟨h1, h2⟩
      · refine Or.inl ⟨v :: pre, post, by rw [h1]; rfl, ?_, h3⟩
        intro x hx
        rcases List.mem_cons.mp hx with rfl | hx
        · exact h
        · exact h2 x hx
      · refine Or.inr ⟨?_, h2⟩
        intro x hx
        rcases List.mem_cons.mp hx with rfl | hx
        · exact h
        · exact h1 x hx

theorem fillAll_append {α : Type} (empty : α → Bool) (v : α) (a b : List α) : fillAll empty v (a ++ b) = fillAll empty (fillAll empty v a) b :=
  List.foldl_append

theorem fillAll_twice {α : Type} (empty : α → Bool) (v : α) (cs : List α) : fillAll empty (fillAll empty v cs) cs = fillAll empty v cs := by
  cases h : empty (fillAll empty v cs) with
  | false => exact fillAll_full h _
  | true =>
    have hall : ∀ (cs : List α) (v : α), empty (fillAll empty v cs) = true → empty v = true ∧ ∀ c ∈ cs, empty c = true := by
      intro cs v h
      rcases fillAll_first empty v cs with ⟨pre, post, h1, h2, h3⟩ | ⟨h1, h2⟩
      · rw [h] at h3; cases h3
      · exact ⟨h1 v (by simp), fun c hc => h1 c (by simp [hc])⟩
    have hlast : ∀ (cs : List α) (v : α), empty v = true → (∀ c ∈ cs, empty c = true) → fillAll empty v cs = (v :: cs).getLast (by simp) := by
      intro cs
      induction cs with
      | nil => intro v _ _; rfl
      | cons c cs ih =>
        intro v hv hc
        have e : fillAll empty v (c :: cs) = fillAll empty c cs := by
          unfold fillAll
          rw [List.foldl_cons, if_pos hv]
        rw [e, ih c (hc c (by simp)) (fun x hx => hc x (by simp [hx]))]
        rfl
    obtain ⟨h1, h2⟩ := hall cs v h
    cases cs with
    | nil => rfl
    | cons c cs =>
      rw [hlast _ _ h h2, hlast _ _ h1 h2]
      rfl

/-- The places of a document. -/
def dcOf (d : Doc) : Dc := d.dc.getD {}

/-- The places of a document. -/
def baseOf (d : Doc) : Base := d.base.getD {}

/-- A document in which the values of a list of models are put into the empty places. -/
structure Filled (l : List Src) (d r : Doc) : Prop where
  title : (dcOf r).title = fillAll List.isEmpty (dcOf d).title (l.flatMap titles)
  creator : (dcOf r).creator = fillAll List.isEmpty (dcOf d).creator (l.flatMap creators)
  description : (dcOf r).description = fillAll List.isEmpty (dcOf d).description (l.flatMap descriptions)
  rights : (dcOf r).rights = fillAll List.isEmpty (dcOf d).rights (l.flatMap rights)
  createDate : (baseOf r).createDate = fillAll GoTime.isZero (baseOf d).createDate (l.flatMap createDates)
  modifyDate : (baseOf r).modifyDate = fillAll GoTime.isZero (baseOf d).modifyDate (l.flatMap modifyDates)
  creatorTool : (baseOf r).creatorTool = fillAll List.isEmpty (baseOf d).creatorTool (l.flatMap tools)

theorem len_zero {α : Type} (l : List α) : l.length = 0 ↔ l.isEmpty = true := by cases l <;> simp

theorem filled_one (s : Src) (d : Doc) : Filled [s] d (s.to d) := by
  cases s with
  | pdf x =>
    constructor <;> simp only [Src.to, pdfTo, dcOf, baseOf, Option.getD_some, List.flatMap_cons, List.flatMap_nil, List.append_nil, titles, creators,
      descriptions, rights, createDates, modifyDates, tools, fillAll, List.foldl_cons, List.foldl_nil, len_zero]
    · split
      · next h =>
        rw [List.isEmpty_iff] at h
        rw [h]
        unfold AltString.addDefault bareAlt
        split <;> rfl
      · rfl
    · simp only [List.isEmpty_iff]
  | tiff x =>
    constructor <;> simp only [Src.to, tiffTo, dcOf, baseOf, Option.getD_some, List.flatMap_cons, List.flatMap_nil, List.append_nil, titles, creators,
      descriptions, rights, createDates, modifyDates, tools, fillAll, List.foldl_cons, List.foldl_nil, fill, tiffCreator]
    · generalize (d.dc.getD {}).creator = m
      cases m <;> cases h : x.artist <;> cases h2 : x.xArtist <;> simp
    · generalize (d.base.getD {}).creatorTool = m
      cases m <;> cases h : x.software <;> simp

theorem filled_all (l : List Src) (d : Doc) : Filled l d (syncAll l d) := by
  induction l generalizing d with
  | nil => constructor <;> rfl
  | cons s l ih =>
    have h1 := filled_one s d
    have h2 := ih (s.to d)
    have e : syncAll (s :: l) d = syncAll l (s.to d) := rfl
    rw [e]
    constructor
    · rw [h2.title, h1.title, ← fillAll_append]; simp
    · rw [h2.creator, h1.creator, ← fillAll_append]; simp
    · rw [h2.description, h1.description, ← fillAll_append]; simp
    · rw [h2.rights, h1.rights, ← fillAll_append]; simp
    · rw [h2.createDate, h1.createDate, ← fillAll_append]; simp
    · rw [h2.modifyDate, h1.modifyDate, ← fillAll_append]; simp
    · rw [h2.creatorTool, h1.creatorTool, ← fillAll_append]; simp

theorem made_one (s : Src) (d : Doc) : (s.to d).dc.isSome ∧ (s.to d).base.isSome := by cases s <;> exact ⟨rfl, rfl⟩

theorem made_all {l : List Src} (h : l ≠ []) (d : Doc) : (syncAll l d).dc.isSome ∧ (syncAll l d).base.isSome := by
  rcases List.eq_nil_or_concat l with rfl | ⟨l, s, rfl⟩
  · exact absurd rfl h
  · unfold syncAll
    rw [List.concat_eq_append, List.foldl_append]
    exact made_one s _

/-! ### Theorems -/

/-- **C62.** After the exchange every property of the document is the first non-empty value in the order: the document itself, then the
models in their order, each with the right places before the wrong ones. -/
theorem exchange_first {l : List Src} (h : l ≠ []) (d : Doc) : ∃ m b, (syncAll l d).dc = some m ∧ (syncAll l d).base = some b ∧
    FirstOf List.isEmpty ((d.dc.getD {}).title :: l.flatMap titles) m.title ∧
    FirstOf List.isEmpty ((d.dc.getD {}).creator :: l.flatMap creators) m.creator ∧
    FirstOf List.isEmpty ((d.dc.getD {}).description :: l.flatMap descriptions) m.description ∧
    FirstOf List.isEmpty ((d.dc.getD {}).rights :: l.flatMap rights) m.rights ∧
    FirstOf GoTime.isZero ((d.base.getD {}).createDate :: l.flatMap createDates) b.createDate ∧
    FirstOf GoTime.isZero ((d.base.getD {}).modifyDate :: l.flatMap modifyDates) b.modifyDate ∧
    FirstOf List.isEmpty ((d.base.getD {}).creatorTool :: l.flatMap tools) b.creatorTool := by
  obtain ⟨h1, h2⟩ := made_all h d
  obtain ⟨m, hm⟩ := Option.isSome_iff_exists.mp h1
  obtain ⟨b, hb⟩ := Option.isSome_iff_exists.mp h2
  have f := filled_all l d
  have e1 : dcOf (syncAll l d) = m := by unfold dcOf; rw [hm]; rfl
  have e2 : baseOf (syncAll l d) = b := by unfold baseOf; rw [hb]; rfl
  refine ⟨m, b, hm, hb, ?_, ?_, ?_, ?_, ?_, ?_, ?_⟩
  · rw [← e1, f.title]; exact fillAll_first _ _ _
  · rw [← e1, f.creator]; exact fillAll_first _ _ _
  · rw [← e1, f.description]; exact fillAll_first _ _ _
  · rw [← e1, f.rights]; exact fillAll_first _ _ _
  · rw [← e2, f.createDate]; exact fillAll_first _ _ _
  · rw [← e2, f.modifyDate]; exact fillAll_first _ _ _
  · rw [← e2, f.creatorTool]; exact fillAll_first _ _ _

/-- **C62.** Exchanging again changes nothing. -/
theorem exchange_twice {l : List Src} (h : l ≠ []) (d : Doc) : syncAll l (syncAll l d) = syncAll l d := by
  have f := filled_all l d
  have g := filled_all l (syncAll l d)
  have e1 : dcOf (syncAll l (syncAll l d)) = dcOf (syncAll l d) := by
    have t1 := g.title; rw [f.title, fillAll_twice, ← f.title] at t1
    have t2 := g.creator; rw [f.creator, fillAll_twice, ← f.creator] at t2
    have t3 := g.description; rw [f.description, fillAll_twice, ← f.description] at t3
    have t4 := g.rights; rw [f.rights, fillAll_twice, ← f.rights] at t4
    exact Dc.mk.injEq .. |>.mpr ⟨t1, t2, t3, t4⟩
  have e2 : baseOf (syncAll l (syncAll l d)) = baseOf (syncAll l d) := by
    have t1 := g.createDate; rw [f.createDate, fillAll_twice, ← f.createDate] at t1
    have t2 := g.modifyDate; rw [f.modifyDate, fillAll_twice, ← f.modifyDate] at t2
    have t3 := g.creatorTool; rw [f.creatorTool, fillAll_twice, ← f.creatorTool] at t3
    exact Base.mk.injEq .. |>.mpr ⟨t1, t2, t3⟩
  obtain ⟨h1, h2⟩ := made_all h d
  obtain ⟨h3, h4⟩ := made_all h (syncAll l d)
  generalize syncAll l (syncAll l d) = a at *
  generalize syncAll l d = b at *
  obtain ⟨a1, a2⟩ := a
  obtain ⟨b1, b2⟩ := b
  cases a1 <;> cases b1 <;> simp_all [dcOf, baseOf]
  cases a2 <;> cases b2 <;> simp_all

theorem zero_isZero : ({} : GoTime).isZero = true := by decide +kernel

theorem bareAlt_default (s : Str) : (bareAlt s).default = s := by
  unfold bareAlt
  split
  · next h => rw [h]; rfl
  · rfl

/-- **C62.** All properties of PDF survive the way through an empty document. -/
theorem pdf_exchange (x : Pdf) : pdfFrom {} (pdfTo x {}) = x := by
  obtain ⟨a, b, c, d, e, f, g⟩ := x
  simp only [pdfTo, pdfFrom, Option.getD_none, List.length_nil, if_true, zero_isZero]
  have : AltString.addDefault [] [] g = bareAlt g := by
    unfold AltString.addDefault bareAlt
    split <;> rfl
  rw [this, bareAlt_default]
  split
  · rfl
  · next h => rw [Classical.not_not.mp h]

/-- **C62.** All properties of TIFF survive the way through an empty document; the wrong places are read for properties that have no value in
the right one, except the software (see `tiff_software_ignored`). -/
theorem tiff_exchange_partial (x : Tiff) :
    let y := tiffFrom {} (tiffTo x {})
    FirstOf List.isEmpty [x.artist, if x.xArtist = [] then [] else split ',' x.xArtist] y.artist ∧
    FirstOf List.isEmpty [x.imageDescription, x.xImageDescription] y.imageDescription ∧
    FirstOf List.isEmpty [x.copyright, x.xCopyright] y.copyright ∧
    FirstOf GoTime.isZero [x.dateTime, x.xDateTime] y.dateTime ∧
    y.software = x.software := by
  have tail : ∀ {α : Type} {empty : α → Bool} {v w : α} {cs : List α}, empty v = true → FirstOf empty (v :: cs) w → FirstOf empty cs w := by
    intro α empty v w cs hv h
    rcases h with ⟨pre, post, h1, h2, h3⟩ | ⟨h1, h2⟩
    · cases pre with
      | nil =>
        simp only [List.nil_append, List.cons.injEq] at h1
        rw [← h1.1, hv] at h3
        cases h3
      | cons p pre =>
        simp only [List.cons_append, List.cons.injEq] at h1
        exact Or.inl ⟨pre, post, h1.2, fun c hc => h2 c (by simp [hc]), h3⟩
    · exact Or.inr ⟨fun c hc => h1 c (by simp [hc]), h2⟩
  obtain ⟨m, b, hm, hb, -, h2, h3, h4, -, h6, -⟩ := exchange_first (l := [.tiff x]) (by simp) {}
  change (tiffTo x {}).dc = some m at hm
  change (tiffTo x {}).base = some b at hb
  have ht : b.creatorTool = x.software := by
    unfold tiffTo at hb
    cases hb
    by_cases h : x.software = [] <;> simp [h]
  have hy : tiffFrom {} (tiffTo x {}) = { artist := m.creator, dateTime := b.modifyDate, software := x.software, imageDescription := m.description, copyright := m.rights } := by
    unfold tiffFrom
    rw [hm, hb]
    simp only [ht]
    split
    · rfl
    · next h => rw [Classical.not_not.mp h]
  rw [hy]
  exact ⟨tail rfl h2, tail rfl h3, tail rfl h4, tail zero_isZero h6, rfl⟩

/-- **C62.** The software in the wrong place is never used, although it is read for this purpose. -/
theorem tiff_software_ignored (x : Tiff) (s : Str) (d : Doc) : tiffTo { x with xSoftware := s } d = tiffTo x d := rfl

/-- **C62.** Artists in the wrong place that are separated by a comma and a blank get names that begin with a blank. -/
theorem tiff_artist_blanks {a : Str} {l : List Str} (ha : ',' ∉ a) (hl : ∀ x ∈ l, ',' ∉ x) (x : Tiff) (h1 : x.artist = [])
    (h2 : x.xArtist = join ", ".toList (a :: l)) (h3 : x.xArtist ≠ []) :
    (tiffTo x {}).dc.map (·.creator) = some (a :: l.map (fun n => ' ' :: n)) := by
  have hj : ∀ (l : List Str) (a : Str), join ", ".toList (a :: l) = join [','] (a :: l.map (fun n => ' ' :: n)) := by
    intro l
    induction l with
    | nil => intro a; rfl
    | cons b l ih =>
      intro a
      have e1 : join ", ".toList (a :: b :: l) = a ++ ", ".toList ++ join ", ".toList (b :: l) := rfl
      have e2 : join [','] (a :: (b :: l).map (fun n => ' ' :: n)) = a ++ [','] ++ join [','] ((' ' :: b) :: l.map (fun n => ' ' :: n)) := rfl
      have e3 : ∀ (b : Str) (l : List Str), join [','] ((' ' :: b) :: l) = ' ' :: join [','] (b :: l) := by
        intro b l
        cases l <;> rfl
      rw [e1, e2, ih b, e3]
      simp
  have hs : split ',' x.xArtist = a :: l.map (fun n => ' ' :: n) := by
    rw [h2, hj]
    apply split_join (by simp)
    intro y hy
    rcases List.mem_cons.mp hy with rfl | hy
    · exact ha
    · obtain ⟨n, hn, rfl⟩ := List.mem_map.mp hy
      simp only [List.mem_cons, not_or]
      exact ⟨by decide, hl n hn⟩
  have h4 : 0 < x.xArtist.length := List.length_pos_iff.mpr h3
  simp [tiffTo, tiffCreator, h1, h4, hs]

/-- **C62.** Reading erases: if the document has Dublin Core and base models with empty places, title, author, subject, tool and dates of PDF
are lost, and only the copyright is kept. -/
theorem pdf_erased (x : Pdf) : pdfFrom x { dc := some {}, base := some {} } = { copyright := x.copyright } := rfl

/-- **C62.** The same holds for TIFF, which keeps the software and the values of the wrong places. -/
theorem tiff_erased (x : Tiff) : tiffFrom x { dc := some {}, base := some {} } =
    { x with artist := [], dateTime := {}, imageDescription := [], copyright := [] } := rfl

/-- **C62.** Without these models nothing is changed by reading. -/
theorem exchange_from_nothing (x : Pdf) (y : Tiff) : pdfFrom x {} = x ∧ tiffFrom y {} = y := ⟨rfl, rfl⟩

/-- **C62.** The copyright of PDF is not updated from rights that have no default. -/
theorem pdf_copyright_stale (x : Pdf) (d : Doc) {m : Dc} (h : d.dc = some m) (hd : ∀ a ∈ m.rights, a.isDefault = false) :
    (pdfFrom x d).copyright = x.copyright := by
  have : m.rights.default = [] := by
    unfold AltString.default
    rw [List.find?_eq_none.mpr (by intro a ha; rw [hd a ha]; exact Bool.false_ne_true)]
  unfold pdfFrom
  rw [h]
  simp only [this, ne_eq, not_true_eq_false, if_false]
  cases d.base <;> rfl

/-! ### Cases -/

private def someTiff : Tiff := { xArtist := "Ann, Bob".toList, xSoftware := "Tool 1".toList, copyright := [{ value := "c".toList, isDefault := true }] }
private def somePdf : Pdf := { author := ["Eve".toList], copyright := "d".toList, creator := "Writer".toList }

example : syncAll [.tiff someTiff, .pdf somePdf] {} = {
    dc := some { creator := ["Ann".toList, " Bob".toList], rights := [{ value := "c".toList, isDefault := true }] }
    base := some { creatorTool := "Writer".toList } } := by decide +kernel
example : (syncAll [.pdf somePdf, .tiff someTiff] {}).dc = some { creator := ["Eve".toList], rights := [{ value := "d".toList, isDefault := true }] } := by
  decide +kernel

end Xmp.Props
