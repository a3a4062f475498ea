import Verif.Props.ShippedTags
import Verif.Props.Id3

/-! C73, findings: tags of the shipped models that cannot be used. -/

namespace Xmp.Props

open GoStr Shipped

/-! ### Unknown tags -/

/-- Models without a field for all other tags. -/
def NoOthers (m : TagModel) : Prop := ∀ r ∈ m.kept, forOthers m.ns r = false

/-- A name that belongs to no field of the model. -/
def Foreign (m : TagModel) (t : Str) : Prop := ∀ r ∈ m.kept, t ≠ ownTag m.ns r ∧ t ≠ stripPrefix (ownTag m.ns r)

theorem works_mem {m : TagModel} {l : List FieldInfo} (hlen : l.length = m.kept.length)
    (hg : ∀ (i : Nat) r, m.kept[i]? = some r →
      ∃ f, l[i]? = some f ∧ f.name = ownTag m.ns r ∧ f.any = forOthers m.ns r ∧ f.empty = false) :
    ∀ f ∈ l, ∃ r ∈ m.kept, f.name = ownTag m.ns r ∧ f.any = forOthers m.ns r := by
  intro f hf
  obtain ⟨i, hi⟩ := List.mem_iff_getElem?.1 hf
  have hlt : i < m.kept.length := by rw [← hlen]; exact (List.getElem?_eq_some_iff.1 hi).1
  obtain ⟨g, h1, h2, h3, -⟩ := hg i _ (List.getElem?_eq_getElem hlt)
  rw [hi] at h1
  cases Option.some.inj h1
  exact ⟨_, List.getElem_mem hlt, h2, h3⟩

/-- **C73.**  A tag that belongs to no field is refused: reading and setting it are errors, and nothing is changed.  (Models
without a field for all other tags.) -/
theorem shipped_tag_unknown {m : TagModel} (h : Works m) (hc : NoOthers m) {tag t : Str} (ht : m.name tag = some t)
    (hf : Foreign m t) (K : Str → Codec) (vals : List Val) (s : Str) :
    m.getTag K (.struct vals) tag = none ∧ m.setTag K (.struct vals) tag s = (.struct vals, false) := by
  obtain ⟨l, hl, -, hlen, hg⟩ := works_infos h
  have hu := tag_unknown (infos := l) (tys := m.tys K) (vals := vals) none (name := t) (fun f hm => by
    obtain ⟨r, hr, h1, h2⟩ := works_mem hlen hg f hm
    rw [h1, h2]
    exact ⟨(hf r hr).1, (hf r hr).2, hc r hr⟩) [] s
  rw [getTag_eq hl ht, setTag_eq hl ht]
  exact ⟨hu.1, hu.2.1⟩

/-- The tags in the struct of a model under other keys than its namespace (`xmp` and `xml` aside). -/
def otherTags (m : TagModel) : List Str :=
  m.rows.flatMap fun r => (r.tags.filter fun t => t.1 ≠ m.ns && t.1 ≠ chars!"xmp" && t.1 ≠ chars!"xml" && t.2 ≠ chars!"-").map (·.2)

theorem exifEX_facts : (decide ((otherTags m_exif_ExifEXInfo).length = 19) &&
    (m_exif_ExifEXInfo.kept.all fun r => !forOthers m_exif_ExifEXInfo.ns r && (otherTags m_exif_ExifEXInfo).all fun t =>
      decide (t ≠ ownTag m_exif_ExifEXInfo.ns r) && decide (t ≠ stripPrefix (ownTag m_exif_ExifEXInfo.ns r)))) = true := by
  decide +kernel

theorem exifEX_works : Works m_exif_ExifEXInfo := ⟨by simp [tagModels], by decide +kernel⟩

/-- **C73, finding.**  `ExifEXInfo` (models/exif/model.go:417-437) has its 19 tags under the key `exif`, but its namespace is
`exifEX`: none of the tags is known. -/
theorem exifEX_tags_unknown : (otherTags m_exif_ExifEXInfo).length = 19 ∧ ∀ tag ∈ otherTags m_exif_ExifEXInfo,
    ∀ (K : Str → Codec) (vals : List Val) (s : Str), m_exif_ExifEXInfo.canTag K (.struct vals) tag = false ∧
      m_exif_ExifEXInfo.getTag K (.struct vals) tag = none ∧
      m_exif_ExifEXInfo.setTag K (.struct vals) tag s = (.struct vals, false) := by
  have hf := exifEX_facts
  simp only [Bool.and_eq_true, decide_eq_true_eq, List.all_eq_true, Bool.not_eq_true'] at hf
  refine ⟨hf.1, fun tag ht K vals s => ?_⟩
  have h := shipped_tag_unknown exifEX_works (fun r hr => (hf.2 r hr).1) (tag := tag) (t := tag) rfl
    (fun r hr => (hf.2 r hr).2 tag ht) K vals s
  refine ⟨?_, h⟩
  have : m_exif_ExifEXInfo.canTag K (.struct vals) tag = (m_exif_ExifEXInfo.getTag K (.struct vals) tag).isSome := rfl
  rw [this, h.1]
  rfl

example : chars!"0xa430" ∈ otherTags m_exif_ExifEXInfo := by decide +kernel

/-! ### Exif -/

theorem ofNat_lower (n : Nat) (h1 : 65 ≤ n) (h2 : n ≤ 90) : (Char.ofNat (n + 32)).toNat = n + 32 := by
  interval_cases n <;> rfl

theorem lowerChar_stable (c : Char) : lowerChar (lowerChar c) = lowerChar c := by
  unfold lowerChar
  by_cases h : 65 ≤ c.toNat ∧ c.toNat ≤ 90
  · rw [if_pos h]
    rw [if_neg (by rw [ofNat_lower _ h.1 h.2]; omega)]
  · rw [if_neg h, if_neg h]

/-- No letter of a lower-case text is upper case. -/
theorem toLower_chars : ∀ (s : Str), ∀ c ∈ toLower s, ¬ (65 ≤ c.toNat ∧ c.toNat ≤ 90) := by
  intro s
  have hl : ∀ c : Char, ¬ (65 ≤ (lowerChar c).toNat ∧ (lowerChar c).toNat ≤ 90) := by
    intro c h
    have e := lowerChar_stable c
    rw [show lowerChar (lowerChar c) = Char.ofNat ((lowerChar c).toNat + 32) from by rw [lowerChar, if_pos h]] at e
    have h2 := congrArg Char.toNat e
    rw [ofNat_lower _ h.1 h.2] at h2
    omega
  fun_induction toLower s with
  | case1 => simp
  | case2 cs ih => intro c hc; rcases List.mem_cons.1 hc with rfl | hc; · decide
                   · exact ih c hc
  | case3 cs ih => intro c hc; rcases List.mem_cons.1 hc with rfl | hc; · decide
                   · exact ih c hc
  | case4 c cs _ _ ih => intro d hd; rcases List.mem_cons.1 hd with rfl | hd; · exact hl _
                         · exact ih d hd

/-- The fields of `ExifInfo` without tag (models/exif/model.go:236-250). -/
def exifUntagged : List Row := m_exif_ExifInfo.kept.filter fun r => decide (r.get chars!"exif" = [])

theorem exif_works : Works m_exif_ExifInfo := ⟨by simp [tagModels], by decide +kernel⟩

theorem exif_facts : (decide (exifUntagged.length = 15) && m_exif_ExifInfo.kept.all (fun r => !forOthers m_exif_ExifInfo.ns r &&
    decide (stripPrefix (ownTag m_exif_ExifInfo.ns r) = ownTag m_exif_ExifInfo.ns r) &&
    (if r.get chars!"exif" = [] then (ownTag m_exif_ExifInfo.ns r).any (fun c => decide (65 ≤ c.toNat ∧ c.toNat ≤ 90))
     else decide (toLower (ownTag m_exif_ExifInfo.ns r) = ownTag m_exif_ExifInfo.ns r)))) = true := by
  decide +kernel

/-- **C73, finding.**  15 fields of `ExifInfo` have no tag and are known under their names (`AuxLens`).  `CanTag` says so, but
`GetTag` and `SetTag` look for the name in lower case (models/exif/model.go:384, 393): no tag at all reads or changes one of
these fields. -/
theorem exif_untagged_never_set : exifUntagged.length = 15 ∧ ∀ r ∈ exifUntagged, ∀ tag i,
    m_exif_ExifInfo.kept[i]? = some r → (∀ j r', TagOf m_exif_ExifInfo tag j r' → j ≠ i) ∧
    ∀ (K : Str → Codec) (vals : List Val) (s : Str), ∃ vals', (m_exif_ExifInfo.setTag K (.struct vals) tag s).1 = .struct vals' ∧
      vals'[i]? = vals[i]? := by
  have hf := exif_facts
  simp only [Bool.and_eq_true, decide_eq_true_eq, List.all_eq_true, Bool.not_eq_true'] at hf
  refine ⟨hf.1, fun r hr tag i hi => ?_⟩
  have hr2 : r.get chars!"exif" = [] := by simpa using (List.mem_filter.1 hr).2
  have hmem := (List.mem_filter.1 hr).1
  have hup := (hf.2 r hmem).2
  rw [if_pos hr2] at hup
  obtain ⟨c, hc, hcu⟩ := List.any_eq_true.1 hup
  have hno : ownTag m_exif_ExifInfo.ns r ≠ toLower tag := by
    intro e
    rw [e] at hc
    exact toLower_chars tag c hc (by simpa using hcu)
  obtain ⟨l, hl, hn, hlen, hg⟩ := works_infos exif_works
  obtain ⟨f, hf1, hf2, -⟩ := hg i r hi
  have hfind : findField l (toLower tag) ≠ some i := by
    intro e
    unfold findField at e
    cases hx : l.findIdx? (fieldMatches (toLower tag)) with
    | none =>
      rw [hx] at e
      have hany : ∀ k : List FieldInfo, (∀ f ∈ k, f.any = false) → lastAny k = none := by
        intro k
        induction k with
        | nil => intro _; rfl
        | cons a k ih =>
          intro h
          rw [lastAny, ih (fun f hf => h f (List.mem_cons_of_mem _ hf))]
          simp [h a (by simp)]
      rw [hany l (fun g hgm => by
        obtain ⟨r', hr', -, h2⟩ := works_mem hlen hg g hgm
        rw [h2]; exact (hf.2 r' hr').1.1)] at e
      cases e
    | some k =>
      rw [hx] at e
      have hki := Option.some.inj e
      subst hki
      rw [List.findIdx?_eq_some_iff_getElem] at hx
      obtain ⟨hlt, hm, -⟩ := hx
      have : l[k] = f := by rw [List.getElem?_eq_getElem hlt] at hf1; exact Option.some.inj hf1
      rw [this] at hm
      unfold fieldMatches at hm
      rw [hf2, (hf.2 r hmem).1.2] at hm
      split at hm <;> exact hno (by simpa using hm)
  refine ⟨fun j r' ht e => ?_, fun K vals s => ?_⟩
  · subst e
    have h1 := ht.row
    rw [hi] at h1
    cases Option.some.inj h1
    have h2 : some (toLower tag) = some (ownTag m_exif_ExifInfo.ns r) := ht.name
    exact hno (Option.some.inj h2).symm
  · rw [setTag_eq hl (t := toLower tag) rfl]
    cases hx : findField l (toLower tag) with
    | none => exact ⟨vals, by simp only [setNative, hx], rfl⟩
    | some k =>
      have hki : k ≠ i := fun e => hfind (by rw [hx, e])
      simp only [setNative, hx]
      split
      · split
        · exact ⟨_, rfl, by rw [List.getElem?_set_ne hki]⟩
        · exact ⟨_, rfl, by rw [List.getElem?_set_ne hki]⟩
      · exact ⟨_, rfl, rfl⟩

theorem exif_heads : (m_exif_ExifInfo.kept.all fun r => if r.get chars!"exif" = []
    then decide ((toLower (ownTag m_exif_ExifInfo.ns r)).head? = some 'a')
    else decide ((ownTag m_exif_ExifInfo.ns r).head? ≠ some 'a')) = true := by decide +kernel

/-- **C73, finding.**  A tag of `ExifInfo` not in lower case (`0xA432`) can be read and set like the one in lower case, but
`CanTag`, which does not make it lower case (models/exif/model.go:378-381), says that it is unknown. -/
theorem exif_can_tag_case {tag : Str} {i : Nat} {r : Row} (h : TagOf m_exif_ExifInfo tag i r) (hne : tag ≠ ownTag chars!"exif" r)
    (K : Str → Codec) (vals : List Val) :
    m_exif_ExifInfo.canTag K (.struct vals) tag = false ∧
    m_exif_ExifInfo.getTag K (.struct vals) tag = m_exif_ExifInfo.getTag K (.struct vals) (ownTag chars!"exif" r) ∧
    ∀ s, m_exif_ExifInfo.setTag K (.struct vals) tag s = m_exif_ExifInfo.setTag K (.struct vals) (ownTag chars!"exif" r) s := by
  have hf := exif_facts
  simp only [Bool.and_eq_true, decide_eq_true_eq, List.all_eq_true, Bool.not_eq_true'] at hf
  have hd := List.all_eq_true.1 exif_heads
  have hname : toLower tag = ownTag m_exif_ExifInfo.ns r := Option.some.inj h.name
  have hmem := List.mem_of_getElem? h.row
  have hin : r.get chars!"exif" ≠ [] := by
    intro e
    have := (hf.2 r hmem).2
    rw [if_pos e] at this
    obtain ⟨c, hc, hcu⟩ := List.any_eq_true.1 this
    rw [← hname] at hc
    exact toLower_chars tag c hc (by simpa using hcu)
  have hown : toLower (ownTag m_exif_ExifInfo.ns r) = ownTag m_exif_ExifInfo.ns r := by
    have := (hf.2 r hmem).2
    rw [if_neg hin] at this
    simpa using this
  obtain ⟨l, hl, hn, hlen, hg⟩ := works_infos exif_works
  refine ⟨?_, ?_, fun s => ?_⟩
  · have e : m_exif_ExifInfo.canTag K (.struct vals) tag =
        (Riff.getTag m_exif_ExifInfo.ns m_exif_ExifInfo.goFields (m_exif_ExifInfo.tys K) (.struct vals) tag).isSome := rfl
    have hk := tag_unknown (infos := l) (tys := m_exif_ExifInfo.tys K) (vals := vals) none (name := tag) (fun f hm => by
      obtain ⟨r', hr, h1, h2⟩ := works_mem hlen hg f hm
      have hx := hf.2 r' hr
      have hne' : tag ≠ ownTag m_exif_ExifInfo.ns r' := by
        intro e
        have h3 := hx.2
        have h4 := hd r' hr
        have h5 := hd r hmem
        rw [if_neg hin, ← hname, e, decide_eq_true_eq] at h5
        split at h3
        · next h6 => rw [if_pos h6] at h4; exact h5 (by simpa using h4)
        · rw [decide_eq_true_eq, ← e, hname] at h3; exact hne h3.symm
      rw [h1, h2, hx.1.2]
      exact ⟨hne', hne', hx.1.1⟩) [] []
    rw [e, rawTag_eq hl, hk.1]
    rfl
  · rw [getTag_eq hl (t := ownTag m_exif_ExifInfo.ns r) h.name,
      getTag_eq hl (tag := ownTag chars!"exif" r) (t := ownTag m_exif_ExifInfo.ns r) (congrArg some hown)]
  · rw [setTag_eq hl (t := ownTag m_exif_ExifInfo.ns r) h.name,
      setTag_eq hl (tag := ownTag chars!"exif" r) (t := ownTag m_exif_ExifInfo.ns r) (congrArg some hown)]

/-! ### Tags without effect -/

/-- Tags whose setting succeeds without effect. -/
def silentTags : List (Str × List Str) :=
  [(chars!"crs.CameraRawInfo", [chars!"ToneCurveRed", chars!"ToneCurveGreen", chars!"ToneCurveBlue",
  chars!"ToneCurvePV2012", chars!"ToneCurvePV2012Red", chars!"ToneCurvePV2012Green", chars!"ToneCurvePV2012Blue",
  chars!"GradientBasedCorrections", chars!"CircularGradientBasedCorrections", chars!"PaintBasedCorrections",
  chars!"RetouchAreas"]),
   (chars!"dc.DublinCore", [chars!"Date", chars!"Description", chars!"Language", chars!"Rights", chars!"Title"]),
   (chars!"digikam.Digikam", [chars!"CaptionsAutorNames", chars!"CaptionsDateTimeStamps"]),
   (chars!"exif.ExifInfo", [chars!"0x0102", chars!"0x013f", chars!"0x0214", chars!"0x012d", chars!"0x013e",
  chars!"0x0211", chars!"0x0212", chars!"0x9101", chars!"0x9214", chars!"0xa214", chars!"0x0007", chars!"0xa432"]),
   (chars!"exif.ExifEXInfo", [chars!"LensSpecification"]),
   (chars!"id3.ID3", [chars!"AENC", chars!"APIC", chars!"ASPI", chars!"COMR", chars!"ENCR", chars!"EQU2", chars!"ETCO",
  chars!"GEOB", chars!"GRID", chars!"LINK", chars!"OWNE", chars!"PRIV", chars!"POPM", chars!"RBUF", chars!"RVA2",
  chars!"RVRB", chars!"SIGN", chars!"SYLT", chars!"CHAP", chars!"CTOC", chars!"Extension"]),
   (chars!"itunes.ITunesMetadata", [chars!"Extension"]),
   (chars!"ixml.IXML", [chars!"SyncPoints", chars!"TrackList", chars!"Extension"]),
   (chars!"mp4.MP4Info", [chars!"loci"]),
   (chars!"pdf.PDFInfo", [chars!"Title", chars!"Subject"]),
   (chars!"ps.PhotoshopInfo", [chars!"DocumentAncestors", chars!"TextLayers"]),
   (chars!"qt.QtUserdata", [chars!"\u00c2\u00a9xyz"]),
   (chars!"qt.QtMetadata", [chars!"Extension"]),
   (chars!"tiff.TiffInfo", [chars!"BitsPerSample", chars!"ImageDescription", chars!"Copyright",
  chars!"PrimaryChromaticities", chars!"ReferenceBlackWhite", chars!"TransferFunction", chars!"WhitePoint",
  chars!"YCbCrCoefficients", chars!"YCbCrSubSampling", chars!"X_ImageDescription", chars!"X_Copyright"]),
   (chars!"xmp_base.XmpBase", [chars!"xmp:Identifier", chars!"xmp:Thumbnails", chars!"xmp:extension"]),
   (chars!"xmp_bj.JobTicket", [chars!"JobRef"]),
   (chars!"xmp_dm.XmpDM", [chars!"ContributedMedia", chars!"Markers", chars!"Tracks"]),
   (chars!"xmp_mm.XmpMM", [chars!"History", chars!"Ingredients", chars!"Pantry", chars!"Versions"]),
   (chars!"xmp_rights.XmpRights", [chars!"UsageTerms"]),
   (chars!"xmp_tpg.PagedText", [chars!"Colorants", chars!"Fonts", chars!"SwatchGroups"])]

/-- Field types without a text to set: language alternatives, slices without text form, and types whose `UnmarshalText` does
nothing. -/
def NTy.isSilent : NTy → Bool
  | .alt | .list _ | .stub _ | .ptr (.stub _) => true
  | _ => false

theorem silentTags_eq : (tagModels.filter fun m => decide (m.typ ≠ chars!"riff.RiffInfo")).filterMap (fun m =>
    match (m.kept.filter fun r => NTy.isSilent r.ty).map (ownTag m.ns) with
    | [] => none
    | x :: xs => some (m.typ, x :: xs)) = silentTags := by decide +kernel

theorem silent_iff {m : TagModel} (h : Works m) {r : Row} (hr : r ∈ m.kept) (hs : NTy.isSilent r.ty = true) :
    ∃ p ∈ silentTags, p.1 = m.typ ∧ ownTag m.ns r ∈ p.2 := by
  rw [← silentTags_eq]
  have hx : ownTag m.ns r ∈ (m.kept.filter fun r => NTy.isSilent r.ty).map (ownTag m.ns) :=
    List.mem_map_of_mem (List.mem_filter.2 ⟨hr, hs⟩)
  refine ⟨(m.typ, (m.kept.filter fun r => NTy.isSilent r.ty).map (ownTag m.ns)), List.mem_filterMap.2 ⟨m, ?_, ?_⟩, rfl, hx⟩
  · exact List.mem_filter.2 ⟨h.1, by simpa using h.2⟩
  · cases hl : (m.kept.filter fun r => NTy.isSilent r.ty).map (ownTag m.ns) with
    | nil => rw [hl] at hx; cases hx
    | cons x xs => rfl

/-- Setting a silent tag. -/
theorem silent_set {m : TagModel} {tag : Str} {i : Nat} {r : Row} {K : Str → Codec} {vals : List Val} {v : Val}
    (h : TagOf m tag i r) (hv : HasTys (m.tys K) vals) (hx : vals[i]? = some v) (hn : v ≠ .nil)
    (hs : NTy.isSilent r.ty = true) (s : Str) : m.setTag K (.struct vals) tag s = (.struct vals, true) := by
  obtain ⟨l, f, hl, -, -, ha⟩ := tag_access h hv hx
  rw [setTag_eq hl h.name, ha.set]
  have hty := ha.hasTy
  have hset : vals.set i v = vals := by
    apply List.ext_getElem?
    intro j
    rw [List.getElem?_set]
    split
    · next e => subst e; rw [hx]; simp [ha.lt]
    · rfl
  have hr : rewrap (r.ty.ty K) (derefVal (r.ty.ty K) v).2 = v := by
    generalize r.ty.ty K = t at hty
    cases t <;> cases v <;> first | rfl | exact absurd rfl hn | simp [HasTy] at hty
  have hp : parseNative (r.ty.ty K).deref (derefVal (r.ty.ty K) v).2 s = some (derefVal (r.ty.ty K) v).2 := by
    have hd := hasTy_deref hty
    generalize (derefVal (r.ty.ty K) v).2 = w at hd ⊢
    cases hrt : r.ty with
    | alt => rw [hrt] at hd; cases w <;> rfl
    | list n => rw [hrt] at hd; cases w <;> rfl
    | stub n => rw [hrt] at hd; cases w <;> first | rfl | simp [NTy.ty, Ty.deref, HasTy] at hd
    | ptr t =>
      cases t with
      | stub n => rw [hrt] at hd; cases w <;> first | rfl | simp [NTy.ty, Ty.deref, HasTy] at hd
      | _ => rw [hrt] at hs; cases hs
    | _ => rw [hrt] at hs; cases hs
  rw [hp]
  simp only [hr, hset]

/-- **C73, finding.**  89 tags can be set to any text without error, and the text is thrown away: titles, descriptions and rights
of Dublin Core, descriptions and copyrights of TIFF and PDF, and others. -/
theorem shipped_set_silent : ((silentTags.map fun p => p.2.length).sum = 89) ∧ ∀ p ∈ silentTags, ∀ own ∈ p.2,
    ∃ (m : TagModel) (i : Nat) (r : Row), m ∈ tagModels ∧ m.typ = p.1 ∧ m.kept[i]? = some r ∧ ownTag m.ns r = own ∧
      ∀ (K : Str → Codec) (vals : List Val) (v : Val) (tag : Str), HasTys (m.tys K) vals → vals[i]? = some v → v ≠ .nil →
        m.name tag = some own → ∀ s, m.setTag K (.struct vals) tag s = (.struct vals, true) := by
  refine ⟨by decide +kernel, fun p hp own ho => ?_⟩
  rw [← silentTags_eq] at hp
  obtain ⟨m, hm, he⟩ := List.mem_filterMap.1 hp
  obtain ⟨hm1, hm2⟩ := List.mem_filter.1 hm
  have hpe : p = (m.typ, (m.kept.filter fun r => NTy.isSilent r.ty).map (ownTag m.ns)) := by
    split at he
    · cases he
    · next e => rw [e]; exact (Option.some.inj he).symm
  rw [hpe] at ho ⊢
  obtain ⟨r, hr, hro⟩ := List.mem_map.1 ho
  obtain ⟨hr1, hr2⟩ := List.mem_filter.1 hr
  obtain ⟨i, hi⟩ := List.mem_iff_getElem?.1 hr1
  refine ⟨m, i, r, hm1, rfl, hi, hro, fun K vals v tag hv hx hn ht s => ?_⟩
  exact silent_set ⟨⟨hm1, by simpa using hm2⟩, hi, by rw [ht, hro]⟩ hv hx hn hr2 s

example : (chars!"dc.DublinCore", [chars!"Date", chars!"Description", chars!"Language", chars!"Rights", chars!"Title"]) ∈ silentTags := by
  decide +kernel

/-- **C73.**  The tags of the list are all: the field of every other tag holds one text or a list of strings. -/
theorem shipped_tag_kinds {m : TagModel} (h : Works m) {r : Row} (hr : r ∈ m.kept)
    (hs : ∀ p ∈ silentTags, p.1 = m.typ → ownTag m.ns r ∉ p.2) (K : Str → Codec) :
    OneText (r.ty.ty K).deref ∨ ∃ a, r.ty = .strs a := by
  have hn : NTy.isSilent r.ty = false := by
    cases hx : NTy.isSilent r.ty with
    | false => rfl
    | true => obtain ⟨p, h1, h2, h3⟩ := silent_iff h hr hx; exact absurd h3 (hs p h1 h2)
  have hptr : (match r.ty with | .ptr (.alt) | .ptr (.list _) | .ptr (.strs _) | .ptr (.ptr _) => false | _ => true) = true := by
    have ht : (tagModels.all fun m => m.kept.all fun r =>
      match r.ty with | .ptr (.alt) | .ptr (.list _) | .ptr (.strs _) | .ptr (.ptr _) => false | _ => true) = true := by
      decide +kernel
    exact List.all_eq_true.1 (List.all_eq_true.1 ht m h.1) r hr
  cases hrt : r.ty with
  | strs a => exact .inr ⟨a, rfl⟩
  | alt => rw [hrt] at hn; cases hn
  | list n => rw [hrt] at hn; cases hn
  | stub n => rw [hrt] at hn; cases hn
  | solid n b => cases b <;> exact .inl trivial
  | ptr t =>
    rw [hrt] at hn hptr
    cases t with
    | solid n b => cases b <;> exact .inl trivial
    | alt => cases hptr
    | list n => cases hptr
    | strs n => cases hptr
    | ptr n => cases hptr
    | _ => exact .inl trivial
  | _ => exact .inl trivial

/-! ### Tags that can only be set, or neither read nor set -/

/-- Tags whose text can not be read. -/
def unreadTags : List (Str × List Str) :=
  [(chars!"exif.ExifInfo", [chars!"0x8828", chars!"0x9209", chars!"0xa20c", chars!"0xa302", chars!"0xa40b", chars!"0x0002",
     chars!"0x0004", chars!"0x0014", chars!"0x0016"]),
   (chars!"itunes.ITunesMetadata", [chars!"iTunSMPB"])]

/-- Types without `MarshalText` that are no simple values, but have `UnmarshalText`. -/
def NTy.isUnread : NTy → Bool
  | .setOnly _ | .ptr (.setOnly _) | .solid _ true | .ptr (.solid _ true) => true
  | _ => false

theorem unreadTags_eq : (tagModels.filter fun m => decide (m.typ ≠ chars!"riff.RiffInfo")).filterMap (fun m =>
    match (m.kept.filter fun r => NTy.isUnread r.ty).map (ownTag m.ns) with
    | [] => none
    | x :: xs => some (m.typ, x :: xs)) = unreadTags := by decide +kernel

theorem unread_text {n : NTy} (h : NTy.isUnread n = true) (K : Str → Codec) {v : Val} (hv : HasTy (n.ty K) v) (f : FieldInfo) :
    nativeField f (n.ty K) v = some [] ∨ nativeField f (n.ty K) v = none := by
  unfold nativeField
  split
  · exact .inl rfl
  · split
    · exact .inl rfl
    · right
      cases n with
      | setOnly n => cases v <;> first | rfl | simp [NTy.ty, HasTy] at hv
      | solid n b =>
        cases b
        · cases h
        cases v <;> first | rfl | simp [NTy.ty, HasTy] at hv
      | ptr t =>
        cases t with
        | setOnly n =>
          cases v with
          | nil => next h1 _ => exact absurd rfl h1
          | ptr w => cases w <;> first | rfl | simp [NTy.ty, HasTy] at hv
          | _ => simp [NTy.ty, HasTy] at hv
        | solid n b =>
          cases b
          · cases h
          cases v with
          | nil => next h1 _ => exact absurd rfl h1
          | ptr w => cases w <;> first | rfl | simp [NTy.ty, HasTy] at hv
          | _ => simp [NTy.ty, HasTy] at hv
        | _ => cases h
      | _ => cases h

/-- **C73, finding.**  Ten tags can be set, but never read: whatever the field holds, reading them gives an empty text or an
error.  (GPS coordinates, device settings and others of Exif; the gapless playback information of iTunes.) -/
theorem shipped_tags_unread : ((unreadTags.map fun p => p.2.length).sum = 10) ∧ ∀ p ∈ unreadTags, ∀ own ∈ p.2,
    ∃ (m : TagModel) (i : Nat) (r : Row), m ∈ tagModels ∧ m.typ = p.1 ∧ m.kept[i]? = some r ∧ ownTag m.ns r = own ∧
      ∀ (K : Str → Codec) (vals : List Val) (v : Val) (tag : Str), HasTys (m.tys K) vals → vals[i]? = some v → m.name tag = some own →
        (m.getTag K (.struct vals) tag = some [] ∨ m.getTag K (.struct vals) tag = none) ∧
        ∀ s, (m.setTag K (.struct vals) tag s).2 = true ↔
          ∃ w, TagDenotes (r.ty.ty K).deref (derefVal (r.ty.ty K) v).2 s w := by
  refine ⟨by decide +kernel, fun p hp own ho => ?_⟩
  rw [← unreadTags_eq] at hp
  obtain ⟨m, hm, he⟩ := List.mem_filterMap.1 hp
  obtain ⟨hm1, hm2⟩ := List.mem_filter.1 hm
  have hpe : p = (m.typ, (m.kept.filter fun r => NTy.isUnread r.ty).map (ownTag m.ns)) := by
    split at he
    · cases he
    · next e => rw [e]; exact (Option.some.inj he).symm
  rw [hpe] at ho ⊢
  obtain ⟨r, hr, hro⟩ := List.mem_map.1 ho
  obtain ⟨hr1, hr2⟩ := List.mem_filter.1 hr
  obtain ⟨i, hi⟩ := List.mem_iff_getElem?.1 hr1
  refine ⟨m, i, r, hm1, rfl, hi, hro, fun K vals v tag hv hx ht => ?_⟩
  have hto : TagOf m tag i r := ⟨⟨hm1, by simpa using hm2⟩, hi, by rw [ht, hro]⟩
  refine ⟨?_, fun s => (shipped_tag_set hto hv hx ?_ s).1⟩
  · obtain ⟨l, f, hl, -, -, ha⟩ := tag_access hto hv hx
    rw [getTag_eq hl hto.name, ha.get]
    exact unread_text hr2 K ha.hasTy f
  · cases hrt : r.ty with
    | setOnly n => exact trivial
    | solid n b => cases b <;> exact trivial
    | ptr t =>
      rw [hrt] at hr2
      cases t with
      | setOnly n => exact trivial
      | solid n b => cases b <;> exact trivial
      | _ => cases hr2
    | _ => rw [hrt] at hr2; cases hr2

/-- **C73, finding.**  The four GPS coordinates of Exif (models/exif/types.go: arrays without `IsZero` and `MarshalText`) are
never readable: `CanTag` says that they are unknown, although they can be set. -/
theorem exif_gps_never_can : ∀ own ∈ [chars!"0x0002", chars!"0x0004", chars!"0x0014", chars!"0x0016"],
    ∃ (i : Nat) (r : Row), m_exif_ExifInfo.kept[i]? = some r ∧ ownTag chars!"exif" r = own ∧
      ∀ (K : Str → Codec) (vals : List Val) (v : Val), HasTys (m_exif_ExifInfo.tys K) vals → vals[i]? = some v →
        m_exif_ExifInfo.canTag K (.struct vals) own = false ∧ m_exif_ExifInfo.getTag K (.struct vals) own = none := by
  have hx : ([chars!"0x0002", chars!"0x0004", chars!"0x0014", chars!"0x0016"].all fun own =>
      decide (toLower own = own) && m_exif_ExifInfo.kept.any fun r => decide (ownTag m_exif_ExifInfo.ns r = own) &&
        match r.ty with | .solid _ true => true | _ => false) = true := by decide +kernel
  intro own ho
  have hx1 := List.all_eq_true.1 hx own ho
  rw [Bool.and_eq_true, decide_eq_true_eq] at hx1
  obtain ⟨hlow, hx2⟩ := hx1
  obtain ⟨r, hr, hx3⟩ := List.any_eq_true.1 hx2
  rw [Bool.and_eq_true, decide_eq_true_eq] at hx3
  obtain ⟨i, hi⟩ := List.mem_iff_getElem?.1 hr
  refine ⟨i, r, hi, hx3.1, fun K vals v hv hval => ?_⟩
  have hto : TagOf m_exif_ExifInfo own i r := ⟨exif_works, hi, by rw [hx3.1]; exact congrArg some hlow⟩
  obtain ⟨l, f, hl, -, -, ha⟩ := tag_access hto hv hval
  have hnone : nativeField f (r.ty.ty K) v = none := by
    have hty := ha.hasTy
    have h3 := hx3.2
    cases hrt : r.ty with
    | solid n b =>
      cases b
      · rw [hrt] at h3; cases h3
      rw [hrt] at hty
      cases v <;> first | (simp [NTy.ty, HasTy] at hty; done) | skip
      unfold nativeField
      simp [Val.isNil, NTy.ty, isEmptyValue, derefVal, nativeText, leafText]
    | _ => rw [hrt] at h3; cases h3
  have hget : getNative (.struct none l (m_exif_ExifInfo.tys K)) (.struct vals) own = none := by
    have := ha.get none
    rw [hx3.1] at this
    rw [this, hnone]
  constructor
  · have e : m_exif_ExifInfo.canTag K (.struct vals) own =
        (Riff.getTag m_exif_ExifInfo.ns m_exif_ExifInfo.goFields (m_exif_ExifInfo.tys K) (.struct vals) own).isSome := rfl
    rw [e, rawTag_eq hl, hget]
    rfl
  · rw [getTag_eq hl (t := own) (congrArg some hlow), hget]

/-- The tags that are always refused. -/
def refusedTags : List (Str × List Str) :=
  [(chars!"id3.ID3", [chars!"POSS"]), (chars!"itunes.ITunesMetadata", [chars!"iTunMOVI"]),
   (chars!"ixml.IXML", [chars!"XMLName", chars!"Speed", chars!"History", chars!"FileSet", chars!"UserData", chars!"Location"]),
   (chars!"ps.PhotoshopInfo", [chars!"Layer"]),
   (chars!"xmp_dm.XmpDM", [chars!"AltTimecode", chars!"BeatSpliceParams", chars!"Duration", chars!"IntroTime", chars!"OutCue",
     chars!"ProjectRef", chars!"RelativeTimestamp", chars!"ResampleParams", chars!"StartTimecode", chars!"TimeScaleParams",
     chars!"VideoAlphaPremultipleColor", chars!"VideoFrameSize"]),
   (chars!"xmp_mm.XmpMM", [chars!"DerivedFrom", chars!"ManagedFrom"]), (chars!"xmp_tpg.PagedText", [chars!"MaxPageSize"])]

/-- Structs without text form. -/
def NTy.isRefused : NTy → Bool
  | .mute _ | .ptr (.mute _) | .solid _ false | .ptr (.solid _ false) => true
  | _ => false

theorem refusedTags_eq : (tagModels.filter fun m => decide (m.typ ≠ chars!"riff.RiffInfo")).filterMap (fun m =>
    match (m.kept.filter fun r => NTy.isRefused r.ty).map (ownTag m.ns) with
    | [] => none
    | x :: xs => some (m.typ, x :: xs)) = refusedTags := by decide +kernel

/-- **C73.**  24 tags are always refused: their fields are structs without text. -/
theorem shipped_tags_refused : ((refusedTags.map fun p => p.2.length).sum = 24) ∧ ∀ p ∈ refusedTags, ∀ own ∈ p.2,
    ∃ (m : TagModel) (i : Nat) (r : Row), m ∈ tagModels ∧ m.typ = p.1 ∧ m.kept[i]? = some r ∧ ownTag m.ns r = own ∧
      ∀ (K : Str → Codec) (vals : List Val) (v : Val) (tag : Str), HasTys (m.tys K) vals → vals[i]? = some v → m.name tag = some own →
        ∀ s, (m.setTag K (.struct vals) tag s).2 = false := by
  refine ⟨by decide +kernel, fun p hp own ho => ?_⟩
  rw [← refusedTags_eq] at hp
  obtain ⟨m, hm, he⟩ := List.mem_filterMap.1 hp
  obtain ⟨hm1, hm2⟩ := List.mem_filter.1 hm
  have hpe : p = (m.typ, (m.kept.filter fun r => NTy.isRefused r.ty).map (ownTag m.ns)) := by
    split at he
    · cases he
    · next e => rw [e]; exact (Option.some.inj he).symm
  rw [hpe] at ho ⊢
  obtain ⟨r, hr, hro⟩ := List.mem_map.1 ho
  obtain ⟨hr1, hr2⟩ := List.mem_filter.1 hr
  obtain ⟨i, hi⟩ := List.mem_iff_getElem?.1 hr1
  refine ⟨m, i, r, hm1, rfl, hi, hro, fun K vals v tag hv hx ht s => ?_⟩
  have hto : TagOf m tag i r := ⟨⟨hm1, by simpa using hm2⟩, hi, by rw [ht, hro]⟩
  obtain ⟨l, f, hl, -, -, ha⟩ := tag_access hto hv hx
  rw [setTag_eq hl hto.name, ha.set]
  have hp : ∀ w, parseNative (r.ty.ty K).deref w s = none := by
    intro w
    cases hrt : r.ty with
    | mute n => cases w <;> rfl
    | solid n b => cases b <;> first | (cases w <;> rfl) | (rw [hrt] at hr2; cases hr2)
    | ptr t =>
      rw [hrt] at hr2
      cases t with
      | mute n => cases w <;> rfl
      | solid n b => cases b <;> first | (cases w <;> rfl) | cases hr2
      | _ => cases hr2
    | _ => rw [hrt] at hr2; cases hr2
  rw [hp]

/-! ### A field for all other tags -/

theorem lastAny_get : ∀ {l : List FieldInfo}, (∃ f ∈ l, f.any = true) → ∃ i f, lastAny l = some i ∧ l[i]? = some f ∧ f.any = true
  | [], h => by obtain ⟨f, hf, -⟩ := h; cases hf
  | f :: fs, h => by
    by_cases hx : ∃ g ∈ fs, g.any = true
    · obtain ⟨i, g, h1, h2, h3⟩ := lastAny_get hx
      exact ⟨i + 1, g, by rw [lastAny, h1], by simpa using h2, h3⟩
    · have hn : lastAny fs = none := by
        have : ∀ k : List FieldInfo, (∀ f ∈ k, ¬ f.any = true) → lastAny k = none := by
          intro k
          induction k with
          | nil => intro _; rfl
          | cons a k ih =>
            intro h
            rw [lastAny, ih (fun f hf => h f (List.mem_cons_of_mem _ hf))]
            simp [h a (by simp)]
        exact this fs (fun g hg e => hx ⟨g, hg, e⟩)
      obtain ⟨g, hg, he⟩ := h
      rcases List.mem_cons.1 hg with rfl | hg
      · exact ⟨0, g, by rw [lastAny, hn]; simp [he], rfl, he⟩
      · exact absurd ⟨g, hg, he⟩ hx

/-- The models with a field for all other tags. -/
theorem open_models {m : TagModel} (h : Works m) : ¬ NoOthers m ↔
    m.typ ∈ [chars!"id3.ID3", chars!"itunes.ITunesMetadata", chars!"qt.QtMetadata"] := by
  have hx : (tagModels.all fun m => (m.kept.any (forOthers m.ns)) ==
      decide (m.typ ∈ [chars!"id3.ID3", chars!"itunes.ITunesMetadata", chars!"qt.QtMetadata"])) = true := by decide +kernel
  have := List.all_eq_true.1 hx m h.1
  rw [beq_iff_eq] at this
  rw [← decide_eq_true_iff (p := m.typ ∈ _), ← this]
  unfold NoOthers
  rw [List.any_eq_true]
  constructor
  · intro hc
    by_contra hn
    refine hc (fun r hr => ?_)
    cases hf : forOthers m.ns r with
    | false => rfl
    | true => exact absurd ⟨r, hr, hf⟩ hn
  · rintro ⟨r, hr, hf⟩ hc
    rw [hc r hr] at hf
    cases hf

/-- **C73, finding.**  The models of ID3, iTunes and QuickTime metadata have a field for all other tags, but it has no text: an
unknown tag can be set to any text without error, the text is thrown away; `CanTag` says that every tag is known as long as the
field is empty; with an extension in the document reading every unknown tag is an error. -/
theorem shipped_tag_others {m : TagModel} (h : Works m) (ho : ¬ NoOthers m) {tag t : Str} (ht : m.name tag = some t)
    (hf : Foreign m t) {K : Str → Codec} {vals : List Val} (hv : HasTys (m.tys K) vals) :
    (∀ s, m.setTag K (.struct vals) tag s = (.struct vals, true)) ∧
    ∃ (i : Nat) (r : Row) (k sp : List Val), m.kept[i]? = some r ∧ forOthers m.ns r = true ∧ vals[i]? = some (.slice k sp) ∧
      m.canTag K (.struct vals) tag = k.isEmpty ∧ m.getTag K (.struct vals) tag = if k.isEmpty then some [] else none := by
  obtain ⟨l, hl, hn, hlen, hg⟩ := works_infos h
  have hany : ∃ f ∈ l, f.any = true := by
    by_contra hc
    refine ho (fun r hr => ?_)
    obtain ⟨i, hi⟩ := List.mem_iff_getElem?.1 hr
    obtain ⟨f, h1, -, h3, -⟩ := hg i r hi
    cases hx : forOthers m.ns r with
    | false => rfl
    | true => exact absurd ⟨f, List.mem_of_getElem? h1, by rw [h3, hx]⟩ hc
  have h1 : l.findIdx? (fieldMatches t) = none := by
    rw [List.findIdx?_eq_none_iff]
    intro f hm
    obtain ⟨r, hr, e, -⟩ := works_mem hlen hg f hm
    unfold fieldMatches
    rw [e]
    split
    · simpa using fun e => (hf r hr).1 e.symm
    · simpa using fun e => (hf r hr).2 e.symm
  obtain ⟨i, f, hi, hfi, hfa⟩ := lastAny_get hany
  have hfind : findField l t = some i := by unfold findField; rw [h1]; exact hi
  have hlt : i < m.kept.length := by rw [← hlen]; exact (List.getElem?_eq_some_iff.1 hfi).1
  obtain ⟨g, h2, h3, h4, h5⟩ := hg i _ (List.getElem?_eq_getElem hlt)
  rw [hfi] at h2
  cases Option.some.inj h2
  have hr : m.kept[i]? = some m.kept[i] := List.getElem?_eq_getElem hlt
  generalize m.kept[i] = r at *
  have hfo : forOthers m.ns r = true := by rw [← h4, hfa]
  have hlist : ∃ n, r.ty = .list n := by
    have hx : (tagModels.all fun m => m.kept.all fun r => !forOthers m.ns r || match r.ty with | .list _ => true | _ => false) = true := by
      decide +kernel
    have := List.all_eq_true.1 (List.all_eq_true.1 hx m h.1) r (List.mem_of_getElem? hr)
    rw [hfo] at this
    cases hrt : r.ty <;> rw [hrt] at this <;> first | exact ⟨_, rfl⟩ | cases this
  obtain ⟨n, hn'⟩ := hlist
  have hty : (m.tys K)[i]? = some (.slice .ordered (.text (K n))) := by rw [tagTys_get hr, hn']; rfl
  have hval : ∃ v, vals[i]? = some v ∧ HasTy (.slice .ordered (.text (K n))) v := by
    have : i < vals.length := by
      have hl2 : (m.tys K).length = vals.length := by
        have : ∀ (ts : List Ty) (vs : List Val), HasTys ts vs → ts.length = vs.length := by
          intro ts
          induction ts with
          | nil => intro vs h; cases vs <;> simp [HasTys] at h ⊢
          | cons t ts ih => intro vs h; cases vs with
            | nil => simp [HasTys] at h
            | cons v vs => rw [HasTys] at h; simp [ih vs h.2]
        exact this _ _ hv
      rw [← hl2]; exact (List.getElem?_eq_some_iff.1 hty).1
    exact ⟨vals[i], List.getElem?_eq_getElem this, hasTys_get hv hty (List.getElem?_eq_getElem this)⟩
  obtain ⟨v, hx, hvt⟩ := hval
  have hset : vals.set i v = vals := by
    apply List.ext_getElem?
    intro j
    rw [List.getElem?_set]
    split
    · next e => subst e; rw [hx]; simp [(List.getElem?_eq_some_iff.1 hx).1]
    · rfl
  cases v with
  | slice k sp =>
    have hget : m.getTag K (.struct vals) tag = if k.isEmpty then some [] else none := by
      rw [getTag_eq hl ht]
      simp only [getNative, hfind, hfi, hty, hx, nativeField, Val.isNil, h5, isEmptyValue, derefVal, nativeText]
      cases k <;> rfl
    refine ⟨fun s => ?_, i, r, k, sp, hr, hfo, hx, ?_, hget⟩
    · rw [setTag_eq hl ht]
      simp only [setNative, hfind, hty, hx, derefVal]
      have : parseNative (.slice .ordered (.text (K n))) (.slice k sp) s = some (.slice k sp) := rfl
      rw [this]
      simp only [rewrap, hset]
    · have hne : m.names ≠ .exif := by
        have hx : (tagModels.all fun m => decide (m.names ≠ .exif) || m.kept.all fun r => !forOthers m.ns r) = true := by
          decide +kernel
        have := List.all_eq_true.1 hx m h.1
        rw [Bool.or_eq_true] at this
        rcases this with this | this
        · simpa using this
        · have := List.all_eq_true.1 this r (List.mem_of_getElem? hr)
          rw [hfo] at this; cases this
      have : m.canTag K (.struct vals) tag = (m.getTag K (.struct vals) tag).isSome := by
        unfold TagModel.canTag
        cases hm : m.names <;> first | rfl | exact absurd hm hne
      rw [this, hget]
      cases k <;> rfl
  | _ => simp [HasTy] at hvt

/-- The second part under the key `qt` of the fields of `QtMetadata` (models/qt/qt_metadata.go:44-107). -/
def qtSecond : List Str := (m_qt_QtMetadata.kept.filter fun r => !forOthers chars!"qt" r).filterMap fun r =>
  (r.tags.filter fun t => t.1 = chars!"qt")[1]?.map (·.2)

theorem qt_works : Works m_qt_QtMetadata := ⟨by simp [tagModels], by decide +kernel⟩

theorem qtSecond_facts : (decide (qtSecond.length = 62) && qtSecond.all fun t => m_qt_QtMetadata.kept.all fun r =>
    decide (t ≠ ownTag m_qt_QtMetadata.ns r) && decide (t ≠ stripPrefix (ownTag m_qt_QtMetadata.ns r))) = true := by
  decide +kernel

/-- **C73, finding.**  The fields of `QtMetadata` have two tags, `com.apple.quicktime.…` and an older one (`©alb`) under the
same key; only the first is known.  Setting the older tags succeeds without effect. -/
theorem qt_second_tags_lost : qtSecond.length = 62 ∧ ∀ tag ∈ qtSecond, ∀ (K : Str → Codec) (vals : List Val),
    HasTys (m_qt_QtMetadata.tys K) vals →
    (∀ s, m_qt_QtMetadata.setTag K (.struct vals) tag s = (.struct vals, true)) ∧
    (m_qt_QtMetadata.getTag K (.struct vals) tag = some [] ∨ m_qt_QtMetadata.getTag K (.struct vals) tag = none) := by
  have hx := qtSecond_facts
  simp only [Bool.and_eq_true, decide_eq_true_eq, List.all_eq_true] at hx
  refine ⟨hx.1, fun tag ht K vals hv => ?_⟩
  obtain ⟨h1, i, r, k, sp, -, -, -, -, h2⟩ := shipped_tag_others qt_works
    ((open_models qt_works).2 (by decide +kernel)) (tag := tag) (t := tag) rfl (fun r hr => hx.2 tag ht r hr) hv
  refine ⟨h1, ?_⟩
  rw [h2]
  cases k
  · exact .inl rfl
  · exact .inr rfl

example : chars!"Â©alb" ∈ qtSecond := by decide +kernel

/-! ### The spelling of tags -/

/-- **C73.**  The tag of a field is a way to write it, except for 15 fields of `ExifInfo` and the field for other tags of `ID3`. -/
theorem shipped_tag_spelled {m : TagModel} (h : Works m) {i : Nat} {r : Row} (hi : m.kept[i]? = some r)
    (he : m.typ = chars!"exif.ExifInfo" → r.get chars!"exif" ≠ []) (ho : m.typ = chars!"id3.ID3" → r.field ≠ chars!"Extension") :
    TagOf m (ownTag m.ns r) i r := by
  have hx : (tagModels.all fun m => m.kept.all fun r =>
      (decide (m.typ = chars!"exif.ExifInfo") && decide (r.get chars!"exif" = [])) ||
      (decide (m.typ = chars!"id3.ID3") && decide (r.field = chars!"Extension")) ||
      decide (m.name (ownTag m.ns r) = some (ownTag m.ns r))) = true := by decide +kernel
  have := List.all_eq_true.1 (List.all_eq_true.1 hx m h.1) r (List.mem_of_getElem? hi)
  simp only [Bool.or_eq_true, Bool.and_eq_true, decide_eq_true_eq] at this
  rcases this with (⟨h1, h2⟩ | ⟨h1, h2⟩) | h1
  · exact absurd h2 (he h1)
  · exact absurd h2 (ho h1)
  · exact ⟨h, hi, h1⟩

example : TagOf m_dc chars!"Title" 13 ⟨chars!"Title", [], .alt⟩ := ⟨⟨by simp [tagModels], by decide +kernel⟩, rfl, rfl⟩

/-! ### New models -/

/-- Arrays and structs without `IsZero`. -/
def NTy.isSolid : NTy → Bool
  | .solid _ _ => true
  | _ => false

theorem zero_hidden {K : Str → Codec} (hK : ∀ n, (K n).empty 0 = true) {n : NTy} (hn : NTy.isSolid n = false) (f : FieldInfo)
    (hf : f.empty = false) : nativeField f (n.ty K) (n.ty K).zero = some [] := by
  apply nativeField_skip
  rw [hf]
  cases n with
  | solid n b => cases hn
  | ptr t => exact .inl rfl
  | text n => exact .inr (by simpa [NTy.ty, Ty.zero, isEmptyValue] using hK n)
  | setOnly n => exact .inr (by simpa [NTy.ty, Ty.zero, isEmptyValue] using hK n)
  | stub n => exact .inr (by simpa [NTy.ty, Ty.zero, isEmptyValue] using hK n)
  | mute n => exact .inr (by simpa [NTy.ty, Ty.zero, isEmptyValue] using hK n)
  | _ => exact .inr rfl

theorem tagZeros_get : ∀ (ts : List Ty) (i : Nat) (t : Ty), ts[i]? = some t → (Ty.zeros ts)[i]? = some t.zero
  | [], _, _, h => by simp at h
  | t :: ts, 0, u, h => by simp only [List.getElem?_cons_zero, Option.some.injEq] at h; subst h; rfl
  | t :: ts, i + 1, u, h => by
    rw [Ty.zeros, List.getElem?_cons_succ]
    exact tagZeros_get ts i u (by simpa using h)

/-- **C73.**  A new model knows the tags of all its fields, except the four GPS coordinates of Exif and the root name of iXML:
`CanTag` says so, for the names of Exif fields without tag, too.  (The zero values of all types count as empty.) -/
theorem shipped_can_tag_new {m : TagModel} (h : Works m) {K : Str → Codec} (hK : ∀ n, (K n).empty 0 = true) {i : Nat} {r : Row}
    (hi : m.kept[i]? = some r) (hs : NTy.isSolid r.ty = false)
    (ho : m.typ = chars!"id3.ID3" → r.field ≠ chars!"Extension") :
    m.canTag K (.struct (Ty.zeros (m.tys K))) (ownTag m.ns r) = true := by
  obtain ⟨l, hl, hn, hlen, hg⟩ := works_infos h
  obtain ⟨f, hf, hname, -, he⟩ := hg i r hi
  have ha : Access l (m.tys K) (Ty.zeros (m.tys K)) (ownTag m.ns r) i f (r.ty.ty K) (r.ty.ty K).zero :=
    ⟨hn, hasTys_zeros _, ⟨f, hf, .inl hname.symm⟩, hf, tagTys_get hi K, tagZeros_get _ _ _ (tagTys_get hi K)⟩
  have hget : getNative (.struct none l (m.tys K)) (.struct (Ty.zeros (m.tys K))) (ownTag m.ns r) = some [] := by
    rw [ha.get, zero_hidden hK hs f he]
  unfold TagModel.canTag
  cases hm : m.names with
  | exif => simp only; rw [rawTag_eq hl, hget]; rfl
  | asIs =>
    simp only
    rw [getTag_eq hl (t := ownTag m.ns r) (by unfold TagModel.name; rw [hm]), hget]; rfl
  | id3 =>
    simp only
    rw [getTag_eq hl (shipped_tag_spelled h hi (fun e => ?_) ho).name, hget]; rfl
    have hx : (tagModels.all fun m => decide (m.names ≠ .id3) || decide (m.typ ≠ chars!"exif.ExifInfo")) = true := by
      decide +kernel
    have := List.all_eq_true.1 hx m h.1
    rw [hm, e] at this
    cases this

/-- The fields of which this does not hold. -/
theorem solid_fields : (tagModels.flatMap fun m => (m.kept.filter fun r => NTy.isSolid r.ty).map fun r => (m.typ, ownTag m.ns r)) =
    [(chars!"exif.ExifInfo", chars!"0x0002"), (chars!"exif.ExifInfo", chars!"0x0004"), (chars!"exif.ExifInfo", chars!"0x0014"),
     (chars!"exif.ExifInfo", chars!"0x0016"), (chars!"ixml.IXML", chars!"XMLName")] := by decide +kernel

/-! ### Texts by language -/

theorem nty_no_alt (K : Str → Codec) {n : NTy} (h : (match n with | .alt | .ptr .alt => false | _ => true) = true) :
    (n.ty K).deref ≠ .alt := by
  cases n with
  | alt => cases h
  | solid n b => cases b <;> simp [NTy.ty, Ty.deref]
  | ptr t =>
    cases t with
    | alt => cases h
    | solid n b => cases b <;> simp [NTy.ty, Ty.deref]
    | _ => simp [NTy.ty, Ty.deref]
  | _ => simp [NTy.ty, Ty.deref]

/-- **C73, finding.**  The models of Exif and ID3 offer texts by language, but have no language alternatives: all texts are
refused, and asking for a text of a field that is a string, a number or a truth value panics. -/
theorem locale_tags_useless {m : TagModel} (h : m = m_exif_ExifInfo ∨ m = m_id3) {K : Str → Codec} {vals : List Val}
    {lang : Str} {i : Nat} {r : Row} {v : Val} (hv : HasTys (m.tys K) vals) (hi : m.kept[i]? = some r) (hx : vals[i]? = some v) :
    (∀ tag s, (m.setLocaleTag K (.struct vals) lang tag s).2 = .err) ∧
    ∀ tag, m.name tag = some (ownTag m.ns r) →
      (match r.ty with | .int _ | .uint _ | .bool | .str => True | _ => False) →
      m.getLocaleTag K (.struct vals) lang tag = .panic := by
  have hw : Works m := by
    rcases h with rfl | rfl
    · exact exif_works
    · exact ⟨by simp [tagModels], by decide +kernel⟩
  obtain ⟨l, hl, hn, hlen, hg⟩ := works_infos hw
  constructor
  · intro tag s
    unfold TagModel.setLocaleTag
    have hkey : ∀ t, (setLocale (.struct none l (m.tys K)) (.struct vals) lang t s).2 = .err := by
      intro t
      simp only [setLocale]
      split
      · rfl
      · next j hj =>
        split
        · next ty v' hty hv' =>
          have hal : ty.deref ≠ .alt := by
            have hx : ([m_exif_ExifInfo, m_id3].all fun m => m.kept.all fun r => match r.ty with | .alt | .ptr .alt => false | _ => true) = true := by
              decide +kernel
            have hmem : m ∈ [m_exif_ExifInfo, m_id3] := by rcases h with rfl | rfl <;> simp
            unfold TagModel.tys at hty
            rw [List.getElem?_map] at hty
            cases hr' : m.kept[j]? with
            | none => rw [hr'] at hty; cases hty
            | some r' =>
              rw [hr'] at hty
              cases hty
              have := List.all_eq_true.1 (List.all_eq_true.1 hx m hmem) r' (List.mem_of_getElem? hr')
              exact nty_no_alt K this
          have hd := derefVal_fst (hasTys_get hv hty hv')
          split
          · next a e => rw [e] at hd; exact absurd hd.symm hal
          · rfl
        · rfl
    split
    · rw [hl]; exact hkey _
    · rfl
  · intro tag ht hty
    obtain ⟨l', f, hl', -, -, ha⟩ := tag_access (⟨hw, hi, ht⟩ : TagOf m tag i r) hv hx
    unfold TagModel.getLocaleTag
    rw [ht, hl']
    refine (locale_get_panics ha none lang).1 ?_
    cases hrt : r.ty <;> rw [hrt] at hty <;> trivial

/-! ### Listing -/

/-- **C73.**  The list of tags of a model has, for every tag that can be written and whose field is no language alternative, the
text that `GetTag` gives, unless it is empty; it has no other tags. -/
theorem shipped_tag_list {m : TagModel} (h : Works m) {K : Str → Codec} {vals : List Val} (hv : HasTys (m.tys K) vals)
    {l : List Tag} (hl : m.listTags K (.struct vals) = .ok l) :
    (∀ g ∈ l, ∃ r ∈ m.kept, g.key = ownTag m.ns r) ∧
    ∀ tag i r v, TagOf m tag i r → vals[i]? = some v → r.ty ≠ .alt → ∃ s, m.getTag K (.struct vals) tag = some s ∧
      l.filter (fun g => g.key = ownTag m.ns r) = if s = [] then [] else [⟨ownTag m.ns r, s, []⟩] := by
  obtain ⟨infos, hi, hn, hlen, hg⟩ := works_infos h
  rw [listTags_eq hi] at hl
  have hlen2 : infos.length = (m.tys K).length := by unfold TagModel.tys; rw [List.length_map, hlen]
  obtain ⟨h1, h2⟩ := tag_list none hn hlen2 hv hl
  constructor
  · intro g hgm
    rw [h1] at hgm
    obtain ⟨f, hf, hgf⟩ := List.mem_flatMap.1 hgm
    obtain ⟨r, hr, e, -⟩ := works_mem hlen hg f hf
    exact ⟨r, hr, by rw [← e]; simpa using (List.mem_filter.1 hgf).2⟩
  · intro tag i r v ht hx hna
    obtain ⟨f, hf, e, -⟩ := hg i r ht.row
    have h3 := (h2 i f _ v hf (tagTys_get ht.row K) hx).2 (by
      have hptr : (tagModels.all fun m => m.kept.all fun r => match r.ty with | .ptr .alt => false | _ => true) = true := by
        decide +kernel
      have := List.all_eq_true.1 (List.all_eq_true.1 hptr m h.1) r (List.mem_of_getElem? ht.row)
      refine nty_no_alt K ?_
      cases hrt : r.ty with
      | alt => exact absurd hrt hna
      | ptr t => rw [hrt] at this; cases t <;> exact this
      | _ => rfl)
    rw [e] at h3
    rw [getTag_eq hi ht.name]
    exact h3

/-- A field value that is nil or empty, or can be listed. -/
def ListableField (K : Str → Codec) (r : Row) (v : Val) : Prop :=
  v = .nil ∨ isEmptyValue (r.ty.ty K) v = true ∨ Listable (r.ty.ty K).deref (derefVal (r.ty.ty K) v).2

/-- **C73.**  Listing succeeds if the fields that are not nil or empty can be listed. -/
theorem shipped_list_ok {m : TagModel} (h : Works m) {K : Str → Codec} {vals : List Val} (hv : HasTys (m.tys K) vals)
    (hl : ∀ (j : Nat) r v, m.kept[j]? = some r → vals[j]? = some v → ListableField K r v) :
    ∃ l, m.listTags K (.struct vals) = .ok l := by
  obtain ⟨infos, hi, hn, hlen, hg⟩ := works_infos h
  rw [listTags_eq hi]
  refine tag_list_ok none hv (fun j f t v hf hty hv' => ?_)
  unfold TagModel.tys at hty
  rw [List.getElem?_map] at hty
  cases hr : m.kept[j]? with
  | none => rw [hr] at hty; cases hty
  | some r =>
    rw [hr] at hty
    cases hty
    obtain ⟨f', hf', -, -, he⟩ := hg j r hr
    rw [hf] at hf'
    cases Option.some.inj hf'
    exact (hl j r v hr hv').imp_right (Or.imp_left fun x => ⟨he, x⟩)

/-- **C73, finding.**  `ListTags` panics if a field of bytes is not empty and the fields before it can be listed: the CD
identifier of ID3 (`MCDI`), the sound check of iTunes (`iTunNORM`), the thumbnail of MP4 (`thmb`). -/
theorem shipped_list_panics {m : TagModel} (h : Works m) {K : Str → Codec} {vals : List Val} (hv : HasTys (m.tys K) vals)
    {i : Nat} {r : Row} {b : Str} (hi : m.kept[i]? = some r) (ht : r.ty = .bytes) (hx : vals[i]? = some (.bytes b)) (hb : b ≠ [])
    (hbefore : ∀ (j : Nat) r' v, j < i → m.kept[j]? = some r' → vals[j]? = some v → ListableField K r' v) :
    m.listTags K (.struct vals) = .panic := by
  obtain ⟨infos, hl, hn, hlen, hg⟩ := works_infos h
  obtain ⟨f, hf, -, -, he⟩ := hg i r hi
  rw [listTags_eq hl]
  have hlen2 : infos.length = (m.tys K).length := by unfold TagModel.tys; rw [List.length_map, hlen]
  refine tag_list_panics none hlen2 hv hf (tagTys_get hi K) hx (.inl (by rw [ht]; rfl)) (by simp) ?_ ?_
  · intro hh
    have := hh.2
    rw [ht] at this
    cases b with
    | nil => exact hb rfl
    | cons _ _ => cases this
  · intro j f' t v hj hf' hty hv'
    unfold TagModel.tys at hty
    rw [List.getElem?_map] at hty
    cases hr' : m.kept[j]? with
    | none => rw [hr'] at hty; cases hty
    | some r' =>
      rw [hr'] at hty
      cases hty
      obtain ⟨f2, hf2, -, -, he'⟩ := hg j r' hr'
      rw [hf'] at hf2
      cases Option.some.inj hf2
      exact (hbefore j r' v hj hr' hv').imp_right (Or.imp_left fun x => ⟨he', x⟩)

/-! ### Examples -/

/-- Simple text forms. -/
def plainCodec : Str → Codec := fun _ =>
  { enc := fun n => some (some (itoa n)), dec := fun _ s => (parseUint 64 s), empty := fun n => n == 0, hasIsZero := true }

/-- Empty Creative Commons data. -/
def ccVals : List Val := [.str [], .str chars!"x", .str [], .str []]

theorem ccVals_typed : HasTys (m_cc.tys plainCodec) ccVals := by
  show HasTys [.str, .str, .str, .str] ccVals
  simp [ccVals, HasTys, HasTy]

theorem cc_tag : TagOf m_cc chars!"License" 0 ⟨chars!"License", [], .str⟩ := ⟨⟨by simp [tagModels], by decide +kernel⟩, rfl, rfl⟩

example : (m_cc.setTag plainCodec (.struct ccVals) chars!"License" chars!"free").2 = true ∧
    m_cc.getTag plainCodec (m_cc.setTag plainCodec (.struct ccVals) chars!"License" chars!"free").1 chars!"License" =
      some chars!"free" :=
  shipped_tag_set_get cc_tag ccVals_typed (v := .str []) rfl trivial (by simp [NTy.ty]) (w := .str chars!"free") (by
    show Val.str _ = Val.str (trimSpace _)
    have : trimSpace chars!"free" = chars!"free" := by decide +kernel
    rw [this]) rfl rfl

example : m_cc.getTag plainCodec (m_cc.setTag plainCodec (.struct ccVals) chars!"License" chars!"free").1 chars!"MorePermissions" =
    m_cc.getTag plainCodec (.struct ccVals) chars!"MorePermissions" :=
  shipped_tag_frame cc_tag (j := 1) (r' := ⟨chars!"MorePermissions", [], .str⟩)
    ⟨⟨by simp [tagModels], by decide +kernel⟩, rfl, rfl⟩ (by decide) _ _

example : m_cc.setTag plainCodec (.struct ccVals) chars!"Licence" chars!"free" = (.struct ccVals, false) :=
  (shipped_tag_unknown ⟨by simp [tagModels], by decide +kernel⟩ (by unfold NoOthers; decide +kernel) (tag := chars!"Licence") rfl
    (by unfold Foreign; decide +kernel) plainCodec ccVals chars!"free").2

example : ∃ i r, TagOf m_exif_ExifInfo chars!"0xA433" i r := by
  have : (m_exif_ExifInfo.kept.any fun r => decide (m_exif_ExifInfo.name chars!"0xA433" = some (ownTag m_exif_ExifInfo.ns r))) = true := by
    decide +kernel
  obtain ⟨r, hr, h⟩ := List.any_eq_true.1 this
  obtain ⟨i, hi⟩ := List.mem_iff_getElem?.1 hr
  exact ⟨i, r, exif_works, hi, by simpa using h⟩

/-- MP4 information with a thumbnail. -/
def mp4Vals : List Val := [.str [], .str [], .str [], .str [], .str [], .opq 0, .str [], .str [], .slice [] [], .nil, .str [],
  .str [], .int 0, .str [], .bytes ['x'], .str [], .int 0]

example : m_mp4.listTags plainCodec (.struct mp4Vals) = .panic := by
  refine shipped_list_panics (i := 14) ⟨by simp [tagModels], by decide +kernel⟩ (K := plainCodec) (b := ['x'])
    (r := m_mp4.kept[14]'(by decide +kernel)) ?_ rfl rfl rfl (by simp) ?_
  · show HasTys [.str, .str, .str, .str, .str, _, .str, .str, .slice _ .str, .ptr _, .str, .str, _, .str, .bytes, .str, _] mp4Vals
    simp [mp4Vals, HasTys, HasTy, NTy.ty]
  · intro j r v hj hr hv
    interval_cases j <;> cases hr <;> cases hv <;> first | exact .inl rfl | exact .inr (.inl rfl)


example : m_qt_QtMetadata.setTag plainCodec (.struct (Ty.zeros (m_qt_QtMetadata.tys plainCodec))) chars!"Â©alb" chars!"Help!" =
    (.struct (Ty.zeros (m_qt_QtMetadata.tys plainCodec)), true) :=
  (qt_second_tags_lost.2 _ (by decide +kernel) _ _ (hasTys_zeros _)).1 _

example : m_dc.setTag plainCodec (.struct (Ty.zeros (m_dc.tys plainCodec))) chars!"Title" chars!"Help!" =
    (.struct (Ty.zeros (m_dc.tys plainCodec)), true) :=
  silent_set (i := 13) (r := ⟨chars!"Title", [], .alt⟩) ⟨⟨by simp [tagModels], by decide +kernel⟩, rfl, rfl⟩ (hasTys_zeros _)
    rfl (by simp [NTy.ty, Ty.zero]) rfl _

/-! ### Old tags of ID3 -/

/-- **C73.**  Tags of ID3 2.2 and 1 that have a successor set and read the field of the successor. -/
theorem id3_old_tags (K : Str → Codec) (v : Val) : ∀ p ∈ id3Frames,
    (∀ s, m_id3.setTag K v p.1 s = m_id3.setTag K v p.2 s) ∧ m_id3.getTag K v p.1 = m_id3.getTag K v p.2 ∧
      m_id3.canTag K v p.1 = m_id3.canTag K v p.2 := by
  intro p hp
  have h1 : m_id3.name p.1 = some p.2 := id3_frames_renamed p hp
  have h2 : m_id3.name p.2 = some p.2 := (id3_tag_names p.2).1 ((id3_tag_names p.1).2 _ (id3_frames_renamed p hp))
  have hc : m_id3.names ≠ .exif := by decide
  have h3 : m_id3.getTag K v p.1 = m_id3.getTag K v p.2 := by unfold TagModel.getTag; rw [h1, h2]
  refine ⟨fun s => by unfold TagModel.setTag; rw [h1, h2], h3, ?_⟩
  unfold TagModel.canTag
  split
  · next h => exact absurd h hc
  · rw [h3]

example : (chars!"TT2", chars!"TIT2") ∈ id3Frames := by decide +kernel

/-- **C73.**  A tag of ID3 that has not four characters and is in no table of old tags is refused, and changes nothing. -/
theorem id3_unknown_length (K : Str → Codec) (v : Val) {tag : Str} (hl : tag.length ≠ 4) (h1 : ∀ p ∈ Id3.v11Tags, p.1 ≠ tag)
    (h2 : ∀ p ∈ Id3.v22Tags, p.1 ≠ tag) :
    (∀ s, m_id3.setTag K v tag s = (v, false)) ∧ m_id3.getTag K v tag = none ∧ m_id3.canTag K v tag = false := by
  have hn : ∀ l : List (Str × Str), (∀ p ∈ l, p.1 ≠ tag) → l.lookup tag = none := by
    intro l h
    rw [List.lookup_eq_none_iff]
    intro p hp
    simpa using (h p hp).symm
  have h : m_id3.name tag = none := by
    show Id3.mapTag tag = none
    unfold Id3.mapTag
    split
    · exact hn _ h1
    · split
      · exact hn _ h2
      · omega
  have h3 : m_id3.getTag K v tag = none := by unfold TagModel.getTag; rw [h]
  refine ⟨fun s => by unfold TagModel.setTag; rw [h], h3, ?_⟩
  unfold TagModel.canTag
  split
  · next h => exact absurd h (by decide)
  · rw [h3]; rfl

example : (chars!"TITLE").length ≠ 4 ∧ (∀ p ∈ Id3.v11Tags, p.1 ≠ chars!"TITLE") ∧ ∀ p ∈ Id3.v22Tags, p.1 ≠ chars!"TITLE" := by
  decide +kernel

end Xmp.Props
