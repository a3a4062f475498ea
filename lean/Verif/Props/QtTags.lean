import Verif.Props.Qt

/-! C58: the tags of QuickTime files, continued. -/

namespace Xmp.Props

open Xmp Xmp.GoStr

variable {I D : Type} {t : Qt.Types} {pi : Str → Option I} {px : Str → Option D} {x : Qt.Info I D} {p : QtPart}
  {tag : Str} {i : Nat}

/-! ### The way of a tag -/

theorem qt_get_part (h : QtTag p tag i) : Qt.getTag t x tag = Qt.getPart (qtTy t p) (qtPart x p) tag := by
  have hm := List.mem_of_getElem? h.1
  unfold Qt.getTag
  cases p with
  | udta =>
    have := (qt_names_udta tag hm).resolve_right (fun e => h.2 e.2)
    rw [if_pos this.1]; rfl
  | mdta =>
    obtain ⟨h1, h2, h3⟩ := qt_names_mdta tag hm
    rw [if_neg (by omega), h2, h3]; rfl
  | player =>
    obtain ⟨h1, h2⟩ := qt_names_player tag hm
    have : (26 : Nat) < tag.length := h1
    rw [if_neg (by omega), h2]; rfl
  | proApps =>
    obtain ⟨h1, h2, h3, h4⟩ := qt_names_proApps tag hm
    have : (17 : Nat) < tag.length := h1
    rw [if_neg (by omega), h2, h3, h4]; rfl

theorem qt_set_part (h : QtTag p tag i) (s : Str) : Qt.setTag t pi px x tag s =
    (qtWith x (some (setNative (qtTy t p) ((qtPart x p).getD (qtTy t p).zero) tag s).1) p,
      (setNative (qtTy t p) ((qtPart x p).getD (qtTy t p).zero) tag s).2) := by
  have hm := List.mem_of_getElem? h.1
  unfold Qt.setTag
  cases p with
  | udta =>
    have := (qt_names_udta tag hm).resolve_right (fun e => h.2 e.2)
    rw [if_pos this.1]; rfl
  | mdta =>
    obtain ⟨h1, h2, h3⟩ := qt_names_mdta tag hm
    rw [if_neg (by omega), h2, h3]; rfl
  | player =>
    obtain ⟨h1, h2⟩ := qt_names_player tag hm
    have : (26 : Nat) < tag.length := h1
    rw [if_neg (by omega), h2]; rfl
  | proApps =>
    obtain ⟨h1, h2, h3, h4⟩ := qt_names_proApps tag hm
    have : (17 : Nat) < tag.length := h1
    rw [if_neg (by omega), h2, h3, h4]; rfl

theorem qtPart_with (v : Option Val) : qtPart (qtWith x v p) p = v := by cases p <;> rfl

theorem qtPart_with_ne (v : Option Val) {q : QtPart} (h : q ≠ p) : qtPart (qtWith x v p) q = qtPart x q := by
  cases p <;> cases q <;> first | rfl | exact absurd rfl h

/-- The fields and types of a part: those with a tag come first. -/
theorem qt_struct (t : Qt.Types) (p : QtPart) : ∃ es ts, qtTy t p = .struct none ((qtNames p).map Qt.plainInfo ++ es)
    (qtTys t p ++ ts) ∧ TagNames ((qtNames p).map Qt.plainInfo ++ es) := by
  cases p with
  | udta => exact ⟨[], [], by simp [qtTy, Qt.udtaTy, qtNames, qtTys], by rw [List.append_nil]; exact qt_tagNames_udta⟩
  | mdta => exact ⟨_, _, rfl, qt_tagNames_mdta⟩
  | player => exact ⟨[], [], by simp [qtTy, Qt.playerTy, qtNames, qtTys], by rw [List.append_nil]; exact qt_tagNames_player⟩
  | proApps => exact ⟨[], [], by simp [qtTy, Qt.proAppsTy, qtNames, qtTys], by rw [List.append_nil]; exact qt_tagNames_proApps⟩

/-- Any listed tag, also one that begins with the copyright sign, is a field of its part. -/
theorem qt_access {ty : Ty} {v : Val} (h : (qtNames p)[i]? = some tag) (hty : (qtTys t p)[i]? = some ty) (hv : HasTy (qtTy t p) v) :
    ∃ infos tys vals w, qtTy t p = .struct none infos tys ∧ v = .struct vals ∧ TagNames infos ∧
      NamesField infos tag i ∧ Access infos tys vals tag i (Qt.plainInfo tag) ty w := by
  obtain ⟨es, ts, h1, h2⟩ := qt_struct t p
  rw [h1] at hv
  cases v with
  | struct vals =>
    rw [HasTy] at hv
    have hi : ((qtNames p).map Qt.plainInfo ++ es)[i]? = some (Qt.plainInfo tag) := by
      have hl := (List.getElem?_eq_some_iff.mp h).1
      rw [List.getElem?_append_left (by simpa using hl), List.getElem?_map, h]
      rfl
    have ht : (qtTys t p ++ ts)[i]? = some ty := by
      have hl := (List.getElem?_eq_some_iff.mp hty).1
      rw [List.getElem?_append_left hl, hty]
    have hlt : i < vals.length := by
      rw [hasTys_length hv]
      exact (List.getElem?_eq_some_iff.mp ht).1
    have hn : NamesField ((qtNames p).map Qt.plainInfo ++ es) tag i := ⟨_, hi, Or.inl rfl⟩
    exact ⟨_, _, vals, vals[i], h1, rfl, h2, hn, ⟨h2, hv, hn, hi, ht, by simp [hlt]⟩⟩
  | _ => simp [HasTy] at hv

theorem qt_part_typed (hx : QtTyped t x) (p : QtPart) : HasTy (qtTy t p) ((qtPart x p).getD (qtTy t p).zero) := by
  cases h : qtPart x p with
  | none => exact hasTy_zero _
  | some v => exact hx p v h

/-! ### Tags that work -/

/-- **C58.** A tag that is listed and does not begin with the copyright sign is set in its part, which is made if needed: the usual text
of a value reads back, and all other parts stay as they are. -/
theorem qt_set_get_partial (hx : QtTyped t x) (h : QtTag p tag i) {ty : Ty} (hty : (qtTys t p)[i]? = some ty)
    (ho : OneText ty.deref) (hb : ty ≠ .ptr .bytes) {s : Str} {w : Val}
    (hd : TagDenotes ty.deref (derefVal ty (qtField t x p i)).2 s w) (hu : UsualText ty.deref w s)
    (hh : isEmptyValue ty (rewrap ty w) = false) :
    (Qt.setTag t pi px x tag s).2 = true ∧ Qt.getTag t (Qt.setTag t pi px x tag s).1 tag = some s ∧
      (∀ q, q ≠ p → qtPart (Qt.setTag t pi px x tag s).1 q = qtPart x q) ∧
      (Qt.setTag t pi px x tag s).1.ixml = x.ixml ∧ (Qt.setTag t pi px x tag s).1.xmp = x.xmp := by
  obtain ⟨infos, tys, vals, w', h1, h2, -, -, ha⟩ := qt_access h.1 hty (qt_part_typed hx p)
  have hf : qtField t x p i = w' := by
    unfold qtField
    rw [h2]
    simp [ha.val]
  rw [hf] at hd
  have := tag_set_get ha none ho hb hd hu (fun hc => by have := hc.2; rw [hh] at this; exact absurd this (by simp))
  rw [qt_set_part h, qt_get_part h, qtPart_with]
  refine ⟨?_, ?_, fun q hq => qtPart_with_ne _ hq, by cases p <;> rfl, by cases p <;> rfl⟩
  · rw [h1] at h2 ⊢; rw [h2]; exact this.1
  · rw [h1] at h2 ⊢; rw [h2]; exact this.2

/-- **C58.** For tags that hold a string: a text without outer blanks reads back. -/
theorem qt_set_get_str_partial (hx : QtTyped t x) (h : QtTag p tag i) (hty : (qtTys t p)[i]? = some .str) {s : Str} (hs : s ≠ [])
    (ht : trimSpace s = s) :
    (Qt.setTag t pi px x tag s).2 = true ∧ Qt.getTag t (Qt.setTag t pi px x tag s).1 tag = some s := by
  have := qt_set_get_partial (pi := pi) (px := px) hx h hty (ty := .str) (s := s) (w := .str s) trivial (by simp)
    (by simp [TagDenotes, Ty.deref, ht]) rfl (by cases s <;> simp_all [isEmptyValue, rewrap])
  exact ⟨this.1, this.2.1⟩

theorem qt_zeros_get {ts : List Ty} {i : Nat} {ty : Ty} (h : ts[i]? = some ty) : (Ty.zeros ts)[i]? = some ty.zero := by
  induction ts generalizing i with
  | nil => simp at h
  | cons a as ih =>
    cases i with
    | zero => simp at h; subst h; rfl
    | succ n => rw [Ty.zeros]; exact ih h

/-- A listed tag of a new part reads as no text. -/
theorem qt_zero (hz : ZeroEmpty t) {ty : Ty} (h : (qtNames p)[i]? = some tag) (hty : (qtTys t p)[i]? = some ty) :
    getNative (qtTy t p) (qtTy t p).zero tag = some [] := by
  obtain ⟨infos, tys, vals, w, h1, h2, -, -, ha⟩ := qt_access h hty (hasTy_zero (qtTy t p))
  rw [h2, h1]
  refine tag_hidden ha none ⟨rfl, ?_⟩
  rw [h1, Ty.zero] at h2
  have h3 : w = ty.zero := by
    have := ha.val
    rw [← Val.struct.inj h2, qt_zeros_get ha.ty] at this
    exact (Option.some.inj this).symm
  rw [h3]
  exact hz p ty (List.mem_of_getElem? hty)

/-- **C58.** Setting a listed tag does not change what any other listed tag reads. -/
theorem qt_frame (hz : ZeroEmpty t) (hs : QtSized t) (h : QtTag p tag i) {q : QtPart} {other : Str} {j : Nat}
    (h' : QtTag q other j) (hne : other ≠ tag) (s : Str) :
    Qt.getTag t (Qt.setTag t pi px x tag s).1 other = Qt.getTag t x other := by
  rw [qt_set_part h, qt_get_part h', qt_get_part h']
  by_cases hq : q = p
  · subst hq
    rw [qtPart_with]
    obtain ⟨es, ts, h1, h2⟩ := qt_struct t q
    have nm : ∀ {n : Str} {k : Nat}, (qtNames q)[k]? = some n → NamesField ((qtNames q).map Qt.plainInfo ++ es) n k := by
      intro n k hk
      refine ⟨Qt.plainInfo n, ?_, Or.inl rfl⟩
      rw [List.getElem?_append_left (by simpa using (List.getElem?_eq_some_iff.mp hk).1), List.getElem?_map, hk]
      rfl
    have hij : i ≠ j := by
      rintro rfl
      exact hne (Option.some.inj (h'.1.symm.trans h.1))
    have hl : j < (qtTys t q).length := by rw [hs q]; exact (List.getElem?_eq_some_iff.mp h'.1).1
    have key : getNative (qtTy t q) (setNative (qtTy t q) ((qtPart x q).getD (qtTy t q).zero) tag s).1 other =
        getNative (qtTy t q) ((qtPart x q).getD (qtTy t q).zero) other := by
      cases hv : (qtPart x q).getD (qtTy t q).zero with
      | struct vals => rw [h1]; exact tag_frame none h2 (nm h.1) (nm h'.1) hij s
      | _ => rw [h1]; rfl
    simp only [Qt.getPart]
    rw [key]
    cases hv : qtPart x q with
    | some v => rfl
    | none => exact qt_zero hz h'.1 (List.getElem?_eq_getElem hl)
  · rw [qtPart_with_ne _ hq]

/-! ### Tags that do not work -/

theorem copy_length {tag : Str} (h : copySign <+: tag) : ∃ r, tag = 'Â' :: r := by
  obtain ⟨r, rfl⟩ := h
  exact ⟨'©' :: r, rfl⟩

theorem qt_prefixes : ∃ a b c, Qt.playerPrefix = 'c' :: a ∧ Qt.mdtaPrefix = 'c' :: b ∧ Qt.proAppsPrefix = 'c' :: c :=
  ⟨_, _, _, rfl, rfl, rfl⟩

theorem qt_no_prefix {c : Char} (hc : c ≠ 'c') (r : Str) :
    (hasPrefix (c :: r) Qt.playerPrefix = false ∧ hasPrefix (c :: r) Qt.mdtaPrefix = false ∧
      hasPrefix (c :: r) Qt.proAppsPrefix = false) ∧
    (hasPrefix Qt.playerPrefix (c :: r) = false ∧ hasPrefix Qt.mdtaPrefix (c :: r) = false ∧
      hasPrefix Qt.proAppsPrefix (c :: r) = false) := by
  obtain ⟨a, b, d, h1, h2, h3⟩ := qt_prefixes
  have e1 : ('c' == c) = false := by simpa using fun e => hc e.symm
  have e2 : (c == 'c') = false := by simpa using hc
  have k1 : ∀ q, hasPrefix (c :: r) ('c' :: q) = false := by intro q; simp only [hasPrefix, List.isPrefixOf, e1, Bool.false_and]
  have k2 : ∀ q, hasPrefix ('c' :: q) (c :: r) = false := by intro q; simp only [hasPrefix, List.isPrefixOf, e2, Bool.false_and]
  rw [h1, h2, h3]
  exact ⟨⟨k1 _, k1 _, k1 _⟩, k2 _, k2 _, k2 _⟩

theorem qt_ixml_first : ∀ n ∈ Qt.ixmlTags, n.head? = some 'i' := by decide +kernel

/-- **C58**, finding: the tags of user data that begin with the copyright sign (title, artist, comment and 67 others) have five bytes
and are taken for unknown tags: setting one succeeds and does nothing, it reads as no text, and is not known. -/
theorem qt_copyright_ignored (h : copySign <+: tag) (hl : tag.length ≠ 4) (s : Str) :
    Qt.setTag t pi px x tag s = (x, true) ∧ Qt.getTag t x tag = some [] ∧ Qt.canTag t tag = false := by
  obtain ⟨r, rfl⟩ := copy_length h
  obtain ⟨⟨a1, a2, a3⟩, b1, b2, b3⟩ := qt_no_prefix (c := 'Â') (by decide) r
  have hx : 'Â' :: r ≠ "XMP_".toList := by
    intro e
    have := congrArg List.head? e
    simp at this
  have hi : 'Â' :: r ∉ Qt.ixmlTags := by
    intro e
    have := qt_ixml_first _ e
    simp at this
  refine ⟨?_, ?_, ?_⟩
  · unfold Qt.setTag
    rw [if_neg hl, a1, a2, a3, if_neg hi, if_neg hx]; rfl
  · unfold Qt.getTag
    rw [if_neg hl, a1, a2, a3]; rfl
  · unfold Qt.canTag
    rw [if_neg hl, b1, b2, b3]
    simp only [Bool.false_eq_true, if_false, decide_eq_false_iff_not, not_or]
    exact ⟨hx, hi⟩

/-- **C58**, finding: this concerns these 70 tags. -/
theorem qt_copyright_tags : (Qt.udtaNames.filter (fun n => copySign.isPrefixOf n && n.length != 4)).length = 70 := by
  decide +kernel

theorem qt_find_none {n : Str} {l : List Str} (h : n ∉ l) (hl : ∀ m ∈ l, ':' ∉ m) :
    findField (l.map Qt.plainInfo) n = none := by
  have h1 : (l.map Qt.plainInfo).findIdx? (fieldMatches n) = none := by
    rw [List.findIdx?_eq_none_iff]
    intro f hf
    obtain ⟨m, hm, rfl⟩ := List.mem_map.mp hf
    unfold fieldMatches
    have : m ≠ n := fun e => h (e ▸ hm)
    split
    · exact decide_eq_false this
    · have e : stripPrefix (Qt.plainInfo m).name = m := stripPrefix_none (hl m hm)
      rw [e]
      exact decide_eq_false this
  have h2 : lastAny (l.map Qt.plainInfo) = none := by
    clear h1 h hl
    induction l with
    | nil => rfl
    | cons a as ih => rw [List.map_cons, lastAny, ih]; rfl
  unfold findField
  rw [h1, h2]

theorem qt_no_colon (p : QtPart) : ∀ n ∈ qtNames p, ':' ∉ n := by cases p <;> decide +kernel

theorem getNative_none {infos : List FieldInfo} {tys : List Ty} {v : Val} {n : Str} (h : findField infos n = none) :
    getNative (.struct none infos tys) v n = none := by
  cases v <;> simp [getNative, h]

theorem qt_cannot {q : Str} {l : List Str} (hl : ∀ m ∈ l, ':' ∉ m) (hq : ∀ m ∈ l, q.length < m.length) (tys : List Ty)
    (h : hasPrefix q tag = true) : Qt.canPart (.struct none (l.map Qt.plainInfo) tys) tag = false := by
  have h1 := (List.isPrefixOf_iff_prefix.mp h).length_le
  have h2 : tag ∉ l := fun hm => by have := hq _ hm; omega
  unfold Qt.canPart
  rw [getNative_none (qt_find_none h2 hl)]
  rfl

/-- The tags of `CanTag` for iXML that do not have four bytes. -/
def longIxmlTags : List Str := ["info.ixml.xml".toList, "info.ixml.metadata".toList, "info.ixml.info".toList]

theorem qt_ixml_not_prefix : ∀ n ∈ longIxmlTags, n.length ≠ 4 ∧ hasPrefix Qt.playerPrefix n = false ∧
    hasPrefix Qt.mdtaPrefix n = false ∧ hasPrefix Qt.proAppsPrefix n = false ∧ hasPrefix n Qt.playerPrefix = false ∧
    hasPrefix n Qt.mdtaPrefix = false ∧ hasPrefix n Qt.proAppsPrefix = false ∧ n ∈ Qt.ixmlTags := by decide +kernel

theorem prefix_trans' {a b c : Str} (h : hasPrefix b a = true) (h' : hasPrefix c b = true) : hasPrefix c a = true :=
  List.isPrefixOf_iff_prefix.mpr ((List.isPrefixOf_iff_prefix.mp h).trans (List.isPrefixOf_iff_prefix.mp h'))

/-- **C58**, finding: `CanTag` knows exactly the tags of user data with four bytes and three names for iXML; it asks whether the beginning
begins with the tag, instead of the reverse. -/
theorem qt_can_tag (hz : ZeroEmpty t) (hs : QtSized t) (tag : Str) :
    Qt.canTag t tag = true ↔ (tag.length = 4 ∧ tag ∈ Qt.udtaNames) ∨ tag ∈ longIxmlTags := by
  by_cases hl : tag.length = 4
  · have h1 : tag ∉ longIxmlTags := fun h => (qt_ixml_not_prefix tag h).1 hl
    unfold Qt.canTag
    rw [if_pos hl]
    unfold Qt.canPart
    by_cases hm : tag ∈ Qt.udtaNames
    · obtain ⟨i, hi⟩ := List.getElem?_of_mem hm
      have hlt : i < t.udta.length := by rw [show t.udta.length = Qt.udtaNames.length from hs .udta]; exact (List.getElem?_eq_some_iff.mp hi).1
      have := qt_zero (t := t) (p := .udta) hz hi (List.getElem?_eq_getElem hlt)
      rw [show Qt.udtaTy t = qtTy t .udta from rfl, this]
      simp [hl, hm]
    · have : getNative (Qt.udtaTy t) (Qt.udtaTy t).zero tag = none := getNative_none (qt_find_none hm (qt_no_colon .udta))
      rw [this]
      simp [hm, h1]
  · constructor
    · unfold Qt.canTag
      rw [if_neg hl]
      intro h
      right
      split at h
      · next hp => rw [Qt.playerTy, qt_cannot (l := Qt.playerNames) (qt_no_colon .player)
          (fun m hm => (qt_names_player m hm).1) _ hp] at h; cases h
      · next hp =>
        split at h
        · next hp' => exact absurd (prefix_trans' hp' (show hasPrefix Qt.playerPrefix Qt.mdtaPrefix = true by decide +kernel)) hp
        · split at h
          · next hp => rw [Qt.proAppsTy, qt_cannot (l := Qt.proAppsNames) (qt_no_colon .proApps) (fun m hm => (qt_names_proApps m hm).1) _ hp] at h; cases h
          · rcases of_decide_eq_true h with rfl | h
            · exact absurd (by decide) hl
            · rcases List.mem_cons.mp h with rfl | h
              · exact absurd (by decide) hl
              · exact h
    · rintro (⟨h, -⟩ | h)
      · exact absurd h hl
      · obtain ⟨-, h1, h2, h3, -, -, -, h4⟩ := qt_ixml_not_prefix tag h
        unfold Qt.canTag
        rw [if_neg hl, h1, h2, h3]
        exact decide_eq_true (Or.inr h4)

/-- **C58**, finding: no listed tag of QuickTime metadata, of the player or of the professional applications is known to `CanTag`,
although they can be set and read. -/
theorem qt_can_tag_wrong (hz : ZeroEmpty t) (hs : QtSized t) (h : QtTag p tag i) (hp : p ≠ .udta) : Qt.canTag t tag = false := by
  have hm := List.mem_of_getElem? h.1
  have hn : tag.length ≠ 4 ∧ tag ∉ longIxmlTags := by
    have : hasPrefix tag Qt.playerPrefix = true ∨ hasPrefix tag Qt.mdtaPrefix = true ∨ hasPrefix tag Qt.proAppsPrefix = true := by
      cases p with
      | udta => exact absurd rfl hp
      | mdta => exact Or.inr (Or.inl (qt_names_mdta tag hm).2.2)
      | player => exact Or.inl (qt_names_player tag hm).2
      | proApps => exact Or.inr (Or.inr (qt_names_proApps tag hm).2.2.2)
    constructor
    · rcases this with h | h | h
      · have := (List.isPrefixOf_iff_prefix.mp h).length_le
        have e : Qt.playerPrefix.length = 26 := rfl
        omega
      · have := (List.isPrefixOf_iff_prefix.mp h).length_le
        have e : Qt.mdtaPrefix.length = 19 := rfl
        omega
      · have := (List.isPrefixOf_iff_prefix.mp h).length_le
        have e : Qt.proAppsPrefix.length = 17 := rfl
        omega
    · intro hc
      obtain ⟨-, -, -, -, a, b, c, -⟩ := qt_ixml_not_prefix tag hc
      rw [a, b, c] at this
      simp at this
  rw [← Bool.not_eq_true, qt_can_tag hz hs]
  rintro (h | h)
  · exact hn.1 h.1
  · exact hn.2 h

/-- The two tags for embedded metadata that have four bytes. -/
def embeddedTags : List Str := ["XMP_".toList, "iXML".toList]

/-- **C58**, finding: embedded documents in `XMP_` and `iXML` are refused whatever they contain, since tags of four bytes are looked up in
the user data first.  User data is made. -/
theorem qt_embedded_refused (h : tag ∈ embeddedTags) (hx : QtTyped t x) (s : Str) :
    Qt.setTag t pi px x tag s = ({ x with udta := some (x.udta.getD (Qt.udtaTy t).zero) }, false) := by
  have h1 : tag.length = 4 ∧ tag ∉ Qt.udtaNames := by
    revert h; revert tag; unfold embeddedTags; decide +kernel
  unfold Qt.setTag
  rw [if_pos h1.1]
  have hf := qt_find_none h1.2 (qt_no_colon .udta)
  have hv : HasTy (Qt.udtaTy t) (x.udta.getD (Qt.udtaTy t).zero) := qt_part_typed hx .udta
  have key : ∀ v, HasTy (Qt.udtaTy t) v → setNative (Qt.udtaTy t) v tag s = (v, false) := by
    intro v hv
    cases v with
    | struct vals => simp only [Qt.udtaTy, setNative, hf]
    | _ => simp [Qt.udtaTy, HasTy] at hv
  unfold Qt.setPart
  rw [key _ hv]

/-- **C58.** An iXML document under one of its long names is stored if it can be parsed, and changes nothing else. -/
theorem qt_ixml (h : tag ∈ longIxmlTags) (s : Str) : Qt.setTag t pi px x tag s =
    match pi s with
    | some i => ({ x with ixml := some i }, true)
    | none => (x, false) := by
  obtain ⟨h1, -, -, -, h2, h3, h4, h5⟩ := qt_ixml_not_prefix tag h
  unfold Qt.setTag
  rw [if_neg h1, h2, h3, h4, if_pos h5]
  rfl

/-- The tags that `SetTag` knows: four bytes, one of the beginnings, or iXML. -/
def QtKnown (tag : Str) : Prop :=
  tag.length = 4 ∨ "com.apple.quicktime".toList <+: tag ∨ "com.apple.proapps".toList <+: tag ∨ tag ∈ longIxmlTags

/-- **C58**, finding: all other tags are ignored without an error. -/
theorem qt_unknown_ignored (h : ¬ QtKnown tag) (s : Str) :
    Qt.setTag t pi px x tag s = (x, true) ∧ Qt.getTag t x tag = some [] := by
  unfold QtKnown at h
  simp only [not_or] at h
  obtain ⟨h1, h2, h3, h4⟩ := h
  have a2 : hasPrefix tag Qt.mdtaPrefix = false := by
    rw [← Bool.not_eq_true]; intro e; exact h2 (List.isPrefixOf_iff_prefix.mp e)
  have a1 : hasPrefix tag Qt.playerPrefix = false := by
    rw [← Bool.not_eq_true]; intro e
    exact Bool.eq_false_iff.mp a2 (prefix_trans' (show hasPrefix Qt.playerPrefix Qt.mdtaPrefix = true by decide +kernel) e)
  have a3 : hasPrefix tag Qt.proAppsPrefix = false := by
    rw [← Bool.not_eq_true]; intro e; exact h3 (List.isPrefixOf_iff_prefix.mp e)
  have a4 : tag ∉ Qt.ixmlTags := by
    intro e
    rcases List.mem_cons.mp e with rfl | e
    · exact h1 (by decide)
    · exact h4 e
  have a5 : tag ≠ "XMP_".toList := by rintro rfl; exact h1 (by decide)
  constructor
  · unfold Qt.setTag
    rw [if_neg h1, a1, a2, a3, if_neg a4, if_neg a5]
    rfl
  · unfold Qt.getTag
    rw [if_neg h1, a1, a2, a3]
    rfl

theorem lastAny_ext (l : List Str) : lastAny (l.map Qt.plainInfo ++ [Qt.extensionInfo]) = some l.length := by
  induction l with
  | nil => rfl
  | cons a as ih => rw [List.map_cons, List.cons_append, lastAny, ih]; rfl

theorem qt_find_ext {n : Str} {l : List Str} (h : n ∉ l) (hl : ∀ m ∈ l, ':' ∉ m) (he : n ≠ "Extension".toList) :
    findField (l.map Qt.plainInfo ++ [Qt.extensionInfo]) n = some l.length := by
  have h1 : (l.map Qt.plainInfo ++ [Qt.extensionInfo]).findIdx? (fieldMatches n) = none := by
    rw [List.findIdx?_eq_none_iff]
    intro f hf
    have hex : stripPrefix Qt.extensionInfo.name = "Extension".toList := by decide +kernel
    rcases List.mem_append.mp hf with hf | hf
    · obtain ⟨m, hm, rfl⟩ := List.mem_map.mp hf
      unfold fieldMatches
      have : m ≠ n := fun e => h (e ▸ hm)
      split
      · exact decide_eq_false this
      · have e : stripPrefix (Qt.plainInfo m).name = m := stripPrefix_none (hl m hm)
        rw [e]
        exact decide_eq_false this
    · rw [List.mem_singleton.mp hf]
      unfold fieldMatches
      split
      · exact decide_eq_false (fun e => he e.symm)
      · rw [hex]; exact decide_eq_false (fun e => he e.symm)
  unfold findField
  rw [h1, lastAny_ext]

/-- **C58**, finding: the value of a tag of QuickTime metadata that is not listed is dropped without an error, although there is a field for
such tags: only the part is made. -/
theorem qt_extension_dropped (hs : QtSized t) (hx : QtTyped t x) (hp : "com.apple.quicktime".toList <+: tag)
    (hn : ¬ "com.apple.quicktime.player".toList <+: tag) (hm : tag ∉ Qt.mdtaNames) (s : Str) :
    Qt.setTag t pi px x tag s = ({ x with mdta := some (x.mdta.getD (Qt.mdtaTy t).zero) }, true) := by
  have h1 : tag.length ≠ 4 := by
    have := hp.length_le
    have e : "com.apple.quicktime".toList.length = 19 := rfl
    omega
  have a1 : hasPrefix tag Qt.playerPrefix = false := by
    rw [← Bool.not_eq_true]; intro e; exact hn (List.isPrefixOf_iff_prefix.mp e)
  have a2 : hasPrefix tag Qt.mdtaPrefix = true := List.isPrefixOf_iff_prefix.mpr hp
  have he : tag ≠ "Extension".toList := by
    rintro rfl
    have := hp.length_le
    exact absurd this (by decide)
  have hf := qt_find_ext hm (qt_no_colon .mdta) he
  have hv : HasTy (Qt.mdtaTy t) (x.mdta.getD (Qt.mdtaTy t).zero) := qt_part_typed hx .mdta
  have key : ∀ v, HasTy (Qt.mdtaTy t) v → setNative (Qt.mdtaTy t) v tag s = (v, true) := by
    intro v hv
    cases v with
    | struct vals =>
      have hv' : HasTys (t.mdta ++ [Qt.tagListTy]) vals := by simpa [Qt.mdtaTy, HasTy] using hv
      have hlen := hasTys_length hv'
      have hs' : t.mdta.length = Qt.mdtaNames.length := hs .mdta
      have hty : (t.mdta ++ [Qt.tagListTy])[Qt.mdtaNames.length]? = some Qt.tagListTy := by
        rw [← hs']; simp
      have hlt : Qt.mdtaNames.length < vals.length := by rw [hlen, ← hs']; simp
      have hvl := List.getElem?_eq_getElem hlt
      have hw := hasTys_get hv' hty hvl
      have hset : ∀ w, w = vals[Qt.mdtaNames.length] → vals.set Qt.mdtaNames.length w = vals := by
        rintro w rfl; exact List.set_getElem_self hlt
      simp only [Qt.mdtaTy, setNative, hf, hty, hvl]
      cases hw' : vals[Qt.mdtaNames.length] with
      | slice l sp =>
        simp only [Qt.tagListTy, derefVal, parseNative, parseLeaf, setValue, rewrap]
        rw [hset _ hw'.symm]
      | _ => rw [hw'] at hw; simp [Qt.tagListTy, HasTy] at hw
    | _ => simp [Qt.mdtaTy, HasTy] at hv
  unfold Qt.setTag
  rw [if_neg h1, a1, a2]
  simp only [Bool.false_eq_true, if_false, if_true, Qt.setPart]
  rw [key _ hv]

/-- **C58**, finding: `ListTags` lists nothing, whatever the parts contain; it fails if there is an embedded document, and panics if
there are other tags. -/
theorem qt_lists_nothing (x : Qt.Info I D) : Qt.listTags x =
    if x.xmp.isSome then .err else if x.extension = [] then .ok [] else .panic := by
  unfold Qt.listTags Qt.infoTy Qt.infoVal
  cases x.xmp with
  | some d => rfl
  | none => cases x.extension with
    | nil => rfl
    | cons a as => rfl

/-! ### Examples -/

/-- All fields as strings. -/
def qtStrings : Qt.Types :=
  ⟨Qt.udtaNames.map (fun _ => .str), Qt.mdtaNames.map (fun _ => .str), Qt.playerNames.map (fun _ => .str),
    Qt.proAppsNames.map (fun _ => .str)⟩

example : ZeroEmpty qtStrings ∧ QtSized qtStrings := by
  constructor
  · intro p ty h
    cases p <;> simp only [qtTys, qtStrings, List.mem_map] at h <;> obtain ⟨-, -, rfl⟩ := h <;> rfl
  · intro p
    cases p <;> simp [qtTys, qtStrings, qtNames]

theorem qtTyped_new : QtTyped qtStrings (Qt.Info.new Unit Unit) := by
  intro p v h
  cases p <;> simp [qtPart, Qt.Info.new] at h

example : QtTag .udta "scen".toList 80 := ⟨rfl, by decide +kernel⟩
example : QtTag .player "com.apple.quicktime.player.version".toList 10 := ⟨rfl, by decide +kernel⟩
example : QtTag .mdta "com.apple.quicktime.title".toList 38 := ⟨rfl, by decide +kernel⟩
example : QtTag .proApps "com.apple.proapps.clipID".toList 0 := ⟨rfl, by decide +kernel⟩

example : (Qt.setTag qtStrings (fun _ => none) (fun _ => none) (Qt.Info.new Unit Unit) "com.apple.quicktime.title".toList
    "Film".toList).2 = true := by decide +kernel
example : (Qt.copyTag "nam").length = 5 ∧ Qt.copyTag "nam" ∈ Qt.udtaNames := by decide +kernel
example : Qt.canTag qtStrings "com.apple.quicktime.title".toList = false := by decide +kernel
example : Qt.canTag qtStrings "reel".toList = true := by decide +kernel
example : ¬ QtKnown "org.example.tag".toList := by
  unfold QtKnown longIxmlTags; decide +kernel
example : "com.apple.quicktime.nothing".toList ∉ Qt.mdtaNames := by decide +kernel

end Xmp.Props
