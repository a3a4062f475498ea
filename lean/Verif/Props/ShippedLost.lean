import Verif.Props.ShippedDocCases
import Verif.Props.ForeignFields
import Verif.Props.TypedUnmixed
import Verif.Props.ArrayXmp

/-! C72: what of the shipped models is lost. -/

namespace Xmp.Props

open GoStr Shipped

/-! ### Fields that are not read as they are written -/

/-- Structs that are written as their fields and read as a text. -/
def textReadFields : List (Str × Str) :=
  [(chars!"exif.ExifInfo", chars!"exif:OECF"), (chars!"exif.ExifInfo", chars!"exif:SpatialFrequencyResponse"),
   (chars!"exif.ExifInfo", chars!"exif:CFAPattern"), (chars!"exif.ExifInfo", chars!"exif:DeviceSettingDescription"),
   (chars!"id3.ID3", chars!"id3:audioEncryption"), (chars!"id3.ID3", chars!"id3:audioSeekPointIndex"),
   (chars!"id3.ID3", chars!"id3:commercial"), (chars!"id3.ID3", chars!"id3:ownership"),
   (chars!"id3.ID3", chars!"id3:recommendedBufferSize"), (chars!"id3.ID3", chars!"id3:reverb"),
   (chars!"itunes.ITunesMetadata", chars!"iTunes:SMPB"), (chars!"mp4.MP4Info", chars!"mp4:Location"),
   (chars!"qt.QtUserdata", chars!"qt:LocationGPS"), (chars!"qt.QtMetadata", chars!"qt:Location")]

/-- Attributes of types without a text, which can not be written at all (C33, `attr_not_marshalled`). -/
def unwritableAttrs : List (Str × Str) :=
  [(chars!"id3.TimedLyrics", chars!"id3:lyrics"), (chars!"itunes.MovieInfo", chars!"iTunes:AssetInfo"),
   (chars!"xmp_dm.Track", chars!"xmpDM:trackType")]

/-- Lists of `MarkerType`, which have no methods: they are written as arrays and not read. -/
def unreadLists : List (Str × Str) :=
  [(chars!"id3.Chapter", chars!"xmpDM:type"), (chars!"xmp_dm.Marker", chars!"xmpDM:type")]

/-- Language alternatives of the package riff, which are read without merging the default item. -/
def splitAlts : List (Str × Str) :=
  [(chars!"riff.RiffInfo", chars!"dc:rights"), (chars!"riff.RiffInfo", chars!"riffinfo:name"),
   (chars!"riff.RiffInfo", chars!"dc:description")]

/-- Fields with forms that are not described by C72: extensions, arrays with an `IsZero` of their own and types with methods
of their own. -/
def undescribed : List (Str × Str) :=
  [(chars!"id3.ID3", chars!"id3:extension"), (chars!"itunes.ITunesMetadata", chars!"iTunes:extension"),
   (chars!"ixml.IXML", chars!"iXML:extension"), (chars!"qt.QtMetadata", chars!"qt:extension"),
   (chars!"qt.QtInfo", chars!"qt:extension"), (chars!"xmp_base.XmpBase", chars!"xmp:extension"),
   (chars!"xmp_mm.XmpMM", chars!"xmpMM:Pantry"), (chars!"exif.ExifInfo", chars!"tiff:YCbCrSubSampling"),
   (chars!"tiff.TiffInfo", chars!"tiff:YCbCrSubSampling"), (chars!"xmp_base.IdentifierArray", chars!"[]"),
   (chars!"xmp_dm.XmpDM", chars!"xmpDM:altTimecode"), (chars!"xmp_dm.XmpDM", chars!"xmpDM:startTimecode")]

/-- All fields of the shipped models that meet a test. -/
def shippedFields (p : FieldInfo → Sk → Bool) : List (Str × Str) := modelTypes.flatMap (fun (x : Str × Sk) => x.2.fieldsWith p)

/-- The same fields. -/
def SameFields (l l' : List (Str × Str)) : Prop := ∀ x, x ∈ l ↔ x ∈ l'

instance (l l' : List (Str × Str)) : Decidable (SameFields l l') :=
  decidable_of_iff ((∀ x ∈ l, x ∈ l') ∧ (∀ x ∈ l', x ∈ l)) ⟨fun h x => ⟨h.1 x, h.2 x⟩, fun h => ⟨fun x => (h x).1, fun x => (h x).2⟩⟩

set_option maxRecDepth 100000 in
/-- **C72, finding.** The fields of the shipped models that are not read back in the form in which they are written, or whose
form is not described. -/
theorem shipped_unsound : SameFields (shippedFields unsoundField)
      (textReadFields ++ unwritableAttrs ++ unreadLists ++ splitAlts ++ undescribed) := by
  decide +kernel

set_option maxRecDepth 100000 in
/-- **C72, finding.** 14 structs are written as their fields, but read with `UnmarshalText`; 3 attributes have a type that can
not be written as an attribute; 2 lists are written as arrays, but not read. -/
theorem shipped_mismatches : SameFields (shippedFields readAsText) textReadFields ∧
    SameFields (shippedFields attrWithoutText) unwritableAttrs ∧
    SameFields (shippedFields (fun f t => !f.attr && decide (t.reads = .nothing))) unreadLists ∧
    SameFields (shippedFields (fun f t => !f.attr && decide (t.reads = .altRaw))) splitAlts := by
  decide +kernel

/-- No value of such a field is covered by C72, unless it is not written. -/
theorem unsound_not_clean (K : Str → Codec) (Z : Str → List Val → Bool) (s : Sk) (hs : s.sound = false) (v : Val) :
    ¬ Clean (s.ty K Z) v := by
  have h : s.ty K Z = lost := by
    cases s <;> simp_all [Sk.ty]
  rw [h, lost, Clean]
  rintro ⟨k, o, -, h, -⟩
  cases h

/-- **C72, finding.** Whatever is written for a struct, its node has no text of its own: what a type with `UnmarshalText` reads
from it is what it reads from an empty text, before or after the way through XML.  All values of the struct are read as
one. -/
theorem struct_read_as_text (z : Option (List Val → Bool)) (infos : List FieldInfo) (tys : List Ty) (v : Val)
    (name : QName) (n : Node) (h : marshalValue (.struct z infos tys) v (Node.new name) = some n)
    (d : Dec) (dv : Version) (uri : Str → Str) (c : Codec) (k : Nat) (info : Bool) :
    ∀ u ∈ Views uri n, unmarshal d dv u info (.text c) (.opq k) =
      (match c.dec k [] with | some j => .ok (.opq j) | none => .err) := by
  have hv : n.value = [] := by
    unfold marshalValue at h
    split at h
    · rename_i vals
      have hn0 : BareVal (Node.new name) := ⟨rfl, by intro x hx; cases hx⟩
      cases ha : marshalAttrs infos tys vals (Node.new name) with
      | none => rw [ha] at h; cases h
      | some n1 =>
        have hn1 := bare_attrs infos tys vals _ n1 hn0 ha
        rw [ha] at h
        simp only at h
        cases hf : marshalFields tys infos vals n1 with
        | none => rw [hf] at h; cases h
        | some r =>
          obtain ⟨n2, hv⟩ := r
          have hn2 := fields_bare tys infos vals n1 n2 hv hn1 hf
          rw [hf] at h
          simp only [Option.some.injEq] at h
          subst h
          split
          · exact (bare_addAttr hn2 _).1
          · exact hn2.1
    · cases h
  have key : ∀ u : Node, u.value = [] → unmarshal d dv u info (.text c) (.opq k) =
      (match c.dec k [] with | some j => .ok (.opq j) | none => .err) := by
    intro u hu
    obtain ⟨nm, at_, val, nodes⟩ := u
    simp only [Node.value] at hu
    subst hu
    rw [unmarshal]
    simp only [derefVal, rewrap]
    cases c.dec k [] <;> rfl
  intro u hu
  rcases List.mem_cons.1 hu with rfl | hu
  · exact key _ hv
  · rw [List.mem_singleton.1 hu]
    refine key _ ?_
    obtain ⟨nm, at_, val, nodes⟩ := n
    simp only [Node.value] at hv
    subst hv
    rfl

/-- The methods of models/id3, models/mp4 and models/qt read nothing: the field keeps its value, e.g.
models/id3/types.go:225-228. -/
example (d : Dec) (dv : Version) : ∃ n, marshalValue (.struct none [elF chars!"id3:currency", elF chars!"id3:seller"] [.str, .str])
      (.struct [.str chars!"EUR", .str chars!"x"]) (Node.new ⟨[], chars!"id3:ownership"⟩) = some n ∧
    unmarshal d dv n true (.text ⟨fun _ => none, fun k _ => some k, fun n => n == 0, false⟩) (.opq 0) = .ok (.opq 0) := by
  have hw : ∃ n, marshalValue (.struct none [elF chars!"id3:currency", elF chars!"id3:seller"] [.str, .str])
      (.struct [.str chars!"EUR", .str chars!"x"]) (Node.new ⟨[], chars!"id3:ownership"⟩) = some n := ⟨_, rfl⟩
  obtain ⟨n, hn⟩ := hw
  exact ⟨n, hn, struct_read_as_text none _ _ _ _ n hn d dv id _ 0 true _ List.mem_cons_self⟩

/-- **C72, finding.** A language alternative of the package riff whose default item has a language is read with one item more:
the default item without its language, and the language as an item of its own (models/riff/types.go:60-62). -/
theorem riff_alt_split (r : Registry) (uri : Str → Str) (hb : RdfBound r uri) (d : AltItem) (rest : AltString)
    (hw : AltWritable (d :: rest)) (hl : d.lang ≠ []) (node : Node) (hnode : node.nodes = []) :
    ∃ t, AltString.marshalXMP (d :: rest) node = some t ∧ ∀ u ∈ Views uri t,
      riffUnmarshalAlt r u [] = some (⟨d.value, [], true⟩ :: ⟨d.value, d.lang, false⟩ :: rest) := by
  obtain ⟨d', rest', e, t, h1, h2⟩ := alt_reads_items r uri hb _ hw node hnode
  cases e
  refine ⟨t, h1, fun u hu => ?_⟩
  rw [riffUnmarshalAlt, h2 u hu, rawItems, if_neg hl]
  rfl

/-! ### Fields with a prefix of another namespace -/

/-- The models that the factories make have the zero value. -/
def FreshModels (env : Env) : Prop :=
  ∀ p ns m, env.reg.getNamespace p = some ns → env.newModel ns = some m → m.val = m.ty.zero

/-- The fields of a struct. -/
def fieldInfos : Sk → List FieldInfo
  | .struct _ _ fs _ => fs
  | _ => []

set_option maxRecDepth 100000 in
theorem foreign_facts : (∀ x ∈ modelTypes, ∀ f ∈ fieldInfos x.2, f.any = true → (x.1, f.name) ∉ foreignFields) ∧
    (∀ d ∈ decls, ∀ x ∈ foreignFields, x.1 = d.typ →
      getPrefix x.2 ≠ d.can ∧ getPrefix x.2 ≠ d.ns.name ∧ x.2 = getPrefix x.2 ++ ':' :: stripPrefix x.2 ∧ ':' ∉ getPrefix x.2) ∧
    (∀ d ∈ decls, ':' ∉ d.can ∧ ':' ∉ d.ns.name) := by
  decide +kernel

/-- **C72, finding.** The 54 fields of shipped models with a prefix of another namespace are never set by reading, whatever the
document is: what is written for them is read into another model or is lost.  (The program's own factories make models that
answer to their prefix and have the zero value.) -/
theorem shipped_foreign_lost (K : Str → Codec) (Z : Str → List Val → Bool) (env : Env) (ha : Answers env) (hf : FreshModels env)
    (dv : Version) (t : Node)
    (hx : ∀ root, Dec.rdfRoot env.reg t = some root → ∀ n ∈ root.nodes, ∀ x ∈ n.nodes, x.xmlName.space ≠ "xmlns".toList)
    (q : Packet) (h : Dec.decode env dv t = .ok q) (r : Root) (hr : r ∈ q.doc.roots)
    (d : Decl) (hd : d ∈ decls) (s : Sk) (hs : (d.typ, s) ∈ modelTypes) (hn : r.node.name = d.ns.name) (vals : List Val)
    (hm : r.model = some (shippedMdl K Z d s (.struct vals)))
    (i : Nat) (f : FieldInfo) (ty : Ty) (hi : (rootInfos r)[i]? = some f) (ht : (rootTys r)[i]? = some ty)
    (hff : (d.typ, f.name) ∈ foreignFields) : vals[i]? = some ty.zero := by
  obtain ⟨hany, hfor, hcol⟩ := foreign_facts
  obtain ⟨g1, g2, g3, g4⟩ := hfor d hd _ hff rfl
  have hk := foreign_never_read env ha dv t hx q h r hr
  cases s with
  | struct n hk' infos ss =>
    have hfm : f ∈ infos ∧ ∃ z, (shippedMdl K Z d (.struct n hk' infos ss) (.struct vals)).ty = .struct z infos (Sk.tys K Z infos ss) := by
      unfold rootInfos at hi
      rw [hm] at hi
      simp only [shippedMdl] at hi
      by_cases hw : (Sk.struct n hk' infos ss).writes = .fields
      · simp only [Sk.modelTy, if_pos hw] at hi
        exact ⟨List.mem_of_getElem? hi, _, by simp only [shippedMdl, Sk.modelTy, if_pos hw]; rfl⟩
      · simp only [Sk.modelTy, if_neg hw, lost] at hi
        cases hi
    obtain ⟨hfm, z, hz⟩ := hfm
    have hi' : infos[i]? = some f := by
      unfold rootInfos at hi
      rw [hm] at hi
      simpa [hz] using hi
    have ht' : (Sk.tys K Z infos ss)[i]? = some ty := by
      unfold rootTys at ht
      rw [hm] at ht
      simpa [hz] using ht
    obtain ⟨ns, m0, z0, i0, t0, v0, v, ⟨p, e0⟩, e1, e2, e3, e4, e5⟩ := hk _ hm z infos _ vals hz rfl i f _ _ hi' g3 g4
      (by
        cases ha : f.any with
        | false => rfl
        | true => exact absurd hff (hany _ hs f hfm ha)) (by
        intro p hp
        rcases List.mem_cons.1 hp with rfl | hp
        · rw [hn]; exact ⟨(hcol d hd).2, g2.symm⟩
        · rw [List.mem_singleton.1 hp]; exact ⟨(hcol d hd).1, g1.symm⟩)
    have hv : vals = v := by
      have := congrArg Mdl.val e4
      simp only [shippedMdl] at this
      cases this
      rfl
    have hty : m0.ty = .struct z infos (Sk.tys K Z infos ss) := by
      have := congrArg Mdl.ty e4
      simp only at this
      rw [← this, hz]
    have hzero := hf p ns m0 e0 e1
    rw [e3, hty, Ty.zero] at hzero
    cases hzero
    rw [hv, e5]
    have : ∀ (l : List Ty) (i : Nat), l[i]? = some ty → (Ty.zeros l)[i]? = some ty.zero := by
      intro l
      induction l with
      | nil => intro i h; simp at h
      | cons a l ih =>
        intro i h
        cases i with
        | zero => simp only [List.getElem?_cons_zero, Option.some.injEq] at h; rw [← h]; rfl
        | succ i => exact ih i (by simpa using h)
    exact this _ _ ht'
  | leaf _ _ _ => unfold rootInfos at hi; rw [hm] at hi; cases hi
  | list _ _ _ => unfold rootInfos at hi; rw [hm] at hi; cases hi
  | ptr _ => unfold rootInfos at hi; rw [hm] at hi; cases hi

/-- The factories of the library answer to their prefixes and make zero values. -/
theorem shippedEnv_answers (P : List Str) (K : Str → Codec) (Z : Str → List Val → Bool) :
    Answers (shippedEnv (regsOf P) K Z) ∧ FreshModels (shippedEnv (regsOf P) K Z) := by
  have tab : ∀ e ∈ shippedRegs, ∀ d ∈ decls, newModel e.1 = some d → e.1.name = d.can := by decide +kernel
  have key : ∀ p ns m, (shippedEnv (regsOf P) K Z).reg.getNamespace p = some ns → (shippedEnv (regsOf P) K Z).newModel ns = some m →
      ∃ d s, m = shippedMdl K Z d s (s.modelTy K Z).zero ∧ ns.name = d.can := by
    intro p ns m hp hm
    have hreg : (shippedEnv (regsOf P) K Z).reg = runReg (regsOf P) := rfl
    rw [hreg, registry_prefix_latest] at hp
    cases hl : lastWith (fun e : Namespace × List Group => decide (e.1.name = p)) (regsOf P) with
    | none => rw [hl] at hp; cases hp
    | some e =>
      rw [hl] at hp
      simp only [Option.map_some, Option.some.injEq] at hp
      subst hp
      have he : e ∈ shippedRegs := regsOf_sub P e (List.mem_reverse.1 (List.mem_of_find?_eq_some hl))
      unfold Env.newModel at hm
      cases hfac : e.1.factory with
      | none => rw [hfac] at hm; cases hm
      | some f =>
        rw [hfac] at hm
        simp only [shippedEnv] at hm
        have hnew : newModel ⟨e.1.name, [], some f⟩ = newModel e.1 := by
          unfold newModel
          rw [hfac]
        rw [hnew] at hm
        cases hd : newModel e.1 with
        | none => rw [hd] at hm; cases hm
        | some d =>
          rw [hd] at hm
          simp only at hm
          cases hx : modelTypes.find? (fun x => decide (x.1 = d.typ)) with
          | none => rw [hx] at hm; cases hm
          | some x =>
            rw [hx] at hm
            cases hm
            refine ⟨d, x.2, rfl, tab e he d ?_ hd⟩
            unfold newModel at hd
            rw [hfac] at hd
            simp only at hd
            split at hd
            · cases hd
            · split at hd
              · cases hd
              · exact List.mem_of_find?_eq_some hd
  refine ⟨?_, ?_⟩
  · intro p ns m hp hm n0 rest hns
    obtain ⟨d, s, rfl, e⟩ := key p ns m hp hm
    rw [e]
    simp [shippedMdl]
  · intro p ns m hp hm
    obtain ⟨d, s, rfl, e⟩ := key p ns m hp hm
    rfl

/-- A document with keywords of a PDF file and a title. -/
def pdfTree : Node :=
  .mk ⟨nsRDF.uri, chars!"RDF"⟩ [] []
    [.mk ⟨nsRDF.uri, chars!"Description"⟩
      [⟨⟨chars!"xmlns", chars!"pdf"⟩, chars!"http://ns.adobe.com/pdf/1.3/"⟩] []
      [.mk ⟨chars!"http://ns.adobe.com/pdf/1.3/", chars!"Keywords"⟩ [] chars!"one two" []]]

set_option maxRecDepth 100000 in
/-- It is read into a model of this package. -/
example : ∃ q, Dec.decode (shippedEnv (regsOf [chars!"pdf", chars!"dc", chars!"xmp_base"]) (fun _ => numberCodec) (fun _ _ => false))
    Version.zero pdfTree = .ok q ∧ q.doc.roots.length = 1 := ⟨_, rfl, rfl⟩

end Xmp.Props
