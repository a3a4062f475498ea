import Verif.Props.Info
import Verif.Props.ListModel

/-! C79: concrete runs of `xmpinfo`. -/

namespace Xmp.Props

open GoStr SyncFlags Utf8 XmlBytes Shipped Info

/-- A program with two models. -/
def infoWorld : World where
  uni := fun _ => false
  env := shippedEnv (regsOf ["cc".toList, "xmp_bj".toList]) (fun _ => numberCodec) (fun _ _ => false)
  order := fun _ l => l
  sort := sortPv
  json := fun _ => none

/-- A packet around a text. -/
def infoPacket (s : Str) : Str := packetHeader ++ s ++ packetFooter

/-- A file with two packets. -/
def infoFile : List Str := ["head".toList ++ infoPacket "<a/>".toList ++ "between".toList, infoPacket "<b/>".toList ++ "tail".toList]

theorem infoFile_scan : scanPackets infoFile = .ok [infoPacket "<a/>".toList, infoPacket "<b/>".toList] := by decide +kernel

example : extOf "dir.d/photo.jpg".toList = ".jpg".toList ∧ extOf "dir.d/photo".toList = [] ∧ extOf "a.b.xmp".toList = ".xmp".toList := by decide

/-- The first packet is printed although it is no document. -/
example : ∃ rest, (run infoWorld {} (.file "photo.jpg".toList (some infoFile))).lines = printed (infoPacket "<a/>".toList) :: rest :=
  info_prints_original infoWorld {} _ infoFile _ (.embedded (by decide) infoFile_scan) rfl (Or.inr ⟨rfl, rfl, rfl⟩)

example : run infoWorld { all := true } (.file "photo.jpg".toList (some infoFile)) =
    ⟨[printed (infoPacket "<a/>".toList), printed (infoPacket "<b/>".toList)], .ok⟩ :=
  info_prints_all infoWorld _ _ infoFile _ _ (by decide) infoFile_scan rfl rfl (Or.inr ⟨rfl, rfl, rfl⟩)

/-- The paths of a document. -/
def infoListing : PathValueList :=
  [{ path := "cc:attributionName".toList, value := "A. Name".toList }, { path := "cc:license".toList, value := "7".toList },
   { path := "xmpBJ:JobRef[0]/stJob:id".toList, value := "1".toList }, { path := "xmpBJ:JobRef[0]/stJob:name".toList, value := "first".toList },
   { path := "xmpBJ:JobRef[0]/stJob:url".toList, value := "5".toList }]

theorem infoListing_is : licenceDoc.listPaths infoWorld.env infoWorld.sort = .ok infoListing := by decide +kernel

theorem info_own : ∀ e ∈ regsOf ["cc".toList, "xmp_bj".toList], e ∉ shippedRegs → DeclOK infoWorld.uni e.1 :=
  fun e he hs => absurd (regsOf_sub _ e he) hs

/-- The document in a file `.xmp`, and made by the command itself: the same listing. -/
example : ∃ b, marshal infoWorld { doc := licenceDoc, about := "uuid:1".toList } = some b ∧
    run infoWorld { path := true } (.file "x.xmp".toList (some [b, "\n".toList])) = ⟨infoListing.map shownLine, .ok⟩ ∧
    run infoWorld { path := true } (.demo { doc := licenceDoc, about := "uuid:1".toList }) = ⟨infoListing.map shownLine, .ok⟩ := by
  obtain ⟨b, h1, -, h2, -, h3⟩ := info_shows_paths_partial ["cc".toList, "xmp_bj".toList] (by unfold Closed; decide +kernel) (by decide)
    (regsOf ["cc".toList, "xmp_bj".toList]) ⟨fun _ he => he, fun _ he => Or.inl he⟩ infoWorld info_own (fun _ => numberCodec) (fun _ _ => false)
    (shippedEnv_ok _ _ _ _) { doc := licenceDoc, about := "uuid:1".toList } licenceDoc_ok licence_texts (fun _ l => List.Perm.refl l) rfl
    infoListing infoListing_is
  exact ⟨b, h1, h2 _ _ "\n".toList (by decide) (by simp), h3⟩

/-- What is printed for the document can be printed again, and lists the same. -/
example : ∃ b s, marshal infoWorld { doc := licenceDoc, about := "uuid:1".toList } = some b ∧
    run infoWorld { xmp := true } (.file "x.xmp".toList (some [b])) = ⟨[.text s], .ok⟩ ∧
    run infoWorld { path := true } (.file "y.xmp".toList (some [s])) = ⟨infoListing.map shownLine, .ok⟩ := by
  obtain ⟨b, h1, h2, -⟩ := info_shows_paths_partial ["cc".toList, "xmp_bj".toList] (by unfold Closed; decide +kernel) (by decide)
    (regsOf ["cc".toList, "xmp_bj".toList]) ⟨fun _ he => he, fun _ he => Or.inl he⟩ infoWorld info_own (fun _ => numberCodec) (fun _ _ => false)
    (shippedEnv_ok _ _ _ _) { doc := licenceDoc, about := "uuid:1".toList } licenceDoc_ok licence_texts (fun _ l => List.Perm.refl l) rfl
    infoListing infoListing_is
  have main := info_reprinted_partial ["cc".toList, "xmp_bj".toList] (by unfold Closed; decide +kernel) (by decide)
    (regsOf ["cc".toList, "xmp_bj".toList]) ⟨fun _ he => he, fun _ he => Or.inl he⟩ infoWorld info_own (fun _ => numberCodec) (fun _ _ => false)
    (shippedEnv_ok _ _ _ _) (fun _ l => List.Perm.refl l) rfl infoListing b h2
  obtain ⟨-, s, hs⟩ := main b .none "x.xmp".toList [b] (.sidecar (by decide) (by simp))
  exact ⟨b, s, h1, hs, (main s (.again .none (.sidecar (by decide) (by simp)) hs) "y.xmp".toList [s] (.sidecar (by decide) (by simp))).1⟩

/-- A line of the listing. -/
example : shownLine { path := "cc:license".toList, value := "7".toList } = .text "cc:license = 7\n".toList := by decide

/-- With `-quiet`, a file that is no document gives an error and nothing else. -/
example : run infoWorld { quiet := true, orig := true } (.file "a.xmp".toList (some ["no document".toList])) = ⟨[.error], .failed⟩ := by decide +kernel

/-- The listing is printed in spite of `-quiet`. -/
example : (run infoWorld { quiet := true, path := true } (.demo { doc := licenceDoc, about := "uuid:1".toList })).lines ≠ [] := by
  rw [quiet_prints_paths]
  obtain ⟨b, -, -, -, -, h3⟩ := info_shows_paths_partial ["cc".toList, "xmp_bj".toList] (by unfold Closed; decide +kernel) (by decide)
    (regsOf ["cc".toList, "xmp_bj".toList]) ⟨fun _ he => he, fun _ he => Or.inl he⟩ infoWorld info_own (fun _ => numberCodec) (fun _ _ => false)
    (shippedEnv_ok _ _ _ _) { doc := licenceDoc, about := "uuid:1".toList } licenceDoc_ok licence_texts (fun _ l => List.Perm.refl l) rfl
    infoListing infoListing_is
  rw [h3]
  simp [infoListing]

/-- A sidecar file with a name in capital letters. -/
example : run infoWorld { path := true } (.file "A.XMP".toList (some ["<x:xmpmeta xmlns:x=\"adobe:ns:meta/\"/>".toList])) = ⟨[], .ok⟩ :=
  other_extension_silent infoWorld _ _ _ (by decide) (by decide +kernel)

end Xmp.Props
