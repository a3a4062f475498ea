import Verif.Props.JsonTree

/-! C34: a concrete tree for `json_roundtrip` and a concrete loss. -/

namespace Xmp.Props

open GoStr List

/-- A sample: an attribute, an array of texts, an array of structs, and a title in two languages with a default. -/
def jsonSample : Node :=
  .mk ⟨[], "ex".toList⟩ [⟨⟨[], "rdf:parseType".toList⟩, "Resource".toList⟩, ⟨⟨[], "ex:id".toList⟩, "7".toList⟩] []
    [.mk ⟨[], "ex:tags".toList⟩ [] [] [.mk ⟨[], "rdf:Bag".toList⟩ [] []
      [.mk ⟨[], "rdf:li".toList⟩ [] "a".toList [], .mk ⟨[], "rdf:li".toList⟩ [] "b".toList []]],
     .mk ⟨[], "ex:title".toList⟩ [] [] [.mk ⟨[], "rdf:Alt".toList⟩ [] []
      [.mk ⟨[], "rdf:li".toList⟩ [⟨⟨[], "xml:lang".toList⟩, "x-default".toList⟩] "T".toList [],
       .mk ⟨[], "rdf:li".toList⟩ [⟨⟨[], "xml:lang".toList⟩, "en".toList⟩] "T".toList [],
       .mk ⟨[], "rdf:li".toList⟩ [⟨⟨[], "xml:lang".toList⟩, "de".toList⟩] "U".toList []]],
     .mk ⟨[], "ex:people".toList⟩ [] [] [.mk ⟨[], "rdf:Seq".toList⟩ [] []
      [.mk ⟨[], "rdf:li".toList⟩ [⟨⟨[], "rdf:parseType".toList⟩, "Resource".toList⟩] []
        [.mk ⟨[], "ex:name".toList⟩ [] "N".toList []]]]]

/-- What the sample says. -/
def jsonSampleFields : List (Str × Tree) :=
  [("ex:id".toList, .text "7".toList), ("ex:tags".toList, .array [.text "a".toList, .text "b".toList]),
   ("ex:title".toList, .alt [("x-default".toList, "T".toList), ("en".toList, "T".toList), ("de".toList, "U".toList)]),
   ("ex:people".toList, .array [.struct [("ex:name".toList, .text "N".toList)]])]

theorem jsonSample_shape : Shape (.struct jsonSampleFields) := by
  rw [jsonSampleFields, Shape]
  simp only [ShapeFields, Shape, ShapeItems, IsItem, and_true, true_and, JsonName, AltKept]
  refine ⟨by decide, by decide, by decide, by decide, ⟨by decide, by decide, by decide, ?_⟩, by decide, by decide, by decide⟩
  intro v hv
  unfold Json.xDefault at hv ⊢
  simp only [mem_cons, not_mem_nil, or_false] at hv
  rcases hv with h | h | h
  · right; right
    exact ⟨"en".toList, by decide, by rw [(Prod.mk.inj h).2]; simp⟩
  · exact absurd (Prod.mk.inj h).1 (by decide)
  · exact absurd (Prod.mk.inj h).1 (by decide)

theorem jsonSample_says : Says rdfRegistry (.struct jsonSampleFields) jsonSample := by
  rw [jsonSampleFields, jsonSample, Says]
  refine ⟨rfl, ?_⟩
  rw [SaysFields]
  refine Or.inl ⟨_, [], rfl, rfl, rfl, ?_⟩
  rw [SaysFields]
  refine Or.inr ⟨rfl, _, _, rfl, rfl, ?_, ?_⟩
  · rw [Says]
    refine ⟨_, rfl, rfl, rfl, rfl, rfl, Or.inl (by decide), ?_⟩
    simp only [SaysItems]
    refine ⟨_, _, rfl, rfl, ?_, _, _, rfl, rfl, ?_, rfl⟩ <;> (rw [Says]; exact ⟨by decide, rfl, rfl, rfl⟩)
  rw [SaysFields]
  refine Or.inr ⟨rfl, _, _, rfl, rfl, ?_, ?_⟩
  · rw [Says]
    refine ⟨_, rfl, rfl, rfl, rfl, rfl, rfl, ?_⟩
    refine .cons ?_ (.cons ?_ (.cons ?_ .nil)) <;> exact ⟨rfl, rfl, rfl, _, rfl, by decide, rfl⟩
  rw [SaysFields]
  refine Or.inr ⟨rfl, _, _, rfl, rfl, ?_, by rw [SaysFields]; exact ⟨rfl, rfl⟩⟩
  rw [Says]
  refine ⟨_, rfl, rfl, rfl, rfl, rfl, Or.inl (by decide), ?_⟩
  rw [SaysItems]
  refine ⟨_, _, rfl, rfl, ?_, by rw [SaysItems]⟩
  rw [Says]
  refine ⟨rfl, ?_⟩
  rw [SaysFields]
  refine Or.inr ⟨rfl, _, _, rfl, rfl, ?_, by rw [SaysFields]; exact ⟨rfl, rfl⟩⟩
  rw [Says]
  exact ⟨by decide, rfl, rfl, rfl⟩

example (j : Json) (hj : JSame (Json.ofNode rdfRegistry jsonSample) j) :
    ∃ n', Json.toModel "ex".toList j = .ok n' ∧ n'.xmlName = ⟨[], "ex".toList⟩ ∧ Tells rdfRegistry (.struct jsonSampleFields) n' :=
  json_roundtrip rdfRegistry (by decide) _ jsonSample_shape _ jsonSample_says j hj _

example : Json.altItems [.mk ⟨[], "rdf:li".toList⟩ [⟨⟨[], "xml:lang".toList⟩, "x-default".toList⟩] "A".toList [],
    .mk ⟨[], "rdf:li".toList⟩ [⟨⟨[], "xml:lang".toList⟩, "de".toList⟩] "B".toList []] = [{ value := "B".toList, lang := "de".toList }] := by
  decide

end Xmp.Props
