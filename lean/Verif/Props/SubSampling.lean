import Verif.Model.SubSampling
import Verif.Props.TypedXmpCases

/-! C86: chroma subsampling. -/

namespace Xmp.Props

open GoStr Tiff

/-! ### Specification -/

/-- The named schemes: horizontal and vertical factor, and the name. -/
def schemes : List ((Int × Int) × Str) :=
  [((1, 1), "4:4:4".toList), ((1, 2), "4:4:0".toList), ((1, 4), "4:4:1".toList), ((2, 1), "4:2:2".toList), ((2, 2), "4:2:0".toList),
    ((2, 4), "4:2:1".toList), ((4, 1), "4:1:1".toList), ((4, 2), "4:1:0".toList)]

/-! ### Theorems -/

/-- **C86.** A list has the name of a scheme exactly if it begins with the factors of the scheme. -/
theorem subSampling_named (x : List Int) (s : Str) (hs : s ≠ "undefined".toList) :
    subSamplingText x = s ↔ ∃ a b rest, x = a :: b :: rest ∧ ((a, b), s) ∈ schemes := by
  match x with
  | [] => exact ⟨fun h => absurd h.symm hs, fun ⟨_, _, _, e, _⟩ => by cases e⟩
  | [a] => exact ⟨fun h => absurd h.symm hs, fun ⟨_, _, _, e, _⟩ => by cases e⟩
  | a :: b :: rest =>
    have key : ((a, b), s) ∈ schemes ↔ subSamplingText (a :: b :: rest) = s := by
      constructor
      · intro h
        simp only [schemes, List.mem_cons, List.not_mem_nil, or_false, Prod.mk.injEq] at h
        rcases h with ⟨⟨rfl, rfl⟩, rfl⟩ | ⟨⟨rfl, rfl⟩, rfl⟩ | ⟨⟨rfl, rfl⟩, rfl⟩ | ⟨⟨rfl, rfl⟩, rfl⟩ | ⟨⟨rfl, rfl⟩, rfl⟩ | ⟨⟨rfl, rfl⟩, rfl⟩ |
          ⟨⟨rfl, rfl⟩, rfl⟩ | ⟨⟨rfl, rfl⟩, rfl⟩ <;> rfl
      · intro h
        unfold subSamplingText at h
        simp only at h
        repeat' split at h
        all_goals first
          | exact absurd h.symm hs
          | (rename_i hc; obtain ⟨rfl, rfl⟩ := hc; subst h; decide)
    rw [← key]
    constructor
    · exact fun h => ⟨a, b, rest, rfl, h⟩
    · rintro ⟨a', b', rest', e, h⟩
      cases e
      exact h

example : subSamplingText [2, 1] = "4:2:2".toList := (subSampling_named _ _ (by decide)).2 ⟨2, 1, [], rfl, by decide⟩

/-- **C86.** No name stands for two pairs of factors. -/
theorem subSampling_injective (a b a' b' : Int) (r r' : List Int) (h : subSamplingText (a :: b :: r) = subSamplingText (a' :: b' :: r'))
    (hn : subSamplingText (a :: b :: r) ≠ "undefined".toList) : a = a' ∧ b = b' := by
  obtain ⟨_, _, _, e1, m1⟩ := (subSampling_named _ _ hn).1 rfl
  obtain ⟨_, _, _, e2, m2⟩ := (subSampling_named (a' :: b' :: r') _ hn).1 h.symm
  cases e1
  cases e2
  generalize subSamplingText (a :: b :: r) = s at m1 m2
  have hd : ∀ p ∈ schemes, ∀ q ∈ schemes, p.2 = q.2 → p.1 = q.1 := by decide
  have := hd _ m1 _ m2 rfl
  exact Prod.mk.inj this

/-- **C86.** Every list that does not count as zero is saved and found again exactly; and every list with the name of a scheme is one. -/
theorem subSampling_saved (d : Dec) (uri : Str → Str) (hr : RdfOK d uri) (x : List Int) (hx : ∀ i ∈ x, InI64 i) (name : QName) (parent : Node)
    (h : subSamplingIsZero x = false ∨ subSamplingText x ≠ "undefined".toList) :
    ∃ n, writeSubSampling x name parent = some (parent.addNode n) ∧
      readSubSampling d Version.zero (n.reparse uri) = .ok (subSamplingVal x) := by
  have hz : subSamplingIsZero x = false := by
    rcases h with h | h
    · exact h
    · obtain ⟨a, b, rest, rfl, hm⟩ := (subSampling_named x _ h).1 rfl
      have hd : ∀ p ∈ schemes, (decide (p.1.1 = 0) && decide (p.1.2 = 0)) = false := by decide
      exact hd _ hm
  have hne : x ≠ [] := by rintro rfl; cases hz
  have hf : Faithful Version.zero subSamplingTy (subSamplingVal x) := by
    rw [subSamplingTy, subSamplingVal, Faithful]
    refine ⟨_, rfl, by simpa using hne, ?_⟩
    intro v hv
    obtain ⟨i, hi, rfl⟩ := List.mem_map.1 hv
    have := hx i hi
    unfold InI64 at this
    rw [Faithful, LeafFaithful]
    exact this
  obtain ⟨n, e1, e2⟩ := model_roundtrip d Version.zero uri hr subSamplingTy (by simp [subSamplingTy, TyNames]) _ hf name
  refine ⟨n, ?_, e2⟩
  unfold writeSubSampling
  rw [hz, e1]
  rfl

example : ∃ n, writeSubSampling [2, 2] ⟨[], "tiff:YCbCrSubSampling".toList⟩ (Node.new ⟨[], "tiff".toList⟩) =
      some ((Node.new ⟨[], "tiff".toList⟩).addNode n) ∧
    readSubSampling sampleDec Version.zero (n.reparse sampleUri) = .ok (.slice [.int 2, .int 2] []) :=
  subSampling_saved sampleDec sampleUri sampleRdf [2, 2] (by decide) _ _ (Or.inr (by decide))

/-- **C86, finding.** Lists with less than two numbers and lists that begin with two zeros are not saved, whatever follows. -/
theorem subSampling_lost (a : Int) (rest : List Int) (name : QName) (parent : Node) :
    writeSubSampling [a] name parent = some parent ∧ writeSubSampling (0 :: 0 :: rest) name parent = some parent := ⟨rfl, rfl⟩

example : writeSubSampling [2] ⟨[], "tiff:YCbCrSubSampling".toList⟩ (Node.new ⟨[], "tiff".toList⟩) = some (Node.new ⟨[], "tiff".toList⟩) :=
  (subSampling_lost 2 [] _ _).1

end Xmp.Props
