import Verif.Model.Flags
import Verif.Lemmas.GoStr

/-! Property C09: sync flag parsing. -/

namespace Xmp.Props

open GoStr

/-- The six elementary permissions and their documented order (xmp/sync.go:80-85). -/
inductive Perm where
  | create | replace | delete | append | unique | nofail
deriving DecidableEq, Repr

/-- Bit number of a permission. -/
def Perm.bit : Perm → Nat
  | .create => 0 | .replace => 1 | .delete => 2 | .append => 3 | .unique => 4 | .nofail => 5

/-- Specification: the permissions each word stands for. -/
def meaning : List (Str × List Perm) :=
  [("create".toList, [.create]), ("replace".toList, [.replace]), ("delete".toList, [.delete]),
   ("append".toList, [.append]), ("unique".toList, [.unique]), ("nofail".toList, [.nofail]),
   ("default".toList, [.create, .replace, .delete, .unique]),
   ("merge".toList, [.create, .unique, .nofail]),
   ("extend".toList, [.create, .replace, .unique, .nofail]),
   ("add".toList, [.create, .unique, .nofail])]

/-- Permission `p` is contained in the flags value `f`. -/
def Holds (f : SyncFlags) (p : Perm) : Prop := f.testBit p.bit = true

theorem parseOne_spec (s : Str) :
    (SyncFlags.parseOne s = 0 ↔ meaning.lookup s = none) ∧ SyncFlags.parseOne s < 64 ∧
    (∀ p, Holds (SyncFlags.parseOne s) p ↔ ∃ ps, meaning.lookup s = some ps ∧ p ∈ ps) := by
  by_cases h : s ∈ meaning.map (·.1)
  · simp only [meaning, List.map_cons, List.map_nil, List.mem_cons, List.not_mem_nil, or_false] at h
    rcases h with h | h | h | h | h | h | h | h | h | h <;> subst h <;>
      refine ⟨by decide, by decide, ?_⟩ <;> intro p <;> cases p <;> simp [Holds, Perm.bit] <;> decide
  · have hl : meaning.lookup s = none := by
      rw [List.lookup_eq_none_iff]
      intro q hq
      simp only [beq_eq_false_iff_ne, ne_eq, Bool.not_eq_true, bne_iff_ne]
      intro e
      exact h (e ▸ List.mem_map_of_mem hq)
    have h0 : SyncFlags.parseOne s = 0 := by
      simp only [meaning, List.map_cons, List.map_nil, List.mem_cons, List.not_mem_nil, or_false, not_or] at h
      obtain ⟨h1, h2, h3, h4, h5, h6, h7, h8, h9, h10⟩ := h
      unfold SyncFlags.parseOne
      rw [if_neg h1, if_neg h2, if_neg h3, if_neg h4, if_neg h5, if_neg h6, if_neg h7, if_neg h8, if_neg h9,
        if_neg h10]
    simp [h0, hl, Holds]

theorem parseTokens_spec (acc : SyncFlags) (hacc : acc < 64) (ts : List Str) :
    (SyncFlags.parseTokens acc ts = none ↔ ∃ t ∈ ts, meaning.lookup (toLower t) = none) ∧
    (∀ f, SyncFlags.parseTokens acc ts = some f → f < 64 ∧
      ∀ p, Holds f p ↔ Holds acc p ∨ ∃ t ∈ ts, ∃ ps, meaning.lookup (toLower t) = some ps ∧ p ∈ ps) := by
  induction ts generalizing acc with
  | nil => simp [SyncFlags.parseTokens]; exact hacc
  | cons t ts ih =>
    obtain ⟨a, b, c⟩ := parseOne_spec (toLower t)
    by_cases h : SyncFlags.parseOne (toLower t) = 0
    · simp only [SyncFlags.parseTokens, h, if_true]
      refine ⟨⟨fun _ => ⟨t, by simp, a.1 h⟩, fun _ => trivial⟩, by simp⟩
    · have hb : acc ||| SyncFlags.parseOne (toLower t) < 64 := Nat.or_lt_two_pow (n := 6) hacc b
      obtain ⟨i1, i2⟩ := ih _ hb
      simp only [SyncFlags.parseTokens, h, if_false]
      constructor
      · rw [i1]
        have : meaning.lookup (toLower t) ≠ none := fun e => h (a.2 e)
        simp only [List.mem_cons, exists_eq_or_imp, this, false_or]
      · intro f hf
        obtain ⟨j1, j2⟩ := i2 f hf
        refine ⟨j1, fun p => ?_⟩
        rw [j2 p]
        have : Holds (acc ||| SyncFlags.parseOne (toLower t)) p ↔
            Holds acc p ∨ Holds (SyncFlags.parseOne (toLower t)) p := by
          simp [Holds, Nat.testBit_or]
        rw [this, c p, or_assoc]
        simp only [List.mem_cons, exists_eq_or_imp]

/-- C09: a flag list is rejected iff one of its comma separated words (case ignored) is not a flag
name; otherwise the result has exactly the permissions that some word stands for and no other bits. -/
theorem parse_flags_spec (s : Str) :
    (SyncFlags.parse s = none ↔ ∃ t ∈ split ',' s, meaning.lookup (toLower t) = none) ∧
    (∀ f, SyncFlags.parse s = some f → f < 64 ∧
      ∀ p, Holds f p ↔ ∃ t ∈ split ',' s, ∃ ps, meaning.lookup (toLower t) = some ps ∧ p ∈ ps) := by
  have h := parseTokens_spec 0 (by decide) (split ',' s)
  refine ⟨h.1, fun f hf => ⟨(h.2 f hf).1, fun p => ?_⟩⟩
  rw [(h.2 f hf).2 p]
  simp [Holds]

example : SyncFlags.parse "Create,UNIQUE,nofail".toList = some SyncFlags.MERGE ∧
    SyncFlags.parse "create,,unique".toList = none := by decide

/-- Two flag values below 64 with the same permissions are equal. -/
theorem flags_ext {f g : SyncFlags} (hf : f < 64) (hg : g < 64) (h : ∀ p, Holds f p ↔ Holds g p) : f = g := by
  apply Nat.eq_of_testBit_eq
  intro i
  by_cases hi : i < 6
  · have hp : ∃ p : Perm, p.bit = i := by
      rcases (by omega : i = 0 ∨ i = 1 ∨ i = 2 ∨ i = 3 ∨ i = 4 ∨ i = 5) with rfl | rfl | rfl | rfl | rfl | rfl
      · exact ⟨.create, rfl⟩
      · exact ⟨.replace, rfl⟩
      · exact ⟨.delete, rfl⟩
      · exact ⟨.append, rfl⟩
      · exact ⟨.unique, rfl⟩
      · exact ⟨.nofail, rfl⟩
    obtain ⟨p, rfl⟩ := hp
    have := h p
    unfold Holds at this
    cases h1 : f.testBit p.bit <;> cases h2 : g.testBit p.bit <;> simp_all
  · have h64 : 64 ≤ 2 ^ i := Nat.pow_le_pow_right (n := 2) (i := 6) (by omega) (by omega)
    rw [Nat.testBit_lt_two_pow (Nat.lt_of_lt_of_le hf h64), Nat.testBit_lt_two_pow (Nat.lt_of_lt_of_le hg h64)]

/-- C09: order and repetition of the words, and the case of ASCII letters, do not matter: two lists
with the same set of lower-cased words give the same result. -/
theorem parse_flags_set (a b : List Str) (ha : a ≠ []) (hb : b ≠ [])
    (hac : ∀ t ∈ a, ',' ∉ t) (hbc : ∀ t ∈ b, ',' ∉ t)
    (h : ∀ w, (∃ t ∈ a, toLower t = w) ↔ ∃ t ∈ b, toLower t = w) :
    SyncFlags.parse (join [','] a) = SyncFlags.parse (join [','] b) := by
  have A := parse_flags_spec (join [','] a)
  have B := parse_flags_spec (join [','] b)
  rw [split_join ha hac] at A
  rw [split_join hb hbc] at B
  have hn : SyncFlags.parse (join [','] a) = none ↔ SyncFlags.parse (join [','] b) = none := by
    rw [A.1, B.1]
    constructor
    · rintro ⟨t, ht, e⟩
      obtain ⟨t', ht', e'⟩ := (h (toLower t)).1 ⟨t, ht, rfl⟩
      exact ⟨t', ht', e' ▸ e⟩
    · rintro ⟨t, ht, e⟩
      obtain ⟨t', ht', e'⟩ := (h (toLower t)).2 ⟨t, ht, rfl⟩
      exact ⟨t', ht', e' ▸ e⟩
  cases hA : SyncFlags.parse (join [','] a) with
  | none => exact (hn.1 hA).symm
  | some f =>
    cases hB : SyncFlags.parse (join [','] b) with
    | none => rw [hn.2 hB] at hA; simp at hA
    | some g =>
      obtain ⟨f1, f2⟩ := A.2 f hA
      obtain ⟨g1, g2⟩ := B.2 g hB
      congr 1
      apply flags_ext f1 g1
      intro p
      rw [f2, g2]
      constructor
      · rintro ⟨t, ht, ps, e, hp⟩
        obtain ⟨t', ht', e'⟩ := (h (toLower t)).1 ⟨t, ht, rfl⟩
        exact ⟨t', ht', ps, e' ▸ e, hp⟩
      · rintro ⟨t, ht, ps, e, hp⟩
        obtain ⟨t', ht', e'⟩ := (h (toLower t)).2 ⟨t, ht, rfl⟩
        exact ⟨t', ht', ps, e' ▸ e, hp⟩

example : SyncFlags.parse "unique,CREATE,unique".toList = SyncFlags.parse "create,unique".toList := by decide

/-- C09: unmarshalling empty text clears the flags, anything else is parsed as a flag list. -/
theorem unmarshal_flags (s : Str) :
    (s = [] → SyncFlags.unmarshalText s = some 0) ∧
    (s ≠ [] → SyncFlags.unmarshalText s = SyncFlags.parse s) := by
  constructor <;> intro h <;> simp [SyncFlags.unmarshalText, h]

/-- C09: the value 0 is never the result of parsing a list, so it stays free to mean "default". -/
theorem parse_flags_ne_zero (s : Str) (f : SyncFlags) (h : SyncFlags.parse s = some f) : f ≠ 0 := by
  intro h0
  subst h0
  obtain ⟨hn, hs⟩ := parse_flags_spec s
  obtain ⟨-, hp⟩ := hs 0 h
  cases hsp : split ',' s with
  | nil => exact split_ne_nil _ _ hsp
  | cons t ts =>
    have ht : t ∈ split ',' s := by rw [hsp]; simp
    cases hm : meaning.lookup (toLower t) with
    | none =>
      rw [hn.2 ⟨t, ht, hm⟩] at h; simp at h
    | some ps =>
      have hne : ∀ q ∈ meaning, q.2 ≠ [] := by decide
      have hmem : (toLower t, ps) ∈ meaning := by
        have := List.lookup_eq_some_iff.1 hm
        obtain ⟨l1, l2, e, -⟩ := this
        rw [e]; simp
      have := hne _ hmem
      cases ps with
      | nil => exact this rfl
      | cons p _ =>
        have := (hp p).2 ⟨t, ht, _, hm, by simp⟩
        simp [Holds] at this

example : SyncFlags.parse "default".toList = some SyncFlags.DEFAULT := by decide

end Xmp.Props
