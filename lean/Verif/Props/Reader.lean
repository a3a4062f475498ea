import Verif.Model.Reader
import Verif.Props.Writer
import Verif.Lemmas.Index
import Mathlib.Tactic.Common

/-! C25: scanning byte streams for packets. -/

namespace Xmp.Props

open GoStr

/-! ### Specification -/

/-- The packets of a byte string: repeatedly the text from the first start marker to six bytes behind the
first end marker following it; of these, the ones with the magic id in their first 51 bytes. -/
def packetsF : Nat → Str → List Str
  | 0, _ => []
  | f + 1, s =>
    match index packetStart s with
    | none => []
    | some i =>
      match index packetEnd (s.drop i) with
      | none => []
      | some j =>
        if (s.drop i).length < j + 19 then []
        else
          let p := (s.drop i).take (j + 19)
          if (index packetMagic (p.take 51)).isSome then p :: packetsF f (s.drop (i + (j + 19)))
          else packetsF f (s.drop (i + (j + 19)))

/-- The packets of a byte string. -/
def packetsOf (s : Str) : List Str := packetsF (s.length + 1) s

/-- What a packet looks like. -/
def IsPacket (p : Str) : Prop :=
  (∃ x y, p = packetStart ++ x ++ packetEnd ++ y ∧ y.length = 6) ∧
  index packetEnd p = some (p.length - 19) ∧
  ∃ a b, p.take 51 = a ++ packetMagic ++ b

/-- The given strings occur in `s`, in order and without overlap. -/
inductive Inside : List Str → Str → Prop where
  | nil (s : Str) : Inside [] s
  | cons (g p s : Str) (ps : List Str) : Inside ps s → Inside (p :: ps) (g ++ p ++ s)

theorem inside_append {ps : List Str} {s : Str} (x : Str) (h : Inside ps s) : Inside ps (x ++ s) := by
  cases h with
  | nil => exact .nil _
  | cons g p s ps h =>
    rw [← List.append_assoc, ← List.append_assoc]
    exact .cons (x ++ g) p s ps h

theorem packetStart_ne : packetStart ≠ [] := by decide
theorem packetEnd_ne : packetEnd ≠ [] := by decide
theorem packetMagic_ne : packetMagic ≠ [] := by decide
theorem packetStart_length : packetStart.length = 15 := by decide
theorem packetEnd_length : packetEnd.length = 13 := by decide

/-! ### Facts about `splitPacket` -/

/-- The token found by `splitPacket`. -/
theorem split_token {data : Str} {b : Bool} {adv off : Nat} {tok : Str}
    (h : splitPacket data b = (adv, some (off, tok))) :
    ∃ j, index packetStart data = some off ∧ index packetEnd (data.drop off) = some j ∧
      adv = off + (j + 19) ∧ adv ≤ data.length ∧ tok = (data.drop off).take (j + 19) := by
  unfold splitPacket at h
  cases hi : index packetStart data with
  | none => rw [hi] at h; simp only at h; split at h <;> simp at h
  | some i =>
    rw [hi] at h
    simp only at h
    cases hj : index packetEnd (data.drop i) with
    | none => rw [hj] at h; simp only at h; split at h <;> simp at h
    | some j =>
      rw [hj] at h
      simp only [packetEnd_length] at h
      split at h
      · split at h <;> simp at h
      · simp only [Prod.mk.injEq, Option.some.injEq] at h
        obtain ⟨h1, h2, h3⟩ := h
        subst h2
        refine ⟨j, rfl, hj, by omega, by omega, ?_⟩
        rw [← h3]
        congr 1
        omega

theorem token_parts {data : Str} {i j : Nat} (hi : index packetStart data = some i)
    (hj : index packetEnd (data.drop i) = some j) (hl : i + (j + 19) ≤ data.length) :
    (∃ x y, (data.drop i).take (j + 19) = packetStart ++ x ++ packetEnd ++ y ∧ y.length = 6) ∧
    ((data.drop i).take (j + 19)).length = j + 19 ∧
    index packetEnd ((data.drop i).take (j + 19)) = some j := by
  obtain ⟨s1, _⟩ := (index_some_iff packetStart_ne).1 hi
  obtain ⟨e1, e2⟩ := (index_some_iff packetEnd_ne).1 hj
  obtain ⟨t, ht⟩ := hasPrefix_iff.1 s1
  obtain ⟨u, hu⟩ := hasPrefix_iff.1 e1
  have hlen : ((data.drop i).take (j + 19)).length = j + 19 := by
    simp only [List.length_take, List.length_drop]; omega
  have hjge : 15 ≤ j := by
    by_contra hlt
    have hlt : j < 15 := by omega
    -- the start marker contains no end marker
    have hget : ∀ m, m < 13 → (packetStart ++ t)[j + m]? = packetEnd[m]? := by
      intro m hm
      rw [← ht, ← List.getElem?_drop, hu, List.getElem?_append_left (by rw [packetEnd_length]; exact hm)]
    have h0 := hget 0 (by omega)
    rw [Nat.add_zero, List.getElem?_append_left (by rw [packetStart_length]; exact hlt)] at h0
    have hz : j = 0 := (by decide : ∀ j < 15, packetStart[j]? = packetEnd[0]? → j = 0) j hlt h0
    subst hz
    have h10 := hget 10 (by omega)
    rw [List.getElem?_append_left (by rw [packetStart_length]; omega)] at h10
    exact absurd h10 (by decide)
  have hdrop : (data.drop i).take (j + 19) = (data.drop i).take j ++ ((data.drop i).drop j).take 19 := by
    rw [List.take_add]
  refine ⟨⟨((data.drop i).take j).drop 15, u.take 6, ?_, ?_⟩, hlen, ?_⟩
  · have h19 : (packetEnd ++ u).take 19 = packetEnd ++ u.take 6 := by
      rw [List.take_append, packetEnd_length, List.take_of_length_le (l := packetEnd) (by rw [packetEnd_length]; omega)]
    rw [hdrop, hu, h19]
    have : packetStart ++ ((data.drop i).take j).drop 15 = (data.drop i).take j := by
      have hp : (data.drop i).take j = ((data.drop i).take j).take 15 ++ ((data.drop i).take j).drop 15 := by
        rw [List.take_append_drop]
      conv_rhs => rw [hp, List.take_take, Nat.min_eq_left hjge, ht]
      have h15 : (packetStart ++ t).take 15 = packetStart := by
        rw [List.take_append_of_le_length (Nat.le_of_eq packetStart_length.symm)]
        exact List.take_of_length_le (Nat.le_of_eq packetStart_length)
      rw [h15, ht]
    rw [this, ← List.append_assoc]
  · have := congrArg List.length hu
    simp only [List.length_drop, List.length_append, packetEnd_length] at this
    simp only [List.length_take]
    omega
  · rw [index_some_iff packetEnd_ne]
    refine ⟨?_, ?_⟩
    · rw [hdrop, List.drop_append_of_le_length (by simp only [List.length_take, List.length_drop]; omega), hu]
      have : ((data.drop i).take j).drop j = [] := List.drop_eq_nil_of_le (by simp only [List.length_take]; omega)
      rw [this, List.nil_append, List.take_append, packetEnd_length,
        List.take_of_length_le (l := packetEnd) (by rw [packetEnd_length]; omega)]
      exact hasPrefix_iff.2 ⟨_, rfl⟩
    · intro k hk
      cases hp : hasPrefix (((data.drop i).take (j + 19)).drop k) packetEnd with
      | false => rfl
      | true =>
        have : hasPrefix ((data.drop i).drop k) packetEnd = true := by
          rw [← List.take_append_drop (j + 19) (data.drop i), List.drop_append_of_le_length (by omega)]
          exact hasPrefix_append_right hp
        rw [e2 k hk] at this
        simp at this

theorem isPacket_token {data : Str} {i j : Nat} (hi : index packetStart data = some i)
    (hj : index packetEnd (data.drop i) = some j) (hl : i + (j + 19) ≤ data.length)
    (hm : isXmpPacket ((data.drop i).take (j + 19)) = true) : IsPacket ((data.drop i).take (j + 19)) := by
  obtain ⟨h1, h2, h3⟩ := token_parts hi hj hl
  refine ⟨h1, ?_, ?_⟩
  · rw [h3, h2]; simp
  · unfold isXmpPacket at hm
    cases hi : index packetMagic (((data.drop i).take (j + 19)).take 51) with
    | none => rw [hi] at hm; simp at hm
    | some k =>
      obtain ⟨g1, _⟩ := (index_some_iff packetMagic_ne).1 hi
      obtain ⟨t, ht⟩ := hasPrefix_iff.1 g1
      refine ⟨(((data.drop i).take (j + 19)).take 51).take k, t, ?_⟩
      rw [List.append_assoc, ← ht, List.take_append_drop]

/-! ### Soundness -/

theorem drain_sound (b : Bool) : ∀ (f : Nat) (st : ScanState) (l : List Str) (st' : ScanState),
    drain b f st = some (l, st') →
    (∀ p ∈ l, IsPacket p) ∧ ∀ rest ms, Inside ms (st'.data ++ rest) → Inside (l ++ ms) (st.data ++ rest) := by
  intro f
  induction f with
  | zero =>
    intro st l st' h
    simp only [drain, Option.some.injEq, Prod.mk.injEq] at h
    obtain ⟨rfl, rfl⟩ := h
    exact ⟨by simp, fun rest ms h => h⟩
  | succ f ih =>
    intro st l st' h
    unfold drain at h
    cases hs : splitPacket st.data b with
    | mk adv t =>
      rw [hs] at h
      cases t with
      | none =>
        simp only [Option.some.injEq, Prod.mk.injEq] at h
        obtain ⟨rfl, rfl⟩ := h
        refine ⟨by simp, fun rest ms hin => ?_⟩
        simp only [List.nil_append] at hin ⊢
        rw [← List.take_append_drop adv st.data, List.append_assoc]
        exact inside_append _ hin
      | some t =>
        obtain ⟨off, tok⟩ := t
        simp only at h
        split at h
        · simp at h
        · obtain ⟨j, h1, h2, h3, h4, h5⟩ := split_token hs
          subst h3
          subst h5
          cases hd : drain b f { st with start := st.start + (off + (j + 19)), data := st.data.drop (off + (j + 19)) } with
          | none => rw [hd] at h; simp at h
          | some r =>
            obtain ⟨l', st''⟩ := r
            rw [hd] at h
            simp only [Option.some.injEq, Prod.mk.injEq] at h
            obtain ⟨hl, rfl⟩ := h
            obtain ⟨i1, i2⟩ := ih _ _ _ hd
            have hsplit : st.data = st.data.take off ++ (st.data.drop off).take (j + 19) ++ st.data.drop (off + (j + 19)) := by
              rw [← List.drop_drop, List.append_assoc, List.take_append_drop, List.take_append_drop]
            subst hl
            split
            · rename_i hm
              refine ⟨?_, ?_⟩
              · intro p hp
                rcases List.mem_cons.1 hp with hp | hp
                · subst hp; exact isPacket_token h1 h2 h4 hm
                · exact i1 p hp
              · intro rest ms hin
                have := i2 rest ms hin
                simp only at this
                have hc := Inside.cons (st.data.take off) ((st.data.drop off).take (j + 19)) _ _ this
                rw [← List.append_assoc, ← hsplit] at hc
                exact hc
            · refine ⟨i1, ?_⟩
              intro rest ms hin
              have := i2 rest ms hin
              simp only at this
              rw [hsplit, List.append_assoc _ _ rest]
              exact inside_append _ this

theorem prepareRead_data {st st' : ScanState} (h : prepareRead st = some st') : st'.data = st.data := by
  unfold prepareRead at h
  simp only at h
  repeat' split at h
  all_goals first
    | (simp only [Option.some.injEq] at h; subst h; rfl)
    | simp at h

theorem scanChunks_sound : ∀ (cs : List Str) (st : ScanState) (ps : List Str), scanChunks st cs = .ok ps →
    (∀ p ∈ ps, IsPacket p) ∧ Inside ps (st.data ++ cs.flatten) := by
  intro cs
  induction cs with
  | nil =>
    intro st ps h
    unfold scanChunks at h
    cases hd : drain true (st.data.length + 1) st with
    | none => rw [hd] at h; simp at h
    | some r =>
      obtain ⟨l, st'⟩ := r
      rw [hd] at h
      simp only [ScanOut.ok.injEq] at h
      subst h
      obtain ⟨h1, h2⟩ := drain_sound _ _ _ _ _ hd
      refine ⟨h1, ?_⟩
      have := h2 [] [] (.nil _)
      simpa using this
  | cons c cs ih =>
    intro st ps h
    unfold scanChunks at h
    cases hd : drain false (st.data.length + 1) st with
    | none => rw [hd] at h; simp at h
    | some r =>
      obtain ⟨l, st1⟩ := r
      rw [hd] at h
      simp only at h
      cases hp : prepareRead st1 with
      | none => rw [hp] at h; simp at h
      | some st2 =>
        rw [hp] at h
        simp only at h
        cases hs : scanChunks { st2 with data := st2.data ++ c } cs with
        | tooLong => rw [hs] at h; simp at h
        | panic => rw [hs] at h; simp at h
        | ok m =>
          rw [hs] at h
          simp only [ScanOut.ok.injEq] at h
          subst h
          obtain ⟨h1, h2⟩ := drain_sound _ _ _ _ _ hd
          obtain ⟨g1, g2⟩ := ih _ _ hs
          refine ⟨?_, ?_⟩
          · intro p hp
            rcases List.mem_append.1 hp with h | h
            · exact h1 p h
            · exact g1 p h
          · rw [List.flatten_cons]
            apply h2
            rw [prepareRead_data hp] at g2
            rw [← List.append_assoc]
            exact g2

/-- C25: however the bytes are delivered, every packet returned is a part of the stream that starts with
the start marker, ends six bytes behind the first end marker and contains the magic id in its first 51
bytes; the packets are in stream order and do not overlap. -/
theorem scan_sound (chunks : List Str) (ps : List Str) (h : scanPackets chunks = .ok ps) :
    (∀ p ∈ ps, IsPacket p) ∧ Inside ps chunks.flatten := by
  have := scanChunks_sound chunks {} ps h
  simpa using this

/-! ### Independence of the reads -/

theorem packetsF_fuel : ∀ (f g : Nat) (s : Str), s.length < f → s.length < g → packetsF f s = packetsF g s := by
  intro f
  induction f with
  | zero => intro g s h; omega
  | succ f ih =>
    intro g s hf hg
    cases g with
    | zero => omega
    | succ g =>
      unfold packetsF
      cases hi : index packetStart s with
      | none => rfl
      | some i =>
        simp only
        cases hj : index packetEnd (s.drop i) with
        | none => rfl
        | some j =>
          simp only
          split
          · rfl
          · rename_i hl
            simp only [List.length_drop] at hl
            rw [ih g (s.drop (i + (j + 19))) (by simp only [List.length_drop]; omega) (by simp only [List.length_drop]; omega)]

theorem packetsOf_drop {s : Str} {k : Nat} (h : ∀ j < k, hasPrefix (s.drop j) packetStart = false) :
    packetsOf s = packetsOf (s.drop k) := by
  have h1 : packetsOf (s.drop k) = packetsF (s.length + 1) (s.drop k) := by
    unfold packetsOf
    exact packetsF_fuel _ _ _ (by omega) (by simp only [List.length_drop]; omega)
  rw [h1]
  unfold packetsOf
  conv_lhs => unfold packetsF
  conv_rhs => unfold packetsF
  rw [index_drop packetStart_ne h]
  cases hi : index packetStart (s.drop k) with
  | none => rfl
  | some i =>
    simp only [Option.map_some]
    have e : s.drop (i + k) = (s.drop k).drop i := by rw [List.drop_drop, Nat.add_comm]
    rw [e]
    have e2 : ∀ j, s.drop (i + k + j) = (s.drop k).drop (i + j) := by
      intro j; rw [List.drop_drop]; congr 1; omega
    simp only [e2]

theorem packetsOf_none {s : Str} (h : index packetStart s = none) : packetsOf s = [] := by
  unfold packetsOf packetsF
  rw [h]

/-- One packet at the front. -/
theorem packetsOf_token {s : Str} {i j : Nat} (hi : index packetStart s = some i)
    (hj : index packetEnd (s.drop i) = some j) (hl : i + (j + 19) ≤ s.length) :
    packetsOf s = (if isXmpPacket ((s.drop i).take (j + 19)) then [(s.drop i).take (j + 19)] else []) ++
      packetsOf (s.drop (i + (j + 19))) := by
  unfold packetsOf
  conv_lhs => unfold packetsF
  rw [hi]
  simp only
  rw [hj]
  simp only
  rw [if_neg (by simp only [List.length_drop]; omega),
    packetsF_fuel s.length ((s.drop (i + (j + 19))).length + 1) _ (by simp only [List.length_drop]; omega) (by omega)]
  unfold isXmpPacket
  split <;> rfl

/-- No occurrence of the start marker straddles the end of `d` in `d ++ fut`. -/
def Uncut (d fut : Str) : Prop :=
  ∀ j, j < d.length → d.length < j + 15 → hasPrefix ((d ++ fut).drop j) packetStart = false

theorem uncut_drop {d fut : Str} (k : Nat) (h : Uncut d fut) : Uncut (d.drop k) fut := by
  intro j h1 h2
  simp only [List.length_drop] at h1 h2
  have := h (k + j) (by omega) (by omega)
  rw [← List.drop_drop, List.drop_append_of_le_length (by omega)] at this
  exact this

theorem drain_complete : ∀ (f : Nat) (st : ScanState) (l : List Str) (st' : ScanState) (fut : Str),
    st.data.length < f → Uncut st.data fut → drain false f st = some (l, st') →
    packetsOf (st.data ++ fut) = l ++ packetsOf (st'.data ++ fut) ∧ ∃ k, st'.data = st.data.drop k := by
  intro f
  induction f with
  | zero => intro st l st' fut h; omega
  | succ f ih =>
    intro st l st' fut hf hu h
    unfold drain at h
    cases hs : splitPacket st.data false with
    | mk adv t =>
      rw [hs] at h
      cases t with
      | none =>
        simp only [Option.some.injEq, Prod.mk.injEq] at h
        obtain ⟨rfl, rfl⟩ := h
        refine ⟨?_, adv, rfl⟩
        simp only [List.nil_append]
        unfold splitPacket at hs
        cases hi : index packetStart st.data with
        | none =>
          rw [hi] at hs
          have hnone := (index_none_iff packetStart_ne).1 hi
          have hadv : adv ≤ st.data.length ∧ (st.data.length ≤ adv ∨ adv + 15 ≤ st.data.length) := by
            simp only [packetStart_length] at hs
            split at hs <;> (simp only [Prod.mk.injEq, and_true] at hs; omega)
          rw [packetsOf_drop (k := adv)]
          · rw [List.drop_append_of_le_length hadv.1]
          · intro j hj
            by_cases hin : j + 15 ≤ st.data.length
            · rw [List.drop_append_of_le_length (by omega)]
              cases hp : hasPrefix (st.data.drop j ++ fut) packetStart with
              | false => rfl
              | true =>
                have := hasPrefix_of_append hp (by rw [packetStart_length]; simp only [List.length_drop]; omega)
                rw [hnone j] at this
                simp at this
            · exact hu j (by omega) (by omega)
        | some i =>
          rw [hi] at hs
          simp only at hs
          cases hj : index packetEnd (st.data.drop i) with
          | none => rw [hj] at hs; simp at hs; rw [← hs]; simp
          | some j =>
            rw [hj] at hs
            simp only [packetEnd_length] at hs
            split at hs
            · simp at hs; rw [← hs]; simp
            · simp at hs
      | some t =>
        obtain ⟨off, tok⟩ := t
        simp only at h
        split at h
        · simp at h
        · obtain ⟨j, h1, h2, h3, h4, h5⟩ := split_token hs
          subst h3
          subst h5
          cases hd : drain false f { st with start := st.start + (off + (j + 19)), data := st.data.drop (off + (j + 19)) } with
          | none => rw [hd] at h; simp at h
          | some r =>
            obtain ⟨l', st''⟩ := r
            rw [hd] at h
            simp only [Option.some.injEq, Prod.mk.injEq] at h
            obtain ⟨hl, rfl⟩ := h
            obtain ⟨i1, k, i2⟩ := ih _ _ _ fut (by simp only [List.length_drop]; omega) (uncut_drop _ hu) hd
            refine ⟨?_, off + (j + 19) + k, ?_⟩
            · have hidx := index_append (f := fut) packetStart_ne h1
              have hend : index packetEnd ((st.data ++ fut).drop off) = some j := by
                rw [List.drop_append_of_le_length (by omega)]
                exact index_append packetEnd_ne h2
              rw [packetsOf_token hidx hend (by simp only [List.length_append]; omega)]
              have htok : ((st.data ++ fut).drop off).take (j + 19) = (st.data.drop off).take (j + 19) := by
                rw [List.drop_append_of_le_length (by omega), List.take_append_of_le_length (by simp only [List.length_drop]; omega)]
              rw [htok, List.drop_append_of_le_length h4, i1, ← hl]
              split
              · rfl
              · rfl
            · rw [i2]; simp only [List.drop_drop]

theorem drain_final : ∀ (f : Nat) (st : ScanState) (l : List Str) (st' : ScanState),
    st.data.length < f → drain true f st = some (l, st') → packetsOf st.data = l := by
  intro f
  induction f with
  | zero => intro st l st' h; omega
  | succ f ih =>
    intro st l st' hf h
    unfold drain at h
    cases hs : splitPacket st.data true with
    | mk adv t =>
      rw [hs] at h
      cases t with
      | none =>
        simp only [Option.some.injEq, Prod.mk.injEq] at h
        obtain ⟨rfl, rfl⟩ := h
        unfold splitPacket at hs
        cases hi : index packetStart st.data with
        | none => exact packetsOf_none hi
        | some i =>
          rw [hi] at hs
          simp only at hs
          unfold packetsOf packetsF
          rw [hi]
          simp only
          cases hj : index packetEnd (st.data.drop i) with
          | none => rfl
          | some j =>
            rw [hj] at hs
            simp only [packetEnd_length] at hs ⊢
            split at hs
            · rename_i hlast
              rw [if_pos (by simp only [List.length_drop]; omega)]
            · simp at hs
      | some t =>
        obtain ⟨off, tok⟩ := t
        simp only at h
        split at h
        · simp at h
        · obtain ⟨j, h1, h2, h3, h4, h5⟩ := split_token hs
          subst h3
          subst h5
          cases hd : drain true f { st with start := st.start + (off + (j + 19)), data := st.data.drop (off + (j + 19)) } with
          | none => rw [hd] at h; simp at h
          | some r =>
            obtain ⟨l', st''⟩ := r
            rw [hd] at h
            simp only [Option.some.injEq, Prod.mk.injEq] at h
            obtain ⟨hl, rfl⟩ := h
            have := ih _ _ _ (by simp only [List.length_drop]; omega) hd
            rw [packetsOf_token h1 h2 h4, this, ← hl]
            split
            · rfl
            · rfl

/-- No start marker of the stream is cut by a boundary between two of the pieces. -/
def NoMarkerCut (d : Str) (cs : List Str) : Prop :=
  ∀ a b, cs = a ++ b → Uncut (d ++ a.flatten) b.flatten

theorem scanChunks_complete : ∀ (cs : List Str) (st : ScanState) (ps : List Str), NoMarkerCut st.data cs →
    scanChunks st cs = .ok ps → ps = packetsOf (st.data ++ cs.flatten) := by
  intro cs
  induction cs with
  | nil =>
    intro st ps _ h
    unfold scanChunks at h
    cases hd : drain true (st.data.length + 1) st with
    | none => rw [hd] at h; simp at h
    | some r =>
      obtain ⟨l, st'⟩ := r
      rw [hd] at h
      simp only [ScanOut.ok.injEq] at h
      subst h
      rw [List.flatten_nil, List.append_nil]
      exact (drain_final _ _ _ _ (by omega) hd).symm
  | cons c cs ih =>
    intro st ps hcut h
    unfold scanChunks at h
    cases hd : drain false (st.data.length + 1) st with
    | none => rw [hd] at h; simp at h
    | some r =>
      obtain ⟨l, st1⟩ := r
      rw [hd] at h
      simp only at h
      cases hp : prepareRead st1 with
      | none => rw [hp] at h; simp at h
      | some st2 =>
        rw [hp] at h
        simp only at h
        cases hs : scanChunks { st2 with data := st2.data ++ c } cs with
        | tooLong => rw [hs] at h; simp at h
        | panic => rw [hs] at h; simp at h
        | ok m =>
          rw [hs] at h
          simp only [ScanOut.ok.injEq] at h
          subst h
          have hu : Uncut st.data (c :: cs).flatten := by
            have := hcut [] (c :: cs) rfl
            simpa using this
          obtain ⟨h1, k, h2⟩ := drain_complete _ _ _ _ (c :: cs).flatten (by omega) hu hd
          have hdata := prepareRead_data hp
          have := ih _ _ (?_) hs
          · rw [h1, this]
            simp only [hdata, List.flatten_cons, List.append_assoc]
          · intro a b hab
            have hc := hcut (c :: a) b (by rw [hab]; rfl)
            simp only [hdata, h2]
            by_cases hk : k ≤ st.data.length
            · have := uncut_drop k hc
              rw [List.drop_append_of_le_length hk] at this
              simpa using this
            · rw [List.drop_eq_nil_of_le (by omega)]
              have := uncut_drop st.data.length hc
              rw [List.drop_append_of_le_length (Nat.le_refl _), List.drop_eq_nil_of_le (Nat.le_refl _)] at this
              simpa using this

/-- C25: if no start marker is cut by a boundary between two reads, the packets found are exactly the
packets of the whole stream - unless scanning fails because a packet does not fit into the scanner. -/
theorem scan_complete_partial (chunks : List Str) (ps : List Str) (hcut : NoMarkerCut [] chunks)
    (h : scanPackets chunks = .ok ps) : ps = packetsOf chunks.flatten := by
  have := scanChunks_complete chunks {} ps hcut h
  simpa using this

/-- C25: so two deliveries of the same bytes that do not cut a start marker give the same packets. -/
theorem scan_independent_partial (a b : List Str) (ps qs : List Str) (hab : a.flatten = b.flatten)
    (ha : NoMarkerCut [] a) (hb : NoMarkerCut [] b) (h1 : scanPackets a = .ok ps) (h2 : scanPackets b = .ok qs) :
    ps = qs := by
  rw [scan_complete_partial a ps ha h1, scan_complete_partial b qs hb h2, hab]

/-- C25: in particular if all bytes arrive in one read. -/
theorem scan_one_read (s : Str) (ps : List Str) (h : scanPackets [s] = .ok ps) : ps = packetsOf s := by
  have hcut : NoMarkerCut [] [s] := by
    intro a b hab j h1 h2
    cases a with
    | nil => simp at h1
    | cons x a =>
      have hb : b.flatten = [] ∧ a.flatten = [] ∧ x = s := by
        simp only [List.cons_append, List.cons.injEq] at hab
        obtain ⟨hx, hab⟩ := hab
        have := List.append_eq_nil_iff.1 hab.symm
        rw [this.1, this.2]; simp [hx]
      obtain ⟨hb1, hb2, hx⟩ := hb
      rw [hb1, List.append_nil]
      cases hp : hasPrefix (List.drop j ([] ++ (x :: a).flatten)) packetStart with
      | false => rfl
      | true =>
        have := hasPrefix_length hp
        rw [packetStart_length] at this
        simp only [List.length_drop] at this
        omega
  have := scan_complete_partial [s] ps hcut h
  simpa using this

/-- A small packet. -/
def samplePacket : Str := "<?xpacket begin=\"\" id=\"W5M0MpCehiHzreSzNTczkc9d\"?><x/><?xpacket end=\"w\"?>".toList

example : scanPackets [samplePacket ++ "..".toList ++ samplePacket] = .ok [samplePacket, samplePacket] := by decide +kernel

example : packetsOf (samplePacket ++ "..".toList ++ samplePacket) = [samplePacket, samplePacket] := by decide +kernel

/-! ### Where the property fails -/

/-- A reader that delivers single bytes: no packet is ever found. -/
theorem one_byte_reads_find_nothing (s : Str) : scanPackets (s.map (fun c => [c])) = .ok [] := by
  have hsplit : ∀ (d : Str) (b : Bool), d.length ≤ 1 → splitPacket d b = (d.length, none) := by
    intro d b hd
    unfold splitPacket
    have : index packetStart d = none := by
      cases hi : index packetStart d with
      | none => rfl
      | some i => have := index_le packetStart_ne hi; rw [packetStart_length] at this; omega
    rw [this]
    simp only [packetStart_length]
    rw [if_neg (by omega)]
  have key : ∀ (s : Str) (st : ScanState), st.data.length ≤ 1 → st.start + st.data.length ≤ st.bufLen →
      st.bufLen = 0 ∨ st.bufLen = 4096 →
      scanChunks st (s.map (fun c => [c])) = .ok [] := by
    intro s
    induction s with
    | nil =>
      intro st h1 _ _
      simp only [List.map_nil, scanChunks, drain, hsplit _ _ h1]
    | cons c s ih =>
      intro st h1 h2 h3
      simp only [List.map_cons, scanChunks, drain, hsplit _ _ h1]
      have hprep : ∃ st2, prepareRead { st with start := st.start + st.data.length, data := st.data.drop st.data.length } = some st2 ∧
          st2.data = [] ∧ st2.start + 1 ≤ st2.bufLen ∧ st2.bufLen = 4096 := by
        unfold prepareRead
        simp only [List.drop_length, List.length_nil, Nat.add_zero]
        by_cases hs : st.start + st.data.length > 0 ∧
            (st.start + st.data.length = st.bufLen ∨ st.start + st.data.length > st.bufLen / 2)
        · simp only [hs, and_self, if_true]
          have hb : st.bufLen = 4096 := by omega
          rw [if_neg (by simp [hb])]
          exact ⟨_, rfl, rfl, by simp [hb], hb⟩
        · simp only [hs, if_false]
          rcases h3 with h3 | h3
          · rw [if_pos (by simp only [List.length_nil]; omega), if_neg (by rw [h3]; decide)]
            refine ⟨_, rfl, rfl, ?_, ?_⟩
            · simp [h3, maxTokenSize]
            · simp [h3, maxTokenSize]
          · rw [if_neg (by simp only [List.length_nil]; omega)]
            exact ⟨_, rfl, rfl, by simp only; omega, h3⟩
      obtain ⟨st2, e1, e2, e3, e4⟩ := hprep
      rw [e1]
      simp only
      rw [ih { st2 with data := st2.data ++ [c] } (by simp [e2]) (by simp [e2]; omega) (Or.inr e4)]
      rfl
  exact key s {} (by simp) (by simp) (Or.inl rfl)

/-- The same bytes in one read or byte by byte: one packet or none (which `ScanPackets` reports as end of
file).  So the result depends on how the bytes are delivered. -/
theorem scan_depends_on_reads :
    scanPackets [samplePacket] = .ok [samplePacket] ∧
    scanPackets (samplePacket.map (fun c => [c])) = .ok [] ∧
    (samplePacket.map (fun c => [c])).flatten = [samplePacket].flatten := by
  refine ⟨by decide +kernel, one_byte_reads_find_nothing _, by decide +kernel⟩

/-- Also with large reads: a second packet is lost if a read ends inside its start marker. -/
theorem scan_loses_second_packet :
    scanPackets [samplePacket ++ "<?xp".toList, "acket begin=\"\" id=\"W5M0MpCehiHzreSzNTczkc9d\"?><x/><?xpacket end=\"w\"?>".toList] =
      .ok [samplePacket] ∧
    packetsOf (samplePacket ++ samplePacket) = [samplePacket, samplePacket] := by
  constructor <;> decide +kernel

/-- Bytes behind a short token never make it a packet, so looking at them does not matter. -/
theorem short_token_rejected {data : Str} {b : Bool} {adv off : Nat} {tok : Str} (tail : Str)
    (h : splitPacket data b = (adv, some (off, tok))) (hs : tok.length < 51) :
    index packetMagic ((tok ++ tail).take 51) = none := by
  obtain ⟨j, h1, h2, h3, h4, h5⟩ := split_token h
  subst h3
  obtain ⟨⟨x, y, hx, hy⟩, hlen, _⟩ := token_parts h1 h2 h4
  rw [h5] at hs
  rw [hlen] at hs
  rw [h5, hx]
  have hlx : x.length = j - 15 := by
    have := congrArg List.length hx
    rw [hlen] at this
    simp only [List.length_append, packetStart_length, packetEnd_length, hy] at this
    omega
  rw [index_none_iff packetMagic_ne]
  intro k
  cases hp : hasPrefix (List.drop k ((packetStart ++ x ++ packetEnd ++ y ++ tail).take 51)) packetMagic with
  | false => rfl
  | true =>
    exfalso
    -- the magic id has 24 letters and digits
    obtain ⟨t, ht⟩ := hasPrefix_iff.1 hp
    have hlenk := hasPrefix_length hp
    simp only [List.length_drop, List.length_take] at hlenk
    have hmag : packetMagic.length = 24 := by decide
    rw [hmag] at hlenk
    -- position 15 + |x| holds the first byte of the end marker
    have hk : k ≤ 27 := by omega
    have hget : ∀ m, m < 24 → ((packetStart ++ x ++ packetEnd ++ y ++ tail).take 51)[k + m]? = packetMagic[m]? := by
      intro m hm
      rw [← List.getElem?_drop, ht, List.getElem?_append_left (by rw [hmag]; exact hm)]
    have hlt : ∀ m, m < 24 → packetMagic[m]? ≠ some '<' ∧ packetMagic[m]? ≠ some ' ' := by decide
    -- the position of '<' of the end marker lies in the range of the magic id, or the space does
    have hpos : ∀ q, q < 51 → (packetStart ++ x ++ packetEnd ++ y ++ tail)[q]? =
        ((packetStart ++ x ++ packetEnd ++ y ++ tail).take 51)[q]? := by
      intro q hq
      rw [List.getElem?_take, if_pos hq]
    have hend : ∀ m, m < 13 → (packetStart ++ x ++ packetEnd ++ y ++ tail)[15 + x.length + m]? = packetEnd[m]? := by
      intro m hm
      have e : packetStart ++ x ++ packetEnd ++ y ++ tail = (packetStart ++ x) ++ (packetEnd ++ (y ++ tail)) := by
        simp only [List.append_assoc]
      have hl : (packetStart ++ x).length = 15 + x.length := by rw [List.length_append, packetStart_length]
      rw [e, List.getElem?_append_right (by omega), hl, List.getElem?_append_left (by rw [packetEnd_length]; omega)]
      congr 1
      omega
    have hsp0 : (packetStart ++ x ++ packetEnd ++ y ++ tail)[9]? = some ' ' := by
      have e : packetStart ++ x ++ packetEnd ++ y ++ tail = packetStart ++ (x ++ packetEnd ++ y ++ tail) := by
        simp only [List.append_assoc]
      rw [e, List.getElem?_append_left (by rw [packetStart_length]; omega)]
      rfl
    have no : ∀ q, q < 51 → k ≤ q → q < k + 24 →
        (packetStart ++ x ++ packetEnd ++ y ++ tail)[q]? = packetMagic[q - k]? := by
      intro q hq1 hq2 hq3
      rw [hpos q hq1]
      have := hget (q - k) (by omega)
      rwa [show k + (q - k) = q by omega] at this
    by_cases c1 : k ≤ 9
    · have := no 9 (by omega) c1 (by omega)
      rw [hsp0] at this
      exact (hlt (9 - k) (by omega)).2 this.symm
    · by_cases c2 : k ≤ 15 + x.length
      · have := no (15 + x.length + 0) (by omega) (by omega) (by omega)
        rw [hend 0 (by omega)] at this
        exact (hlt (15 + x.length + 0 - k) (by omega)).1 this.symm
      · have := no k (by omega) (by omega) (by omega)
        have hk2 : k = 15 + x.length + (k - (15 + x.length)) := by omega
        rw [Nat.sub_self] at this
        have h3 := hend (k - (15 + x.length)) (by omega)
        rw [← hk2, this] at h3
        exact (by decide : ∀ m < 13, packetMagic[0]? ≠ packetEnd[m]?) (k - (15 + x.length)) (by omega) h3

example : splitPacket "<?xpacket begin<?xpacket end=\"w\"?>".toList false =
    (34, some (0, "<?xpacket begin<?xpacket end=\"w\"?>".toList)) := by decide +kernel

/-- A short token at the end of the buffer makes scanning panic. -/
theorem short_token_panics :
    scanPackets [List.replicate 4062 'x' ++ "<?xpacket begin<?xpacket end=\"w\"?>".toList] = .panic ∧
    Deliverable {} [List.replicate 4062 'x' ++ "<?xpacket begin<?xpacket end=\"w\"?>".toList] = true := by
  constructor <;> decide +kernel

/-! ### Packets written by the encoder -/

theorem hasPrefix_get {s sub : Str} {j : Nat} (h : hasPrefix (s.drop j) sub = true) (m : Nat) (hm : m < sub.length) :
    s[j + m]? = sub[m]? := by
  obtain ⟨t, ht⟩ := hasPrefix_iff.1 h
  rw [← List.getElem?_drop, ht, List.getElem?_append_left hm]

/-- The first end marker of an encoded packet is the one of its footer. -/
theorem encoded_end (body pad t : Str) (hb : index packetEnd body = none) (hpad : ∀ c ∈ pad, c = ' ' ∨ c = '\n') :
    index packetEnd (packetHeader ++ body ++ pad ++ packetFooter ++ t) = some (51 + body.length + pad.length + 1) := by
  have hhead : packetHeader.length = 51 := header_length
  have hfoot : packetFooter = '\n' :: (packetEnd ++ "=\"w\"?>".toList) := by decide
  have hl51 : (packetHeader ++ body).length = 51 + body.length := by rw [List.length_append, hhead]
  -- the characters at each position
  have gH : ∀ q, q < 51 → (packetHeader ++ body ++ pad ++ packetFooter ++ t)[q]? = packetHeader[q]? := by
    intro q hq
    simp only [List.append_assoc]
    rw [List.getElem?_append_left (by omega)]
  have gW : ∀ q, 51 + body.length ≤ q → q < 51 + body.length + pad.length + 1 →
      (packetHeader ++ body ++ pad ++ packetFooter ++ t)[q]? = some ' ' ∨
      (packetHeader ++ body ++ pad ++ packetFooter ++ t)[q]? = some '\n' := by
    intro q h1 h2
    have e : packetHeader ++ body ++ pad ++ packetFooter ++ t =
        (packetHeader ++ body) ++ ((pad ++ ['\n']) ++ (packetEnd ++ "=\"w\"?>".toList ++ t)) := by
      rw [hfoot]; simp only [List.append_assoc, List.cons_append, List.nil_append]
    rw [e, List.getElem?_append_right (by omega), List.getElem?_append_left (by
      simp only [hl51, List.length_append, List.length_singleton]; omega)]
    have hlt : q - (packetHeader ++ body).length < (pad ++ ['\n']).length := by
      simp only [hl51, List.length_append, List.length_singleton]; omega
    rw [List.getElem?_eq_getElem hlt]
    have hmem := List.getElem_mem hlt
    rcases List.mem_append.1 hmem with h | h
    · rcases hpad _ h with h | h
      · left; rw [h]
      · right; rw [h]
    · right; rw [List.mem_singleton.1 h]
  rw [index_some_iff packetEnd_ne]
  constructor
  · have e : packetHeader ++ body ++ pad ++ packetFooter ++ t =
        (packetHeader ++ body ++ pad ++ ['\n']) ++ (packetEnd ++ ("=\"w\"?>".toList ++ t)) := by
      rw [hfoot]; simp only [List.append_assoc, List.cons_append, List.nil_append]
    have el : 51 + body.length + pad.length + 1 = (packetHeader ++ body ++ pad ++ ['\n']).length := by
      simp only [List.length_append, hhead, List.length_singleton]
    rw [e, el, List.drop_left]
    exact hasPrefix_iff.2 ⟨_, rfl⟩
  · intro j hj
    cases hp : hasPrefix ((packetHeader ++ body ++ pad ++ packetFooter ++ t).drop j) packetEnd with
    | false => rfl
    | true =>
      exfalso
      have hg := hasPrefix_get hp
      simp only [packetEnd_length] at hg
      by_cases c1 : j < 51
      · -- in the header: the only '<' is its first byte
        have h0 := hg 0 (by omega)
        rw [Nat.add_zero, gH j c1] at h0
        have hj0 : j = 0 := (by decide : ∀ j < 51, packetHeader[j]? = packetEnd[0]? → j = 0) j c1 h0
        subst hj0
        have h10 := hg 10 (by omega)
        rw [gH _ (by omega)] at h10
        exact absurd h10 (by decide)
      · by_cases c2 : 51 + body.length ≤ j
        · -- in the padding
          have h0 := hg 0 (by omega)
          rw [Nat.add_zero] at h0
          rcases gW j c2 hj with h | h <;> (rw [h] at h0; exact absurd h0 (by decide))
        · by_cases c3 : j + 13 ≤ 51 + body.length
          · -- inside the document
            have hnone := (index_none_iff packetEnd_ne).1 hb (j - 51)
            have e : (packetHeader ++ body ++ pad ++ packetFooter ++ t).drop j =
                body.drop (j - 51) ++ (pad ++ packetFooter ++ t) := by
              have e1 : packetHeader ++ body ++ pad ++ packetFooter ++ t =
                  packetHeader ++ (body ++ (pad ++ packetFooter ++ t)) := by simp only [List.append_assoc]
              rw [e1, List.drop_append, hhead, List.drop_eq_nil_of_le (by omega), List.nil_append,
                List.drop_append_of_le_length (by omega)]
            rw [e] at hp
            have := hasPrefix_of_append hp (by rw [packetEnd_length]; simp only [List.length_drop]; omega)
            rw [hnone] at this
            simp at this
          · -- across the end of the document: a blank inside the marker
            have hm := hg (51 + body.length - j) (by omega)
            rw [show j + (51 + body.length - j) = 51 + body.length by omega] at hm
            have hnine : 51 + body.length - j = 9 ∧ (packetHeader ++ body ++ pad ++ packetFooter ++ t)[51 + body.length]? = some ' ' := by
              rcases gW (51 + body.length) (by omega) (by omega) with h | h
              · rw [h] at hm
                exact ⟨(by decide : ∀ m < 13, some ' ' = packetEnd[m]? → m = 9) _ (by omega) hm, h⟩
              · rw [h] at hm
                exact absurd hm ((by decide : ∀ m < 13, some '\n' ≠ packetEnd[m]?) _ (by omega))
            have hpne : 0 < pad.length := by
              rcases Nat.eq_zero_or_pos pad.length with h0 | h0
              · exfalso
                have : pad = [] := List.length_eq_zero_iff.1 h0
                have h2 := hnine.2
                rw [this, List.append_nil, hfoot, List.append_assoc,
                  List.getElem?_append_right (by omega), hl51] at h2
                simp at h2
              · exact h0
            have h10 := hg 10 (by omega)
            rw [show j + 10 = 51 + body.length + 1 by omega] at h10
            rcases gW (51 + body.length + 1) (by omega) (by omega) with h | h <;>
              (rw [h] at h10; exact absurd h10 (by decide))

/-- C25: a packet as written by the encoder, followed by any bytes, is found - whole - by the scanner's
specification, if the document does not itself contain an end marker. -/
theorem packetsOf_encoded (body pad t : Str) (hb : index packetEnd body = none) (hpad : ∀ c ∈ pad, c = ' ' ∨ c = '\n') :
    packetsOf (packetHeader ++ body ++ pad ++ packetFooter ++ t) =
      (packetHeader ++ body ++ pad ++ packetFooter) :: packetsOf t := by
  have hlen : (packetHeader ++ body ++ pad ++ packetFooter).length = 51 + body.length + pad.length + 20 := by
    simp only [List.length_append, header_length, footer_length]
  have hs : index packetStart (packetHeader ++ body ++ pad ++ packetFooter ++ t) = some 0 := by
    rw [index_some_iff packetStart_ne]
    refine ⟨?_, by intro j hj; omega⟩
    have : hasPrefix packetHeader packetStart = true := by decide
    simp only [List.append_assoc, List.drop_zero]
    exact hasPrefix_append_right this
  have he := encoded_end body pad t hb hpad
  have hl : 0 + (51 + body.length + pad.length + 1 + 19) ≤ (packetHeader ++ body ++ pad ++ packetFooter ++ t).length := by
    rw [List.length_append, hlen]; omega
  rw [packetsOf_token hs (by rw [List.drop_zero]; exact he) hl]
  rw [List.drop_zero, Nat.zero_add]
  have e1 : 51 + body.length + pad.length + 1 + 19 = (packetHeader ++ body ++ pad ++ packetFooter).length := by omega
  rw [e1, List.take_left, List.drop_left]
  have hm : isXmpPacket (packetHeader ++ body ++ pad ++ packetFooter) = true := by
    unfold isXmpPacket
    have : (packetHeader ++ body ++ pad ++ packetFooter).take 51 = packetHeader := by
      simp only [List.append_assoc]
      rw [show 51 = packetHeader.length from header_length.symm, List.take_left]
    rw [this]
    decide
  rw [if_pos hm]
  rfl

/-- C25: what the encoder writes is what the scanner returns: whenever encoding with packet and padding
succeeds, and the document contains no end marker, every delivery of the bytes that does not cut a start
marker either fails or returns exactly the encoded packet. -/
theorem scan_encoded_partial (limit : Int) (hl : limit > 0) (flags : Nat) (hp : flags &&& xpacket ≠ 0)
    (hpad : flags &&& xpadding ≠ 0) (body : List Str) (hne : ∀ b ∈ body, b ≠ [])
    (hb : index packetEnd body.flatten = none)
    (hok : (encodeOut flags body { limit := limit }).1 = none)
    (chunks : List Str) (hc : chunks.flatten = (encodeOut flags body { limit := limit }).2.w.out)
    (hcut : NoMarkerCut [] chunks) (ps : List Str) (h : scanPackets chunks = .ok ps) :
    ps = [(encodeOut flags body { limit := limit }).2.w.out] := by
  obtain ⟨_, h2, _⟩ := padded_packet limit hl flags hp hpad body hne
  obtain ⟨_, pad, ho, hws⟩ := h2 hok
  rw [scan_complete_partial chunks ps hcut h, hc, ho]
  have := packetsOf_encoded body.flatten pad [] hb hws
  rw [List.append_nil] at this
  rw [this]
  rfl

example : scanPackets [(encodeOut 3 ["<a/>".toList] { limit := 200 }).2.w.out] =
    .ok [(encodeOut 3 ["<a/>".toList] { limit := 200 }).2.w.out] := by decide +kernel

/-! ### Packets over 64 KB -/

theorem drain_waits {d : Str} (f start bufLen : Nat) (hs : index packetStart d = some 0) (he : index packetEnd d = none) :
    drain false (f + 1) ⟨bufLen, start, d⟩ = some ([], ⟨bufLen, start, d⟩) := by
  have : splitPacket d false = (0, none) := by
    unfold splitPacket
    rw [hs]
    simp only [List.drop_zero, he]
    simp
  simp only [drain, this, List.drop_zero, Nat.add_zero]

theorem prepareRead_zero (bufLen : Nat) (d : Str) : prepareRead ⟨bufLen, 0, d⟩ =
    if d.length = bufLen then
      (if bufLen ≥ maxTokenSize then none
       else some ⟨if (if bufLen * 2 = 0 then 4096 else bufLen * 2) > maxTokenSize then maxTokenSize
          else (if bufLen * 2 = 0 then 4096 else bufLen * 2), 0, d⟩)
    else some ⟨bufLen, 0, d⟩ := by
  simp [prepareRead]

theorem too_long_aux (s : Str) (hlong : maxTokenSize < s.length) (he : index packetEnd (s.take maxTokenSize) = none)
    (hst : hasPrefix s packetStart = true) :
    ∀ (cs : List Str) (d : Str) (bufLen : Nat), 15 ≤ d.length → d ++ cs.flatten = s → d.length ≤ bufLen →
      bufLen ≤ maxTokenSize → Deliverable ⟨bufLen, 0, d⟩ cs = true → scanChunks ⟨bufLen, 0, d⟩ cs = .tooLong := by
  intro cs
  induction cs with
  | nil =>
    intro d bufLen h1 h2 h3 h4 _
    rw [List.flatten_nil, List.append_nil] at h2
    subst h2
    omega
  | cons c cs ih =>
    intro d bufLen h1 h2 h3 h4 hdel
    have hs : index packetStart d = some 0 := by
      rw [index_some_iff packetStart_ne]
      refine ⟨?_, by intro j hj; omega⟩
      rw [← h2] at hst
      rw [List.drop_zero]
      exact hasPrefix_of_append hst (by rw [packetStart_length]; exact h1)
    have hend : index packetEnd d = none := by
      cases hi : index packetEnd d with
      | none => rfl
      | some i =>
        have htake : s.take maxTokenSize = d ++ (c :: cs).flatten.take (maxTokenSize - d.length) := by
          rw [← h2, List.take_append, List.take_of_length_le (by omega)]
        rw [htake, index_append packetEnd_ne hi] at he
        simp at he
    have hdr := drain_waits d.length 0 bufLen hs hend
    have hpr := prepareRead_zero bufLen d
    unfold Deliverable at hdel
    unfold scanChunks
    simp only [hdr] at hdel ⊢
    rw [hpr] at hdel ⊢
    by_cases hfull : d.length = bufLen
    · rw [if_pos hfull] at hdel ⊢
      by_cases hmax : bufLen ≥ maxTokenSize
      · rw [if_pos hmax]
      · rw [if_neg hmax] at hdel ⊢
        simp only [Bool.and_eq_true, decide_eq_true_eq, Nat.zero_add] at hdel ⊢
        obtain ⟨⟨_, hfit⟩, hdel⟩ := hdel
        rw [ih (d ++ c) _ (by simp only [List.length_append]; omega) (by
          rw [← h2]; simp only [List.flatten_cons, List.append_assoc]) (by
          simp only [List.length_append]; exact hfit) (by
          generalize (if bufLen * 2 = 0 then 4096 else bufLen * 2) = z
          split <;> omega) hdel]
    · rw [if_neg hfull] at hdel ⊢
      simp only [Bool.and_eq_true, decide_eq_true_eq, Nat.zero_add] at hdel ⊢
      obtain ⟨⟨_, hfit⟩, hdel⟩ := hdel
      rw [ih (d ++ c) _ (by simp only [List.length_append]; omega) (by
        rw [← h2]; simp only [List.flatten_cons, List.append_assoc]) (by
        simp only [List.length_append]; exact hfit) h4 hdel]

/-- C25: a stream whose first 65536 bytes open a packet without closing it can not be scanned, however it
is delivered (if the first read brings the start marker): the scanner reports `bufio.ErrTooLong`, also if
the packet is well-formed. -/
theorem large_packet_too_long (reads : List Str) (hc : ∀ c ∈ reads.head?, 15 ≤ c.length)
    (hdel : Deliverable {} reads = true) (hlong : 65536 < reads.flatten.length)
    (hst : hasPrefix reads.flatten packetStart = true)
    (he : index packetEnd (reads.flatten.take 65536) = none) :
    scanPackets reads = .tooLong := by
  cases reads with
  | nil => simp at hlong
  | cons c cs =>
    have hdr : drain false 1 {} = some ([], {}) := by rfl
    have hpr : prepareRead {} = some ⟨4096, 0, []⟩ := by rfl
    unfold Deliverable at hdel
    unfold scanPackets scanChunks
    have hl : (({} : ScanState).data.length + 1) = 1 := rfl
    rw [hl, hdr] at hdel ⊢
    simp only [hpr, Bool.and_eq_true, decide_eq_true_eq, List.nil_append, List.length_nil, Nat.add_zero, Nat.zero_add] at hdel ⊢
    obtain ⟨⟨_, hfit⟩, hdel⟩ := hdel
    rw [too_long_aux (c :: cs).flatten hlong he hst cs c 4096 (hc c rfl) (by rw [List.flatten_cons]) hfit (by decide) hdel]

/-- Such a delivery: the pieces fill the growing buffer. -/
def largeReads : List Str :=
  [packetStart ++ List.replicate 4081 'x', List.replicate 4096 'x', List.replicate 8192 'x', List.replicate 16384 'x',
   List.replicate 32768 'x', "x<?xpacket end=\"w\"?>".toList]

theorem open_no_end (n : Nat) : index packetEnd (packetStart ++ List.replicate n 'x') = none := by
  rw [index_none_iff packetEnd_ne]
  intro j
  cases hp : hasPrefix ((packetStart ++ List.replicate n 'x').drop j) packetEnd with
  | false => rfl
  | true =>
    exfalso
    have hg := hasPrefix_get hp
    have h0 := hg 0 (by decide)
    have h10 := hg 10 (by decide)
    rw [Nat.add_zero] at h0
    by_cases hj : j < 15
    · rw [List.getElem?_append_left (by rw [packetStart_length]; exact hj)] at h0
      have hj0 : j = 0 := (by decide : ∀ j < 15, packetStart[j]? = packetEnd[0]? → j = 0) j hj h0
      subst hj0
      rw [List.getElem?_append_left (by decide)] at h10
      exact absurd h10 (by decide)
    · rw [List.getElem?_append_right (by rw [packetStart_length]; omega)] at h0
      obtain ⟨hlt, hget⟩ := List.getElem?_eq_some_iff.1 (h0.trans (show packetEnd[0]? = some '<' from rfl))
      rw [List.getElem_replicate] at hget
      exact absurd hget (by decide)

theorem open_start (n : Nat) : index packetStart (packetStart ++ List.replicate n 'x') = some 0 := by
  rw [index_some_iff packetStart_ne]
  refine ⟨?_, by intro j hj; omega⟩
  rw [List.drop_zero]
  exact hasPrefix_iff.2 ⟨_, rfl⟩

theorem deliver_full (b b2 n n2 : Nat) (cs : List Str) (hn : n + 15 = b) (hn2 : n2 = n + b) (hb2 : b2 = b * 2) (hmax : b2 ≤ 65536)
    (h : Deliverable ⟨b2, 0, packetStart ++ List.replicate n2 'x'⟩ cs = true) :
    Deliverable ⟨b, 0, packetStart ++ List.replicate n 'x'⟩ (List.replicate b 'x' :: cs) = true := by
  have hlen : (packetStart ++ List.replicate n 'x').length = b := by
    rw [List.length_append, packetStart_length, List.length_replicate]; omega
  have hpr : prepareRead ⟨b, 0, packetStart ++ List.replicate n 'x'⟩ =
      some ⟨b2, 0, packetStart ++ List.replicate n 'x'⟩ := by
    have hm : maxTokenSize = 65536 := rfl
    rw [prepareRead_zero, if_pos hlen, if_neg (by rw [hm]; omega), if_neg (c := b * 2 = 0) (by omega),
      if_neg (by rw [hm]; omega), hb2]
  unfold Deliverable
  simp only
  rw [drain_waits _ _ _ (open_start _) (open_no_end _)]
  simp only [hpr, Bool.and_eq_true, decide_eq_true_eq]
  refine ⟨⟨?_, ?_⟩, ?_⟩
  · intro h0
    have := congrArg List.length h0
    rw [List.length_replicate, List.length_nil] at this
    omega
  · rw [hlen, List.length_replicate]; omega
  · rw [List.append_assoc, List.replicate_append_replicate, ← hn2]
    exact h

theorem deliver_first (n : Nat) (cs : List Str) (hn : n + 15 = 4096)
    (h : Deliverable ⟨4096, 0, packetStart ++ List.replicate n 'x'⟩ cs = true) :
    Deliverable {} ((packetStart ++ List.replicate n 'x') :: cs) = true := by
  unfold Deliverable
  have hdr : drain false (({} : ScanState).data.length + 1) {} = some ([], {}) := by rfl
  have hpr : prepareRead {} = some ⟨4096, 0, []⟩ := by rfl
  simp only [hdr, hpr, List.nil_append, Bool.and_eq_true, decide_eq_true_eq]
  refine ⟨⟨?_, ?_⟩, h⟩
  · intro h; exact absurd (List.append_eq_nil_iff.1 h).1 packetStart_ne
  · rw [List.length_append, packetStart_length, List.length_replicate, List.length_nil]
    omega

theorem deliver_last (b n : Nat) (c : Str) (cs : List Str) (hn : n + 15 = b) (hb : b = maxTokenSize) :
    Deliverable ⟨b, 0, packetStart ++ List.replicate n 'x'⟩ (c :: cs) = true := by
  unfold Deliverable
  simp only
  rw [drain_waits _ _ _ (open_start _) (open_no_end _)]
  have hl : (packetStart ++ List.replicate n 'x').length = b := by
    rw [List.length_append, packetStart_length, List.length_replicate]; omega
  have : prepareRead ⟨b, 0, packetStart ++ List.replicate n 'x'⟩ = none := by
    rw [prepareRead_zero, if_pos hl, if_pos (by omega)]
  simp only [this]

theorem flatten_reads (p z : Str) (a b c d e n : Nat) (h : n = a + (b + (c + (d + e)))) :
    [p ++ List.replicate a 'x', List.replicate b 'x', List.replicate c 'x', List.replicate d 'x', List.replicate e 'x', z].flatten =
      (p ++ List.replicate n 'x') ++ z := by
  subst h
  simp only [List.flatten_cons, List.flatten_nil, List.append_nil, List.append_assoc, ← List.replicate_append_replicate]

theorem large_reads_aux (reads : List Str) (n : Nat) (z : Str) (hz : z ≠ []) (hn : n + 15 = 65536)
    (hc : ∀ c ∈ reads.head?, 15 ≤ c.length) (hdel : Deliverable {} reads = true)
    (hflat : reads.flatten = (packetStart ++ List.replicate n 'x') ++ z) : scanPackets reads = .tooLong := by
  have hl : (packetStart ++ List.replicate n 'x').length = 65536 := by
    rw [List.length_append, packetStart_length, List.length_replicate]; omega
  refine large_packet_too_long reads hc hdel ?_ ?_ ?_
  · rw [hflat, List.length_append, hl]
    exact Nat.lt_add_of_pos_right (List.length_pos_iff.2 hz)
  · rw [hflat, List.append_assoc]
    exact hasPrefix_iff.2 ⟨_, rfl⟩
  · have : reads.flatten.take 65536 = packetStart ++ List.replicate n 'x' := by
      rw [hflat, ← hl, List.take_left]
    rw [this]
    exact open_no_end _

theorem largeReads_deliverable : Deliverable {} largeReads = true := by
  unfold largeReads
  refine deliver_first 4081 _ rfl ?_
  refine deliver_full 4096 8192 4081 8177 _ rfl rfl rfl (by decide) ?_
  refine deliver_full 8192 16384 8177 16369 _ rfl rfl rfl (by decide) ?_
  refine deliver_full 16384 32768 16369 32753 _ rfl rfl rfl (by decide) ?_
  refine deliver_full 32768 65536 32753 65521 _ rfl rfl rfl (by decide) ?_
  exact deliver_last 65536 65521 _ _ rfl rfl

theorem largeReads_flatten :
    largeReads.flatten = (packetStart ++ List.replicate 65521 'x') ++ "x<?xpacket end=\"w\"?>".toList := by
  unfold largeReads
  exact flatten_reads packetStart _ 4081 4096 8192 16384 32768 65521 rfl

theorem largeReads_head : ∀ c ∈ largeReads.head?, 15 ≤ c.length := by
  intro c hc
  unfold largeReads at hc
  rw [List.head?_cons] at hc
  rw [← Option.mem_some.1 hc, List.length_append, packetStart_length]; omega

/-- The pieces can be delivered, the stream contains a complete packet frame, and the scan fails. -/
theorem large_reads_fail : Deliverable {} largeReads = true ∧ scanPackets largeReads = .tooLong :=
  ⟨largeReads_deliverable,
    large_reads_aux largeReads 65521 _ (by decide) rfl largeReads_head largeReads_deliverable largeReads_flatten⟩

end Xmp.Props
