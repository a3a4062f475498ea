import Verif.Model.Writer
import Mathlib.Tactic.Common

/-! C23, C24: the size limit of the encoder and padded packets. -/

namespace Xmp.Props

open GoStr

/-! ### C23 -/

/-- One write: the bytes taken are the longest part that fits, and an error is reported exactly if not
all were taken - except that an empty write at the limit is an error, too. -/
theorem write_spec (w : CountWriter) (b : Str) (hroom : w.w.room = none) (hn : 0 ≤ w.n)
    (hlim : w.limit > 0 → w.n ≤ w.limit) :
    ∃ k : Nat, (w.write b).2.2 = { w with n := w.n + k, w := { out := w.w.out ++ b.take k, room := none } } ∧
      k ≤ b.length ∧
      (w.write b).1 = k ∧
      (w.limit > 0 → k = min (w.limit - w.n).toNat b.length) ∧
      (w.limit ≤ 0 → k = b.length) ∧
      ((w.write b).2.1 = none ∨ (w.write b).2.1 = some .overflow) ∧
      (b ≠ [] → ((w.write b).2.1 = some .overflow ↔ k < b.length)) := by
  unfold CountWriter.write
  by_cases hl : w.limit > 0
  · have hle := hlim hl
    simp only [hl, if_true]
    by_cases hf : w.n ≥ w.limit
    · refine ⟨0, ?_, by omega, ?_, ?_, by omega, ?_, ?_⟩
      · simp only [hf, if_true]
        obtain ⟨n, limit, ⟨out, room⟩⟩ := w
        simp only at hroom
        simp [hroom]
      · simp [hf]
      · intro _; have : w.limit - w.n = 0 := by omega
        simp [this]
      · simp [hf]
      · intro hb
        simp only [hf, if_true, true_iff]
        exact List.length_pos_iff.2 hb
    · have hmin : (minI64 (w.limit - w.n) b.length).toNat = min (w.limit - w.n).toNat b.length := by
        unfold minI64; split <;> omega
      simp only [hf, if_false, hmin, Sink.write, hroom, List.length_take]
      refine ⟨min (w.limit - w.n).toNat b.length, ?_, by omega, ?_, fun _ => rfl, by omega, ?_, ?_⟩
      · split
        · rename_i h; simp at h
        · have h1 : min (min (w.limit - w.n).toNat b.length) b.length = min (w.limit - w.n).toNat b.length := by omega
          split <;> simp only [h1]
      · split
        · rename_i h; simp at h
        · split <;> (simp only; omega)
      · split
        · rename_i h; simp at h
        · split <;> simp
      · intro _
        split
        · rename_i h; simp at h
        · split
          · rename_i h; simp only [true_iff]; omega
          · rename_i h; simp only [reduceCtorEq, false_iff]; omega
  · simp only [hl, if_false, Sink.write, hroom]
    refine ⟨b.length, ?_, by omega, rfl, fun h => by simp at h, fun _ => rfl, Or.inl rfl, ?_⟩
    · simp [hroom]
    · intro _; simp

theorem writeAll_spec (bs : List Str) (hne : ∀ b ∈ bs, b ≠ []) :
    ∀ (w : CountWriter), w.w.room = none → 0 ≤ w.n → (w.limit > 0 → w.n ≤ w.limit) →
    ∃ k : Nat, (w.writeAll bs).2 = { w with n := w.n + k, w := { out := w.w.out ++ bs.flatten.take k, room := none } } ∧
      k ≤ bs.flatten.length ∧
      (w.limit > 0 → k = min (w.limit - w.n).toNat bs.flatten.length) ∧
      (w.limit ≤ 0 → k = bs.flatten.length) ∧
      ((w.writeAll bs).1 = none ∨ (w.writeAll bs).1 = some .overflow) ∧
      ((w.writeAll bs).1 = some .overflow ↔ k < bs.flatten.length) := by
  induction bs with
  | nil =>
    intro w hroom hn hlim
    refine ⟨0, ?_, by simp, ?_, by simp, Or.inl rfl, by simp [CountWriter.writeAll]⟩
    · obtain ⟨n, limit, ⟨out, room⟩⟩ := w
      simp only at hroom
      simp [CountWriter.writeAll, hroom]
    · intro h; simp
  | cons b bs ih =>
    intro w hroom hn hlim
    obtain ⟨k, h1, h2, h3, h4, h5, h6, h7⟩ := write_spec w b hroom hn hlim
    have h7 := h7 (hne b (by simp))
    unfold CountWriter.writeAll
    generalize hw : w.write b = r at *
    obtain ⟨c, e, w'⟩ := r
    simp only at h1 h3 h6 h7
    rcases h6 with h6 | h6
    · subst h6
      simp only
      have hk : k = b.length := by
        have : ¬ k < b.length := fun h => by simpa using h7.2 h
        omega
      have hlim' : w'.limit > 0 → w'.n ≤ w'.limit := by
        intro h
        rw [h1] at h ⊢
        simp only at h ⊢
        have := h4 h
        have := hlim h
        omega
      obtain ⟨k', g1, g2, g3, g4, g5, g6⟩ := ih (fun x hx => hne x (by simp [hx])) w' (by rw [h1]) (by rw [h1]; simp only; omega) hlim'
      refine ⟨k + k', ?_, ?_, ?_, ?_, g5, ?_⟩
      · rw [g1, h1, hk]
        simp only [List.flatten_cons, List.take_append, CountWriter.mk.injEq, true_and]
        refine ⟨by push_cast; omega, ?_⟩
        have : b.length + k' - b.length = k' := by omega
        rw [this, List.take_of_length_le (by omega : b.length ≤ b.length + k')]
        simp
      · simp only [List.flatten_cons, List.length_append]; omega
      · intro h
        have e1 := h4 h
        have e2 := g3 (by rw [h1]; exact h)
        rw [h1] at e2
        simp only at e2
        simp only [List.flatten_cons, List.length_append]
        omega
      · intro h
        have e2 := g4 (by rw [h1]; exact h)
        simp only [List.flatten_cons, List.length_append]
        omega
      · rw [g6]; simp only [List.flatten_cons, List.length_append]; omega
    · subst h6
      simp only
      have hk : k < b.length := h7.1 rfl
      refine ⟨k, ?_, ?_, ?_, ?_, by simp, ?_⟩
      · rw [h1, List.flatten_cons, List.take_append_of_le_length h2]
      · simp only [List.flatten_cons, List.length_append]; omega
      · intro h
        have := h4 h
        simp only [List.flatten_cons, List.length_append]; omega
      · intro h
        have := h5 h
        omega
      · simp only [List.flatten_cons, List.length_append, true_iff]; omega

/-- C23: with a limit, however the output is split into (non-empty) writes, exactly the longest prefix
of the output that fits is passed on; an overflow is reported if and only if bytes were dropped. -/
theorem limit_respected (limit : Int) (hl : limit > 0) (bs : List Str) (hne : ∀ b ∈ bs, b ≠ []) :
    let r := ({ limit := limit } : CountWriter).writeAll bs
    r.2.w.out = bs.flatten.take limit.toNat ∧
    (r.2.w.out.length : Int) ≤ limit ∧
    r.2.n = r.2.w.out.length ∧
    (r.1 = some .overflow ↔ limit < bs.flatten.length) ∧
    (r.1 = none ↔ r.2.w.out = bs.flatten) := by
  simp only
  obtain ⟨k, g1, g2, g3, _, g5, g6⟩ := writeAll_spec bs hne { limit := limit } rfl (by simp) (by simp; omega)
  have g3 := g3 hl
  simp only [Int.sub_zero] at g3
  rw [g1]
  simp only [List.nil_append, List.length_take, Int.zero_add]
  have ht : List.take k bs.flatten = List.take limit.toNat bs.flatten := by
    rw [g3]
    by_cases h : limit.toNat ≤ bs.flatten.length
    · rw [Nat.min_eq_left h]
    · rw [Nat.min_eq_right (by omega), List.take_of_length_le (Nat.le_refl _),
        List.take_of_length_le (by omega)]
  refine ⟨ht, by omega, by omega, by rw [g6]; omega, ?_⟩
  constructor
  · intro h
    have hk : ¬ k < bs.flatten.length := fun hlt => by
      have := g6.2 hlt; rw [h] at this; simp at this
    rw [List.take_of_length_le (by omega)]
  · intro h
    have hk : ¬ k < bs.flatten.length := by
      intro hlt
      have := congrArg List.length h
      simp only [List.length_take] at this
      omega
    rcases g5 with h | h
    · exact h
    · exact absurd (g6.1 h) hk

example : (({ limit := 5 } : CountWriter).writeAll ["abc".toList, "def".toList]).2.w.out = "abcde".toList ∧
    (({ limit := 5 } : CountWriter).writeAll ["abc".toList, "def".toList]).1 = some .overflow := by decide

/-- C23: the same bytes split differently give the same output and the same verdict. -/
theorem limit_split_independent (limit : Int) (hl : limit > 0) (bs cs : List Str) (hb : ∀ b ∈ bs, b ≠ [])
    (hc : ∀ b ∈ cs, b ≠ []) (h : bs.flatten = cs.flatten) :
    (({ limit := limit } : CountWriter).writeAll bs).2.w.out = (({ limit := limit } : CountWriter).writeAll cs).2.w.out ∧
    (({ limit := limit } : CountWriter).writeAll bs).1 = (({ limit := limit } : CountWriter).writeAll cs).1 := by
  obtain ⟨a1, _, _, a4, _⟩ := limit_respected limit hl bs hb
  obtain ⟨b1, _, _, b4, _⟩ := limit_respected limit hl cs hc
  refine ⟨by rw [a1, b1, h], ?_⟩
  obtain ⟨_, _, _, _, _, a5, _⟩ := writeAll_spec bs hb { limit := limit } rfl (by simp) (by simp; omega)
  obtain ⟨_, _, _, _, _, b5, _⟩ := writeAll_spec cs hc { limit := limit } rfl (by simp) (by simp; omega)
  rw [h] at a4
  have := a4.trans b4.symm
  rcases a5 with a | a <;> rcases b5 with b | b
  · rw [a, b]
  · exact (this.2 b).trans b.symm
  · exact a.trans (this.1 a).symm
  · rw [a, b]

example : (∀ b ∈ ["ab".toList, "c".toList], b ≠ []) ∧
    ["ab".toList, "c".toList].flatten = ["a".toList, "bc".toList].flatten := by decide

/-- C23: without a limit everything is passed on and nothing is reported. -/
theorem no_limit (limit : Int) (hl : limit ≤ 0) (bs : List Str) (hne : ∀ b ∈ bs, b ≠ []) :
    (({ limit := limit } : CountWriter).writeAll bs).2.w.out = bs.flatten ∧
    (({ limit := limit } : CountWriter).writeAll bs).1 = none := by
  obtain ⟨k, g1, g2, _, g4, g5, g6⟩ := writeAll_spec bs hne { limit := limit } rfl (by simp) (by simp; omega)
  have g4 := g4 hl
  rw [g1]
  refine ⟨by simp only [List.nil_append]; rw [g4, List.take_length], ?_⟩
  rcases g5 with h | h
  · exact h
  · have := g6.1 h; omega

example : (({} : CountWriter).writeAll ["abc".toList, "def".toList]).2.w.out = "abcdef".toList := by decide

/-- At the limit an empty write reports an overflow although nothing is dropped. -/
theorem empty_write_overflows :
    (({ limit := 3 } : CountWriter).writeAll ["abc".toList, []]).1 = some .overflow ∧
    (({ limit := 3 } : CountWriter).writeAll ["abc".toList, []]).2.w.out = ["abc".toList, []].flatten := by decide

theorem sink_write_le (s : Sink) (b : Str) :
    ∃ k, (s.write b).1 = k ∧ k ≤ b.length ∧ (s.write b).2.2.out = s.out ++ b.take k := by
  unfold Sink.write
  split
  · exact ⟨b.length, rfl, Nat.le_refl _, by simp⟩
  · split
    · exact ⟨b.length, rfl, Nat.le_refl _, by simp⟩
    · exact ⟨_, rfl, by omega, rfl⟩

/-- C23: also when the underlying writer fails: never more than the limit is passed on, and what is
passed on is a prefix of the output. -/
theorem limit_respected_failing (limit : Int) (hl : limit > 0) (room : Option Nat) (bs : List Str) :
    let r := ({ limit := limit, w := { room := room } } : CountWriter).writeAll bs
    r.2.w.out <+: bs.flatten ∧ (r.2.w.out.length : Int) ≤ limit := by
  have key : ∀ (bs : List Str) (w : CountWriter), w.limit = limit → w.n = w.w.out.length → w.n ≤ limit →
      ∃ t, (w.writeAll bs).2.w.out = w.w.out ++ t ∧ t <+: bs.flatten ∧
        ((w.writeAll bs).2.w.out.length : Int) ≤ limit := by
    intro bs
    induction bs with
    | nil =>
      intro w h1 h2 h3
      exact ⟨[], by simp [CountWriter.writeAll], by simp, by simp only [CountWriter.writeAll]; omega⟩
    | cons b bs ih =>
      intro w h1 h2 h3
      have hstep : ∃ k, (w.write b).2.2.w.out = w.w.out ++ b.take k ∧ (w.write b).2.2.limit = limit ∧
          (w.write b).2.2.n = (w.write b).2.2.w.out.length ∧ (w.write b).2.2.n ≤ limit ∧
          ((w.write b).2.1 = none → b.length ≤ k) := by
        unfold CountWriter.write
        rw [h1]
        simp only [hl, if_true]
        by_cases hf : w.n ≥ limit
        · simp only [hf, if_true]
          exact ⟨0, by simp, h1, h2, h3, by simp⟩
        · simp only [hf, if_false]
          have hle : (b.take (minI64 (limit - w.n) b.length).toNat).length ≤ (limit - w.n).toNat := by
            simp only [List.length_take]; unfold minI64; split <;> omega
          obtain ⟨k, e1, e2, e3⟩ := sink_write_le w.w (b.take (minI64 (limit - w.n) b.length).toNat)
          generalize (minI64 (limit - w.n) b.length).toNat = m at *
          have hkb : k ≤ b.length := by simp only [List.length_take] at e2; omega
          have hkm : min k m = k := by simp only [List.length_take] at e2; omega
          have e3' : (w.w.write (b.take m)).2.2.out = w.w.out ++ b.take k := by
            rw [e3, List.take_take, hkm]
          refine ⟨k, ?_, ?_, ?_, ?_, ?_⟩
          · split
            · exact e3'
            · split <;> exact e3'
          · split
            · rfl
            · split <;> rfl
          · split
            · simp only [e3', e1, List.length_append, List.length_take]; omega
            · split <;> (simp only [e3', e1, List.length_append, List.length_take]; omega)
          · split
            · simp only [e1]; omega
            · split <;> (simp only [e1]; omega)
          · split
            · simp
            · split
              · simp
              · intro _; rename_i h; rw [e1] at h; omega
      obtain ⟨k, s1, s2, s3, s4, s5⟩ := hstep
      unfold CountWriter.writeAll
      generalize w.write b = r at *
      obtain ⟨c, e, w'⟩ := r
      simp only at s1 s2 s3 s4 s5
      cases e with
      | some e =>
        simp only
        exact ⟨b.take k, s1, by rw [List.flatten_cons]; exact (List.take_prefix k b).trans (List.prefix_append _ _), by omega⟩
      | none =>
        simp only
        obtain ⟨t, g1, g2, g3⟩ := ih w' s2 s3 s4
        refine ⟨b ++ t, ?_, ?_, g3⟩
        · rw [g1, s1, List.take_of_length_le (s5 rfl), List.append_assoc]
        · rw [List.flatten_cons]; exact (List.prefix_append_right_inj b).2 g2
  obtain ⟨t, h1, h2, h3⟩ := key bs { limit := limit, w := { room := room } } rfl rfl (by simp only; omega)
  simp only
  refine ⟨?_, h3⟩
  rw [h1]; simpa using h2

example : (({ limit := 5, w := { room := some 4 } } : CountWriter).writeAll ["abc".toList, "def".toList]).2.w.out =
    "abcd".toList := by decide

/-! ### C24 -/

theorem padding_flatten (m : Nat) :
    (((List.range m).map padByte).flatten).length = m ∧
    ∀ c ∈ ((List.range m).map padByte).flatten, c = ' ' ∨ c = '\n' := by
  constructor
  · induction m with
    | zero => rfl
    | succ m ih =>
      have hp : (padByte m).length = 1 := by unfold padByte; split <;> rfl
      rw [List.range_succ, List.map_append, List.flatten_append, List.length_append, ih]
      simp [hp]
  · intro c hc
    rw [List.mem_flatten] at hc
    obtain ⟨l, hl, hc⟩ := hc
    obtain ⟨i, _, rfl⟩ := List.mem_map.1 hl
    unfold padByte at hc
    split at hc <;> simp at hc <;> simp [hc]

theorem padding_nonempty (m : Nat) : ∀ b ∈ (List.range m).map padByte, b ≠ [] := by
  intro b hb
  obtain ⟨i, _, rfl⟩ := List.mem_map.1 hb
  unfold padByte; split <;> simp

theorem footer_length : packetFooter.length = 20 := by decide
theorem header_length : packetHeader.length = 51 := by decide

/-- C24: with packet, padding and a limit, encoding succeeds exactly if header, document and footer fit;
then the output has exactly the requested size and consists of header, document, white space and footer.
Otherwise an overflow is reported and not more than the limit is written.  The document may be written
in any non-empty pieces. -/
theorem padded_packet (limit : Int) (hl : limit > 0) (flags : Nat) (hp : flags &&& xpacket ≠ 0)
    (hpad : flags &&& xpadding ≠ 0) (body : List Str) (hne : ∀ b ∈ body, b ≠ []) :
    let r := encodeOut flags body { limit := limit }
    (r.1 = none ↔ (packetHeader.length + body.flatten.length + packetFooter.length : Int) ≤ limit) ∧
    (r.1 = none → (r.2.w.out.length : Int) = limit ∧
      ∃ pad, r.2.w.out = packetHeader ++ body.flatten ++ pad ++ packetFooter ∧ ∀ c ∈ pad, c = ' ' ∨ c = '\n') ∧
    (r.1 ≠ none → r.1 = some .overflow) ∧ (r.2.w.out.length : Int) ≤ limit := by
  simp only [header_length, footer_length]
  unfold encodeOut
  simp only [hp, hpad, ne_eq, not_false_eq_true, if_true, true_and]
  have hl' : ¬ limit ≤ 0 := by omega
  -- header
  obtain ⟨k1, a1, a2, a3, _, a5, a6⟩ := writeAll_spec [packetHeader] (by decide) { limit := limit } rfl (by simp) (by simp; omega)
  generalize ({ limit := limit } : CountWriter).writeAll [packetHeader] = r1 at *
  obtain ⟨e1, w1⟩ := r1
  simp only at a1 a5 a6
  have hlen1 : [packetHeader].flatten.length = 51 := by decide
  have hflat1 : [packetHeader].flatten = packetHeader := by simp
  rw [hlen1] at a2 a3 a6
  have a3 := a3 hl
  simp only [Int.sub_zero] at a3
  rcases a5 with a5 | a5
  · subst a5
    simp only
    have hk1 : k1 = 51 := by
      have : ¬ k1 < 51 := fun h => by simpa using a6.2 h
      omega
    subst hk1
    have w1out : w1.w.out = packetHeader := by
      rw [a1]; simp only [List.nil_append, hflat1]
      exact List.take_of_length_le (Nat.le_of_eq header_length)
    -- document
    obtain ⟨k2, b1, b2, b3, _, b5, b6⟩ := writeAll_spec body hne w1 (by rw [a1]) (by rw [a1]; simp) (by rw [a1]; simp only; omega)
    generalize w1.writeAll body = r2 at *
    obtain ⟨e2, w2⟩ := r2
    simp only at b1 b5 b6
    have b3 := b3 (by rw [a1]; exact hl)
    have w1n : w1.n = 51 := by rw [a1]; rfl
    have w1l : w1.limit = limit := by rw [a1]
    rw [w1n, w1l] at b3
    rcases b5 with b5 | b5
    · subst b5
      simp only
      have hk2 : k2 = body.flatten.length := by
        have : ¬ k2 < body.flatten.length := fun h => by simpa using b6.2 h
        omega
      subst hk2
      have w2l : w2.limit = limit := by rw [b1]; exact w1l
      have w2n : w2.n = 51 + body.flatten.length := by rw [b1]; simp only [w1n]
      have w2out : w2.w.out = packetHeader ++ body.flatten := by
        rw [b1]; simp only [w1out, List.take_length]
      have w2room : w2.w.room = none := by rw [b1]
      rw [w2l]
      simp only [hl, if_true]
      -- padding
      obtain ⟨k3, c1, c2, c3, _, c5, c6⟩ := writeAll_spec ((List.range (limit - w2.n - 20).toNat).map padByte)
        (padding_nonempty _) w2 w2room (by omega) (by rw [w2l]; omega)
      rw [(padding_flatten _).1] at c2 c3 c6
      have c3 := c3 (by rw [w2l]; exact hl)
      rw [w2l, w2n] at c3
      rw [w2n] at c1 c2 c5 c6 ⊢
      generalize w2.writeAll ((List.range (limit - (51 + body.flatten.length) - 20).toNat).map padByte) = r3 at *
      obtain ⟨e3, w3⟩ := r3
      simp only at c1 c5 c6
      have hk3 : k3 = (limit - (51 + (body.flatten.length : Int)) - 20).toNat := by omega
      have he3 : e3 = none := by
        rcases c5 with c5 | c5
        · exact c5
        · have := c6.1 c5; omega
      subst he3
      simp only
      have w3l : w3.limit = limit := by rw [c1]; exact w2l
      have w3n : w3.n = 51 + body.flatten.length + k3 := by rw [c1]
      have w3out : w3.w.out = packetHeader ++ body.flatten ++
          ((List.range (limit - (51 + body.flatten.length) - 20).toNat).map padByte).flatten := by
        rw [c1]; simp only [w2out]
        rw [List.take_of_length_le (by rw [(padding_flatten _).1]; omega)]
      have w3room : w3.w.room = none := by rw [c1]
      have hp3 := padding_flatten (limit - (51 + (body.flatten.length : Int)) - 20).toNat
      generalize ((List.range (limit - (51 + (body.flatten.length : Int)) - 20).toNat).map padByte).flatten = pad at *
      -- footer
      obtain ⟨k4, d1, d2, d3, _, d5, d6⟩ := writeAll_spec [packetFooter] (by decide) w3 w3room (by omega) (by rw [w3l]; omega)
      generalize w3.writeAll [packetFooter] = r4 at *
      obtain ⟨e4, w4⟩ := r4
      simp only at d1 d5 d6 ⊢
      have hlen4 : [packetFooter].flatten.length = 20 := by decide
      have hflat4 : [packetFooter].flatten = packetFooter := by simp
      rw [hlen4] at d2 d3 d6
      have d3 := d3 (by rw [w3l]; exact hl)
      rw [w3l, w3n] at d3
      have w4out : w4.w.out = packetHeader ++ body.flatten ++ pad ++ packetFooter.take k4 := by
        rw [d1]; simp only [w3out, hflat4]
      have hlo : (w4.w.out.length : Int) = 51 + body.flatten.length + k3 + k4 := by
        rw [w4out]
        simp only [List.length_append, header_length, hp3.1, List.length_take, footer_length]
        omega
      refine ⟨?_, ?_, ?_, by omega⟩
      · constructor
        · intro h
          have : ¬ k4 < 20 := fun hlt => by have := d6.2 hlt; rw [h] at this; simp at this
          omega
        · intro h
          rcases d5 with d5 | d5
          · exact d5
          · have := d6.1 d5; omega
      · intro h
        have h4 : ¬ k4 < 20 := fun hlt => by have := d6.2 hlt; rw [h] at this; simp at this
        refine ⟨by omega, pad, ?_, hp3.2⟩
        rw [w4out, List.take_of_length_le (by rw [footer_length]; omega)]
      · intro h
        rcases d5 with d5 | d5
        · exact absurd d5 h
        · exact d5
    · subst b5
      simp only
      have hlt := b6.1 rfl
      refine ⟨?_, by simp, by simp, ?_⟩
      · simp only [reduceCtorEq, false_iff]; omega
      · rw [b1]; simp only [List.length_append, w1out, header_length, List.length_take]; omega
  · subst a5
    simp only
    have hlt := a6.1 rfl
    refine ⟨?_, by simp, by simp, ?_⟩
    · simp only [reduceCtorEq, false_iff]; omega
    · rw [a1]; simp only [List.nil_append, List.length_take, hflat1]; omega

example : (encodeOut (xpacket ||| xpadding) ["<x/>".toList] { limit := 100 }).1 = none ∧
    (encodeOut (xpacket ||| xpadding) ["<x/>".toList] { limit := 100 }).2.w.out.length = 100 ∧
    (encodeOut (xpacket ||| xpadding) ["<x/>".toList] { limit := 70 }).1 = some .overflow := by decide +kernel

/-- C24: without padding (or without limit) the packet is the header, the document and the footer. -/
theorem plain_packet (limit : Int) (flags : Nat) (hp : flags &&& xpacket ≠ 0)
    (hpad : flags &&& xpadding = 0 ∨ limit ≤ 0) (body : List Str) (hne : ∀ b ∈ body, b ≠ []) :
    let r := encodeOut flags body { limit := limit }
    (r.1 = none ↔ limit ≤ 0 ∨ (packetHeader.length + body.flatten.length + packetFooter.length : Int) ≤ limit) ∧
    (r.1 = none → r.2.w.out = packetHeader ++ body.flatten ++ packetFooter) := by
  have hsame : encodeOut flags body { limit := limit } =
      ({ limit := limit } : CountWriter).writeAll (packetHeader :: body ++ [packetFooter]) := by
    have happ : ∀ (l m : List Str) (w : CountWriter), w.writeAll (l ++ m) =
        match w.writeAll l with
        | (some e, w') => (some e, w')
        | (none, w') => w'.writeAll m := by
      intro l
      induction l with
      | nil => intro m w; rfl
      | cons b l ih =>
        intro m w
        simp only [List.cons_append, CountWriter.writeAll]
        split
        · rfl
        · rw [ih]
    have hlimw : ∀ (w : CountWriter) (b : Str), (w.write b).2.2.limit = w.limit := by
      intro w b
      unfold CountWriter.write
      simp only
      repeat' split
      all_goals rfl
    have hlim : ∀ (l : List Str) (w : CountWriter), (w.writeAll l).2.limit = w.limit := by
      intro l
      induction l with
      | nil => intro w; rfl
      | cons b l ih =>
        intro w
        unfold CountWriter.writeAll
        have hb := hlimw w b
        generalize w.write b = r at *
        obtain ⟨c, e, w'⟩ := r
        simp only at hb
        cases e with
        | some e => exact hb
        | none => simp only; rw [ih]; exact hb
    unfold encodeOut
    simp only [hp, ne_eq, not_false_eq_true, if_true]
    rw [show packetHeader :: body ++ [packetFooter] = [packetHeader] ++ (body ++ [packetFooter]) from rfl, happ]
    have l1 := hlim [packetHeader] { limit := limit }
    generalize ({ limit := limit } : CountWriter).writeAll [packetHeader] = r1 at *
    obtain ⟨e1, w1⟩ := r1
    cases e1 with
    | some e => rfl
    | none =>
      simp only at l1 ⊢
      rw [happ]
      have l2 := hlim body w1
      generalize w1.writeAll body = r2 at *
      obtain ⟨e2, w2⟩ := r2
      cases e2 with
      | some e => rfl
      | none =>
        simp only at l2 ⊢
        have : ¬ (¬ flags &&& xpadding = 0 ∧ w2.limit > 0) := by
          rw [l2, l1]
          rintro ⟨h1, h2⟩
          rcases hpad with h | h
          · exact h1 h
          · omega
        rw [if_neg this]
  simp only
  rw [hsame]
  have hne' : ∀ b ∈ packetHeader :: body ++ [packetFooter], b ≠ [] := by
    intro b hb
    simp only [List.cons_append, List.mem_cons, List.mem_append, List.not_mem_nil, or_false] at hb
    rcases hb with h | h | h
    · rw [h]; decide
    · exact hne b h
    · rw [h]; decide
  have hflat : (packetHeader :: body ++ [packetFooter]).flatten = packetHeader ++ body.flatten ++ packetFooter := by simp
  by_cases h0 : limit ≤ 0
  · obtain ⟨h1, h2⟩ := no_limit limit h0 _ hne'
    rw [h1, h2, hflat]
    simp [h0]
  · obtain ⟨h1, _, _, h4, h5⟩ := limit_respected limit (by omega) _ hne'
    rw [h5, hflat] at *
    refine ⟨?_, fun h => h⟩
    rw [h1]
    have hlen : (packetHeader ++ body.flatten ++ packetFooter).length = packetHeader.length + body.flatten.length + packetFooter.length := by
      simp; omega
    constructor
    · intro h
      right
      have := congrArg List.length h
      rw [List.length_take, hlen] at this
      omega
    · intro h
      rw [List.take_of_length_le]
      rw [hlen]; omega

example : (encodeOut xpacket ["<x/>".toList] {}).2.w.out =
    "<?xpacket begin=\"\" id=\"W5M0MpCehiHzreSzNTczkc9d\"?>\n<x/>\n<?xpacket end=\"w\"?>".toList := by decide +kernel

end Xmp.Props
