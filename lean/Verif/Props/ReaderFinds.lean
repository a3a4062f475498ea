import Verif.Props.Reader

/-! C70, scanning: a packet in a stream is found, however the bytes arrive. -/

namespace Xmp.Props

open GoStr List

/-- The byte string does not contain a start marker. -/
def NoStart (s : Str) : Prop := ∀ a b, s ≠ a ++ packetStart ++ b

theorem noStart_iff (s : Str) : NoStart s ↔ index packetStart s = none := by
  rw [index_none_iff packetStart_ne]
  constructor
  · intro h j
    cases hp : hasPrefix (s.drop j) packetStart with
    | false => rfl
    | true =>
      obtain ⟨u, hu⟩ := hasPrefix_iff.1 hp
      exact absurd (by rw [append_assoc, ← hu, take_append_drop]) (h (s.take j) u)
  · rintro h a b rfl
    have := h a.length
    rw [append_assoc, drop_left] at this
    rw [hasPrefix_iff.2 ⟨b, rfl⟩] at this
    cases this

theorem noStart_drop {s : Str} (h : NoStart s) (k : Nat) : NoStart (s.drop k) := by
  intro a b e
  refine h (s.take k ++ a) b ?_
  rw [append_assoc, append_assoc, ← append_assoc a, ← e, take_append_drop]

theorem noStart_left {s t : Str} (h : NoStart (s ++ t)) : NoStart s := by
  rintro a b rfl
  exact h a (b ++ t) (by simp)

/-- A text that starts with the marker, behind a text without. -/
theorem index_start {b p : Str} (hb : NoStart b) (hp : hasPrefix p packetStart = true) : index packetStart (b ++ p) = some b.length := by
  rw [index_some_iff packetStart_ne]
  refine ⟨by rwa [drop_left], ?_⟩
  intro j hj
  cases h : hasPrefix ((b ++ p).drop j) packetStart with
  | false => rfl
  | true =>
    exfalso
    by_cases hl : j + 15 ≤ b.length
    · rw [drop_append_of_le_length (by omega)] at h
      have := hasPrefix_of_append h (by rw [packetStart_length, length_drop]; omega)
      rw [noStart_iff, index_none_iff packetStart_ne] at hb
      rw [hb j] at this
      cases this
    · have h1 := hasPrefix_get h (b.length - j) (by rw [packetStart_length]; omega)
      rw [show j + (b.length - j) = b.length by omega, getElem?_append_right (by omega), Nat.sub_self] at h1
      have h2 := hasPrefix_get (s := p) (j := 0) (by simpa using hp) 0 (by decide)
      rw [Nat.zero_add] at h2
      rw [h2] at h1
      exact absurd h1 ((by decide : ∀ m < 15, m ≠ 0 → packetStart[0]? ≠ packetStart[m]?) _ (by omega) (by omega))

theorem packet_start {p : Str} (h : IsPacket p) (t : Str) : hasPrefix (p ++ t) packetStart = true := by
  obtain ⟨⟨x, y, e, -⟩, -⟩ := h
  rw [e]
  exact hasPrefix_iff.2 ⟨x ++ packetEnd ++ y ++ t, by simp⟩

/-- The split function on a text without marker: at most 15 bytes are kept. -/
theorem split_clean {d : Str} (h : NoStart d) (eof : Bool) : ∃ adv, splitPacket d eof = (adv, none) ∧ adv ≤ d.length ∧ d.length ≤ adv + 15 := by
  unfold splitPacket
  rw [(noStart_iff d).1 h]
  simp only [packetStart_length]
  split_ifs
  · exact ⟨_, rfl, by omega, by omega⟩
  · exact ⟨_, rfl, by omega, by omega⟩

theorem drain_clean {st : ScanState} (h : NoStart st.data) (eof : Bool) (f : Nat) :
    ∃ adv, drain eof (f + 1) st = some ([], { st with start := st.start + adv, data := st.data.drop adv }) ∧ adv ≤ st.data.length ∧
      st.data.length ≤ adv + 15 := by
  obtain ⟨adv, e, h1, h2⟩ := split_clean h eof
  refine ⟨adv, ?_, h1, h2⟩
  unfold drain
  rw [e]

/-- The split function on a text with a whole packet. -/
theorem split_packet {b p t : Str} (hb : NoStart b) (hp : IsPacket p) (eof : Bool) :
    splitPacket (b ++ p ++ t) eof = (b.length + p.length, some (b.length, p)) := by
  have hi : index packetStart (b ++ p ++ t) = some b.length := by
    rw [append_assoc]; exact index_start hb (packet_start hp t)
  obtain ⟨⟨x, y, e, hy⟩, h2, -⟩ := hp
  have hl : 19 ≤ p.length := by
    rw [e]
    simp only [length_append, packetStart_length, packetEnd_length]
    omega
  have hd : (b ++ p ++ t).drop b.length = p ++ t := by rw [append_assoc, drop_left]
  have he : index packetEnd ((b ++ p ++ t).drop b.length) = some (p.length - 19) := by
    rw [hd]
    exact index_append packetEnd_ne h2
  unfold splitPacket
  rw [hi]
  simp only
  rw [he]
  simp only [packetEnd_length]
  have e1 : b.length + (p.length - 19) + 13 + 6 = b.length + p.length := by omega
  rw [e1, if_neg (by simp only [length_append]; omega), hd, show b.length + p.length - b.length = p.length by omega, take_left]

/-- The split function on a text with the beginning of a packet waits for more. -/
theorem split_open {b p q r : Str} (hb : NoStart b) (hp : IsPacket p) (hq : p = q ++ r) (hr : r ≠ []) (hs : 15 ≤ q.length) :
    splitPacket (b ++ q) false = (0, none) := by
  have hq15 : hasPrefix q packetStart = true := by
    have := packet_start hp []
    rw [append_nil, hq] at this
    exact hasPrefix_of_append this (by rw [packetStart_length]; exact hs)
  have hi : index packetStart (b ++ q) = some b.length := index_start hb hq15
  obtain ⟨⟨x, y, e, hy⟩, h2, -⟩ := hp
  have hl : 19 ≤ p.length := by
    rw [e]
    simp only [length_append, packetStart_length, packetEnd_length]
    omega
  unfold splitPacket
  rw [hi]
  simp only
  rw [drop_left]
  cases hj : index packetEnd q with
  | none => rfl
  | some j =>
    have := index_append (f := r) packetEnd_ne hj
    rw [← hq, h2] at this
    have hjl : p.length - 19 = j := by simpa using this
    have hrl : 0 < r.length := length_pos_iff.2 hr
    have hpl : p.length = q.length + r.length := by rw [hq, length_append]
    simp only [packetEnd_length, length_append]
    rw [if_pos (by omega)]
    rfl

/-- What holds for the buffer. -/
def BufOK (st : ScanState) : Prop := st.start + st.data.length ≤ st.bufLen ∧ (st.bufLen = 0 ∨ 4096 ≤ st.bufLen)

/-- There is room for a read as long as the data are below the maximum. -/
theorem prepare_ok {st : ScanState} (h : BufOK st) (hd : st.data.length < maxTokenSize) :
    ∃ st2, prepareRead st = some st2 ∧ st2.data = st.data ∧ 4096 ≤ st2.bufLen ∧
      (st2.bufLen ≤ 4096 ∨ st2.bufLen = st.bufLen ∨ (st.bufLen = st.data.length ∧ 4096 ≤ st.bufLen)) := by
  obtain ⟨h1, h2⟩ := h
  obtain ⟨bl, s, d⟩ := st
  simp only [maxTokenSize] at h1 h2 hd ⊢
  unfold prepareRead
  simp only [maxTokenSize]
  by_cases c1 : s > 0 ∧ (s + d.length = bl ∨ s > bl / 2)
  · simp only [if_pos c1]
    rw [if_neg (by omega)]
    exact ⟨_, rfl, rfl, by show 4096 ≤ bl; omega, Or.inr (Or.inl rfl)⟩
  · simp only [if_neg c1]
    by_cases c2 : s + d.length = bl
    · have hs : s = 0 := by
        by_contra hs
        exact c1 ⟨by omega, Or.inl c2⟩
      rw [if_pos c2, if_neg (by omega)]
      refine ⟨_, rfl, rfl, ?_, ?_⟩
      · simp only
        split_ifs <;> omega
      · rcases h2 with h2 | h2
        · left
          subst h2
          simp
        · exact Or.inr (Or.inr ⟨by omega, h2⟩)
    · rw [if_neg c2]
      exact ⟨_, rfl, rfl, by show 4096 ≤ bl; omega, Or.inr (Or.inl rfl)⟩

/-- A stream without marker: nothing is found, and nothing fails. -/
theorem scan_clean : ∀ (cs : List Str) (st : ScanState), NoStart (st.data ++ cs.flatten) → BufOK st → Deliverable st cs = true →
    scanChunks st cs = .ok [] := by
  intro cs
  induction cs with
  | nil =>
    intro st hn hb hd
    rw [flatten_nil, append_nil] at hn
    obtain ⟨adv, e, -⟩ := drain_clean hn true st.data.length
    unfold scanChunks
    rw [e]
  | cons c cs ih =>
    intro st hn hb hd
    obtain ⟨adv, e, a1, a2⟩ := drain_clean (noStart_left hn) false st.data.length
    have hb1 : BufOK { st with start := st.start + adv, data := st.data.drop adv } := by
      refine ⟨?_, hb.2⟩
      have := hb.1
      simp only [length_drop]
      omega
    obtain ⟨st2, e2, d2, b2, -⟩ := prepare_ok hb1 (by simp only [length_drop, maxTokenSize]; omega)
    unfold Deliverable at hd
    rw [e] at hd
    simp only at hd
    rw [e2] at hd
    simp only [Bool.and_eq_true, decide_eq_true_eq] at hd
    unfold scanChunks
    rw [e]
    simp only
    rw [e2]
    simp only
    rw [ih { st2 with data := st2.data ++ c } (by
      simp only [d2]
      have := noStart_drop hn adv
      rw [drop_append_of_le_length a1, flatten_cons] at this
      rwa [append_assoc]) ⟨by simp only [length_append]; omega, Or.inr b2⟩ hd.2]
    rfl

/-- A stream with one packet: it is found, and nothing fails. -/
theorem scan_found {p : Str} (hp : IsPacket p) (hp51 : 51 ≤ p.length) (hmax : p.length + 4096 ≤ maxTokenSize) {t : Str} (ht : NoStart t) :
    ∀ (cs : List Str) (st : ScanState) (b : Str), NoStart b → st.data ++ cs.flatten = b ++ p ++ t → BufOK st →
      (st.bufLen ≤ 4096 ∨ b.length ≤ 4096) → NoMarkerCut st.data cs → Deliverable st cs = true → scanChunks st cs = .ok [p] := by
  have hmagic : isXmpPacket p = true := by
    obtain ⟨-, -, a, b, h3⟩ := hp
    unfold isXmpPacket
    rw [h3, Option.isSome_iff_ne_none]
    intro hn
    rw [index_none_iff packetMagic_ne] at hn
    have := hn a.length
    rw [append_assoc, drop_left, hasPrefix_iff.2 ⟨b, rfl⟩] at this
    cases this
  -- a whole packet in the data
  have whole : ∀ (eof : Bool) (st : ScanState) (b t1 : Str), NoStart b → NoStart t1 → st.data = b ++ p ++ t1 → BufOK st →
      ∃ adv, drain eof (st.data.length + 1) st = some ([p], { st with start := st.start + adv, data := st.data.drop adv }) ∧
        adv ≤ st.data.length ∧ st.data.length ≤ adv + 15 ∧ b.length + p.length ≤ adv := by
    intro eof st b t1 hb ht1 e hbuf
    have hlen : st.data.length = b.length + p.length + t1.length := by rw [e]; simp only [length_append]
    have hdrop : st.data.drop (b.length + p.length) = t1 := by
      rw [e, ← length_append, drop_left]
    obtain ⟨n, hn⟩ : ∃ n, st.data.length = n + 1 := ⟨st.data.length - 1, by omega⟩
    obtain ⟨adv, e2, a1, a2⟩ := drain_clean (st := { st with start := st.start + (b.length + p.length), data := st.data.drop (b.length + p.length) })
      (by rw [hdrop]; exact ht1) eof n
    simp only [hdrop] at e2 a1 a2
    refine ⟨b.length + p.length + adv, ?_, by omega, by omega, by omega⟩
    have hs := split_packet (t := t1) hb hp eof
    rw [← e] at hs
    have := hbuf.1
    unfold drain
    rw [hs]
    simp only
    rw [if_neg (by omega), hn, hdrop, e2, hmagic]
    simp only [if_true, Option.some.injEq, Prod.mk.injEq, true_and, ScanState.mk.injEq]
    refine ⟨by omega, ?_⟩
    rw [← drop_drop, hdrop]
  intro cs
  induction cs with
  | nil =>
    intro st b hb e hbuf _ _ _
    rw [flatten_nil, append_nil] at e
    obtain ⟨adv, e2, -⟩ := whole true st b t hb ht e hbuf
    unfold scanChunks
    rw [e2]
  | cons c cs ih =>
    intro st b hb e hbuf hk hcut hd
    have hu : Uncut st.data (c :: cs).flatten := by
      have := hcut [] (c :: cs) rfl
      simpa using this
    have htot := congrArg length e
    simp only [length_append] at htot
    have hbl := hbuf.1
    -- what remains uncut
    have hcut' : ∀ k ≤ st.data.length, NoMarkerCut (st.data.drop k ++ c) cs := by
      intro k hk a' b' hab
      have hc := hcut (c :: a') b' (by rw [hab]; rfl)
      have := uncut_drop k hc
      rw [drop_append_of_le_length hk] at this
      simpa using this
    by_cases c1 : b.length + p.length ≤ st.data.length
    · -- the packet is complete
      have e1 : st.data = b ++ p ++ t.take (st.data.length - (b.length + p.length)) := by
        have := congrArg (take st.data.length) e
        rw [take_left, take_append, length_append, take_of_length_le (by simp only [length_append]; omega)] at this
        exact this
      have ht1 : NoStart (t.take (st.data.length - (b.length + p.length))) := by
        apply noStart_left (t := t.drop (st.data.length - (b.length + p.length)))
        rwa [take_append_drop]
      obtain ⟨adv, e2, a1, a2, a3⟩ := whole false st b _ hb ht1 e1 hbuf
      have hb1 : BufOK { st with start := st.start + adv, data := st.data.drop adv } := by
        refine ⟨?_, hbuf.2⟩
        simp only [length_drop]
        omega
      obtain ⟨st2, e3, d2, b2, -⟩ := prepare_ok hb1 (by simp only [length_drop, maxTokenSize]; omega)
      unfold Deliverable at hd
      rw [e2] at hd
      simp only at hd
      rw [e3] at hd
      simp only [Bool.and_eq_true, decide_eq_true_eq] at hd
      unfold scanChunks
      rw [e2]
      simp only
      rw [e3]
      simp only
      rw [scan_clean cs { st2 with data := st2.data ++ c } (by
        simp only [d2]
        have h1 : (st.data ++ (c :: cs).flatten).drop adv = t.drop (adv - (b.length + p.length)) := by
          rw [e, ← length_append, drop_append, drop_eq_nil_of_le (by rw [length_append]; omega), nil_append]
        rw [drop_append_of_le_length a1, flatten_cons] at h1
        rw [append_assoc, h1]
        exact noStart_drop ht _) ⟨by simp only [length_append]; omega, Or.inr b2⟩ hd.2]
      rfl
    · by_cases c2 : st.data.length ≤ b.length
      · -- the packet has not begun
        have e1 : st.data = b.take st.data.length := by
          have := congrArg (take st.data.length) e
          rw [take_left, append_assoc, take_append_of_le_length c2] at this
          exact this
        have hns : NoStart st.data := by
          rw [e1]
          apply noStart_left (t := b.drop st.data.length)
          rwa [take_append_drop]
        obtain ⟨adv, e2, a1, a2⟩ := drain_clean hns false st.data.length
        have hb1 : BufOK { st with start := st.start + adv, data := st.data.drop adv } := by
          refine ⟨?_, hbuf.2⟩
          simp only [length_drop]
          omega
        obtain ⟨st2, e3, d2, b2, b3⟩ := prepare_ok hb1 (by simp only [length_drop, maxTokenSize]; omega)
        unfold Deliverable at hd
        rw [e2] at hd
        simp only at hd
        rw [e3] at hd
        simp only [Bool.and_eq_true, decide_eq_true_eq] at hd
        unfold scanChunks
        rw [e2]
        simp only
        rw [e3]
        simp only
        rw [ih { st2 with data := st2.data ++ c } (b.drop adv) (noStart_drop hb adv) ?_ ⟨by simp only [length_append]; omega, Or.inr b2⟩ ?_ ?_ hd.2]
        · rfl
        · simp only [d2]
          have h1 := congrArg (drop adv) e
          rw [drop_append_of_le_length a1, append_assoc b, drop_append_of_le_length (by omega), flatten_cons] at h1
          rw [append_assoc, h1, append_assoc]
        · simp only [length_drop] at b3 ⊢
          omega
        · simp only [d2]
          exact hcut' adv a1
      · -- the packet has begun
        have hs15 : b.length + 15 ≤ st.data.length := by
          by_contra hl
          have := hu b.length (by omega) (by omega)
          rw [e, append_assoc, drop_left, packet_start hp t] at this
          cases this
        have e1 : st.data = b ++ p.take (st.data.length - b.length) := by
          have := congrArg (take st.data.length) e
          rw [take_left, append_assoc, take_append, take_append_of_le_length (by omega), take_of_length_le (by omega)] at this
          exact this
        have hsp := split_open (b := b) (q := p.take (st.data.length - b.length)) (r := p.drop (st.data.length - b.length)) hb hp
          (take_append_drop _ _).symm (by
            intro h
            have := drop_eq_nil_iff.1 h
            omega) (by rw [length_take]; omega)
        rw [← e1] at hsp
        have e2 : drain false (st.data.length + 1) st = some ([], st) := by
          unfold drain
          rw [hsp]
          simp
        obtain ⟨st2, e3, d2, b2, b3⟩ := prepare_ok hbuf (by omega)
        unfold Deliverable at hd
        rw [e2] at hd
        simp only at hd
        rw [e3] at hd
        simp only [Bool.and_eq_true, decide_eq_true_eq] at hd
        unfold scanChunks
        rw [e2]
        simp only
        rw [e3]
        simp only
        rw [ih { st2 with data := st2.data ++ c } b hb ?_ ⟨by simp only [length_append]; omega, Or.inr b2⟩ ?_ ?_ hd.2]
        · rfl
        · simp only [d2]
          rw [append_assoc, ← flatten_cons, e]
        · right
          omega
        · simp only [d2]
          have := hcut' 0 (by omega)
          simpa using this

end Xmp.Props
