import Verif.Model.Registry

/-! Lemmas about Go maps. -/

namespace Xmp.GoMap

variable {V : Type}

theorem get_del_self (m : GoMap V) (k : Str) : (m.del k).get k = none := by
  unfold get del
  rw [Option.map_eq_none_iff, List.find?_eq_none]
  intro e he
  simp [List.mem_filter] at he ⊢
  exact he.2

theorem get_del_ne (m : GoMap V) {k j : Str} (h : j ≠ k) : (m.del k).get j = m.get j := by
  unfold get del
  congr 1
  induction m with
  | nil => rfl
  | cons e t ih =>
    by_cases he : e.1 = k
    · have : ¬ e.1 = j := fun hh => h (hh.symm.trans he)
      rw [List.filter_cons_of_neg (by simp [he]), List.find?_cons_of_neg (by simp [this]), ih]
    · rw [List.filter_cons_of_pos (by simp [he])]
      by_cases hj : e.1 = j
      · rw [List.find?_cons_of_pos (by simp [hj]), List.find?_cons_of_pos (by simp [hj])]
      · rw [List.find?_cons_of_neg (by simp [hj]), List.find?_cons_of_neg (by simp [hj]), ih]

theorem get_set_self (m : GoMap V) (k : Str) (v : V) : (m.set k v).get k = some v := by
  simp [get, set]

theorem get_set_ne (m : GoMap V) {k j : Str} (v : V) (h : j ≠ k) : (m.set k v).get j = m.get j := by
  rw [← get_del_ne m h]
  unfold get set
  rw [List.find?_cons_of_neg]
  simp [Ne.symm h]

/-- Keys of a map occur once. -/
def Wf (m : GoMap V) : Prop := (m.map (·.1)).Nodup

theorem wf_nil : Wf ([] : GoMap V) := by simp [Wf]

theorem wf_del {m : GoMap V} (h : Wf m) (k : Str) : Wf (m.del k) :=
  (List.filter_sublist.map _).nodup h

theorem wf_set {m : GoMap V} (h : Wf m) (k : Str) (v : V) : Wf (m.set k v) := by
  have := wf_del h k
  unfold Wf set at *
  simp only [List.map_cons, List.nodup_cons]
  refine ⟨?_, this⟩
  simp [del]

theorem get_eq_some {m : GoMap V} (h : Wf m) {k : Str} {v : V} : m.get k = some v ↔ (k, v) ∈ m := by
  induction m with
  | nil => simp [get]
  | cons e t ih =>
    have ht : Wf t := by unfold Wf at *; simp at h; exact h.2
    have he : e.1 ∉ t.map (·.1) := by unfold Wf at h; exact (List.nodup_cons.1 h).1
    by_cases hk : e.1 = k
    · subst hk
      have hg : get (e :: t) e.1 = some e.2 := by simp [get]
      rw [hg]
      constructor
      · intro hv; cases hv; simp
      · intro hm
        rcases List.mem_cons.1 hm with hm | hm
        · rw [← hm]
        · exact absurd (List.mem_map_of_mem (f := (·.1)) hm) he
    · have hg : get (e :: t) k = get t k := by
        unfold get; rw [List.find?_cons_of_neg (by simp [hk])]
      rw [hg, ih ht]
      constructor
      · intro hm; exact List.mem_cons_of_mem _ hm
      · intro hm
        rcases List.mem_cons.1 hm with hm | hm
        · exact absurd (by rw [← hm]) hk
        · exact hm

theorem mem_keys {m : GoMap V} {k : Str} : k ∈ m.map (·.1) ↔ ∃ v, m.get k = some v := by
  induction m with
  | nil => simp [get]
  | cons e t ih =>
    by_cases hk : e.1 = k
    · subst hk; simp [get]
    · have hg : get (e :: t) k = get t k := by
        unfold get; rw [List.find?_cons_of_neg (by simp [hk])]
      rw [hg, ← ih]
      simp [Ne.symm hk]

end Xmp.GoMap
