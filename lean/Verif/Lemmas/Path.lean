import Verif.Model.Path
import Verif.Lemmas.GoStr

/-! Helper lemmas about names and paths. -/

namespace Xmp

open GoStr

theorem getPrefix_append {a b : Str} (h : ':' ∉ a) : getPrefix (a ++ ':' :: b) = a := by
  unfold getPrefix; rw [indexChar_append h]; simp

theorem stripPrefix_append {a b : Str} (h : ':' ∉ a) : stripPrefix (a ++ ':' :: b) = b := by
  unfold stripPrefix; rw [indexChar_append h]; simp

theorem getPrefix_none {a : Str} (h : ':' ∉ a) : getPrefix a = a := by
  unfold getPrefix; rw [indexChar_none.2 h]

theorem stripPrefix_none {a : Str} (h : ':' ∉ a) : stripPrefix a = a := by
  unfold stripPrefix; rw [indexChar_none.2 h]

theorem hasNsPrefix_append {a b : Str} (h : ':' ∉ a) : hasNsPrefix (a ++ ':' :: b) = decide (a ≠ []) := by
  unfold hasNsPrefix; rw [indexChar_append h]
  cases a <;> simp

theorem hasNsPrefix_none {a : Str} (h : ':' ∉ a) : hasNsPrefix a = false := by
  unfold hasNsPrefix; rw [indexChar_none.2 h]

namespace Path

theorem new_eq (p : Str) (l : List Str) : new p l = p ++ ':' :: join ['/'] l := by
  simp [new]

theorem namespacePrefix_new {p : Str} (l : List Str) (h : ':' ∉ p) : namespacePrefix (new p l) = p := by
  unfold namespacePrefix; rw [new_eq, indexChar_append h]; simp

theorem join_head_ne {l : List Str} {a : Str} {c : Char} (h : a ≠ []) (hs : '/' ∉ a)
    (hc : c = '/') : hasPrefix (join ['/'] (a :: l)) [c] = false := by
  subst hc
  cases a with
  | nil => exact absurd rfl h
  | cons x xs =>
    have hx : x ≠ '/' := by intro hh; subst hh; simp at hs
    have : (join ['/'] ((x :: xs) :: l)).head? = some x := by
      cases l <;> simp [join]
    cases hp : hasPrefix (join ['/'] ((x :: xs) :: l)) ['/'] with
    | false => rfl
    | true =>
      rw [hasPrefix_singleton, this] at hp
      exact absurd (Option.some.inj hp) hx

theorem fields_new {p : Str} {l : List Str} (hp : ':' ∉ p) (hs : ∀ s ∈ l, '/' ∉ s)
    (hne : ∀ s, l.head? = some s → s ≠ []) : fields (new p l) = l := by
  unfold fields
  rw [new_eq, indexChar_append hp]
  have hd : (p ++ ':' :: join ['/'] l).drop (p.length + 1) = join ['/'] l := by
    rw [List.drop_append]; simp
  simp only [hd]
  cases l with
  | nil => simp [join, trimPrefix, hasPrefix]
  | cons a t =>
    have ha := hne a rfl
    have ht : trimPrefix (join ['/'] (a :: t)) ['/'] = join ['/'] (a :: t) := by
      unfold trimPrefix
      rw [join_head_ne ha (hs a (by simp)) rfl]; simp
    rw [ht, split_join (by simp) hs]
    have : (join ['/'] (a :: t)).length > 0 := by
      cases t with
      | nil => simpa [join] using List.length_pos_iff.2 ha
      | cons b t => simp [join]; omega
    simp [this]

end Path
end Xmp
