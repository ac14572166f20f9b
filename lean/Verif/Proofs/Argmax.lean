import Verif.Py.Numpy
import Verif.Spec.Order

namespace Rfsed
open PyFloat Spec
variable {F : Type} [PyFloat F]

theorem le_refl_of_num [IEEEOrder F] (x : F) (h : isNaN x = false) : le x x = true := by
  rcases IEEEOrder.le_total x x h h with h | h <;> exact h

theorem not_nan_of_le_left [IEEEOrder F] {x y : F} (h : le x y = true) : isNaN x = false := by
  by_contra hx
  have := IEEEOrder.le_nan_left x y (by simpa using hx)
  simp [this] at h

theorem not_nan_of_le_right [IEEEOrder F] {x y : F} (h : le x y = true) : isNaN y = false := by
  by_contra hx
  have := IEEEOrder.le_nan_right x y (by simpa using hx)
  simp [this] at h

theorem lt_of_not_le [IEEEOrder F] {x y : F} (hx : isNaN x = false) (hy : isNaN y = false)
    (h : le y x = false) : lt x y = true := (IEEEOrder.lt_iff x y hx hy).2 h

theorem not_le_of_lt [IEEEOrder F] {x y : F} (h : lt x y = true) : le y x = false := by
  by_cases hx : isNaN x = true
  · simp [IEEEOrder.lt_nan_left x y hx] at h
  by_cases hy : isNaN y = true
  · simp [IEEEOrder.lt_nan_right x y hy] at h
  exact (IEEEOrder.lt_iff x y (by simpa using hx) (by simpa using hy)).1 h

theorem le_of_lt' [IEEEOrder F] {x y : F} (h : lt x y = true) : le x y = true := by
  by_cases hx : isNaN x = true
  · simp [IEEEOrder.lt_nan_left x y hx] at h
  by_cases hy : isNaN y = true
  · simp [IEEEOrder.lt_nan_right x y hy] at h
  have := not_le_of_lt h
  rcases IEEEOrder.le_total x y (by simpa using hx) (by simpa using hy) with h' | h'
  · exact h'
  · simp [this] at h'

theorem lt_of_le_of_lt' [IEEEOrder F] {x y z : F} (h : le x y = true) (h' : lt y z = true) :
    lt x z = true := by
  have hz := not_nan_of_le_right (le_of_lt' h')
  have hx := not_nan_of_le_left h
  refine lt_of_not_le hx hz ?_
  by_contra hc
  have := IEEEOrder.le_trans z x y (by simpa using hc) h
  simp [not_le_of_lt h'] at this

theorem lt_of_lt_of_le' [IEEEOrder F] {x y z : F} (h : lt x y = true) (h' : le y z = true) :
    lt x z = true := by
  have hz := not_nan_of_le_right h'
  have hx := not_nan_of_le_left (le_of_lt' h)
  refine lt_of_not_le hx hz ?_
  by_contra hc
  have := IEEEOrder.le_trans y z x h' (by simpa using hc)
  simp [not_le_of_lt h] at this

/-- combined description of `np.argmax` -/
def ArgmaxSpec (xs : List F) (i : Nat) : Prop :=
  i < xs.length ∧ ((NoNaN xs ∧ IsFirstMax xs i) ∨ IsFirstNaN xs i)

def ArgminSpec (xs : List F) (i : Nat) : Prop :=
  i < xs.length ∧ ((NoNaN xs ∧ IsFirstMin xs i) ∨ IsFirstNaN xs i)

theorem getElem?_snoc {α} (pre : List α) (x : α) (j : Nat) (y : α)
    (h : (pre ++ [x])[j]? = some y) : pre[j]? = some y ∨ (j = pre.length ∧ y = x) := by
  rw [List.getElem?_append] at h
  split at h
  · exact .inl h
  · rename_i hj
    rcases Nat.lt_or_ge (j - pre.length) 1 with h1 | h1
    · have : j - pre.length = 0 := by omega
      rw [this] at h
      simp at h
      exact .inr ⟨by omega, h.symm⟩
    · rw [List.getElem?_eq_none (by simpa using h1)] at h
      simp at h

theorem getElem?_append_of_some {α} {pre : List α} (xs : List α) {i : Nat} {y : α}
    (h : pre[i]? = some y) : (pre ++ xs)[i]? = some y := by
  have hi : i < pre.length := by
    by_contra hc
    rw [List.getElem?_eq_none (by omega)] at h
    simp at h
  rw [List.getElem?_append_left hi, h]

theorem argmaxGo_spec [IEEEOrder F] (xs : List F) :
    ∀ (pre : List F) (mp : F) (idx : Nat), NoNaN pre → pre[idx]? = some mp →
      (∀ (j : Nat) (y : F), pre[j]? = some y → le y mp = true) →
      (∀ (j : Nat) (y : F), j < idx → pre[j]? = some y → lt y mp = true) →
      ArgmaxSpec (pre ++ xs) (argmaxGo mp idx pre.length xs) := by
  induction xs with
  | nil =>
    intro pre mp idx hn hi hle hlt
    simp only [List.append_nil, argmaxGo]
    refine ⟨?_, .inl ⟨hn, mp, hi, hle, hlt⟩⟩
    by_contra hc
    rw [List.getElem?_eq_none (by omega)] at hi
    simp at hi
  | cons x xs ih =>
    intro pre mp idx hn hi hle hlt
    have hmp : isNaN mp = false := hn mp (List.mem_of_getElem? hi)
    have hpx : pre ++ x :: xs = (pre ++ [x]) ++ xs := by simp
    have hlen : (pre ++ [x]).length = pre.length + 1 := by simp
    have hx0 : (pre ++ [x])[pre.length]? = some x := by simp
    unfold argmaxGo
    by_cases hc : le x mp = true
    · have hx : isNaN x = false := not_nan_of_le_left hc
      rw [if_neg (by simp [hc])]
      rw [hpx, ← hlen]
      apply ih
      · intro y hy
        rcases List.mem_append.1 hy with h | h
        · exact hn y h
        · simp at h; rw [h]; exact hx
      · exact getElem?_append_of_some _ hi
      · intro j y h
        rcases getElem?_snoc _ _ _ _ h with h | ⟨_, rfl⟩
        · exact hle j y h
        · exact hc
      · intro j y hj h
        rcases getElem?_snoc _ _ _ _ h with h | ⟨h, rfl⟩
        · exact hlt j y hj h
        · exfalso
          have : idx < pre.length := by
            by_contra hcc
            rw [List.getElem?_eq_none (by omega)] at hi
            simp at hi
          omega
    · rw [if_pos (by simpa using hc)]
      by_cases hx : isNaN x = true
      · rw [if_pos hx]
        refine ⟨by simp, .inr ⟨x, by simp, hx, ?_⟩⟩
        intro j y hj h
        rw [List.getElem?_append_left hj] at h
        exact hn y (List.mem_of_getElem? h)
      · rw [if_neg hx]
        have hx' : isNaN x = false := by simpa using hx
        have hlt' : lt mp x = true := lt_of_not_le hmp hx' (by simpa using hc)
        rw [hpx, ← hlen]
        apply ih
        · intro y hy
          rcases List.mem_append.1 hy with h | h
          · exact hn y h
          · simp at h; rw [h]; exact hx'
        · exact hx0
        · intro j y h
          rcases getElem?_snoc _ _ _ _ h with h | ⟨_, rfl⟩
          · exact IEEEOrder.le_trans _ _ _ (hle j y h) (le_of_lt' hlt')
          · exact le_refl_of_num _ hx'
        · intro j y hj h
          rcases getElem?_snoc _ _ _ _ h with h | ⟨h, rfl⟩
          · exact lt_of_le_of_lt' (hle j y h) hlt'
          · omega

theorem argmax_spec [IEEEOrder F] {xs : List F} {i : Nat} (h : argmax xs = .ok i) :
    ArgmaxSpec xs i := by
  cases xs with
  | nil => simp [argmax] at h
  | cons x xs =>
    simp only [argmax, Except.ok.injEq] at h
    by_cases hx : isNaN x = true
    · rw [if_pos hx] at h
      subst h
      exact ⟨by simp, .inr ⟨x, by simp, hx, by intro j y hj; omega⟩⟩
    · rw [if_neg hx] at h
      have hx' : isNaN x = false := by simpa using hx
      have := argmaxGo_spec xs [x] x 0 (by simpa [NoNaN] using hx') (by simp)
        (by intro j y h
            have : y = x := by
              rcases j with _ | j <;> simp at h
              exact h.symm
            rw [this]; exact le_refl_of_num _ hx')
        (by intro j y hj; omega)
      simp only [List.length_singleton, List.cons_append, List.nil_append] at this
      rw [h] at this
      exact this

theorem argminGo_spec [IEEEOrder F] (xs : List F) :
    ∀ (pre : List F) (mp : F) (idx : Nat), NoNaN pre → pre[idx]? = some mp →
      (∀ (j : Nat) (y : F), pre[j]? = some y → le mp y = true) →
      (∀ (j : Nat) (y : F), j < idx → pre[j]? = some y → lt mp y = true) →
      ArgminSpec (pre ++ xs) (argminGo mp idx pre.length xs) := by
  induction xs with
  | nil =>
    intro pre mp idx hn hi hle hlt
    simp only [List.append_nil, argminGo]
    refine ⟨?_, .inl ⟨hn, mp, hi, hle, hlt⟩⟩
    by_contra hc
    rw [List.getElem?_eq_none (by omega)] at hi
    simp at hi
  | cons x xs ih =>
    intro pre mp idx hn hi hle hlt
    have hmp : isNaN mp = false := hn mp (List.mem_of_getElem? hi)
    have hpx : pre ++ x :: xs = (pre ++ [x]) ++ xs := by simp
    have hlen : (pre ++ [x]).length = pre.length + 1 := by simp
    have hx0 : (pre ++ [x])[pre.length]? = some x := by simp
    unfold argminGo
    by_cases hc : le mp x = true
    · have hx : isNaN x = false := not_nan_of_le_right hc
      rw [if_neg (by simp [hc])]
      rw [hpx, ← hlen]
      apply ih
      · intro y hy
        rcases List.mem_append.1 hy with h | h
        · exact hn y h
        · simp at h; rw [h]; exact hx
      · exact getElem?_append_of_some _ hi
      · intro j y h
        rcases getElem?_snoc _ _ _ _ h with h | ⟨_, rfl⟩
        · exact hle j y h
        · exact hc
      · intro j y hj h
        rcases getElem?_snoc _ _ _ _ h with h | ⟨h, rfl⟩
        · exact hlt j y hj h
        · exfalso
          have : idx < pre.length := by
            by_contra hcc
            rw [List.getElem?_eq_none (by omega)] at hi
            simp at hi
          omega
    · rw [if_pos (by simpa using hc)]
      by_cases hx : isNaN x = true
      · rw [if_pos hx]
        refine ⟨by simp, .inr ⟨x, by simp, hx, ?_⟩⟩
        intro j y hj h
        rw [List.getElem?_append_left hj] at h
        exact hn y (List.mem_of_getElem? h)
      · rw [if_neg hx]
        have hx' : isNaN x = false := by simpa using hx
        have hlt' : lt x mp = true := lt_of_not_le hx' hmp (by simpa using hc)
        rw [hpx, ← hlen]
        apply ih
        · intro y hy
          rcases List.mem_append.1 hy with h | h
          · exact hn y h
          · simp at h; rw [h]; exact hx'
        · exact hx0
        · intro j y h
          rcases getElem?_snoc _ _ _ _ h with h | ⟨_, rfl⟩
          · exact IEEEOrder.le_trans _ _ _ (le_of_lt' hlt') (hle j y h)
          · exact le_refl_of_num _ hx'
        · intro j y hj h
          rcases getElem?_snoc _ _ _ _ h with h | ⟨h, rfl⟩
          · exact lt_of_lt_of_le' hlt' (hle j y h)
          · omega

theorem argmin_spec [IEEEOrder F] {xs : List F} {i : Nat} (h : argmin xs = .ok i) :
    ArgminSpec xs i := by
  cases xs with
  | nil => simp [argmin] at h
  | cons x xs =>
    simp only [argmin, Except.ok.injEq] at h
    by_cases hx : isNaN x = true
    · rw [if_pos hx] at h
      subst h
      exact ⟨by simp, .inr ⟨x, by simp, hx, by intro j y hj; omega⟩⟩
    · rw [if_neg hx] at h
      have hx' : isNaN x = false := by simpa using hx
      have := argminGo_spec xs [x] x 0 (by simpa [NoNaN] using hx') (by simp)
        (by intro j y h
            have : y = x := by
              rcases j with _ | j <;> simp at h
              exact h.symm
            rw [this]; exact le_refl_of_num _ hx')
        (by intro j y hj; omega)
      simp only [List.length_singleton, List.cons_append, List.nil_append] at this
      rw [h] at this
      exact this

theorem argmin_ok {xs : List F} (h : xs ≠ []) : ∃ i, argmin xs = .ok i := by
  cases xs with
  | nil => exact absurd rfl h
  | cons x xs => exact ⟨_, rfl⟩

theorem argmax_ok {xs : List F} (h : xs ≠ []) : ∃ i, argmax xs = .ok i := by
  cases xs with
  | nil => exact absurd rfl h
  | cons x xs => exact ⟨_, rfl⟩

theorem IsFirstMax.unique [IEEEOrder F] {xs : List F} {i j : Nat} (hi : IsFirstMax xs i)
    (hj : IsFirstMax xs j) : i = j := by
  obtain ⟨x, hx, hx1, hx2⟩ := hi
  obtain ⟨y, hy, hy1, hy2⟩ := hj
  rcases Nat.lt_trichotomy i j with h | h | h
  · have := not_le_of_lt (hy2 i x h hx)
    rw [hx1 j y hy] at this; simp at this
  · exact h
  · have := not_le_of_lt (hx2 j y h hy)
    rw [hy1 i x hx] at this; simp at this

theorem IsFirstMin.unique [IEEEOrder F] {xs : List F} {i j : Nat} (hi : IsFirstMin xs i)
    (hj : IsFirstMin xs j) : i = j := by
  obtain ⟨x, hx, hx1, hx2⟩ := hi
  obtain ⟨y, hy, hy1, hy2⟩ := hj
  rcases Nat.lt_trichotomy i j with h | h | h
  · have := not_le_of_lt (hy2 i x h hx)
    rw [hx1 j y hy] at this; simp at this
  · exact h
  · have := not_le_of_lt (hx2 j y h hy)
    rw [hy1 i x hx] at this; simp at this

theorem not_firstNaN_of_noNaN {xs : List F} {i : Nat} (hn : NoNaN xs) : ¬ IsFirstNaN xs i := by
  rintro ⟨x, hx, hnan, _⟩
  have := hn x (List.mem_of_getElem? hx)
  simp [this] at hnan

theorem argmax_eq_of_firstMax [IEEEOrder F] {xs : List F} {i : Nat} (hn : NoNaN xs)
    (hi : IsFirstMax xs i) : argmax xs = .ok i := by
  obtain ⟨x, hx, _⟩ := id hi
  have hne : xs ≠ [] := by rintro rfl; simp at hx
  obtain ⟨k, hk⟩ := argmax_ok hne
  obtain ⟨_, h | h⟩ := argmax_spec hk
  · rw [hk, IsFirstMax.unique hi h.2]
  · exact absurd h (not_firstNaN_of_noNaN hn)

theorem argmin_eq_of_firstMin [IEEEOrder F] {xs : List F} {i : Nat} (hn : NoNaN xs)
    (hi : IsFirstMin xs i) : argmin xs = .ok i := by
  obtain ⟨x, hx, _⟩ := id hi
  have hne : xs ≠ [] := by rintro rfl; simp at hx
  obtain ⟨k, hk⟩ := argmin_ok hne
  obtain ⟨_, h | h⟩ := argmin_spec hk
  · rw [hk, IsFirstMin.unique hi h.2]
  · exact absurd h (not_firstNaN_of_noNaN hn)

theorem argmax_firstMax [IEEEOrder F] {xs : List F} {i : Nat} (hn : NoNaN xs)
    (h : argmax xs = .ok i) : IsFirstMax xs i := by
  obtain ⟨_, h | h⟩ := argmax_spec h
  · exact h.2
  · exact absurd h (not_firstNaN_of_noNaN hn)

theorem argmin_firstMin [IEEEOrder F] {xs : List F} {i : Nat} (hn : NoNaN xs)
    (h : argmin xs = .ok i) : IsFirstMin xs i := by
  obtain ⟨_, h | h⟩ := argmin_spec h
  · exact h.2
  · exact absurd h (not_firstNaN_of_noNaN hn)

theorem argmin_lt {xs : List F} {i : Nat} [IEEEOrder F] (h : argmin xs = .ok i) : i < xs.length :=
  (argmin_spec h).1
theorem argmax_lt {xs : List F} {i : Nat} [IEEEOrder F] (h : argmax xs = .ok i) : i < xs.length :=
  (argmax_spec h).1

end Rfsed
