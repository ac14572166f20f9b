import Verif.Proofs.Resonance2
import Mathlib.Data.Nat.Find

/-! A detrended record that is not zero always has a trough in its autocorrelation. -/

namespace Rfsed
open Finset Spec

/-- lag sums and double sums -/
theorem lag_sum (f d : Nat → ℝ) : ∀ n : Nat,
    ∑ k ∈ range n, f (k + 1) * ∑ m ∈ range (n - (k + 1)), d (m + (k + 1)) * d m =
      ∑ j ∈ range n, ∑ m ∈ range j, f (j - m) * (d j * d m) := by
  intro n
  induction n with
  | zero => simp
  | succ n ih =>
    rw [Finset.sum_range_succ, Finset.sum_range_succ (fun j => ∑ m ∈ range j, _), ← ih]
    have h1 : ∀ k ∈ range n,
        f (k + 1) * ∑ m ∈ range (n + 1 - (k + 1)), d (m + (k + 1)) * d m =
        f (k + 1) * ∑ m ∈ range (n - (k + 1)), d (m + (k + 1)) * d m +
          f (k + 1) * (d n * d (n - (k + 1))) := by
      intro k hk
      have hk := Finset.mem_range.1 hk
      rw [show n + 1 - (k + 1) = (n - (k + 1)) + 1 by omega, Finset.sum_range_succ, mul_add,
        show n - (k + 1) + (k + 1) = n by omega]
    rw [Finset.sum_congr rfl h1, Finset.sum_add_distrib]
    have h2 : ∑ m ∈ range n, f (n - m) * (d n * d m) =
        ∑ k ∈ range n, f (k + 1) * (d n * d (n - (k + 1))) := by
      rw [← Finset.sum_range_reflect]
      apply Finset.sum_congr rfl
      intro k hk
      have hk := Finset.mem_range.1 hk
      rw [show n - (n - 1 - k) = k + 1 by omega, show n - 1 - k = n - (k + 1) by omega]
    rw [h2]; simp

/-- square of a double sum split at the diagonal -/
theorem double_sum (g : Nat → Nat → ℝ) (hg : ∀ i j, g i j = g j i) : ∀ n : Nat,
    ∑ i ∈ range n, ∑ j ∈ range n, g i j =
      ∑ i ∈ range n, g i i + 2 * ∑ j ∈ range n, ∑ m ∈ range j, g j m := by
  intro n
  induction n with
  | zero => simp
  | succ n ih =>
    rw [Finset.sum_range_succ, Finset.sum_range_succ (fun i => g i i),
      Finset.sum_range_succ (fun j => ∑ m ∈ range j, g j m)]
    have : ∀ i ∈ range n, ∑ j ∈ range (n + 1), g i j = ∑ j ∈ range n, g i j + g i n :=
      fun i _ => Finset.sum_range_succ _ _
    rw [Finset.sum_congr rfl this, Finset.sum_add_distrib, ih, Finset.sum_range_succ]
    have : ∑ i ∈ range n, g i n = ∑ m ∈ range n, g n m :=
      Finset.sum_congr rfl (fun i _ => hg i n)
    rw [this]; ring

theorem lag_zero (d : List ℝ) (h0 : ∑ i ∈ range d.length, d.getD i 0 = 0) :
    autocorr d 0 + 2 * ∑ k ∈ range d.length, autocorr d (k + 1) = 0 := by
  have h := double_sum (fun i j => d.getD i 0 * d.getD j 0) (fun i j => mul_comm _ _) d.length
  have hl := lag_sum (fun _ => 1) (fun i => d.getD i 0) d.length
  simp only [one_mul] at hl
  rw [← hl] at h
  have : ∑ i ∈ range d.length, ∑ j ∈ range d.length, d.getD i 0 * d.getD j 0 = 0 := by
    rw [← Finset.sum_mul_sum, h0, zero_mul]
  rw [this] at h
  have e : autocorr d 0 = ∑ i ∈ range d.length, d.getD i 0 * d.getD i 0 := by
    simp [autocorr]
  rw [e]; exact h.symm

theorem lag_sq (d : List ℝ) (h0 : ∑ i ∈ range d.length, d.getD i 0 = 0)
    (h1 : ∑ i ∈ range d.length, (i : ℝ) * d.getD i 0 = 0) :
    ∑ k ∈ range d.length, ((k : ℝ) + 1) ^ 2 * autocorr d (k + 1) = 0 := by
  have h := double_sum (fun i j => ((i : ℝ) - j) ^ 2 * (d.getD i 0 * d.getD j 0))
    (fun i j => by ring) d.length
  have hl := lag_sum (fun k => (k : ℝ) ^ 2) (fun i => d.getD i 0) d.length
  have e1 : ∑ i ∈ range d.length, ∑ j ∈ range d.length,
      ((i : ℝ) - j) ^ 2 * (d.getD i 0 * d.getD j 0) = 0 := by
    have : ∀ i ∈ range d.length, ∑ j ∈ range d.length,
        ((i : ℝ) - j) ^ 2 * (d.getD i 0 * d.getD j 0) =
        d.getD i 0 * ∑ j ∈ range d.length, (j : ℝ) ^ 2 * d.getD j 0 := by
      intro i _
      have e : ∀ j ∈ range d.length, ((i : ℝ) - j) ^ 2 * (d.getD i 0 * d.getD j 0) =
          (i : ℝ) ^ 2 * d.getD i 0 * d.getD j 0 - 2 * i * d.getD i 0 * ((j : ℝ) * d.getD j 0) +
          d.getD i 0 * ((j : ℝ) ^ 2 * d.getD j 0) := by intro j _; ring
      rw [Finset.sum_congr rfl e, Finset.sum_add_distrib, Finset.sum_sub_distrib,
        ← Finset.mul_sum, ← Finset.mul_sum, ← Finset.mul_sum, h0, h1]
      ring
    rw [Finset.sum_congr rfl this, ← Finset.sum_mul, h0, zero_mul]
  have e2 : ∑ j ∈ range d.length, ∑ m ∈ range j,
      ((j : ℝ) - m) ^ 2 * (d.getD j 0 * d.getD m 0) =
      ∑ j ∈ range d.length, ∑ m ∈ range j,
        ((j - m : Nat) : ℝ) ^ 2 * (d.getD j 0 * d.getD m 0) := by
    apply Finset.sum_congr rfl; intro j _
    apply Finset.sum_congr rfl; intro m hm
    have := Finset.mem_range.1 hm
    rw [Nat.cast_sub (by omega)]
  rw [e1, e2, ← hl] at h
  simp only [sub_self, ne_eq, OfNat.ofNat_ne_zero, not_false_eq_true, zero_pow, zero_mul,
    Finset.sum_const_zero, zero_add, Nat.cast_add, Nat.cast_one] at h
  have := h.symm
  rw [mul_eq_zero] at this
  exact this.resolve_left two_ne_zero

/-- equality in Cauchy–Schwarz needs the zero record -/
theorem autocorr_lt {d : List ℝ} (hd : 0 < autocorr d 0) {k : Nat} (hk : 1 ≤ k) :
    |autocorr d k| < autocorr d 0 := by
  by_contra hcon
  have heq : |autocorr d k| = autocorr d 0 :=
    le_antisymm (autocorr_le d k) (not_lt.1 hcon)
  have e0 : autocorr d 0 = ∑ m ∈ range d.length, d.getD m 0 ^ 2 := by
    unfold autocorr; simp [pow_two]
  by_cases hkl : d.length ≤ k
  · have : autocorr d k = 0 := by
      unfold autocorr; rw [Nat.sub_eq_zero_of_le hkl]; simp
    rw [this, abs_zero] at heq
    exact absurd heq.symm hd.ne'
  have hkl : k < d.length := not_le.1 hkl
  -- `∃ s, s² = 1` and `s * c_k = c_0`
  obtain ⟨s, hs, hsc⟩ : ∃ s : ℝ, s ^ 2 = 1 ∧ s * autocorr d k = autocorr d 0 := by
    rcases abs_choice (autocorr d k) with h | h
    · exact ⟨1, by norm_num, by rw [← heq, h, one_mul]⟩
    · exact ⟨-1, by norm_num, by rw [← heq, h]; ring⟩
  have hA : autocorr d 0 = ∑ m ∈ range (d.length - k), d.getD m 0 ^ 2 +
      ∑ m ∈ range k, d.getD (d.length - k + m) 0 ^ 2 := by
    rw [e0, ← Finset.sum_range_add (fun m => d.getD m 0 ^ 2), Nat.sub_add_cancel hkl.le]
  have hB : autocorr d 0 = ∑ m ∈ range k, d.getD m 0 ^ 2 +
      ∑ m ∈ range (d.length - k), d.getD (m + k) 0 ^ 2 := by
    rw [e0]
    have : range d.length = range (k + (d.length - k)) := by congr 1; omega
    rw [this, Finset.sum_range_add]
    congr 1
    exact Finset.sum_congr rfl (fun m _ => by rw [Nat.add_comm])
  have hC : ∑ m ∈ range (d.length - k), (d.getD (m + k) 0 - s * d.getD m 0) ^ 2 =
      ∑ m ∈ range (d.length - k), d.getD (m + k) 0 ^ 2 +
      ∑ m ∈ range (d.length - k), d.getD m 0 ^ 2 - 2 * autocorr d 0 := by
    have : ∀ m ∈ range (d.length - k), (d.getD (m + k) 0 - s * d.getD m 0) ^ 2 =
        d.getD (m + k) 0 ^ 2 + d.getD m 0 ^ 2 - 2 * s * (d.getD (m + k) 0 * d.getD m 0) := by
      intro m _; linear_combination (d.getD m 0 ^ 2) * hs
    rw [Finset.sum_congr rfl this, Finset.sum_sub_distrib, Finset.sum_add_distrib,
      ← Finset.mul_sum, ← hsc]
    unfold autocorr; ring
  have p1 := Finset.sum_nonneg (s := range k) (f := fun m => d.getD m 0 ^ 2)
    (fun i _ => sq_nonneg _)
  have p2 := Finset.sum_nonneg (s := range k) (f := fun m => d.getD (d.length - k + m) 0 ^ 2)
    (fun i _ => sq_nonneg _)
  have p3 := Finset.sum_nonneg (s := range (d.length - k))
    (f := fun m => (d.getD (m + k) 0 - s * d.getD m 0) ^ 2) (fun i _ => sq_nonneg _)
  have z1 : ∑ m ∈ range k, d.getD m 0 ^ 2 = 0 := by linarith
  have z3 : ∑ m ∈ range (d.length - k), (d.getD (m + k) 0 - s * d.getD m 0) ^ 2 = 0 := by linarith
  have y1 := (Finset.sum_eq_zero_iff_of_nonneg (fun i _ => sq_nonneg _)).1 z1
  have y3 := (Finset.sum_eq_zero_iff_of_nonneg (fun i _ => sq_nonneg _)).1 z3
  have hall : ∀ m, m < d.length → d.getD m 0 = 0 := by
    intro m
    induction m using Nat.strong_induction_on with
    | _ m ih =>
      intro hm
      by_cases h : m < k
      · exact pow_eq_zero_iff two_ne_zero |>.1 (y1 m (Finset.mem_range.2 h))
      · have hp := ih (m - k) (by omega) (by omega)
        have := pow_eq_zero_iff two_ne_zero |>.1 (y3 (m - k) (Finset.mem_range.2 (by omega)))
        rw [Nat.sub_add_cancel (by omega), hp, mul_zero, sub_zero] at this
        exact this
  have : autocorr d 0 = 0 := by
    rw [e0]
    exact Finset.sum_eq_zero (fun i hi => by rw [hall i (Finset.mem_range.1 hi)]; simp)
  exact hd.ne' this

/-- a rise somewhere means a trough before it -/
theorem trough_of_rise {a : List ℝ} (hmax : ∀ k < a.length, a.getD k 0 ≤ a.getD 0 0) {k : Nat}
    (hk : k + 1 < a.length) (hrise : a.getD k 0 < a.getD (k + 1) 0) : ∃ s e, Trough a s e := by
  classical
  -- minimum over `0..k`
  obtain ⟨i0, hi0, hmin⟩ := Finset.exists_min_image (range (k + 1)) (fun i => a.getD i 0)
    ⟨0, by simp⟩
  have hex : ∃ s, s ≤ k ∧ a.getD s 0 = a.getD i0 0 :=
    ⟨i0, by have := Finset.mem_range.1 hi0; omega, rfl⟩
  set s := Nat.find hex with hs
  obtain ⟨hsk, hse⟩ := Nat.find_spec hex
  have hsmin : ∀ i ≤ k, a.getD s 0 ≤ a.getD i 0 := fun i hi => by
    rw [hse]; exact hmin i (Finset.mem_range.2 (by omega))
  have hsfirst : ∀ i < s, a.getD s 0 < a.getD i 0 := by
    intro i hi
    refine lt_of_le_of_ne (hsmin i (by omega)) (fun h => ?_)
    exact Nat.find_min hex hi ⟨by omega, by rw [← h, hse]⟩
  have hlt : a.getD s 0 < a.getD (k + 1) 0 := lt_of_le_of_lt (hsmin k (le_refl _)) hrise
  have hs1 : 1 ≤ s := by
    by_contra h
    have : s = 0 := by omega
    rw [this] at hlt
    exact absurd (hmax (k + 1) hk) (not_le.2 hlt)
  have hex2 : ∃ e, s ≤ e ∧ a.getD s 0 < a.getD (e + 1) 0 := ⟨k, hsk, hlt⟩
  set e := Nat.find hex2 with he
  obtain ⟨hse1, hse2⟩ := Nat.find_spec hex2
  have hek : e ≤ k := Nat.find_min' hex2 ⟨hsk, hlt⟩
  refine ⟨s, e, hs1, hse1, by omega, ?_, hsfirst (s - 1) (by omega), hse2⟩
  intro j hj1 hj2
  rcases Nat.eq_or_lt_of_le hj1 with rfl | h
  · rfl
  · have : ¬ (s ≤ j - 1 ∧ a.getD s 0 < a.getD (j - 1 + 1) 0) := Nat.find_min hex2 (by omega)
    rw [Nat.sub_add_cancel (by omega)] at this
    have h2 : a.getD j 0 ≤ a.getD s 0 := by
      by_contra hc; exact this ⟨by omega, not_le.1 hc⟩
    exact le_antisymm h2 (hsmin j (by omega))

theorem exists_trough {d : List ℝ} (h0 : ∑ i ∈ range d.length, d.getD i 0 = 0)
    (h1 : ∑ i ∈ range d.length, (i : ℝ) * d.getD i 0 = 0) (hd : 0 < autocorr d 0) :
    ∃ s e, Trough (acOf d) s e := by
  classical
  by_contra hno
  have hn : 0 < d.length := by
    rcases Nat.eq_zero_or_pos d.length with h | h
    · have : autocorr d 0 = 0 := by unfold autocorr; rw [h]; simp
      exact absurd this hd.ne'
    · exact h
  have hmono : ∀ k, k + 1 < d.length → autocorr d (k + 1) ≤ autocorr d k := by
    intro k hk
    by_contra hc
    apply hno
    apply trough_of_rise (k := k)
    · intro j hj
      rw [acOf_length] at hj
      rw [acOf_getD d hj, acOf_getD d hn]
      exact div_le_div_of_nonneg_right (le_trans (le_abs_self _) (autocorr_le d j)) hd.le
    · rw [acOf_length]; exact hk
    · rw [acOf_getD d (by omega), acOf_getD d hk]
      exact div_lt_div_of_pos_right (not_le.1 hc) hd
  have hanti : ∀ i j, i ≤ j → j < d.length → autocorr d j ≤ autocorr d i := by
    intro i j hij
    induction j, hij using Nat.le_induction with
    | base => intro _; exact le_refl _
    | succ j _ ih => intro hj; exact le_trans (hmono j hj) (ih (by omega))
  have hbig : autocorr d d.length = 0 := by unfold autocorr; simp
  -- pivot: the last lag below `n` with a non-negative value
  have hex : ∃ q, ∀ k, q < k → k < d.length → autocorr d k < 0 := ⟨d.length, fun k h1 h2 => by omega⟩
  set p := Nat.find hex with hp
  have hp1 : ∀ k, p < k → k < d.length → autocorr d k < 0 := Nat.find_spec hex
  have hp2 : p = 0 ∨ (p < d.length ∧ 0 ≤ autocorr d p) := by
    rcases Nat.eq_zero_or_pos p with h | h
    · exact Or.inl h
    · right
      have : ¬ ∀ k, p - 1 < k → k < d.length → autocorr d k < 0 := Nat.find_min hex (by omega)
      push Not at this
      obtain ⟨k, hk1, hk2, hk3⟩ := this
      have : k = p := by
        by_contra hne
        exact absurd (hp1 k (by omega) hk2) (not_lt.2 hk3)
      exact this ▸ ⟨hk2, hk3⟩
  have hz := lag_zero d h0
  have hq := lag_sq d h0 h1
  have hterm : ∀ k ∈ range d.length,
      ((k : ℝ) + 1) ^ 2 * autocorr d (k + 1) ≤ (p : ℝ) ^ 2 * autocorr d (k + 1) := by
    intro k hk
    have hk := Finset.mem_range.1 hk
    rcases Nat.eq_or_lt_of_le (show k + 1 ≤ d.length by omega) with h | h
    · rw [h, hbig]; simp
    · by_cases hkp : k + 1 ≤ p
      · rcases hp2 with h' | ⟨h', h''⟩
        · omega
        · have hc : 0 ≤ autocorr d (k + 1) := le_trans h'' (hanti _ _ hkp h')
          apply mul_le_mul_of_nonneg_right _ hc
          have : (k : ℝ) + 1 ≤ p := by exact_mod_cast hkp
          nlinarith [Nat.cast_nonneg (α := ℝ) k]
      · have hc := hp1 (k + 1) (by omega) h
        apply mul_le_mul_of_nonpos_right _ hc.le
        have : (p : ℝ) ≤ (k : ℝ) + 1 := by
          have : p ≤ k + 1 := by omega
          exact_mod_cast this
        nlinarith [Nat.cast_nonneg (α := ℝ) p]
  have hsum := Finset.sum_le_sum hterm
  rw [hq, ← Finset.mul_sum] at hsum
  have hneg : ∑ k ∈ range d.length, autocorr d (k + 1) = -(autocorr d 0) / 2 := by linarith
  rw [hneg] at hsum
  have hp0 : p = 0 := by
    by_contra hne
    have : (1 : ℝ) ≤ p := by exact_mod_cast Nat.one_le_iff_ne_zero.2 hne
    have h2 : (0 : ℝ) < (p : ℝ) ^ 2 := by positivity
    have := mul_pos h2 hd
    linarith
  rcases Nat.eq_or_lt_of_le (show 1 ≤ d.length by omega) with h | h
  · -- one sample: it is zero
    have : autocorr d 0 = 0 := by
      have h0' := h0
      rw [← h] at h0'
      simp at h0'
      unfold autocorr
      rw [← h]; simp [h0']
    exact hd.ne' this
  · have : ∑ k ∈ range d.length, ((k : ℝ) + 1) ^ 2 * autocorr d (k + 1) < 0 := by
      apply Finset.sum_neg' (s := range d.length)
      · intro k hk
        have hk := Finset.mem_range.1 hk
        rcases Nat.eq_or_lt_of_le (show k + 1 ≤ d.length by omega) with h | h
        · rw [h, hbig]; simp
        · have := hp1 (k + 1) (by omega) h
          nlinarith [sq_nonneg ((k : ℝ) + 1)]
      · refine ⟨0, Finset.mem_range.2 (by omega), ?_⟩
        have := hp1 1 (by omega) h
        simpa using this
    exact absurd hq this.ne

/-- zero energy means all samples zero -/
theorem autocorr_zero_iff (d : List ℝ) :
    autocorr d 0 = 0 ↔ ∀ i < d.length, d.getD i 0 = 0 := by
  have e0 : autocorr d 0 = ∑ m ∈ range d.length, d.getD m 0 ^ 2 := by
    unfold autocorr; simp [pow_two]
  rw [e0, Finset.sum_eq_zero_iff_of_nonneg (fun i _ => sq_nonneg _)]
  simp

end Rfsed
