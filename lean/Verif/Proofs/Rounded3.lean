import Verif.Proofs.Rounded2
import Verif.Props.HkZhu2

/-!
# Rounding of the mean slowness
-/

namespace Rfsed
open PyFloat Spec HkZhu
set_option linter.unusedSectionVars false
variable {R : Rounding}

theorem accumulated_succ (n : Nat) : (1 + R.u) * accumulated R.u n + R.u = accumulated R.u (n + 1) := by
  unfold accumulated; ring

theorem accumulated_mono {m n : Nat} (h : m ≤ n) : accumulated R.u m ≤ accumulated R.u n := by
  unfold accumulated
  have := pow_le_pow_right₀ (show (1 : ℝ) ≤ 1 + R.u by linarith [R.u_nonneg]) h
  linarith

/-- one more rounded operation -/
theorem accumulated_fl {y x m : ℝ} {n : Nat} (h : |y - x| ≤ accumulated R.u n * m) (hx : |x| ≤ m) :
    |R.fl y - x| ≤ accumulated R.u (n + 1) * m := by
  refine (fl_approx (R := R) h).trans ?_
  rw [← accumulated_succ]
  have := mul_le_mul_of_nonneg_left hx R.u_nonneg
  nlinarith

/-- running sum of numbers that are not negative -/
theorem sum_approx {xs : List (FL R)} (hx : ∀ x ∈ xs, 0 ≤ x.val) {n : Nat} {s0 : FL R} {s : ℝ}
    (h0 : |s0.val - s| ≤ accumulated R.u n * s) (hs : 0 ≤ s) :
    |(xs.foldl (fun a b => a + b) s0).val - (s + (xs.map FL.val).sum)| ≤
      accumulated R.u (n + xs.length) * (s + (xs.map FL.val).sum) ∧ 0 ≤ s + (xs.map FL.val).sum := by
  induction xs generalizing n s0 s with
  | nil => simpa using ⟨h0, hs⟩
  | cons x xs ih =>
    have hx0 := hx x (by simp)
    have h1 : |s0.val + x.val - (s + x.val)| ≤ accumulated R.u n * (s + x.val) := by
      have e : s0.val + x.val - (s + x.val) = s0.val - s := by ring
      rw [e]
      refine h0.trans (mul_le_mul_of_nonneg_left (by linarith) (accumulated_nonneg _))
    have h2 : |(s0 + x).val - (s + x.val)| ≤ accumulated R.u (n + 1) * (s + x.val) :=
      accumulated_fl h1 (by rw [abs_of_nonneg (by linarith)])
    have := ih (fun y hy => hx y (by simp [hy])) h2 (by linarith)
    rw [List.foldl_cons, List.map_cons, List.sum_cons, List.length_cons, ← add_assoc,
      show n + (xs.length + 1) = n + 1 + xs.length by omega]
    exact this

/-- `np.mean` of numbers that are not negative -/
theorem mean_approx (hu : R.u ≤ 1 / 1000) {xs : List (FL R)} (hx : ∀ x ∈ xs, 0 ≤ x.val) :
    |(npMean xs).val - (xs.map FL.val).sum / xs.length| ≤
      accumulated R.u (xs.length + 4) * ((xs.map FL.val).sum / xs.length) ∧ 0 ≤ (xs.map FL.val).sum / xs.length := by
  obtain ⟨h1, h2⟩ := sum_approx hx (n := 0) (s0 := zero) (s := 0) (by simp [accumulated]) le_rfl
  rw [zero_add, Nat.zero_add] at h1
  rw [zero_add] at h2
  set S := (xs.map FL.val).sum
  set n := xs.length with hn
  have hu0 := R.u_nonneg
  have hm : 0 ≤ S / n := div_nonneg h2 (by positivity)
  refine ⟨?_, hm⟩
  have e : (npMean xs).val = R.fl ((xs.foldl (fun a b => a + b) zero).val / R.fl (n : ℝ)) := by
    show R.fl (_ / R.fl ((n : ℝ) / 10 ^ 0)) = _
    rw [pow_zero, div_one]
  rw [e]
  set T := (xs.foldl (fun a b => a + b) zero).val
  refine accumulated_fl (n := n + 3) ?_ (by rw [abs_of_nonneg hm])
  by_cases h0 : n = 0
  · rw [h0, Nat.cast_zero, R.fl_zero, div_zero, div_zero]
    simp
  have hnp : (0 : ℝ) < n := by exact_mod_cast Nat.pos_of_ne_zero h0
  have hN := R.err (n : ℝ)
  rw [abs_of_pos hnp] at hN
  have hN1 : (1 - R.u) * n ≤ R.fl n := by
    have := neg_le_of_abs_le hN
    linarith
  have hNp : 0 < R.fl (n : ℝ) := lt_of_lt_of_le (by apply mul_pos _ hnp; linarith) hN1
  have e2 : T / R.fl (n : ℝ) - S / n = ((T - S) * n + S * (n - R.fl n)) / (R.fl n * n) := by
    field_simp
    ring
  rw [e2, abs_div, abs_of_pos (mul_pos hNp hnp), div_le_iff₀ (mul_pos hNp hnp)]
  have b1 : |(T - S) * n + S * (n - R.fl n)| ≤ (accumulated R.u n + R.u) * (S * n) := by
    refine (abs_add_le _ _).trans ?_
    rw [abs_mul, abs_mul, abs_of_pos hnp, abs_of_nonneg h2, abs_sub_comm (n : ℝ)]
    have c1 := mul_le_mul_of_nonneg_right h1 hnp.le
    have c2 := mul_le_mul_of_nonneg_left hN h2
    nlinarith
  refine b1.trans ?_
  have e3 : accumulated R.u (n + 3) * (S / n) * (R.fl n * n) = accumulated R.u (n + 3) * R.fl n * S := by
    field_simp
  rw [e3]
  have b2 : accumulated R.u n + R.u ≤ accumulated R.u (n + 3) * (1 - R.u) := by
    have hp : (1 : ℝ) ≤ (1 + R.u) ^ n := one_le_pow₀ (by linarith)
    have e4 : accumulated R.u (n + 3) = (1 + R.u) ^ n * (1 + R.u) ^ 3 - 1 := by unfold accumulated; ring
    have e5 : accumulated R.u n = (1 + R.u) ^ n - 1 := rfl
    rw [e4, e5]
    set q := (1 + R.u) ^ n
    have k : 0 ≤ R.u * (1 - R.u) := mul_nonneg hu0 (by linarith)
    have k2 : (1 : ℝ) ≤ (1 + R.u) ^ 3 * (1 - R.u) := by nlinarith [mul_nonneg hu0 hu0, mul_nonneg k hu0, mul_nonneg (mul_nonneg hu0 hu0) k]
    have k3 := mul_le_mul_of_nonneg_left k2 (by linarith : 0 ≤ q)
    nlinarith
  have b3 : accumulated R.u (n + 3) * (1 - R.u) * n ≤ accumulated R.u (n + 3) * R.fl n := by
    rw [mul_assoc]
    exact mul_le_mul_of_nonneg_left hN1 (accumulated_nonneg _)
  have b4 := mul_le_mul_of_nonneg_right (mul_le_mul_of_nonneg_right b2 hnp.le) h2
  have b5 := mul_le_mul_of_nonneg_right b3 h2
  calc (accumulated R.u n + R.u) * (S * n) = (accumulated R.u n + R.u) * n * S := by ring
    _ ≤ _ := b4
    _ ≤ _ := b5

end Rfsed
