import Verif.Py.Rounded
import Verif.Spec.Rounding
import Verif.Proofs.HkMore
import Mathlib.Tactic.Linarith
import Mathlib.Tactic.Positivity
import Mathlib.Tactic.FieldSimp

/-!
# Error analysis of the delay times and of the stack
-/

namespace Rfsed
open PyFloat Spec HkZhu
set_option linter.unusedSectionVars false

section real
variable {R : Rounding}

/-- rounding an approximation -/
theorem fl_approx {x y e : ℝ} (h : |y - x| ≤ e) : |R.fl y - x| ≤ (1 + R.u) * e + R.u * |x| := by
  have h1 := R.err y
  have h2 : |y| ≤ |x| + e := by
    have := abs_sub_abs_le_abs_sub y x
    linarith
  have h3 : |R.fl y - x| ≤ |R.fl y - y| + |y - x| := by
    have := abs_add_le (R.fl y - y) (y - x)
    simpa using this
  have := mul_le_mul_of_nonneg_left h2 R.u_nonneg
  linarith

theorem mul_approx {a b x y e f : ℝ} (h1 : |a - x| ≤ e) (h2 : |b - y| ≤ f) :
    |a * b - x * y| ≤ (|x| + e) * f + e * |y| := by
  have ha : |a| ≤ |x| + e := by
    have := abs_sub_abs_le_abs_sub a x
    linarith
  have : a * b - x * y = a * (b - y) + (a - x) * y := by ring
  rw [this]
  refine (abs_add_le _ _).trans ?_
  rw [abs_mul, abs_mul]
  have he : 0 ≤ |b - y| := abs_nonneg _
  have h0 : 0 ≤ |x| + e := (abs_nonneg a).trans ha
  gcongr

/-- the rounded square of a number known to relative accuracy `u` -/
theorem square_approx (hu : R.u ≤ 1 / 1000) {a x : ℝ} (h : |a - x| ≤ R.u * |x|) :
    |R.fl (a * a) - x ^ 2| ≤ 3.01 * R.u * x ^ 2 := by
  have h0 := R.u_nonneg
  have h1 := fl_approx (R := R) (mul_approx h h)
  have e : |x * x| = x ^ 2 := by rw [abs_mul_self, sq]
  have e2 : |x| * |x| = x ^ 2 := by rw [abs_mul_abs_self, sq]
  rw [← sq] at e
  rw [sq x]
  refine h1.trans ?_
  rw [abs_mul_self, ← sq x]
  have : (1 + R.u) * ((|x| + R.u * |x|) * (R.u * |x|) + R.u * |x| * |x|) + R.u * x ^ 2 =
      (3 * R.u + 3 * R.u ^ 2 + R.u ^ 3) * x ^ 2 := by
    have : (|x| + R.u * |x|) * (R.u * |x|) + R.u * |x| * |x| = (2 * R.u + R.u ^ 2) * (|x| * |x|) := by ring
    rw [this, e2]; ring
  rw [this]
  have hx : 0 ≤ x ^ 2 := sq_nonneg x
  apply mul_le_mul_of_nonneg_right _ hx
  nlinarith [mul_nonneg h0 h0, mul_nonneg (mul_nonneg h0 h0) h0]

/-- the rounded difference of two squares -/
theorem diff_approx (hu : R.u ≤ 1 / 1000) {a b s p : ℝ} (ha : |a - s| ≤ R.u * |s|) (hb : |b - p| ≤ R.u * |p|) :
    |R.fl (R.fl (a * a) - R.fl (b * b)) - (s ^ 2 - p ^ 2)| ≤ 4.02 * R.u * (s ^ 2 + p ^ 2) := by
  have h0 := R.u_nonneg
  have h1 := square_approx hu ha
  have h2 := square_approx hu hb
  have h3 : |R.fl (a * a) - R.fl (b * b) - (s ^ 2 - p ^ 2)| ≤ 3.01 * R.u * (s ^ 2 + p ^ 2) := by
    have : R.fl (a * a) - R.fl (b * b) - (s ^ 2 - p ^ 2) = (R.fl (a * a) - s ^ 2) - (R.fl (b * b) - p ^ 2) := by ring
    rw [this]
    refine (abs_sub _ _).trans ?_
    linarith
  have h4 := fl_approx (R := R) h3
  have hs : 0 ≤ s ^ 2 + p ^ 2 := by positivity
  have h5 : |s ^ 2 - p ^ 2| ≤ s ^ 2 + p ^ 2 := by
    rw [abs_le]; constructor <;> nlinarith [sq_nonneg s, sq_nonneg p]
  refine h4.trans ?_
  have h6 := mul_le_mul_of_nonneg_left h5 h0
  have h7 : R.u * R.u ≤ R.u * (1 / 1000) := mul_le_mul_of_nonneg_left hu h0
  have h8 := mul_le_mul_of_nonneg_right h7 hs
  nlinarith

theorem sqrt_approx {x y e : ℝ} (hx : 0 < x) (h : |y - x| ≤ e) :
    |Real.sqrt y - Real.sqrt x| ≤ e / Real.sqrt x := by
  have hs : 0 < Real.sqrt x := Real.sqrt_pos.2 hx
  have he : 0 ≤ e := (abs_nonneg _).trans h
  rw [le_div_iff₀ hs]
  rcases le_or_gt 0 y with hy | hy
  · have h1 : (Real.sqrt y - Real.sqrt x) * (Real.sqrt y + Real.sqrt x) = y - x := by
      have := Real.mul_self_sqrt hy
      have := Real.mul_self_sqrt hx.le
      nlinarith
    have h2 : |Real.sqrt y - Real.sqrt x| * (Real.sqrt y + Real.sqrt x) = |y - x| := by
      rw [← h1, abs_mul, abs_of_nonneg (by positivity : 0 ≤ Real.sqrt y + Real.sqrt x)]
    have h3 : |Real.sqrt y - Real.sqrt x| * Real.sqrt x ≤
        |Real.sqrt y - Real.sqrt x| * (Real.sqrt y + Real.sqrt x) :=
      mul_le_mul_of_nonneg_left (by linarith [Real.sqrt_nonneg y]) (abs_nonneg _)
    linarith
  · rw [Real.sqrt_eq_zero_of_nonpos hy.le, zero_sub, abs_neg, abs_of_pos hs, Real.mul_self_sqrt hx.le]
    have := neg_abs_le (y - x)
    linarith

/-- vertical slowness: it is positive where the model takes the root, and this accurate -/
theorem slow_approx (hu : R.u ≤ 1 / 1000) {a b s p : ℝ} (ha : |a - s| ≤ R.u * |s|) (hb : |b - p| ≤ R.u * |p|)
    (hw : 5 * R.u * (s ^ 2 + p ^ 2) < s ^ 2 - p ^ 2) :
    0 < R.fl (R.fl (a * a) - R.fl (b * b)) ∧
    |R.fl (Real.sqrt (R.fl (R.fl (a * a) - R.fl (b * b)))) - Real.sqrt (s ^ 2 - p ^ 2)| ≤
      5.03 * R.u * sensitivity p s ∧
    0 ≤ Real.sqrt (s ^ 2 - p ^ 2) ∧ Real.sqrt (s ^ 2 - p ^ 2) ≤ sensitivity p s := by
  have h0 := R.u_nonneg
  have hd := diff_approx hu ha hb
  have hs : 0 ≤ s ^ 2 + p ^ 2 := by positivity
  have hx : 0 < s ^ 2 - p ^ 2 := lt_of_le_of_lt (by positivity) hw
  have hq : 0 < Real.sqrt (s ^ 2 - p ^ 2) := Real.sqrt_pos.2 hx
  have hle : Real.sqrt (s ^ 2 - p ^ 2) ≤ sensitivity p s := by
    unfold sensitivity
    rw [le_div_iff₀ hq, Real.mul_self_sqrt hx.le]
    nlinarith [sq_nonneg p]
  refine ⟨?_, ?_, hq.le, hle⟩
  · have := neg_le_of_abs_le hd
    nlinarith
  · have h1 := fl_approx (R := R) (sqrt_approx hx hd)
    rw [abs_of_pos hq] at h1
    refine h1.trans ?_
    have e : 4.02 * R.u * (s ^ 2 + p ^ 2) / Real.sqrt (s ^ 2 - p ^ 2) = 4.02 * R.u * sensitivity p s := by
      unfold sensitivity; ring
    rw [e]
    have hn : 0 ≤ sensitivity p s := hq.le.trans hle
    have h7 : R.u * R.u ≤ R.u * (1 / 1000) := mul_le_mul_of_nonneg_left hu h0
    have h8 := mul_le_mul_of_nonneg_right h7 hn
    have h9 := mul_le_mul_of_nonneg_left hle h0
    nlinarith

/-- `fl (H * fl (T1 ± T2))` -/
theorem leg_approx (hu : R.u ≤ 1 / 1000) {H x1 x2 t1 t2 c1 c2 : ℝ} (σ : ℝ) (hσ : |σ| = 1)
    (h1 : |x1 - t1| ≤ 5.03 * R.u * c1) (h2 : |x2 - t2| ≤ 5.03 * R.u * c2) (p1 : 0 ≤ t1) (p2 : 0 ≤ t2)
    (q1 : t1 ≤ c1) (q2 : t2 ≤ c2) :
    |R.fl (H * R.fl (x1 + σ * x2)) - H * (t1 + σ * t2)| ≤ 7.05 * R.u * (|H| * (c1 + c2)) := by
  have h0 := R.u_nonneg
  have hc : 0 ≤ c1 + c2 := by linarith
  have hu2 : R.u * R.u ≤ R.u * (1 / 1000) := mul_le_mul_of_nonneg_left hu h0
  have hu3 := mul_le_mul_of_nonneg_right hu2 hc
  have hb : |t1 + σ * t2| ≤ c1 + c2 := by
    refine (abs_add_le _ _).trans ?_
    rw [abs_mul, hσ, one_mul, abs_of_nonneg p1, abs_of_nonneg p2]; linarith
  have g1 : |x1 + σ * x2 - (t1 + σ * t2)| ≤ 5.03 * R.u * (c1 + c2) := by
    have : x1 + σ * x2 - (t1 + σ * t2) = (x1 - t1) + σ * (x2 - t2) := by ring
    rw [this]
    refine (abs_add_le _ _).trans ?_
    rw [abs_mul, hσ, one_mul]; linarith
  have g2 := fl_approx (R := R) g1
  have g3 : |R.fl (x1 + σ * x2) - (t1 + σ * t2)| ≤ 6.04 * R.u * (c1 + c2) := by
    refine g2.trans ?_
    have := mul_le_mul_of_nonneg_left hb h0
    nlinarith
  have g4 : |H * R.fl (x1 + σ * x2) - H * (t1 + σ * t2)| ≤ 6.04 * R.u * (|H| * (c1 + c2)) := by
    rw [← mul_sub, abs_mul]
    have := mul_le_mul_of_nonneg_left g3 (abs_nonneg H)
    linarith
  have g5 := fl_approx (R := R) g4
  have hH : 0 ≤ |H| * (c1 + c2) := mul_nonneg (abs_nonneg _) hc
  have hb2 : |H * (t1 + σ * t2)| ≤ |H| * (c1 + c2) := by
    rw [abs_mul]; exact mul_le_mul_of_nonneg_left hb (abs_nonneg _)
  have := mul_le_mul_of_nonneg_left hb2 h0
  have hu4 := mul_le_mul_of_nonneg_right hu2 hH
  refine g5.trans ?_
  nlinarith

/-- `fl (fl (H * 2) * T1)` -/
theorem leg2_approx (hu : R.u ≤ 1 / 1000) {H x1 t1 c1 : ℝ}
    (h1 : |x1 - t1| ≤ 5.03 * R.u * c1) (p1 : 0 ≤ t1) (q1 : t1 ≤ c1) :
    |R.fl (R.fl (H * 2) * x1) - 2 * H * t1| ≤ 14.1 * R.u * (|H| * c1) := by
  have h0 := R.u_nonneg
  have hc : 0 ≤ c1 := by linarith
  have hu2 : R.u * R.u ≤ R.u * (1 / 1000) := mul_le_mul_of_nonneg_left hu h0
  have g1 : |R.fl (H * 2) - H * 2| ≤ R.u * |H * 2| := R.err _
  have g2 := mul_approx g1 h1
  have e : |H * 2| = 2 * |H| := by rw [abs_mul]; norm_num; ring
  rw [e] at g2
  have hHc : 0 ≤ |H| * c1 := mul_nonneg (abs_nonneg _) hc
  have ht : |H| * t1 ≤ |H| * c1 := mul_le_mul_of_nonneg_left q1 (abs_nonneg _)
  have g3 : |R.fl (H * 2) * x1 - H * 2 * t1| ≤ 12.08 * R.u * (|H| * c1) := by
    refine g2.trans ?_
    rw [abs_of_nonneg p1]
    have a1 : R.u * (|H| * t1) ≤ R.u * (|H| * c1) := mul_le_mul_of_nonneg_left ht h0
    have a2 := mul_le_mul_of_nonneg_right hu2 hHc
    nlinarith
  have g4 := fl_approx (R := R) g3
  have e2 : |H * 2 * t1| = 2 * (|H| * t1) := by rw [abs_mul, e, abs_of_nonneg p1]; ring
  rw [e2] at g4
  have e3 : 2 * H * t1 = H * 2 * t1 := by ring
  rw [e3]
  refine g4.trans ?_
  have a1 : R.u * (|H| * t1) ≤ R.u * (|H| * c1) := mul_le_mul_of_nonneg_left ht h0
  have a2 := mul_le_mul_of_nonneg_right hu2 hHc
  nlinarith

/-- one sample of the time axis -/
theorem axis_approx (hu : R.u ≤ 1 / 1000) (δ pre : ℝ) (i n : Nat) (hi : i ≤ n) :
    |R.fl (R.fl (δ * R.fl ((i : ℝ) / 10 ^ 0)) - pre) - (δ * i - pre)| ≤ 3.02 * R.u * (|δ| * n + |pre|) := by
  have h0 := R.u_nonneg
  have hu2 : R.u * R.u ≤ R.u * (1 / 1000) := mul_le_mul_of_nonneg_left hu h0
  rw [pow_zero, div_one]
  have g1 := R.err (i : ℝ)
  rw [abs_of_nonneg (by positivity : (0 : ℝ) ≤ i)] at g1
  have g2 : |δ * R.fl (i : ℝ) - δ * i| ≤ R.u * (|δ| * i) := by
    rw [← mul_sub, abs_mul]
    have := mul_le_mul_of_nonneg_left g1 (abs_nonneg δ)
    linarith
  have g3 := fl_approx (R := R) g2
  have e : |δ * (i : ℝ)| = |δ| * i := by rw [abs_mul, abs_of_nonneg (by positivity : (0 : ℝ) ≤ i)]
  rw [e] at g3
  have hp : 0 ≤ |δ| * i := by positivity
  have hin : |δ| * i ≤ |δ| * n := mul_le_mul_of_nonneg_left (by exact_mod_cast hi) (abs_nonneg _)
  have g4 : |R.fl (δ * R.fl (i : ℝ)) - pre - (δ * i - pre)| ≤ 2.001 * R.u * (|δ| * i) := by
    have : R.fl (δ * R.fl (i : ℝ)) - pre - (δ * i - pre) = R.fl (δ * R.fl (i : ℝ)) - δ * i := by ring
    rw [this]
    have := mul_le_mul_of_nonneg_right hu2 hp
    nlinarith
  have g5 := fl_approx (R := R) g4
  have g6 : |δ * i - pre| ≤ |δ| * i + |pre| := by
    refine (abs_sub _ _).trans ?_
    rw [e]
  refine g5.trans ?_
  have a1 := mul_le_mul_of_nonneg_left g6 h0
  have a2 := mul_le_mul_of_nonneg_right hu2 hp
  have a3 := mul_le_mul_of_nonneg_left hin h0
  have a4 : 0 ≤ R.u * |pre| := mul_nonneg h0 (abs_nonneg _)
  nlinarith

/-- the rounded distance between a sample and a delay time -/
theorem dist_approx (hu : R.u ≤ 1 / 1000) {τ t τ' t' L T : ℝ} (hT : 0 ≤ T)
    (h1 : |τ' - τ| ≤ 3.02 * R.u * L) (h2 : |t' - t| ≤ 14.1 * R.u * T) (hτ : |τ| ≤ L) (ht : |t| ≤ 2 * T) :
    _root_.abs (|R.fl (τ' - t')| - |τ - t|) ≤ 20 * R.u * (L + T) := by
  have h0 := R.u_nonneg
  have hL : 0 ≤ L := (abs_nonneg _).trans hτ
  refine (abs_abs_sub_abs_le _ _).trans ?_
  have g1 : |τ' - t' - (τ - t)| ≤ 3.02 * R.u * L + 14.1 * R.u * T := by
    have : τ' - t' - (τ - t) = (τ' - τ) - (t' - t) := by ring
    rw [this]
    exact (abs_sub _ _).trans (add_le_add h1 h2)
  have g2 := fl_approx (R := R) g1
  have g3 : |τ - t| ≤ L + 2 * T := (abs_sub _ _).trans (add_le_add hτ ht)
  have a1 := mul_le_mul_of_nonneg_left g3 h0
  have hu2 : R.u * R.u ≤ R.u * (1 / 1000) := mul_le_mul_of_nonneg_left hu h0
  have a2 := mul_le_mul_of_nonneg_right hu2 hL
  have a3 := mul_le_mul_of_nonneg_right hu2 hT
  have a4 := mul_nonneg h0 hL
  have a5 := mul_nonneg h0 hT
  refine g2.trans ?_
  nlinarith

/-- the weighted sum of one trace -/
theorem term_approx (p1 p2 p3 : ℝ) :
    |R.fl (R.fl (R.fl p1 + R.fl p2) - R.fl p3) - (p1 + p2 - p3)| ≤
      accumulated R.u 3 * (|p1| + |p2| + |p3|) := by
  have h0 := R.u_nonneg
  have e1 := R.err p1
  have e2 := R.err p2
  have e3 := R.err p3
  have g1 : |R.fl p1 + R.fl p2 - (p1 + p2)| ≤ R.u * (|p1| + |p2|) := by
    have : R.fl p1 + R.fl p2 - (p1 + p2) = (R.fl p1 - p1) + (R.fl p2 - p2) := by ring
    rw [this]
    refine (abs_add_le _ _).trans ?_
    linarith
  have g2 := fl_approx (R := R) g1
  have g3 := mul_le_mul_of_nonneg_left (abs_add_le p1 p2) h0
  have g4 : |R.fl (R.fl p1 + R.fl p2) - R.fl p3 - (p1 + p2 - p3)| ≤
      (2 * R.u + R.u ^ 2) * (|p1| + |p2|) + R.u * |p3| := by
    have : R.fl (R.fl p1 + R.fl p2) - R.fl p3 - (p1 + p2 - p3) =
        (R.fl (R.fl p1 + R.fl p2) - (p1 + p2)) - (R.fl p3 - p3) := by ring
    rw [this]
    refine (abs_sub _ _).trans ?_
    nlinarith
  have g5 := fl_approx (R := R) g4
  have g6 : |p1 + p2 - p3| ≤ |p1| + |p2| + |p3| :=
    (abs_sub _ _).trans (add_le_add (abs_add_le _ _) le_rfl)
  have g7 := mul_le_mul_of_nonneg_left g6 h0
  refine g5.trans ?_
  unfold accumulated
  have a3 := abs_nonneg p3
  have : ((1 + R.u) ^ 3 - 1) * (|p1| + |p2| + |p3|) =
      (1 + R.u) * ((2 * R.u + R.u ^ 2) * (|p1| + |p2|) + R.u * |p3|) + R.u * (|p1| + |p2| + |p3|) +
        (R.u + 2 * R.u ^ 2 + R.u ^ 3) * |p3| := by ring
  rw [this]
  have : 0 ≤ (R.u + 2 * R.u ^ 2 + R.u ^ 3) * |p3| := by positivity
  linarith

/-- one more addition -/
theorem sum_step {t s t' s' m M : ℝ} {n : Nat} (hn : 3 ≤ n) (ht : |t' - t| ≤ accumulated R.u 3 * m)
    (hs : |s' - s| ≤ accumulated R.u n * M) (hm : |t| ≤ m) (hM : |s| ≤ M) :
    |R.fl (t' + s') - (t + s)| ≤ accumulated R.u (n + 1) * (m + M) := by
  have h0 := R.u_nonneg
  have h1 : (1 : ℝ) ≤ 1 + R.u := by linarith
  have hm0 : 0 ≤ m := (abs_nonneg _).trans hm
  have hM0 : 0 ≤ M := (abs_nonneg _).trans hM
  have g1 : |t' + s' - (t + s)| ≤ accumulated R.u n * (m + M) := by
    have : t' + s' - (t + s) = (t' - t) + (s' - s) := by ring
    rw [this]
    refine (abs_add_le _ _).trans ?_
    have : accumulated R.u 3 * m ≤ accumulated R.u n * m := by
      apply mul_le_mul_of_nonneg_right _ hm0
      unfold accumulated
      have := pow_le_pow_right₀ h1 hn
      linarith
    rw [mul_add]; linarith
  have g2 := fl_approx (R := R) g1
  have g3 := mul_le_mul_of_nonneg_left ((abs_add_le t s).trans (add_le_add hm hM)) h0
  refine g2.trans ?_
  have : accumulated R.u (n + 1) * (m + M) =
      (1 + R.u) * (accumulated R.u n * (m + M)) + R.u * (m + M) := by
    unfold accumulated; ring
  rw [this]; linarith

theorem accumulated_nonneg (n : Nat) : 0 ≤ accumulated R.u n := by
  unfold accumulated
  have := one_le_pow₀ (n := n) (by linarith [R.u_nonneg] : (1 : ℝ) ≤ 1 + R.u)
  linarith

end real


section model
variable {R : Rounding}

theorem sensitivity_nonneg (p s : ℝ) : 0 ≤ sensitivity p s :=
  div_nonneg (by positivity) (Real.sqrt_nonneg _)

theorem timeScale_nonneg (p Vp H K : ℝ) : 0 ≤ timeScale p Vp H K :=
  mul_nonneg (abs_nonneg _) (add_nonneg (sensitivity_nonneg _ _) (sensitivity_nonneg _ _))

/-- the same rounding function, with a larger bound of its errors -/
def _root_.Rfsed.Rounding.coarse (R : Rounding) (v : ℝ) (hv : R.u ≤ v) : Rounding where
  fl := R.fl
  u := v
  u_nonneg := R.u_nonneg.trans hv
  err x := (R.err x).trans (mul_le_mul_of_nonneg_right hv (abs_nonneg _))
  fl_one := R.fl_one
  fl_two := R.fl_two

theorem _root_.Rfsed.Rounding.coarse_u (R : Rounding) (v : ℝ) (hv : R.u ≤ v) : (R.coarse v hv).u = v := rfl

theorem _root_.Rfsed.Rounding.coarse_fl (R : Rounding) (v : ℝ) (hv : R.u ≤ v) : (R.coarse v hv).fl = R.fl := rfl

theorem _root_.Rfsed.Rounding.err_le (R : Rounding) {v : ℝ} (hv : R.u ≤ v) (x : ℝ) : |R.fl x - x| ≤ v * |x| :=
  (R.err x).trans (mul_le_mul_of_nonneg_right hv (abs_nonneg _))

/-- the three delay times the rounded program computes, from a ray parameter known with relative accuracy `v` -/
theorem bestTimes_approx_v {v : ℝ} (hv : R.u ≤ v) (hu : v ≤ 1 / 1000) {Vp : Scalar (FL R)} {kd : Kind} {rp x k : FL R} {p : ℝ}
    {ts : PyNum (FL R) × PyNum (FL R) × PyNum (FL R)} (hp : |rp.val - p| ≤ v * |p|)
    (hw : WellConditioned v p Vp.val.val k.val) (h : bestTimes Vp kd rp x k = .ok ts) :
    ∃ t1 t2 t3 : FL R, ts = (.real t1, .real t2, .real t3) ∧
      |t1.val - tPs p Vp.val.val x.val k.val| ≤ 14.1 * v * timeScale p Vp.val.val x.val k.val ∧
      |t2.val - tPpPs p Vp.val.val x.val k.val| ≤ 14.1 * v * timeScale p Vp.val.val x.val k.val ∧
      |t3.val - tPsPs p Vp.val.val x.val k.val| ≤ 14.1 * v * timeScale p Vp.val.val x.val k.val ∧
      |tPs p Vp.val.val x.val k.val| ≤ 2 * timeScale p Vp.val.val x.val k.val ∧
      |tPpPs p Vp.val.val x.val k.val| ≤ 2 * timeScale p Vp.val.val x.val k.val ∧
      |tPsPs p Vp.val.val x.val k.val| ≤ 2 * timeScale p Vp.val.val x.val k.val := by
  unfold bestTimes at h
  obtain ⟨iv, hiv, h⟩ := bind_eq_ok.1 h
  have hiv' := oneOver_ok hiv
  subst hiv'
  have q1 : |(k / Vp.val).val - k.val / Vp.val.val| ≤ v * |k.val / Vp.val.val| := R.err_le hv _
  have q2 : |((one : FL R) / Vp.val).val - 1 / Vp.val.val| ≤ v * |1 / Vp.val.val| := by
    rw [FL.val_div, FL.val_one]; exact R.err_le hv _
  obtain ⟨s1, e1, z1, l1⟩ := slow_approx (R := R.coarse v hv) hu q1 hp hw.1
  obtain ⟨s2, e2, z2, l2⟩ := slow_approx (R := R.coarse v hv) hu q2 hp hw.2
  have hkk : powHalfK (Vp.kind.join kd) (square ((one : FL R) / Vp.val) - square rp) =
      .real (powHalf (square ((one : FL R) / Vp.val) - square rp)) := by
    cases Vp.kind.join kd with
    | np => rfl
    | py =>
      unfold powHalfK
      have : lt (square ((one : FL R) / Vp.val) - square rp) zero = false := by
        rw [FL.lt_false, FL.val_zero]
        exact s2.le
      rw [this]; rfl
  rw [hkk] at h
  have h := Except.ok.inj h
  rw [← h]
  have hs1 := sensitivity_nonneg p (k.val / Vp.val.val)
  have hs2 := sensitivity_nonneg p (1 / Vp.val.val)
  have hT : timeScale p Vp.val.val x.val k.val =
      |x.val| * (sensitivity p (k.val / Vp.val.val) + sensitivity p (1 / Vp.val.val)) := rfl
  have hT0 := timeScale_nonneg p Vp.val.val x.val k.val
  have hu0 := (R.u_nonneg.trans hv)
  have huT := mul_nonneg hu0 hT0
  refine ⟨_, _, _, rfl, ?_, ?_, ?_, ?_, ?_, ?_⟩
  · have := leg_approx (R := R.coarse v hv) hu (H := x.val) (-1) (by norm_num) e1 e2 z1 z2 l1 l2
    rw [Rounding.coarse_u] at this
    rw [← hT] at this
    unfold tPs
    rw [eta_ratio, eta_one, sub_eq_add_neg (Real.sqrt _), ← neg_one_mul (Real.sqrt ((1 / _) ^ 2 - _))]
    refine le_trans (le_of_eq ?_) (this.trans ?_)
    · congr 2
      rw [FL.val_mul, FL.val_sub, neg_one_mul, ← sub_eq_add_neg]
      rfl
    · nlinarith
  · have := leg_approx (R := R.coarse v hv) hu (H := x.val) 1 (by norm_num) e1 e2 z1 z2 l1 l2
    rw [Rounding.coarse_u] at this
    rw [← hT] at this
    unfold tPpPs
    rw [eta_ratio, eta_one]
    rw [one_mul, one_mul] at this
    exact this.trans (by nlinarith)
  · have := leg2_approx (R := R.coarse v hv) hu (H := x.val) e1 z1 l1
    rw [Rounding.coarse_u] at this
    unfold tPsPs
    rw [eta_ratio]
    have g : |x.val| * sensitivity p (k.val / Vp.val.val) ≤ timeScale p Vp.val.val x.val k.val := by
      rw [hT]; apply mul_le_mul_of_nonneg_left _ (abs_nonneg _); linarith
    refine le_trans (le_of_eq ?_) (this.trans ?_)
    · congr 2
      rw [FL.val_mul, FL.val_mul, FL.val_two]
      rfl
    · have := mul_le_mul_of_nonneg_left g hu0
      nlinarith
  · unfold tPs
    rw [abs_mul, eta_ratio, eta_one, hT, ← mul_assoc, mul_comm (2 : ℝ), mul_assoc]
    apply mul_le_mul_of_nonneg_left _ (abs_nonneg _)
    rw [abs_le]; constructor <;> linarith
  · unfold tPpPs
    rw [abs_mul, eta_ratio, eta_one, hT, ← mul_assoc, mul_comm (2 : ℝ), mul_assoc]
    apply mul_le_mul_of_nonneg_left _ (abs_nonneg _)
    rw [abs_le]; constructor <;> linarith
  · unfold tPsPs
    rw [abs_mul, eta_ratio, hT, abs_mul, abs_of_pos (by norm_num : (0 : ℝ) < 2), mul_assoc]
    apply mul_le_mul_of_nonneg_left _ (by norm_num)
    apply mul_le_mul_of_nonneg_left _ (abs_nonneg _)
    rw [abs_of_nonneg z1]; linarith

/-- the three delay times the rounded program computes -/
theorem bestTimes_approx (hu : R.u ≤ 1 / 1000) {Vp : Scalar (FL R)} {kd : Kind} {rp x k : FL R} {p : ℝ}
    {ts : PyNum (FL R) × PyNum (FL R) × PyNum (FL R)} (hp : |rp.val - p| ≤ R.u * |p|)
    (hw : WellConditioned R.u p Vp.val.val k.val) (h : bestTimes Vp kd rp x k = .ok ts) :
    ∃ t1 t2 t3 : FL R, ts = (.real t1, .real t2, .real t3) ∧
      |t1.val - tPs p Vp.val.val x.val k.val| ≤ 14.1 * R.u * timeScale p Vp.val.val x.val k.val ∧
      |t2.val - tPpPs p Vp.val.val x.val k.val| ≤ 14.1 * R.u * timeScale p Vp.val.val x.val k.val ∧
      |t3.val - tPsPs p Vp.val.val x.val k.val| ≤ 14.1 * R.u * timeScale p Vp.val.val x.val k.val ∧
      |tPs p Vp.val.val x.val k.val| ≤ 2 * timeScale p Vp.val.val x.val k.val ∧
      |tPpPs p Vp.val.val x.val k.val| ≤ 2 * timeScale p Vp.val.val x.val k.val ∧
      |tPsPs p Vp.val.val x.val k.val| ≤ 2 * timeScale p Vp.val.val x.val k.val :=
  bestTimes_approx_v le_rfl hu hp hw h

/-- a rounded axis and the exact one -/
def AxisApprox (R : Rounding) (L : ℝ) (axis : List (FL R)) (axis' : List ℝ) : Prop :=
  List.Forall₂ (fun (a : FL R) (b : ℝ) => |a.val - b| ≤ 3.02 * R.u * L ∧ |b| ≤ L) axis axis'

theorem read_approx_v {v : ℝ} (hv : R.u ≤ v) (hu : v ≤ 1 / 1000) {L T t : ℝ} {axis : List (FL R)} {axis' : List ℝ} {d : List (FL R)}
    {t' a : FL R} (hax : AxisApprox R L axis axis') (hT : 0 ≤ T) (h1 : |t'.val - t| ≤ 14.1 * v * T)
    (h2 : |t| ≤ 2 * T) (h : getamp d axis (.real t') = .ok a) :
    AlmostReads (d.map FL.val) axis' t (40 * v * (L + T)) a.val := by
  obtain ⟨i, ⟨x, hx, hmin, -⟩, ha⟩ := (getamp_ok_iff (fun _ _ => rfl)).1 h
  have hlen := hax.length_eq
  have hget : ∀ (j : Nat) (hj : j < axis.length) (hj' : j < axis'.length),
      |axis[j].val - axis'[j]| ≤ 3.02 * v * L ∧ |axis'[j]| ≤ L := by
    intro j hj hj'
    have := (List.forall₂_iff_get.1 hax).2 j hj hj'
    simp only [List.get_eq_getElem] at this
    refine ⟨this.1.trans ?_, this.2⟩
    have hL : 0 ≤ L := (abs_nonneg _).trans this.2
    exact mul_le_mul_of_nonneg_right (by linarith) hL
  obtain ⟨hi, hxi⟩ := List.getElem?_eq_some_iff.1 hx
  have hi' : i < axis'.length := hlen ▸ hi
  refine ⟨i, axis'[i], List.getElem?_eq_getElem hi', by rw [List.getElem?_map, ha]; rfl, ?_⟩
  intro j y hy
  obtain ⟨hj', hyj⟩ := List.getElem?_eq_some_iff.1 hy
  have hj : j < axis.length := hlen.symm ▸ hj'
  have hm := hmin j axis[j] (List.getElem?_eq_getElem hj)
  rw [FL.le_iff, FL.val_abs, FL.val_abs, FL.val_sub, FL.val_sub, ← hxi] at hm
  have d1 := dist_approx (R := R.coarse v hv) hu hT (hget i hi hi').1 h1 (hget i hi hi').2 h2
  have d2 := dist_approx (R := R.coarse v hv) hu hT (hget j hj hj').1 h1 (hget j hj hj').2 h2
  rw [hyj] at d2
  rw [abs_le, Rounding.coarse_u, Rounding.coarse_fl] at d1 d2
  linarith [d1.1, d1.2, d2.1, d2.2]

theorem read_approx (hu : R.u ≤ 1 / 1000) {L T t : ℝ} {axis : List (FL R)} {axis' : List ℝ} {d : List (FL R)}
    {t' a : FL R} (hax : AxisApprox R L axis axis') (hT : 0 ≤ T) (h1 : |t'.val - t| ≤ 14.1 * R.u * T)
    (h2 : |t| ≤ 2 * T) (h : getamp d axis (.real t') = .ok a) :
    AlmostReads (d.map FL.val) axis' t (40 * R.u * (L + T)) a.val :=
  read_approx_v le_rfl hu hax hT h1 h2 h

theorem axisApprox_timeAxis (hu : R.u ≤ 1 / 1000) (δ pre : FL R) (n : Nat) :
    AxisApprox R (|δ.val| * n + |pre.val|) (timeAxis δ pre n) (exactAxis δ.val pre.val n) := by
  unfold AxisApprox timeAxis exactAxis
  rw [List.forall₂_map_left_iff, List.forall₂_map_right_iff, List.forall₂_same]
  intro i hi
  have hi := (List.mem_range.1 hi).le
  refine ⟨axis_approx hu δ.val pre.val i n hi, ?_⟩
  refine (abs_sub _ _).trans ?_
  rw [abs_mul, abs_of_nonneg (by positivity : (0 : ℝ) ≤ i)]
  have : |δ.val| * i ≤ |δ.val| * n := mul_le_mul_of_nonneg_left (by exact_mod_cast hi) (abs_nonneg _)
  linarith

/-- samples that are clearly nearest are the only ones that are almost nearest -/
theorem almost_unique {data axis : List ℝ} {t E a b : ℝ} (hc : ClearlyNearest axis t E)
    (ha : AlmostReads data axis t E a) (hb : AlmostReads data axis t E b) : a = b := by
  obtain ⟨n, x, hx, hn⟩ := hc
  have key : ∀ {c : ℝ}, AlmostReads data axis t E c → data[n]? = some c := by
    rintro c ⟨i, y, hy, hd, hi⟩
    by_cases e : i = n
    · rw [← e]; exact hd
    · have := hn i y e hy
      have := hi n x hx
      linarith
  exact Option.some.inj ((key ha).symm.trans (key hb))

theorem almost_of_nearest {data axis : List ℝ} {t E a : ℝ} (hE : 0 ≤ E) (h : ReadsNearest data axis t a) :
    AlmostReads data axis t E a := by
  obtain ⟨i, ⟨x, hx, hmin, -⟩, ha⟩ := h
  refine ⟨i, x, hx, ha, fun j y hy => ?_⟩
  have := hmin j y hy
  rw [real_le, real_abs, real_abs] at this
  linarith

/-- three weighted amplitudes -/
theorem weigh_approx {w1 w2 w3 a1 a2 a3 : FL R} :
    |(w1 * a1 + w2 * a2 - w3 * a3).val - (w1.val * a1.val + w2.val * a2.val - w3.val * a3.val)| ≤
      accumulated R.u 3 * (|w1.val * a1.val| + |w2.val * a2.val| + |w3.val * a3.val|) :=
  term_approx (R := R) _ _ _

/-- the running sum over traces -/
theorem fold_approx {xs : List (FL R)} {es : List (ℝ × ℝ)}
    (h : List.Forall₂ (fun (x : FL R) (e : ℝ × ℝ) => |x.val - e.1| ≤ accumulated R.u 3 * e.2 ∧ |e.1| ≤ e.2) xs es)
    {n : Nat} (hn : 3 ≤ n) {s0 : FL R} {s M : ℝ} (h0 : |s0.val - s| ≤ accumulated R.u n * M) (hM : |s| ≤ M) :
    |(xs.foldl (fun s x => x + s) s0).val - ((es.map Prod.fst).sum + s)| ≤
      accumulated R.u (n + xs.length) * ((es.map Prod.snd).sum + M) := by
  induction h generalizing n s0 s M with
  | nil => simpa using h0
  | @cons x e xs es hx _ ih =>
    have h1 : |(x + s0).val - (e.1 + s)| ≤ accumulated R.u (n + 1) * (e.2 + M) := sum_step hn hx.1 h0 hx.2 hM
    have h2 : |e.1 + s| ≤ e.2 + M := (abs_add_le _ _).trans (add_le_add hx.2 hM)
    have h3 := ih (by omega) h1 h2
    rw [List.foldl_cons, List.map_cons, List.map_cons, List.sum_cons, List.sum_cons, List.length_cons]
    have e1 : n + (xs.length + 1) = n + 1 + xs.length := by omega
    have e2 : e.1 + (es.map Prod.fst).sum + s = (es.map Prod.fst).sum + (e.1 + s) := by ring
    have e3 : e.2 + (es.map Prod.snd).sum + M = (es.map Prod.snd).sum + (e.2 + M) := by ring
    rw [e1, e2, e3]; exact h3

theorem argmaxGo_fl (xs : List (FL R)) : ∀ (mp : FL R) (idx i : Nat),
    argmaxGo mp idx i xs = argmaxGo mp.val idx i (xs.map FL.val) := by
  induction xs with
  | nil => intro mp idx i; rfl
  | cons x xs ih =>
    intro mp idx i
    have e : le x mp = le x.val mp.val := rfl
    simp only [argmaxGo, List.map_cons, e, ih]
    rfl

theorem argmax_fl (xs : List (FL R)) : argmax xs = argmax (xs.map FL.val) := by
  cases xs with
  | nil => rfl
  | cons x xs =>
    have := argmaxGo_fl xs x 0 1
    simp only [argmax, List.map_cons]
    rw [this]
    rfl

end model

end Rfsed
