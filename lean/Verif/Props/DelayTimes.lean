import Verif.Spec.Stacking
import Mathlib.Tactic.Ring
import Mathlib.Tactic.Linarith
import Mathlib.Tactic.FieldSimp
import Mathlib.Tactic.Positivity

/-!
# Properties C08, C09: the delay times of the H-k method

The formulas are the specification ones (`Spec.tPs`, …); that the code uses them is
part of C04, C17, C20.
-/

namespace Rfsed.Props
open Spec

theorem eta_sq_ratio (p Vp K : ℝ) : eta p (Vp / K) = Real.sqrt ((K / Vp) ^ 2 - p ^ 2) := by
  unfold eta
  congr 2
  rw [div_pow, div_pow, one_div_div]

theorem eta_sq_one (p Vp : ℝ) : eta p Vp = Real.sqrt ((1 / Vp) ^ 2 - p ^ 2) := by
  unfold eta
  congr 2
  rw [div_pow, one_pow]

theorem eta_nonneg (p v : ℝ) : 0 ≤ eta p v := Real.sqrt_nonneg _

theorem eta_le_of_one_le (p Vp K : ℝ) (hVp : 0 < Vp) (hK : 1 ≤ K) :
    eta p Vp ≤ eta p (Vp / K) := by
  rw [eta_sq_ratio, eta_sq_one]
  apply Real.sqrt_le_sqrt
  have : 1 / Vp ≤ K / Vp := div_le_div_of_nonneg_right hK hVp.le
  have h0 : 0 ≤ 1 / Vp := by positivity
  nlinarith

/-- **C08**: ordering and additivity of the three delay times. -/
theorem c08_ordered_additive (p Vp H K : ℝ) (hVp : 0 < Vp) (hH : 0 ≤ H) (hK : 1 ≤ K) :
    0 ≤ tPs p Vp H K ∧ tPs p Vp H K ≤ tPpPs p Vp H K ∧ tPpPs p Vp H K ≤ tPsPs p Vp H K ∧
      tPs p Vp H K + tPpPs p Vp H K = tPsPs p Vp H K := by
  have h1 := eta_le_of_one_le p Vp K hVp hK
  have h2 := eta_nonneg p Vp
  have h3 := eta_nonneg p (Vp / K)
  unfold tPs tPpPs tPsPs
  refine ⟨mul_nonneg hH (by linarith), ?_, ?_, by ring⟩
  · exact mul_le_mul_of_nonneg_left (by linarith) hH
  · nlinarith

/-- strict monotonicity of the S vertical slowness in `K` -/
theorem eta_strictMono_K (p Vp K K' : ℝ) (hVp : 0 < Vp) (hK0 : 0 < K) (hK : K < K')
    (hpre : p ^ 2 ≤ (K / Vp) ^ 2) : eta p (Vp / K) < eta p (Vp / K') := by
  rw [eta_sq_ratio, eta_sq_ratio]
  apply Real.sqrt_lt_sqrt (by linarith)
  have : K / Vp < K' / Vp := div_lt_div_of_pos_right hK hVp
  have h0 : 0 < K / Vp := by positivity
  nlinarith

/-- **C08**: all three times strictly increase with the thickness. -/
theorem c08_strictMono_H (p Vp H H' K : ℝ) (hVp : 0 < Vp) (hK : 1 < K) (hH : H < H')
    (hpre : p ^ 2 ≤ (1 / Vp) ^ 2) :
    tPs p Vp H K < tPs p Vp H' K ∧ tPpPs p Vp H K < tPpPs p Vp H' K ∧
      tPsPs p Vp H K < tPsPs p Vp H' K := by
  have h1 : eta p Vp < eta p (Vp / K) := by
    have := eta_strictMono_K p Vp 1 K hVp one_pos hK hpre
    simpa using this
  have h2 := eta_nonneg p Vp
  unfold tPs tPpPs tPsPs
  refine ⟨?_, ?_, ?_⟩
  · exact mul_lt_mul_of_pos_right hH (by linarith)
  · exact mul_lt_mul_of_pos_right hH (by linarith)
  · exact mul_lt_mul_of_pos_right (by linarith) (by linarith)

/-- **C08**: all three times strictly increase with Vp/Vs. -/
theorem c08_strictMono_K (p Vp H K K' : ℝ) (hVp : 0 < Vp) (hH : 0 < H) (hK0 : 0 < K) (hK : K < K')
    (hpre : p ^ 2 ≤ (K / Vp) ^ 2) :
    tPs p Vp H K < tPs p Vp H K' ∧ tPpPs p Vp H K < tPpPs p Vp H K' ∧
      tPsPs p Vp H K < tPsPs p Vp H K' := by
  have h1 := eta_strictMono_K p Vp K K' hVp hK0 hK hpre
  unfold tPs tPpPs tPsPs
  refine ⟨?_, ?_, ?_⟩
  · exact mul_lt_mul_of_pos_left (by linarith) hH
  · exact mul_lt_mul_of_pos_left (by linarith) hH
  · exact mul_lt_mul_of_pos_left h1 (by linarith)

/-- the hypotheses of C08 hold for a typical crust (Vp 6.5 km/s, p 0.06 s/km) -/
example : (0 : ℝ) < 6.5 ∧ (1 : ℝ) < 1.75 ∧ (0.06 : ℝ) ^ 2 ≤ (1 / 6.5) ^ 2 ∧
    (0.06 : ℝ) ^ 2 ≤ (1.75 / 6.5) ^ 2 := by norm_num

/-- **C09**: thickness and velocity ratio recovered from two delay times. -/
theorem c09_recover (p Vp H K : ℝ) (hVp : 0 < Vp) (hH : 0 < H) (hK : 0 < K)
    (hp : p ^ 2 < (1 / Vp) ^ 2) (hpK : p ^ 2 ≤ (K / Vp) ^ 2) :
    H = (tPpPs p Vp H K - tPs p Vp H K) / (2 * Real.sqrt (1 / Vp ^ 2 - p ^ 2)) ∧
    K = Vp * Real.sqrt (((tPs p Vp H K + tPpPs p Vp H K) / (2 * H)) ^ 2 + p ^ 2) := by
  have hpos : 0 < eta p Vp := by
    rw [eta_sq_one]; exact Real.sqrt_pos.2 (by linarith)
  constructor
  · have : tPpPs p Vp H K - tPs p Vp H K = H * (2 * eta p Vp) := by
      unfold tPs tPpPs; ring
    rw [this]
    have h : (2 * Real.sqrt (1 / Vp ^ 2 - p ^ 2)) = 2 * eta p Vp := rfl
    rw [h]
    field_simp
  · have : (tPs p Vp H K + tPpPs p Vp H K) / (2 * H) = eta p (Vp / K) := by
      unfold tPs tPpPs; field_simp; ring
    rw [this, eta_sq_ratio, Real.sq_sqrt (by linarith)]
    have : (K / Vp) ^ 2 - p ^ 2 + p ^ 2 = (K / Vp) ^ 2 := by ring
    rw [this, Real.sqrt_sq (by positivity)]
    field_simp

/-- **C09**: two models with the same Ps and PpPs times are the same model. -/
theorem c09_unique (p Vp H K H' K' : ℝ) (hVp : 0 < Vp) (hH : 0 < H) (hK : 0 < K)
    (hH' : 0 < H') (hK' : 0 < K') (hp : p ^ 2 < (1 / Vp) ^ 2)
    (hpK : p ^ 2 ≤ (K / Vp) ^ 2) (hpK' : p ^ 2 ≤ (K' / Vp) ^ 2)
    (h1 : tPs p Vp H K = tPs p Vp H' K') (h2 : tPpPs p Vp H K = tPpPs p Vp H' K') :
    H = H' ∧ K = K' := by
  obtain ⟨a1, a2⟩ := c09_recover p Vp H K hVp hH hK hp hpK
  obtain ⟨b1, b2⟩ := c09_recover p Vp H' K' hVp hH' hK' hp hpK'
  have hHH : H = H' := by rw [a1, b1, h1, h2]
  refine ⟨hHH, ?_⟩
  rw [a2, b2, h1, h2, hHH]

/-- C09 at a typical crust: hypotheses hold -/
example : (0 : ℝ) < 6.5 ∧ (0 : ℝ) < 35 ∧ (0 : ℝ) < 1.75 ∧ (0.06 : ℝ) ^ 2 < (1 / 6.5) ^ 2 ∧
    (0.06 : ℝ) ^ 2 ≤ (1.75 / 6.5) ^ 2 := by norm_num

/-- **C09** cannot be strengthened to a single delay time: Ps alone leaves a
trade-off between thickness and velocity ratio. -/
theorem c09_ps_alone_ambiguous : ∃ H K H' K' : ℝ, 0 < H ∧ 0 < K ∧ 0 < H' ∧ 0 < K' ∧
    (H, K) ≠ (H', K') ∧ tPs 0 1 H K = tPs 0 1 H' K' := by
  refine ⟨2, 2, 1, 3, by norm_num, by norm_num, by norm_num, by norm_num, by norm_num, ?_⟩
  unfold tPs
  rw [eta_sq_ratio, eta_sq_ratio, eta_sq_one]
  norm_num
  rw [show (4 : ℝ) = 2 ^ 2 by norm_num, show (9 : ℝ) = 3 ^ 2 by norm_num,
    Real.sqrt_sq (by norm_num), Real.sqrt_sq (by norm_num)]
  norm_num

end Rfsed.Props
