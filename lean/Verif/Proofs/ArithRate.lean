import Verif.Proofs.Arith
import Mathlib.Analysis.Calculus.Deriv.Inv
import Mathlib.Analysis.Calculus.FDeriv.Mul
import Mathlib.Analysis.Calculus.FDeriv.Prod
import Mathlib.Analysis.SpecialFunctions.Sqrt
import Mathlib.Analysis.SpecialFunctions.Trigonometric.Deriv

/-! # The error of inexact evaluation is proportional to the tolerance -/

namespace Rfsed
open Filter Topology Asymptotics

/-- all values obtained are numbers within a fixed multiple of the tolerance of `v`, once the tolerance is small enough -/
def Proportional {V : Type} [NormedAddCommGroup V] (R : ℝ → Option V → Prop) (v : V) : Prop :=
  ∃ C > 0, ∃ δ > 0, ∀ ε, 0 ≤ ε → ε ≤ δ → ∀ o, R ε o → ∃ z, o = some z ∧ ‖z - v‖ ≤ C * ε

variable {V W X : Type} [NormedAddCommGroup V] [NormedAddCommGroup W] [NormedAddCommGroup X]

theorem rounded_prop {f : V} {s : ℝ} {v : V} {D B ε : ℝ} {o : Option V} (h : Rounded ε s f o) (hε : 0 ≤ ε)
    (hs : s ≤ B) (hf : ‖f - v‖ ≤ D * ε) : ∃ z, o = some z ∧ ‖z - v‖ ≤ (D + B) * ε := by
  obtain ⟨z, rfl, hz⟩ := h
  refine ⟨z, rfl, ?_⟩
  have e : z - v = (z - f) + (f - v) := by abel
  have h1 : ‖z - v‖ ≤ ‖z - f‖ + ‖f - v‖ := by rw [e]; exact norm_add_le _ _
  have h2 : ε * s ≤ ε * B := mul_le_mul_of_nonneg_left hs hε
  linarith

/-- one operand -/
theorem proportional_op1 {R : ℝ → Option V → Prop} {v : V} (h : Proportional R v) (f : V → W) (s : V → ℝ)
    (g : V → Prop) (hf : (fun x => f x - f v) =O[𝓝 v] fun x => x - v) (hs : ContinuousAt s v) (hs0 : ∀ x, 0 ≤ s x)
    (hg : ∀ᶠ x in 𝓝 v, g x) :
    Proportional (fun ε o => ∃ x, R ε x ∧ ∀ x', x = some x' → g x' → Rounded ε (s x') (f x') o) (f v) := by
  obtain ⟨c, hc, e1⟩ := hf.exists_pos
  have e2 : ∀ᶠ x in 𝓝 v, s x ≤ s v + 1 := by
    have := Metric.tendsto_nhds.1 hs 1 one_pos
    filter_upwards [this] with x hx
    rw [Real.dist_eq] at hx
    linarith [(abs_lt.1 hx).2]
  obtain ⟨ρ, hρ, hall⟩ := Metric.eventually_nhds_iff.1 (e1.bound.and (e2.and hg))
  obtain ⟨C, hC, δ, hδ, hR⟩ := h
  have hB : 0 < s v + 1 := by linarith [hs0 v]
  refine ⟨c * C + (s v + 1), by positivity, min δ (ρ / (2 * C)), lt_min hδ (by positivity), ?_⟩
  rintro ε hε0 hε o ⟨x, hx, ho⟩
  obtain ⟨x', rfl, hx'⟩ := hR ε hε0 (hε.trans (min_le_left _ _)) x hx
  have hd : C * ε < ρ := by
    have := hε.trans (min_le_right _ _)
    rw [le_div_iff₀ (by positivity)] at this
    linarith
  obtain ⟨a1, a2, a3⟩ := hall (y := x') (by rw [dist_eq_norm]; linarith)
  refine rounded_prop (ho x' rfl a3) hε0 a2 (a1.trans ?_)
  rw [mul_assoc]
  exact mul_le_mul_of_nonneg_left hx' hc.le

/-- two operands -/
theorem proportional_op2 {R : ℝ → Option V → Prop} {S : ℝ → Option W → Prop} {v : V} {w : W} (h : Proportional R v)
    (h' : Proportional S w) (f : V → W → X) (s : V → W → ℝ) (g : V → W → Prop)
    (hf : (fun x : V × W => f x.1 x.2 - f v w) =O[𝓝 (v, w)] fun x => x - (v, w))
    (hs : ContinuousAt (fun x : V × W => s x.1 x.2) (v, w))
    (hs0 : ∀ x y, 0 ≤ s x y) (hg : ∀ᶠ x in 𝓝 (v, w), g x.1 x.2) :
    Proportional (fun ε o => ∃ x y, R ε x ∧ S ε y ∧
      ∀ x' y', x = some x' → y = some y' → g x' y' → Rounded ε (s x' y') (f x' y') o) (f v w) := by
  obtain ⟨c, hc, e1⟩ := hf.exists_pos
  have e2 : ∀ᶠ x in 𝓝 (v, w), s x.1 x.2 ≤ s v w + 1 := by
    have := Metric.tendsto_nhds.1 hs 1 one_pos
    filter_upwards [this] with x hx
    rw [Real.dist_eq] at hx
    linarith [(abs_lt.1 hx).2]
  obtain ⟨ρ, hρ, hall⟩ := Metric.eventually_nhds_iff.1 (e1.bound.and (e2.and hg))
  obtain ⟨C, hC, δ, hδ, hR⟩ := h
  obtain ⟨C', hC', δ', hδ', hS⟩ := h'
  have hB : 0 < s v w + 1 := by linarith [hs0 v w]
  refine ⟨c * (C + C') + (s v w + 1), by positivity, min (min δ δ') (ρ / (2 * (C + C'))),
    lt_min (lt_min hδ hδ') (by positivity), ?_⟩
  rintro ε hε0 hε o ⟨x, y, hx, hy, ho⟩
  obtain ⟨x', rfl, hx'⟩ := hR ε hε0 (hε.trans ((min_le_left _ _).trans (min_le_left _ _))) x hx
  obtain ⟨y', rfl, hy'⟩ := hS ε hε0 (hε.trans ((min_le_left _ _).trans (min_le_right _ _))) y hy
  have hd : (C + C') * ε < ρ := by
    have := hε.trans (min_le_right _ _)
    rw [le_div_iff₀ (by positivity)] at this
    linarith
  have hC1 : C * ε ≤ (C + C') * ε := mul_le_mul_of_nonneg_right (by linarith) hε0
  have hC2 : C' * ε ≤ (C + C') * ε := mul_le_mul_of_nonneg_right (by linarith) hε0
  obtain ⟨a1, a2, a3⟩ := hall (y := (x', y')) (by
    rw [Prod.dist_eq, dist_eq_norm, dist_eq_norm]
    exact max_lt (by linarith) (by linarith))
  refine rounded_prop (ho x' y' rfl rfl a3) hε0 a2 (a1.trans ?_)
  rw [mul_assoc]
  refine mul_le_mul_of_nonneg_left ?_ hc.le
  rw [Prod.norm_def]
  exact max_le (hx'.trans hC1) (hy'.trans hC2)

/-- an exact operation -/
theorem proportional_map {R : ℝ → Option V → Prop} {v : V} (h : Proportional R v) (f : V → W)
    (hf : ∀ x y, ‖f x - f y‖ = ‖x - y‖) : Proportional (fun ε o => ∃ x, R ε x ∧ o = x.map f) (f v) := by
  obtain ⟨C, hC, δ, hδ, hR⟩ := h
  refine ⟨C, hC, δ, hδ, ?_⟩
  rintro ε hε0 hε o ⟨x, hx, rfl⟩
  obtain ⟨z, rfl, hz⟩ := hR ε hε0 hε x hx
  exact ⟨f z, rfl, by rwa [hf]⟩

theorem proportional_mono {R S : ℝ → Option V → Prop} {v : V} (h : Proportional S v) (hRS : ∀ ε o, R ε o → S ε o) :
    Proportional R v := by
  obtain ⟨C, hC, δ, hδ, hR⟩ := h
  exact ⟨C, hC, δ, hδ, fun ε hε0 hε o ho => hR ε hε0 hε o (hRS ε o ho)⟩

/-- finitely many values at once -/
theorem proportional_all {ι : Type} [Fintype ι] {R : ι → ℝ → Option V → Prop} {v : ι → V}
    (h : ∀ i, Proportional (R i) (v i)) :
    ∃ C > 0, ∃ δ > 0, ∀ ε, 0 ≤ ε → ε ≤ δ → ∀ o : ι → Option V, (∀ i, R i ε (o i)) →
      ∃ z : ι → V, ∀ i, o i = some (z i) ∧ ‖z i - v i‖ ≤ C * ε := by
  choose C hC d hd hR using h
  rcases isEmpty_or_nonempty ι with hι | hι
  · exact ⟨1, one_pos, 1, one_pos, fun ε _ _ o _ => ⟨fun i => (hι.false i).elim, fun i => (hι.false i).elim⟩⟩
  · refine ⟨Finset.univ.sup' Finset.univ_nonempty C, ?_, Finset.univ.inf' Finset.univ_nonempty d, ?_, ?_⟩
    · obtain ⟨i⟩ := hι
      exact (hC i).trans_le (Finset.le_sup' C (Finset.mem_univ i))
    · exact (Finset.lt_inf'_iff _).2 fun i _ => hd i
    · intro ε hε0 hε o ho
      choose z hz using fun i => hR i ε hε0 (hε.trans (Finset.inf'_le _ (Finset.mem_univ i))) (o i) (ho i)
      exact ⟨z, fun i => ⟨(hz i).1, (hz i).2.trans
        (mul_le_mul_of_nonneg_right (Finset.le_sup' C (Finset.mem_univ i)) hε0)⟩⟩

theorem diff_div {K : Type} [RCLike K] {a b : K} (h : b ≠ 0) :
    DifferentiableAt K (fun x : K × K => x.1 / x.2) (a, b) := by
  simp only [div_eq_mul_inv]
  exact DifferentiableAt.fun_mul differentiableAt_fst (DifferentiableAt.comp (a, b) (differentiableAt_inv h) differentiableAt_snd)

theorem RE.proportional : ∀ {e : RE}, e.Safe → Proportional (fun ε o => e.Rnd ε o) e.val
  | .c x, _ => by
      refine ⟨|x| + 1, by positivity, 1, one_pos, ?_⟩
      rintro ε hε0 - o ⟨z, rfl, hz⟩
      refine ⟨z, rfl, hz.trans ?_⟩
      nlinarith [abs_nonneg x]
  | .neg a, h => proportional_map (RE.proportional (e := a) h) _ (fun x y => by rw [← norm_neg]; congr 1; ring)
  | .add a b, h => proportional_mono
      (proportional_op2 (RE.proportional h.1) (RE.proportional h.2) (fun x y : ℝ => x + y) (fun x y : ℝ => |x + y|)
        (fun _ _ => True)
        (DifferentiableAt.isBigO_sub (f := fun x : ℝ × ℝ => x.1 + x.2) (x₀ := (a.val, b.val)) (𝕜 := ℝ) (by fun_prop))
        (by fun_prop) (fun _ _ => abs_nonneg _) (by simp))
      (fun ε o ⟨x, y, h1, h2, h3⟩ => ⟨x, y, h1, h2, fun x' y' a b _ => h3 x' y' a b⟩)
  | .sub a b, h => proportional_mono
      (proportional_op2 (RE.proportional h.1) (RE.proportional h.2) (fun x y : ℝ => x - y) (fun x y : ℝ => |x - y|)
        (fun _ _ => True)
        (DifferentiableAt.isBigO_sub (f := fun x : ℝ × ℝ => x.1 - x.2) (x₀ := (a.val, b.val)) (𝕜 := ℝ) (by fun_prop))
        (by fun_prop) (fun _ _ => abs_nonneg _) (by simp))
      (fun ε o ⟨x, y, h1, h2, h3⟩ => ⟨x, y, h1, h2, fun x' y' a b _ => h3 x' y' a b⟩)
  | .mul a b, h => proportional_mono
      (proportional_op2 (RE.proportional h.1) (RE.proportional h.2) (fun x y : ℝ => x * y) (fun x y : ℝ => |x * y|)
        (fun _ _ => True)
        (DifferentiableAt.isBigO_sub (f := fun x : ℝ × ℝ => x.1 * x.2) (x₀ := (a.val, b.val)) (𝕜 := ℝ) (by fun_prop))
        (by fun_prop) (fun _ _ => abs_nonneg _) (by simp))
      (fun ε o ⟨x, y, h1, h2, h3⟩ => ⟨x, y, h1, h2, fun x' y' a b _ => h3 x' y' a b⟩)
  | .div a b, h => by
      have hc : ContinuousAt (fun x : ℝ × ℝ => x.1 / x.2) (a.val, b.val) :=
        ContinuousAt.div continuousAt_fst continuousAt_snd h.2.2
      have hd := diff_div (a := a.val) (b := b.val) h.2.2
      exact proportional_op2 (RE.proportional h.1) (RE.proportional h.2.1) (fun x y : ℝ => x / y)
        (fun x y : ℝ => |x / y|)
        (fun _ y => y ≠ 0) hd.isBigO_sub (continuous_abs.continuousAt.comp hc) (fun _ _ => abs_nonneg _)
        (continuousAt_snd.eventually_ne h.2.2)
  | .sqrt a, h => proportional_op1 (RE.proportional h.1) (fun x : ℝ => Real.sqrt x) (fun x : ℝ => |Real.sqrt x|)
        (fun x => 0 ≤ x) ((Real.hasDerivAt_sqrt h.2.ne').differentiableAt.isBigO_sub) (by fun_prop)
        (fun _ => abs_nonneg _) ((lt_mem_nhds h.2).mono fun x hx => le_of_lt hx)
  | .cos a, h => proportional_mono
      (proportional_op1 (RE.proportional (e := a) h) (fun x : ℝ => Real.cos x) (fun x : ℝ => |Real.cos x|) (fun _ => True)
        (Real.differentiable_cos.differentiableAt.isBigO_sub) (by fun_prop) (fun _ => abs_nonneg _) (by simp))
      (fun ε o ⟨x, h1, h3⟩ => ⟨x, h1, fun x' a _ => h3 x' a⟩)
  | .sin a, h => proportional_mono
      (proportional_op1 (RE.proportional (e := a) h) (fun x : ℝ => Real.sin x) (fun x : ℝ => |Real.sin x|) (fun _ => True)
        (Real.differentiable_sin.differentiableAt.isBigO_sub) (by fun_prop) (fun _ => abs_nonneg _) (by simp))
      (fun ε o ⟨x, h1, h3⟩ => ⟨x, h1, fun x' a _ => h3 x' a⟩)

theorem proportional_dot {R S : Fin 4 → ℝ → Option ℂ → Prop} {v w : Fin 4 → ℂ} (h : ∀ k, Proportional (R k) (v k))
    (h' : ∀ k, Proportional (S k) (w k)) :
    Proportional (fun ε o => ∃ x y : Fin 4 → Option ℂ, (∀ k, R k ε (x k)) ∧ (∀ k, S k ε (y k)) ∧
      ∀ x' y' : Fin 4 → ℂ, (∀ k, x k = some (x' k)) → (∀ k, y k = some (y' k)) →
        Rounded ε (∑ k, ‖x' k‖ * ‖y' k‖) (∑ k, x' k * y' k) o) (∑ k, v k * w k) := by
  have hd : DifferentiableAt ℝ (fun x : (Fin 4 → ℂ) × (Fin 4 → ℂ) => ∑ k, x.1 k * x.2 k) (v, w) := by fun_prop
  have hs : ContinuousAt (fun x : (Fin 4 → ℂ) × (Fin 4 → ℂ) => ∑ k, ‖x.1 k‖ * ‖x.2 k‖) (v, w) := by fun_prop
  set B : ℝ := (∑ k, ‖v k‖ * ‖w k‖) + 1 with hBdef
  have hs0 : ∀ x y : Fin 4 → ℂ, 0 ≤ ∑ k, ‖x k‖ * ‖y k‖ := fun x y => Finset.sum_nonneg fun k _ => by positivity
  have hB : 0 < B := by have := hs0 v w; linarith
  obtain ⟨c, hc, e1⟩ := hd.isBigO_sub.exists_pos
  have e2 : ∀ᶠ x in 𝓝 (v, w), (∑ k, ‖x.1 k‖ * ‖x.2 k‖) ≤ B := by
    have := Metric.tendsto_nhds.1 hs 1 one_pos
    filter_upwards [this] with x hx
    rw [Real.dist_eq] at hx
    have := (abs_lt.1 hx).2
    linarith
  obtain ⟨ρ, hρ, hall⟩ := Metric.eventually_nhds_iff.1 (e1.bound.and e2)
  obtain ⟨C, hC, δ, hδ, hR⟩ := proportional_all h
  obtain ⟨C', hC', δ', hδ', hS⟩ := proportional_all h'
  refine ⟨c * (C + C') + B, by positivity, min (min δ δ') (ρ / (2 * (C + C'))),
    lt_min (lt_min hδ hδ') (by positivity), ?_⟩
  rintro ε hε0 hε o ⟨x, y, hx, hy, ho⟩
  obtain ⟨x', hx'⟩ := hR ε hε0 (hε.trans ((min_le_left _ _).trans (min_le_left _ _))) x hx
  obtain ⟨y', hy'⟩ := hS ε hε0 (hε.trans ((min_le_left _ _).trans (min_le_right _ _))) y hy
  have hdl : (C + C') * ε < ρ := by
    have := hε.trans (min_le_right _ _)
    rw [le_div_iff₀ (by positivity)] at this
    linarith
  have hC1 : C * ε ≤ (C + C') * ε := mul_le_mul_of_nonneg_right (by linarith) hε0
  have hC2 : C' * ε ≤ (C + C') * ε := mul_le_mul_of_nonneg_right (by linarith) hε0
  obtain ⟨a1, a2⟩ := hall (y := (x', y')) (by
    rw [Prod.dist_eq]
    refine max_lt ((dist_pi_lt_iff hρ).2 fun k => ?_) ((dist_pi_lt_iff hρ).2 fun k => ?_)
    · rw [dist_eq_norm]; linarith [(hx' k).2]
    · rw [dist_eq_norm]; linarith [(hy' k).2])
  refine rounded_prop (ho x' y' (fun k => (hx' k).1) (fun k => (hy' k).1)) hε0 a2 (a1.trans ?_)
  rw [mul_assoc]
  refine mul_le_mul_of_nonneg_left ?_ hc.le
  have h0 : 0 ≤ (C + C') * ε := by positivity
  rw [Prod.norm_def]
  exact max_le ((pi_norm_le_iff_of_nonneg h0).2 fun k => ((hx' k).2).trans hC1)
    ((pi_norm_le_iff_of_nonneg h0).2 fun k => ((hy' k).2).trans hC2)

theorem CE.proportional : ∀ {e : CE}, e.Safe → Proportional (fun ε o => e.Rnd ε o) e.val
  | .re a, h => proportional_map (RE.proportional (e := a) h) _ (fun x y => by
      rw [← Complex.ofReal_sub, Complex.norm_real])
  | .im a, h => proportional_mono
      (proportional_op1 (RE.proportional (e := a) h) (fun x : ℝ => (x : ℂ) * Complex.I) (fun x : ℝ => |x|) (fun _ => True)
        (IsBigO.of_bound 1 (Eventually.of_forall fun x => by
          rw [← sub_mul, norm_mul, Complex.norm_I, mul_one, ← Complex.ofReal_sub, Complex.norm_real, one_mul]))
        (by fun_prop) (fun _ => abs_nonneg _) (by simp))
      (fun ε o ⟨x, h1, h3⟩ => ⟨x, h1, fun x' a _ => h3 x' a⟩)
  | .neg a, h => proportional_map (CE.proportional (e := a) h) _ (fun x y => by rw [← norm_neg]; congr 1; ring)
  | .sub a b, h => proportional_mono
      (proportional_op2 (CE.proportional h.1) (CE.proportional h.2) (fun x y : ℂ => x - y) (fun x y : ℂ => ‖x - y‖)
        (fun _ _ => True)
        (DifferentiableAt.isBigO_sub (f := fun x : ℂ × ℂ => x.1 - x.2) (x₀ := (a.val, b.val)) (𝕜 := ℂ) (by fun_prop))
        (by fun_prop) (fun _ _ => norm_nonneg _) (by simp))
      (fun ε o ⟨x, y, h1, h2, h3⟩ => ⟨x, y, h1, h2, fun x' y' a b _ => h3 x' y' a b⟩)
  | .mul a b, h => proportional_mono
      (proportional_op2 (CE.proportional h.1) (CE.proportional h.2) (fun x y : ℂ => x * y) (fun x y : ℂ => ‖x * y‖)
        (fun _ _ => True)
        (DifferentiableAt.isBigO_sub (f := fun x : ℂ × ℂ => x.1 * x.2) (x₀ := (a.val, b.val)) (𝕜 := ℂ) (by fun_prop))
        (by fun_prop) (fun _ _ => norm_nonneg _) (by simp))
      (fun ε o ⟨x, y, h1, h2, h3⟩ => ⟨x, y, h1, h2, fun x' y' a b _ => h3 x' y' a b⟩)
  | .div a b, h => by
      have hc : ContinuousAt (fun x : ℂ × ℂ => x.1 / x.2) (a.val, b.val) :=
        ContinuousAt.div continuousAt_fst continuousAt_snd h.2.2
      have hd := diff_div (a := a.val) (b := b.val) h.2.2
      exact proportional_op2 (CE.proportional h.1) (CE.proportional h.2.1) (fun x y : ℂ => x / y)
        (fun x y : ℂ => ‖x / y‖)
        (fun _ y => y ≠ 0) hd.isBigO_sub (continuous_norm.continuousAt.comp hc) (fun _ _ => norm_nonneg _)
        (continuousAt_snd.eventually_ne h.2.2)
  | .dot a b, h => proportional_dot (fun k => CE.proportional (h k).1) (fun k => CE.proportional (h k).2)

end Rfsed
