import Verif.Props.TiesSteady

/-!
# C137: at a tie an arbitrarily small change moves a spike
-/

namespace Rfsed.Props
open Rfsed Synrf Spec Finset

theorem pow2_two : nextPow2 2 = 2 := by
  rw [nextPow2_pos (by norm_num)]
  have : Nat.clog 2 2 = 1 := by decide +kernel
  rw [this]; norm_num

theorem gauss2 (a : ℝ) : ∃ γ, 0 < γ ∧ γ ≤ 1 ∧ gaussPulse 1 2 a 0 = (1 + γ) / 2 ∧ gaussPulse 1 2 a 1 = (1 - γ) / 2 := by
  refine ⟨gaussResponse 1 2 a 1, Real.exp_pos _, ?_, ?_, ?_⟩
  · unfold gaussResponse
    rw [Real.exp_le_one_iff]
    have := sq_nonneg (2 * Real.pi * ((min 1 (2 - 1) : ℕ) : ℝ) / ((2 : ℕ) * 1) / (2 * a))
    linarith
  · unfold gaussPulse
    rw [sum_range_succ, sum_range_one]
    have : gaussResponse 1 2 a 0 = 1 := by simp [gaussResponse]
    rw [this]
    simp
  · unfold gaussPulse
    rw [sum_range_succ, sum_range_one]
    have : gaussResponse 1 2 a 0 = 1 := by simp [gaussResponse]
    rw [this]
    have hc : Real.cos (2 * Real.pi * (((1 : ℕ) : ℝ) * ((1 : ℕ) : ℝ)) / (2 : ℕ)) = -1 := by
      rw [show 2 * Real.pi * (((1 : ℕ) : ℝ) * ((1 : ℕ) : ℝ)) / (2 : ℕ) = Real.pi by push_cast; ring]
      exact Real.cos_pi
    rw [hc]
    simp
    ring

theorem cyc2 : cyc 2 0 = 0 ∧ cyc 2 1 = 1 ∧ cyc 2 (-1) = 1 := by
  refine ⟨?_, ?_, ?_⟩ <;> simp [cyc]

theorem cconv2 (x y : Nat → ℝ) : cconv 2 x y 0 = x 0 * y 0 + x 1 * y 1 ∧ cconv 2 x y 1 = x 0 * y 1 + x 1 * y 0 := by
  obtain ⟨h0, h1, h2⟩ := cyc2
  constructor
  · unfold cconv
    rw [sum_range_succ, sum_range_one]
    simp [h0, h2]
  · unfold cconv
    rw [sum_range_succ, sum_range_one]
    simp [h0, h1]

/-- one iteration on two samples: the receiver function is one spike, at the lag where the traces correlate best -/
theorem two_samples {α β a minderr : ℝ} (hα : 0 < α) (hβ : α ≤ β) {γ : ℝ} (hγ : 0 < γ) (hγ1 : γ ≤ 1)
    (g0 : gaussPulse 1 2 a 0 = (1 + γ) / 2) (g1 : gaussPulse 1 2 a 1 = (1 - γ) / 2) (hm : 0 ≤ minderr) :
    ∃ R rf, deconv_iterative [α, β] [1, 0] 1 none 0 a 1 minderr "S" = .ok R ∧ R.rf = some rf ∧ (smp rf 1 =
      if α = β then (2 * α / (1 + γ ^ 2)) * ((1 - γ) / 2)
      else ((α + β + (β - α) * γ ^ 2) / (1 + γ ^ 2)) * ((1 + γ) / 2)) ∧
      (α < β → ∃ P, ClearRun 2 1 (lowpass 2 1 a [α, β]) (lowpass 2 1 a [1, 0]) "S" minderr 1 R.it P) := by
  obtain ⟨R, hR⟩ := (c112_iterative (uin := [α, β]) (win := [1, 0]) (dt := 1) (nt := none) (preonset := 0) (a := a)
    (itmax := 1) (minderr := minderr) (phase := "S") hm).2
    ⟨rfl, one_ne_zero, Or.inl rfl, Or.inr ⟨rfl, Or.inl (by decide)⟩⟩
  have hmas := deconv_master hR rfl
  simp only [List.length_cons, List.length_nil, zero_add, pow2_two, Nat.reduceAdd] at hmas
  obtain ⟨-, -, hit, hcase⟩ := hmas
  set u := lowpass 2 1 a [α, β] with hu
  set w := lowpass 2 1 a [1, 0] with hw
  have hu0 : u 0 = α * ((1 + γ) / 2) + β * ((1 - γ) / 2) := by
    rw [hu, lowpass, (cconv2 _ _).1, g0, g1]
    simp [smp]
  have hu1 : u 1 = α * ((1 - γ) / 2) + β * ((1 + γ) / 2) := by
    rw [hu, lowpass, (cconv2 _ _).2, g0, g1]
    simp [smp]
  have hw0 : w 0 = (1 + γ) / 2 := by
    rw [hw, lowpass, (cconv2 _ _).1, g0, g1]
    simp [smp]
  have hw1 : w 1 = (1 - γ) / 2 := by
    rw [hw, lowpass, (cconv2 _ _).2, g0, g1]
    simp [smp]
  have hE : energy 2 w = (1 + γ ^ 2) / 2 := by
    unfold energy
    rw [sum_range_succ, sum_range_one, hw0, hw1]
    ring
  have hE0 : energy 2 w ≠ 0 := by rw [hE]; positivity
  have hU0 : energy 2 u ≠ 0 := by
    unfold energy
    rw [sum_range_succ, sum_range_one]
    have h1 : u 0 + u 1 = α + β := by rw [hu0, hu1]; ring
    intro h
    have h2 : u 0 = 0 := by nlinarith [sq_nonneg (u 0), sq_nonneg (u 1)]
    have h3 : u 1 = 0 := by nlinarith [sq_nonneg (u 0), sq_nonneg (u 1)]
    rw [h2, h3] at h1
    linarith
  rcases hcase with ⟨P, rf, hg, hrf, hl, -, -, -, -, hval⟩ | ⟨-, -, -, -, -, e⟩
  swap
  · rcases e with e | e
    · exact absurd e hE0
    · exact absurd e hU0
  have hk : R.it = 1 := by
    rcases hg.stop with e | ⟨-, e⟩ | ⟨j, e, -⟩
    · exact e
    · exact absurd e hU0
    · omega
  rw [hk] at hg hval
  have hb := hg.spike 0 one_pos
  rw [hg.start] at hb
  have hres : ∀ m, res 2 1 u w (List.replicate 2 0) m = u m := by
    intro m
    unfold res
    rw [cconv_zero, mul_zero, sub_zero]
  have hc : ∀ i, cor 2 1 u w (List.replicate 2 0) i = u 0 * w (cyc 2 (-(i : ℤ))) + u 1 * w (cyc 2 (1 - (i : ℤ))) := by
    intro i
    unfold cor
    unfold corr
    rw [sum_range_succ, sum_range_one, hres, hres]
    simp
  have hc0 : cor 2 1 u w (List.replicate 2 0) 0 = ((α + β) - (β - α) * γ ^ 2) / 2 := by
    rw [hc]
    simp only [Nat.cast_zero, neg_zero, sub_zero, cyc2.1, cyc2.2.1, hu0, hu1, hw0, hw1]
    ring
  have hc1 : cor 2 1 u w (List.replicate 2 0) 1 = ((α + β) + (β - α) * γ ^ 2) / 2 := by
    rw [hc]
    simp only [Nat.cast_one, sub_self, cyc2.1, cyc2.2.2, hu0, hu1, hw0, hw1]
    ring
  have hγ2 : γ ^ 2 ≤ 1 := by nlinarith
  have hγ2' : 0 < γ ^ 2 := by positivity
  have p0 : 0 < cor 2 1 u w (List.replicate 2 0) 0 := by rw [hc0]; nlinarith
  have p1 : 0 < cor 2 1 u w (List.replicate 2 0) 1 := by rw [hc1]; nlinarith
  have hz : ∀ i < 2, smp (List.replicate 2 (0 : ℝ)) i = 0 := by
    intro i hi
    unfold smp
    rw [getD_of_lt (by simpa using hi), List.getElem_replicate]
  have hlag : ∀ i < 2, Lag 2 "S" i := fun i hi => ⟨hi, fun h => absurd h (by decide)⟩
  have hrf1 : ∀ v i, i < 2 → P 1 = (List.replicate 2 0).set i v → smp rf 1 = v * gaussPulse 1 2 a (cyc 2 (1 - (i : ℤ))) := by
    intro v i hi e
    have h1 : pyInt ((0 : ℝ) / 1) = 0 := by simp [pyInt]
    have := hval (by rw [h1]; simp) 1 (by norm_num)
    rw [this, h1, e, cconv_single hi]
    simp [cyc2.2.1]
  refine ⟨R, rf, hR, hrf, ?_, fun hlt => ?_⟩
  swap
  · refine ⟨P, hk ▸ hg, fun j hj => ?_, Or.inl hk⟩
    have : j = 0 := by omega
    subst this
    obtain ⟨i, hi, e, hmax⟩ := cor_of_best (by norm_num) one_ne_zero hE0 hU0 (by simp) hb
    have hlt' : |cor 2 1 u w (List.replicate 2 0) 0| < |cor 2 1 u w (List.replicate 2 0) 1| := by
      rw [abs_of_pos p0, abs_of_pos p1, hc0, hc1]
      nlinarith
    have hi2 := hi.1
    interval_cases i
    · exact absurd (hmax 1 (hlag 1 (by norm_num))) (not_le.2 hlt')
    · refine ⟨1, _, hi, by rw [hg.start]; exact e, fun i' v' hi' hne => ?_⟩
      have : i' = 0 := by have := hi'.1; omega
      subst this
      rw [hg.start, e]
      exact misfit_lt_of_cor (by norm_num) one_ne_zero hE0 hU0 (by simp) (by norm_num) (by norm_num) hlt' v'
  split_ifs with hab
  · -- a tie: the first lag is taken
    subst hab
    have hce : cor 2 1 u w (List.replicate 2 0) 0 = cor 2 1 u w (List.replicate 2 0) 1 := by
      rw [hc0, hc1]; ring
    have hfirst : P 1 = (List.replicate 2 0).set 0 (bestVal 2 1 u w (List.replicate 2 0) 0) := by
      obtain ⟨i, hi, e, -⟩ := cor_of_best (by norm_num) one_ne_zero hE0 hU0 (by simp) hb
      have hi2 := hi.1
      interval_cases i
      · exact e
      · exfalso
        obtain ⟨i', v', hl', e', hle, hlt, hown⟩ := hb
        have hi' := hl'.1
        interval_cases i'
        · -- the same list cannot have its spike at both lags
          have h2 := congrArg (fun l => smp l 0) (e.symm.trans e')
          have h3 := congrArg (fun l => smp l 1) (e.symm.trans e')
          simp [smp, List.getD_eq_getElem?_getD] at h2 h3
          have h4 := hz 1 (by norm_num)
          change bestVal 2 1 u w (List.replicate 2 0) 1 = 0 at h3
          rw [bestVal, h4, div_one] at h3
          rw [zero_add, div_eq_zero_iff] at h3
          rcases h3 with h3 | h3
          · exact p1.ne' h3
          · exact hE0 h3
        · have h2 := hlt 0 (bestVal 2 1 u w (List.replicate 2 0) 0) one_pos
          rw [e, misfit_best (by norm_num) one_ne_zero hE0 (by simp) (by norm_num),
            misfit_best (by norm_num) one_ne_zero hE0 (by simp) (by norm_num), hce] at h2
          exact lt_irrefl _ h2
    rw [hrf1 _ 0 (by norm_num) hfirst]
    simp only [Nat.cast_zero, sub_zero, cyc2.2.1, g1]
    congr 1
    rw [bestVal, hz 0 (by norm_num), hc0, hE]
    field_simp
    ring
  · have hlt : α < β := lt_of_le_of_ne hβ hab
    obtain ⟨i, hi, e, hmax⟩ := cor_of_best (by norm_num) one_ne_zero hE0 hU0 (by simp) hb
    have hi2 := hi.1
    interval_cases i
    · exfalso
      have := hmax 1 (hlag 1 (by norm_num))
      rw [abs_of_pos p0, abs_of_pos p1, hc0, hc1] at this
      nlinarith
    · rw [hrf1 _ 1 (by norm_num) e]
      simp only [Nat.cast_one, sub_self, cyc2.1, g0]
      congr 1
      rw [bestVal, hz 1 (by norm_num), hc1, hE]
      field_simp
      ring

/-- **C137** At a tie an arbitrarily small change of the numerator moves a spike: the receiver functions of the traces
`[1, 1]` and `[1, 1 + ε]` differ by the same amount however small `ε` is. -/
theorem c137_jump (a : ℝ) {minderr : ℝ} (hm : 0 ≤ minderr) :
    ∃ η > 0, ∀ ε > 0, ∃ R rf R' rf',
      deconv_iterative [1, 1] [1, 0] 1 none 0 a 1 minderr "S" = .ok R ∧ R.rf = some rf ∧
      deconv_iterative [1, 1 + ε] [1, 0] 1 none 0 a 1 minderr "S" = .ok R' ∧ R'.rf = some rf' ∧
      smp rf 1 + η ≤ smp rf' 1 := by
  obtain ⟨γ, h1, h2, g0, g1⟩ := gauss2 a
  refine ⟨2 * γ / (1 + γ ^ 2), by positivity, fun ε hε => ?_⟩
  obtain ⟨R, rf, a1, a2, a3, -⟩ := two_samples (α := 1) (β := 1) (a := a) one_pos le_rfl h1 h2 g0 g1 hm
  obtain ⟨R', rf', b1, b2, b3, -⟩ := two_samples (α := 1) (β := 1 + ε) (a := a) one_pos (by linarith) h1 h2 g0 g1 hm
  refine ⟨R, rf, R', rf', a1, a2, b1, b2, ?_⟩
  rw [a3, b3, if_pos rfl, if_neg (by linarith)]
  have hp : (0 : ℝ) < 1 + γ ^ 2 := by positivity
  have e1 : 2 * 1 / (1 + γ ^ 2) * ((1 - γ) / 2) + 2 * γ / (1 + γ ^ 2) = (1 + γ) / (1 + γ ^ 2) := by
    field_simp
    ring
  have e2 : (1 + (1 + ε) + (1 + ε - 1) * γ ^ 2) / (1 + γ ^ 2) * ((1 + γ) / 2) =
      (1 + γ) / (1 + γ ^ 2) + ε / 2 * (1 + γ) := by
    field_simp
    ring
  rw [e1, e2]
  have : 0 < ε / 2 * (1 + γ) := by positivity
  linarith

/-- The hypotheses of `c137_differentiable` are met: one iteration on the traces `[1, 2 + x]` and `[1, 0]`. -/
example : ∃ rf mis : ℝ → Nat → ℝ,
    (∀ᶠ x in nhds 0, deconv_iterative ((List.range 2).map (fun m : Nat => if m = 0 then 1 else 2 + x))
      ((List.range 2).map (fun m : Nat => if m = 0 then (1 : ℝ) else 0)) 1 none 0 2 1 0.001 "S" =
      .ok ⟨some ((List.range 2).map (rf x)), (List.range (1 - 1)).map (mis x), 1⟩) ∧
    ∀ m, DifferentiableAt ℝ (fun x => rf x m) 0 ∧ DifferentiableAt ℝ (fun x => mis x m) 0 := by
  obtain ⟨γ, h1, h2, g0, g1⟩ := gauss2 2
  obtain ⟨R, rf, a1, -, -, a4⟩ := two_samples (α := 1) (β := 2) (a := 2) (minderr := 0.001) one_pos (by norm_num) h1 h2
    g0 g1 (by norm_num)
  obtain ⟨P, hP⟩ := a4 (by norm_num)
  have hit : R.it = 1 := by
    rcases hP.halt with e | ⟨j, e, -⟩
    · exact e
    · have := (deconv_master a1 rfl).2.2.1
      omega
  have e0 : (List.range 2).map (fun m : Nat => if m = 0 then (1 : ℝ) else 2 + 0) = [1, 2] := by
    simp [List.range_succ]
  have e1 : (List.range 2).map (fun m : Nat => if m = 0 then (1 : ℝ) else 0) = [1, 0] := by
    simp [List.range_succ]
  have hz : pyInt ((0 : ℝ) / 1) = 0 := by simp [pyInt]
  have key := c137_differentiable (x0 := (0 : ℝ)) (N := 2) (f := fun x m => if m = 0 then 1 else 2 + x)
    (g := fun _ m => if m = 0 then 1 else 0) (dt := 1) (preonset := 0) (a := 2) (minderr := 0.001) (nt := none)
    (itmax := 1) (phase := "S") (R := R)
    (fun m _ => by
      by_cases h : m = 0
      · simp [h]
      · simp only [h, if_false]; fun_prop)
    (fun m _ => differentiableAt_const _)
    (by rw [e0, e1]; exact a1) (Or.inl rfl) (by norm_num)
    (by rw [e0, e1, pow2_two]; exact ⟨P, hP⟩) (by rw [hz]; simp)
  rwa [hit] at key

end Rfsed.Props
