import Verif.Props.ExperimentCase3
import Verif.Props.ExperimentSediment

/-!
# C140: forward modelling, deconvolution, resonance filter, `hkYu`: a concrete case

The receiver function of a half-space, four samples at 1 s: a Gaussian pulse.  The filter finds a lag of two seconds, and of two
models the thicker crust wins.
-/

namespace Rfsed.Props
open Rfsed HkZhu Spec Synrf Finset ReverbFilter

/-- the shape of the Gaussian pulse on four samples -/
theorem pulse_shape : gaussPulse 1 4 2 3 = gaussPulse 1 4 2 1 ∧ gaussPulse 1 4 2 2 ≤ gaussPulse 1 4 2 1 ∧
    2 * gaussPulse 1 4 2 1 < gaussPulse 1 4 2 0 + gaussPulse 1 4 2 2 := by
  set A := gaussResponse 1 4 2 1 with hA
  set B := gaussResponse 1 4 2 2 with hB
  have h0 : gaussResponse 1 4 2 0 = 1 := by simp [gaussResponse]
  have h3 : gaussResponse 1 4 2 3 = A := by rw [hA]; simp [gaussResponse]
  have pB : 0 < B := Real.exp_pos _
  have hBA : B ≤ A := by
    rw [hA, hB]
    unfold gaussResponse
    apply Real.exp_le_exp.2
    have := sq_nonneg Real.pi
    norm_num
    nlinarith
  have c0 : Real.cos (2 * Real.pi * ((1 : ℕ) * (1 : ℕ)) / (4 : ℕ)) = 0 := by
    rw [← Real.cos_pi_div_two]; congr 1; push_cast; ring
  have c1 : Real.cos (2 * Real.pi * ((1 : ℕ) * (2 : ℕ)) / (4 : ℕ)) = -1 := by
    rw [← Real.cos_pi]; congr 1; push_cast; ring
  have c2 : Real.cos (2 * Real.pi * ((1 : ℕ) * (3 : ℕ)) / (4 : ℕ)) = 0 := by
    have : 2 * Real.pi * ((1 : ℕ) * (3 : ℕ)) / (4 : ℕ) = Real.pi / 2 + Real.pi := by push_cast; ring
    rw [this, Real.cos_add_pi, Real.cos_pi_div_two, neg_zero]
  have d1 : Real.cos (2 * Real.pi * ((2 : ℕ) * (1 : ℕ)) / (4 : ℕ)) = -1 := by
    rw [← Real.cos_pi]; congr 1; push_cast; ring
  have d2 : Real.cos (2 * Real.pi * ((2 : ℕ) * (2 : ℕ)) / (4 : ℕ)) = 1 := by
    rw [← Real.cos_two_pi]; congr 1; push_cast; ring
  have d3 : Real.cos (2 * Real.pi * ((2 : ℕ) * (3 : ℕ)) / (4 : ℕ)) = -1 := by
    have : 2 * Real.pi * ((2 : ℕ) * (3 : ℕ)) / (4 : ℕ) = Real.pi + 2 * Real.pi := by push_cast; ring
    rw [this, Real.cos_add_two_pi, Real.cos_pi]
  have e1 : Real.cos (2 * Real.pi * ((3 : ℕ) * (1 : ℕ)) / (4 : ℕ)) = 0 := by
    rw [mul_comm ((3 : ℕ) : ℝ)]; exact c2
  have e2 : Real.cos (2 * Real.pi * ((3 : ℕ) * (2 : ℕ)) / (4 : ℕ)) = -1 := by
    rw [mul_comm ((3 : ℕ) : ℝ)]; exact d3
  have e3 : Real.cos (2 * Real.pi * ((3 : ℕ) * (3 : ℕ)) / (4 : ℕ)) = 0 := by
    have : 2 * Real.pi * ((3 : ℕ) * (3 : ℕ)) / (4 : ℕ) = Real.pi / 2 + 2 * Real.pi + 2 * Real.pi := by push_cast; ring
    rw [this, Real.cos_add_two_pi, Real.cos_add_two_pi, Real.cos_pi_div_two]
  have z : ∀ m : ℕ, Real.cos (2 * Real.pi * ((m : ℕ) * (0 : ℕ)) / (4 : ℕ)) = 1 := by
    intro m; simp
  have z' : ∀ m : ℕ, Real.cos (2 * Real.pi * ((0 : ℕ) * (m : ℕ)) / (4 : ℕ)) = 1 := by
    intro m; simp
  have g0 : gaussPulse 1 4 2 0 = (1 + 2 * A + B) / 4 := by
    rw [gaussPulse, sum_range_succ, sum_range_succ, sum_range_succ, sum_range_succ, sum_range_zero, z', z', z', z', h0, h3]
    push_cast; ring
  have g1 : gaussPulse 1 4 2 1 = (1 - B) / 4 := by
    rw [gaussPulse, sum_range_succ, sum_range_succ, sum_range_succ, sum_range_succ, sum_range_zero, z, c0, c1, c2, h0, h3]
    push_cast; ring
  have g2 : gaussPulse 1 4 2 2 = (1 - 2 * A + B) / 4 := by
    rw [gaussPulse, sum_range_succ, sum_range_succ, sum_range_succ, sum_range_succ, sum_range_zero, z, d1, d2, d3, h0, h3]
    push_cast; ring
  have g3 : gaussPulse 1 4 2 3 = (1 - B) / 4 := by
    rw [gaussPulse, sum_range_succ, sum_range_succ, sum_range_succ, sum_range_succ, sum_range_zero, z, e1, e2, e3, h0, h3]
    push_cast; ring
  rw [g0, g1, g2, g3]
  refine ⟨rfl, ?_, ?_⟩ <;> linarith

/-- the receiver function of the half-space -/
theorem hs_four_shape {o : Obj} (ho : init [35] [6] [3.5] [2.7] (.float 0.06) 1 4 1 = .ok o) :
    ∃ t p q s, (run_deconvolution delay2 (run_fwd o).1 none 0 2 none {}).2 = .ok [t] ∧
      t.data = some [p, q, s, q] ∧ s ≤ q ∧ 2 * q < p + s := by
  have hz : pyInt ((0 : ℝ) / 1) = 0 := by simp [pyInt]
  have n4 : nextPow2 4 = 4 := by decide
  obtain ⟨t, ht, -, h1, -⟩ := c85_halfspace (l := hsLayer) (p := 0.06) (bp := delay2) (pre := 0) (g := 2)
    hsLayer_propagating (by norm_num) (by norm_num) (by norm_num) (by norm_num) ho rfl (by rw [hz]; simp)
  obtain ⟨-, -, rf, hrf, hlen, hv⟩ := h1 (by norm_num [hsLayer])
  have htan : 0 < Real.tan (2 * Real.arcsin (hsLayer.β * 0.06)) := by
    have b1 : 0 < Real.arcsin (hsLayer.β * 0.06) := Real.arcsin_pos.2 (by norm_num [hsLayer])
    have b2 : Real.arcsin (hsLayer.β * 0.06) < Real.pi / 4 := by
      rw [Real.arcsin_lt_iff_lt_sin' ⟨by linarith [Real.pi_pos], by linarith [Real.pi_pos]⟩, Real.sin_pi_div_four]
      have : (1 : ℝ) ≤ √2 := Real.one_le_sqrt.2 (by norm_num)
      norm_num [hsLayer]
      linarith
    exact Real.tan_pos_of_pos_of_lt_pi_div_two (by linarith) (by linarith)
  set c := Real.tan (2 * Real.arcsin (hsLayer.β * 0.06)) with hc
  obtain ⟨x0, x1, x2, x3, rfl⟩ : ∃ x0 x1 x2 x3, rf = [x0, x1, x2, x3] := by
    match rf, hlen with
    | [a, b, c, d], _ => exact ⟨a, b, c, d, rfl⟩
  have e : ∀ m < 4, smp [x0, x1, x2, x3] m = c * gaussPulse 1 4 2 m := by
    intro m hm
    have := hv m hm
    rw [hz, n4, div_one, sub_zero] at this
    rw [this]
    interval_cases m <;> rfl
  obtain ⟨p1, p2, p3⟩ := pulse_shape
  have e0 : x0 = _ := e 0 (by norm_num)
  have e1 : x1 = _ := e 1 (by norm_num)
  have e2 : x2 = _ := e 2 (by norm_num)
  have e3 : x3 = _ := e 3 (by norm_num)
  have e31 : x3 = x1 := by rw [e3, e1, p1]
  refine ⟨t, x0, x1, x2, ht, by rw [hrf, e31], ?_, ?_⟩
  · rw [e1, e2]; exact mul_le_mul_of_nonneg_left p2 htan.le
  · have := mul_lt_mul_of_pos_left p3 htan
    rw [e0, e1, e2]; linarith

/-- the resonance filter of such a record -/
theorem shape_filter {p q s : ℝ} (h1 : s ≤ q) (h2 : 2 * q < p + s) :
    ∃ Q F0 F1 F2 F3, SynthAnalysis.ResonanceFilt [p, q, s, q] [0, 1, 2, 3] = .ok Q ∧ Q.rf = [p, q, s, q] ∧
      Q.time = [0, 1, 2, 3] ∧ Q.delta = 1 ∧ Returned Q ∧ NotLinear Q.rf ∧ ClearTrough 0 Q.autoc 2 ∧ Q.tlag.val = 2 ∧
      Q.filteredrf = [F0, F1, F2, F3] ∧ F1 < F3 := by
  obtain ⟨Q, hQ, hrf, ht, hdel⟩ := c28_succeeds_synth [p, q, s, q] [0, 1, 2, 3] (by simp) (by simp)
  have hd : Q.delta = 1 := by rw [hdel]; norm_num
  have hret : Returned Q := Or.inr ⟨_, _, hQ, by rw [hd]; norm_num⟩
  set α := p - q with hα
  set β := s - q with hβ
  have pα : 0 < α := by rw [hα]; linarith
  have hβ0 : β ≤ 0 := by rw [hβ]; linarith
  have hαβ : 0 < α + β := by rw [hα, hβ]; linarith
  set D : List ℝ := [3/10 * α - β / 10, -(4/10) * α - 2/10 * β, -α / 10 + 7/10 * β, 2/10 * α - 4/10 * β] with hDdef
  have hD : IsDetrended Q.rf D := by
    rw [hrf]
    refine ⟨rfl, ⟨q + 7/10 * α + β / 10, -(3/10) * α + β / 10, fun i hi => ?_⟩, ?_, ?_⟩
    · simp only [List.length_cons, List.length_nil] at hi
      interval_cases i <;> simp [hDdef] <;> rw [hα, hβ] <;> ring
    · simp [sum_range_succ, hDdef]; ring
    · simp [sum_range_succ, hDdef]; ring
  have hlen : Q.rf.length = 4 := by rw [hrf]; rfl
  have hnl : NotLinear Q.rf := by
    rw [hrf]
    rintro ⟨a, b, h⟩
    have g0 := h 0 (by simp); have g1 := h 1 (by simp)
    have g2 := h 2 (by simp)
    norm_num at g0 g1 g2
    linarith
  have hac : ∀ k < 4, Q.autoc.getD k 0 = autocorr D k / autocorr D 0 := by
    intro k hk; exact (c30_autoc hret hD).2 k (by omega)
  have hal : Q.autoc.length = 4 := by rw [(c30_autoc hret hD).1, hlen]
  have a0 : autocorr D 0 = 3/10 * α ^ 2 - α * β / 10 * 2 + 7/10 * β ^ 2 := by
    simp [autocorr, sum_range_succ, hDdef]; ring
  have a1 : autocorr D 1 = -α ^ 2 / 10 - α * β / 10 - 4/10 * β ^ 2 := by
    simp [autocorr, sum_range_succ, hDdef]; ring
  have a2 : autocorr D 2 = -(11/100) * α ^ 2 + 34/100 * (α * β) + β ^ 2 / 100 := by
    simp [autocorr, sum_range_succ, hDdef]; ring
  have a3 : autocorr D 3 = 6/100 * α ^ 2 - 14/100 * (α * β) + 4/100 * β ^ 2 := by
    simp [autocorr, sum_range_succ, hDdef]; ring
  have hab : α * β ≤ 0 := mul_nonpos_of_nonneg_of_nonpos pα.le hβ0
  have pa0 : 0 < autocorr D 0 := by rw [a0]; nlinarith [sq_nonneg β, pow_pos pα 2]
  have hct : ClearTrough 0 Q.autoc 2 := by
    refine ⟨by omega, by omega, fun k hk => ?_, ?_⟩
    · rw [hac _ (by omega), hac _ (by omega), add_zero]
      refine div_lt_div_of_pos_right ?_ pa0
      interval_cases k
      · rw [a0, a1]; nlinarith [sq_nonneg β, pow_pos pα 2]
      · rw [a1, a2]; nlinarith [sq_nonneg β, pow_pos pα 2, mul_nonneg (neg_nonneg.2 hβ0) hαβ.le]
    · rw [hac _ (by omega), hac _ (by omega), add_zero]
      refine div_lt_div_of_pos_right ?_ pa0
      rw [a2, a3]; nlinarith [sq_nonneg β, pow_pos pα 2]
  have hft : FirstTrough Q.autoc 2 2 := by
    obtain ⟨-, -, hfall, hrise⟩ := hct
    have f0 := hfall 0 (by norm_num)
    have f1 := hfall 1 (by norm_num)
    simp only [zero_add, Nat.reduceAdd, add_zero] at f0 f1 hrise
    refine ⟨⟨by omega, le_refl _, by omega, ?_, ?_, ?_⟩, ?_⟩
    · intro j h1 h2; have : j = 2 := by omega
      rw [this]
    · exact f1
    · exact hrise
    · intro s' e' ht
      by_contra hc
      have h1 := ht.1
      have h2 := ht.2.1
      have h3 := ht.2.2.1
      have hs : s' = 1 := by omega
      subst hs
      rcases Nat.eq_or_lt_of_le h2 with he | he
      · subst he
        have := ht.2.2.2.2.2
        simp only [Nat.reduceAdd] at this
        linarith
      · have := ht.2.2.2.1 2 (by omega) (by omega)
        linarith
  obtain ⟨t1, t2⟩ := c35_first_trough hret hft
  have htl : Q.tlag.val = 2 := by rw [t1, hd]; norm_num
  have hr : Q.r < 1 := by
    rw [t2, hac 2 (by norm_num), abs_div, abs_of_pos pa0, div_lt_one pa0, abs_lt, a0, a2]
    constructor <;> nlinarith [sq_nonneg β, pow_pos pα 2, mul_nonneg (neg_nonneg.2 hβ0) hαβ.le]
  obtain ⟨L, w1, w2, w3⟩ := c29_wraps_around hret hD
  have hL : L = 2 := by
    rw [htl, hd] at w1
    have : (L : ℝ) = 2 := by linarith
    exact_mod_cast this
  subst hL
  have hfl : Q.filteredrf.length = 4 := by rw [filteredrf_length hret, hlen]
  obtain ⟨b0, b1, b2, b3, hb⟩ : ∃ b0 b1 b2 b3, Q.filteredrf = [b0, b1, b2, b3] := by
    generalize Q.filteredrf = l at hfl
    match l, hfl with
    | [a, b, c, d], _ => exact ⟨a, b, c, d, rfl⟩
  refine ⟨Q, b0, b1, b2, b3, hQ, hrf, ht, hd, hret, hnl, hct, htl, hb, ?_⟩
  have f1 := w3 1 (by omega) (by omega)
  have f3 := w2 3 (by omega) (by omega)
  rw [hb, hlen] at f1
  rw [hb] at f3
  simp [hDdef] at f1 f3
  rw [f1, f3]
  nlinarith

/-- The whole experiment: the exact run succeeds and the thick crust wins; so it does in all sufficiently precise runs. -/
example : ∃ o, init [35] [6] [3.5] [2.7] (.float 0.06) 1 4 1 = .ok o ∧
    ∃ t Q res, (run_deconvolution delay2 (run_fwd o).1 none 0 2 none {}).2 = .ok [t] ∧ t.data = some Q.rf ∧
      SynthAnalysis.ResonanceFilt Q.rf [0, 1, 2, 3] = .ok Q ∧
      DecidedYu Q 2 (twoEnv ℝ 1) ⟨.py, 0.06⟩ ⟨.py, 6⟩ ⟨.py, 2⟩ ⟨.py, 0.5⟩ [20, 3] [1.8] 0.6 0.3 0.1 res ∧ res.bestIdx = 0 ∧
      ∃ C > 0, ∃ δ > 0, ∀ ε, 0 < ε → ε ≤ δ → ∀ R : Rounding, R.u ≤ ε →
        ∀ (flt : HkYu.FltInput (FL R)) (H K : List (FL R)) (p VpM VpS VsS : Scalar (FL R)) (v1 v2 v3 : FL R) (x' : List ℝ)
          (k : Nat) ac s,
        SynthIterRun ε 0.06 1 4 1 hsLayer [] (fun x => x) 0 2 400 0.001 "P" x' k →
        Nonempty (ResonanceRun ε x' 1 ac s flt.tlag.val.val (flt.filteredrf.map FL.val)) →
        flt.time.map FL.val = [0, 1, 2, 3] → H.map FL.val = [20, 3] → K.map FL.val = [1.8] → p.val.val = 0.06 →
        VpM.val.val = 6 → VpS.val.val = 2 → VsS.val.val = 0.5 → v1.val = 0.6 → v2.val = 0.3 → v3.val = 0.1 →
        ∃ r', HkYu.hkYu (twoEnv (FL R) ⟨1⟩) flt p H K (some VpM) (some VpS) (some VsS) (some v1) (some v2) (some v3) = .ok r' ∧
          NearTable (C * ε) res.stackvaluesSubSed (r'.stackvaluesSubSed.map exactRow) ∧ r'.bestIdx = 0 := by
  refine ⟨_, rfl, ?_⟩
  obtain ⟨t, p, q, s, ht, htx, h1, h2⟩ := hs_four_shape rfl
  obtain ⟨Q, F0, F1, F2, F3, hQ, hrf, htime, hdel, hret, hnl, hct, htl, hfilt, hF⟩ := shape_filter h1 h2
  obtain ⟨a1, a2, a3, a4⟩ := two_slow
  obtain ⟨e1, e2, e3⟩ := two_times
  have hlen : Q.rf.length = 4 := by rw [hrf]; rfl
  obtain ⟨r, hyu⟩ := c25_hkYu_succeeds (F := ℝ) (env := twoEnv ℝ 1) (rp := ⟨.py, 0.06⟩) (flt := Q.toYu) (H := [20, 3])
    (K := [1.8]) (VpMoho := ⟨.py, 6⟩) (VpSed := ⟨.py, 2⟩) (VsSed := ⟨.py, 0.5⟩) (w1 := 0.6) (w2 := 0.3) (w3 := 0.1)
    (by show Q.time ≠ []; rw [htime]; simp) (by show Q.time.length ≤ Q.filteredrf.length; rw [htime, hfilt]; simp)
    (divisor_real (by norm_num))
    (divisor_real (by norm_num)) (divisor_real (by norm_num)) (by simp) (by simp) (fun _ _ => rfl)
  obtain ⟨vs0, a0, b0, bmod, f⟩ := hkYu_inv hyu
  obtain ⟨-, cell, hgrid, hcell⟩ := yu_values hyu (by norm_num) (by norm_num)
  have hdelay : sedimentDelay 2 2 0.5 = 0.75 := by unfold sedimentDelay; norm_num
  obtain ⟨s1, s2, c1, c2, hT⟩ := two_cells hgrid
  obtain ⟨y1, y2, y3, v1, v2, v3, hs1⟩ := hcell _ _ _ c1
  obtain ⟨z1, z2, z3, u1, u2, u3, hs2⟩ := hcell _ _ _ c2
  simp only [FltResults.toYu, htl, hdelay, e1, e2, e3, htime, hfilt] at v1 v2 v3 u1 u2 u3
  have v1 := four_reads (i := 3) (by norm_num) (by norm_num; linarith) (Or.inr rfl) v1
  have v2 := four_reads (i := 3) (by norm_num) (by norm_num; linarith) (Or.inr rfl) v2
  have v3 := four_reads (i := 3) (by norm_num) (by norm_num; linarith) (Or.inr rfl) v3
  have u1 := four_reads (i := 1) (by norm_num) (by norm_num; linarith) (Or.inl (by norm_num; linarith)) u1
  have u2 := four_reads (i := 3) (by norm_num) (by norm_num; linarith) (Or.inr rfl) u2
  have u3 := four_reads (i := 3) (by norm_num) (by norm_num; linarith) (Or.inr rfl) u3
  simp only [List.getElem?_cons_zero, List.getElem?_cons_succ, Option.some.injEq] at v1 v2 v3 u1 u2 u3
  subst v1 u1 v2
  have hb := f.hbest
  rw [hT] at hb
  obtain ⟨n0, m0⟩ := two_best (by rw [hs1, hs2, ← v3, ← u2, ← u3]; norm_num; linarith) hb
  have hdec : DecidedYu Q 2 (twoEnv ℝ 1) ⟨.py, 0.06⟩ ⟨.py, 6⟩ ⟨.py, 2⟩ ⟨.py, 0.5⟩ [20, 3] [1.8] 0.6 0.3 0.1 r := by
    refine ⟨hret, hnl, hct, hyu, by rw [htime, hlen]; simp, by norm_num, by norm_num, ?_, by norm_num, ?_,
      by rw [hT]; exact m0⟩
    · intro k hk; rw [List.mem_singleton] at hk; subst hk; norm_num
    · intro k hk y hy
      simp only [List.mem_cons, List.not_mem_nil, or_false] at hk hy
      subst hk
      simp only [htl, hdelay, e1, e2, e3, htime]
      rcases hy with rfl | rfl
      · exact ⟨four_clear (i := 3) (by norm_num) (by norm_num; linarith) (Or.inr rfl),
          four_clear (i := 3) (by norm_num) (by norm_num; linarith) (Or.inr rfl),
          four_clear (i := 3) (by norm_num) (by norm_num; linarith) (Or.inr rfl)⟩
      · exact ⟨four_clear (i := 1) (by norm_num) (by norm_num; linarith) (Or.inl (by norm_num; linarith)),
          four_clear (i := 3) (by norm_num) (by norm_num; linarith) (Or.inr rfl),
          four_clear (i := 3) (by norm_num) (by norm_num; linarith) (Or.inr rfl)⟩
  refine ⟨t, Q, r, ht, by rw [htx, hrf], by rw [hrf]; exact hQ, hdec, n0, ?_⟩
  have hz : pyInt ((0 : ℝ) / 1) = 0 := by simp [pyInt]
  have n4 : nextPow2 4 = 4 := by decide
  have hpass : List.filterMap Call.pass ([] ++ [Call.deconv none 0 2 none {}]) = [] := by
    simp [Call.pass]
  obtain ⟨rfs, g1, -, g2⟩ := c140_sediment (l := hsLayer) (rest := []) (depth := [35]) (r := [0.06]) (rayp := .float 0.06)
    (npts := 4) (dt := 1) (ipha := 1) (pre := 0) (g := 2) (bp := delay2) (kw := {}) (pf := none) (meth := none)
    (f := fun _ _ x => (0 :: 0 :: x).take x.length) (calls := []) (toLower_eq (by decide)) (by norm_num) (by norm_num)
    (fun p hp l hl => by
      rw [List.mem_singleton] at hp hl
      subst hp hl
      exact hsLayer_propagating) (by simp [thicknesses, hs, hsLayer]) rfl rfl
    (by simp) (Or.inl rfl) (fun _ _ _ _ _ _ => rfl) ⟨rfl, rfl⟩ (Or.inl rfl) (by norm_num) (by rw [hz]; simp)
    (fun _ _ _ _ => linear_proportional delay_linear)
    (by
      intro p hp u z h
      rw [List.mem_singleton] at hp
      subst hp
      simp only [hpass, List.foldl_nil, n4]
      exact hs_four_default h)
  have e : rfs = [t] := Except.ok.inj (g1.symm.trans ht)
  subst e
  obtain ⟨C, hC, δ, hδ, g3⟩ := g2 0 t Q 2 _ _ _ _ _ _ _ _ _ _ r rfl (by rw [htx, hrf]) hdec
  refine ⟨C, hC, δ, hδ, ?_⟩
  intro ε hε hεδ R hR flt H K p VpM VpS VsS w1 w2 w3 x' k ac sr hrun hres ht hH hK hp hVM hVS hvs k1 k2 k3
  obtain ⟨r', q1, -, q2, q3⟩ := g3 ε hε hεδ [(x', k)]
    (.cons (by simp only [hpass, List.foldl_nil]; exact hrun) .nil) R hR (twoEnv (FL R) ⟨1⟩) flt H K p VpM VpS VsS w1 w2 w3 x' k
    ac sr rfl (by rw [hdel]; exact hres) (by rw [htime]; exact ht) hH hK hp hVM hVS hvs k1 k2 k3 (fun _ _ => rfl)
  exact ⟨r', q1, q2, q3.trans n0⟩

end Rfsed.Props
