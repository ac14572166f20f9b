import Verif.Props.ExperimentCase2
import Verif.Props.ExperimentResonance

/-!
# C140: the resonance filter followed by the stacking, a concrete case

The record 1, -1, -1, 1 sampled at 0.5 s: its filter finds a lag of one second and returns 1/2, -1/2, -1/2, 1/2.
-/

namespace Rfsed.Props
open Rfsed HkZhu Spec Synrf Finset ReverbFilter

theorem half_near {t : ℝ} {i : Nat} (hi : i < 4) (h : (i : ℝ) / 2 - 1 / 4 < t) (h' : t < i / 2 + 1 / 4 ∨ i = 3) :
    ∀ j < 4, j ≠ i → |(i : ℝ) / 2 - t| < |(j : ℝ) / 2 - t| := by
  intro j hj hne
  rw [← sq_lt_sq]
  rcases lt_or_gt_of_ne hne with hlt | hlt
  · have : (j : ℝ) + 1 ≤ i := by exact_mod_cast hlt
    nlinarith
  · have : (i : ℝ) + 1 ≤ j := by exact_mod_cast hlt
    rcases h' with h' | h'
    · nlinarith
    · omega

theorem half_get {j : Nat} {y : ℝ} (h : ([0, 1 / 2, 1, 3 / 2] : List ℝ)[j]? = some y) : j < 4 ∧ y = j / 2 := by
  match j with
  | 0 | 1 | 2 | 3 => simp at h; subst h; norm_num
  | j + 4 => simp at h

theorem half_self {i : Nat} (hi : i < 4) : ([0, 1 / 2, 1, 3 / 2] : List ℝ)[i]? = some ((i : ℝ) / 2) := by
  interval_cases i <;> simp

theorem half_clear {t : ℝ} {i : Nat} (hi : i < 4) (h : (i : ℝ) / 2 - 1 / 4 < t) (h' : t < i / 2 + 1 / 4 ∨ i = 3) :
    ClearlyNearest [0, 1 / 2, 1, 3 / 2] t 0 :=
  ⟨i, (i : ℝ) / 2, half_self hi, fun j y hj hy => by
    obtain ⟨a, rfl⟩ := half_get hy
    simpa using half_near hi h h' j a hj⟩

theorem half_reads {t a : ℝ} {x : List ℝ} {i : Nat} (hi : i < 4) (h : (i : ℝ) / 2 - 1 / 4 < t)
    (h' : t < i / 2 + 1 / 4 ∨ i = 3) (hr : ReadsNearest x [0, 1 / 2, 1, 3 / 2] t a) : x[i]? = some a := by
  obtain ⟨j, ⟨y, hy, hmin, -⟩, ha⟩ := hr
  obtain ⟨hj, rfl⟩ := half_get hy
  by_cases e : j = i
  · rw [← e]; exact ha
  · have h1 := half_near hi h h' j hj e
    have h2 := hmin i _ (half_self hi)
    rw [real_le, real_abs, real_abs] at h2
    linarith

theorem two_cells {a b k : ℝ} {f : ℝ → ℝ → Except PyErr ℝ} {tb : List (Row ℝ)} (h : gridLoop [k] [a, b] f = .ok tb) :
    ∃ s1 s2, f k a = .ok s1 ∧ f k b = .ok s2 ∧ tb = [⟨a, k, s1⟩, ⟨b, k, s2⟩] := by
  obtain ⟨φ, hφ, htb⟩ := gridLoop_fun.1 h
  exact ⟨_, _, hφ k (by simp) a (by simp), hφ k (by simp) b (by simp), by rw [htb]; rfl⟩

/-- The filter and the stacking of the record, exactly: the thick crust wins; hence also in all sufficiently precise
computations on records sufficiently near. -/
example : ∃ Q r, SynthAnalysis.ResonanceFilt [1, -1, -1, 1] [0, 1/2, 1, 3/2] = .ok Q ∧ Q.tlag.val = 1 ∧
    HkYu.hkYu (twoEnv ℝ 1) Q.toYu ⟨.py, 0.06⟩ [12, 1] [1.8] (some ⟨.py, 6⟩) (some ⟨.py, 2⟩) (some ⟨.py, 0.5⟩) (some 0.6)
      (some 0.3) (some 0.1) = .ok r ∧ r.bestIdx = 0 ∧
    ∃ C > 0, ∃ δ > 0, ∀ ε, 0 < ε → ε ≤ δ → ∀ x' ac s, SamplesWithin ε [1, -1, -1, 1] x' → ∀ R : Rounding, R.u ≤ ε →
      ∀ (flt : HkYu.FltInput (FL R)) (H K : List (FL R)) (p VpM VpS VsS : Scalar (FL R)) (v1 v2 v3 : FL R),
        Nonempty (ResonanceRun ε x' (1 / 2) ac s flt.tlag.val.val (flt.filteredrf.map FL.val)) →
        flt.time.map FL.val = [0, 1/2, 1, 3/2] → H.map FL.val = [12, 1] → K.map FL.val = [1.8] → p.val.val = 0.06 →
        VpM.val.val = 6 → VpS.val.val = 2 → VsS.val.val = 0.5 → v1.val = 0.6 → v2.val = 0.3 → v3.val = 0.1 →
        ∃ r', HkYu.hkYu (twoEnv (FL R) ⟨1⟩) flt p H K (some VpM) (some VpS) (some VsS) (some v1) (some v2) (some v3) = .ok r' ∧
          NearTable (C * ε) r.stackvaluesSubSed (r'.stackvaluesSubSed.map exactRow) ∧ r'.bestIdx = 0 := by
  obtain ⟨a1, a2, a3, a4⟩ := two_slow
  obtain ⟨e1, e2, e3⟩ := two_times
  obtain ⟨Q, hQ, hret, hnl, hD, hft, hr, htl, f0, f1, f2, f3⟩ := sample_resonance
  obtain ⟨R0, hR0, hrf, htime, hdel⟩ := c28_succeeds_synth [1, -1, -1, 1] [0, 1/2, 1, 3/2] (by simp) (by simp)
  cases Except.ok.inj (hR0.symm.trans hQ)
  have hdel : Q.delta = 1 / 2 := by rw [hdel]; norm_num
  have hlen : Q.rf.length = 4 := by rw [hrf]; rfl
  have hfl : Q.filteredrf.length = 4 := by rw [filteredrf_length hret, hlen]
  have hfilt : Q.filteredrf = [1/2, -1/2, -1/2, 1/2] := by
    obtain ⟨b0, b1, b2, b3, hb⟩ : ∃ b0 b1 b2 b3, Q.filteredrf = [b0, b1, b2, b3] := by
      generalize Q.filteredrf = l at hfl
      match l, hfl with
      | [a, b, c, d], _ => exact ⟨a, b, c, d, rfl⟩
    rw [hb] at f0 f1 f2 f3
    have g0 : b0 = 1/2 := f0
    have g1 : b1 = -1/2 := f1
    have g2 : b2 = -1/2 := f2
    have g3 : b3 = 1/2 := f3
    rw [hb, g0, g1, g2, g3]
  have hac : ∀ k < 4, Q.autoc.getD k 0 = autocorr [1, -1, -1, 1] k / autocorr [1, -1, -1, 1] 0 := by
    intro k hk; exact (c30_autoc hret hD).2 k (by omega)
  have hal : Q.autoc.length = 4 := by rw [(c30_autoc hret hD).1, hlen]
  have q0 := hac 0 (by omega); have q1 := hac 1 (by omega)
  have q2 := hac 2 (by omega); have q3 := hac 3 (by omega)
  simp [autocorr, Finset.sum_range_succ] at q0 q1 q2 q3
  norm_num at q0 q1 q2 q3
  have hct : ClearTrough 0 Q.autoc 2 := by
    refine ⟨by omega, by omega, fun k hk => ?_, ?_⟩
    · interval_cases k
      · simp [q0, q1]; linarith
      · simp [q1, q2]; linarith
    · simp [q2, q3]; norm_num
  obtain ⟨r, hyu⟩ := c25_hkYu_succeeds (F := ℝ) (env := twoEnv ℝ 1) (rp := ⟨.py, 0.06⟩) (flt := Q.toYu) (H := [12, 1])
    (K := [1.8]) (VpMoho := ⟨.py, 6⟩) (VpSed := ⟨.py, 2⟩) (VsSed := ⟨.py, 0.5⟩) (w1 := 0.6) (w2 := 0.3) (w3 := 0.1)
    (by show Q.time ≠ []; rw [htime]; simp) (by show Q.time.length ≤ Q.filteredrf.length; rw [htime, hfilt]; simp)
    (divisor_real (by norm_num))
    (divisor_real (by norm_num)) (divisor_real (by norm_num)) (by simp) (by simp) (fun _ _ => rfl)
  obtain ⟨vs0, a0, b0, bmod, f⟩ := hkYu_inv hyu
  obtain ⟨-, cell, hgrid, hcell⟩ := yu_values hyu (by norm_num) (by norm_num)
  have hdelay : sedimentDelay 1 2 0.5 = 0.375 := by unfold sedimentDelay; norm_num
  obtain ⟨s1, s2, c1, c2, hT⟩ := two_cells hgrid
  obtain ⟨y1, y2, y3, v1, v2, v3, hs1⟩ := hcell _ _ _ c1
  obtain ⟨z1, z2, z3, u1, u2, u3, hs2⟩ := hcell _ _ _ c2
  simp only [FltResults.toYu, htl, hdelay, e1, e2, e3, htime, hfilt] at v1 v2 v3 u1 u2 u3
  have v1 := half_reads (i := 3) (by norm_num) (by norm_num; linarith) (Or.inr rfl) v1
  have v2 := half_reads (i := 3) (by norm_num) (by norm_num; linarith) (Or.inr rfl) v2
  have v3 := half_reads (i := 3) (by norm_num) (by norm_num; linarith) (Or.inr rfl) v3
  have u1 := half_reads (i := 1) (by norm_num) (by norm_num; linarith) (Or.inl (by norm_num; linarith)) u1
  have u2 := half_reads (i := 2) (by norm_num) (by norm_num; linarith) (Or.inl (by norm_num; linarith)) u2
  have u3 := half_reads (i := 3) (by norm_num) (by norm_num; linarith) (Or.inr rfl) u3
  simp only [List.getElem?_cons_zero, List.getElem?_cons_succ, Option.some.injEq] at v1 v2 v3 u1 u2 u3
  subst v1 v2 v3 u1 u2 u3
  have hb := f.hbest
  rw [hT] at hb
  obtain ⟨n0, m0⟩ := two_best (by rw [hs1, hs2]; norm_num) hb
  obtain ⟨C, hC0, δ, hδ, g⟩ := c140_resonance (C := 1) hret hnl hct hyu (by rw [htime, hlen]; simp) (by norm_num)
    (by norm_num) (by intro k hk; rw [List.mem_singleton] at hk; subst hk; norm_num) (by norm_num)
    (by
      intro k hk y hy
      simp only [List.mem_cons, List.not_mem_nil, or_false] at hk hy
      subst hk
      simp only [htl, hdelay, e1, e2, e3, htime]
      rcases hy with rfl | rfl
      · exact ⟨half_clear (i := 3) (by norm_num) (by norm_num; linarith) (Or.inr rfl),
          half_clear (i := 3) (by norm_num) (by norm_num; linarith) (Or.inr rfl),
          half_clear (i := 3) (by norm_num) (by norm_num; linarith) (Or.inr rfl)⟩
      · exact ⟨half_clear (i := 1) (by norm_num) (by norm_num; linarith) (Or.inl (by norm_num; linarith)),
          half_clear (i := 2) (by norm_num) (by norm_num; linarith) (Or.inl (by norm_num; linarith)),
          half_clear (i := 3) (by norm_num) (by norm_num; linarith) (Or.inr rfl)⟩)
    (by rw [hT]; exact m0) zero_le_one
  refine ⟨Q, r, hQ, htl, hyu, n0, C, hC0, δ, hδ, ?_⟩
  intro ε hε hεδ x' ac s hx' R hR flt H K p VpM VpS VsS w1 w2 w3 hrun ht hH hK hp hVM hVS hvs h1 h2 h3
  obtain ⟨r', g1, -, g2, g3⟩ := g ε hε hεδ x' ac s (by rw [one_mul, hrf]; exact hx') R hR (twoEnv (FL R) ⟨1⟩) flt H K p VpM VpS
    VsS w1 w2 w3 (by rw [hdel]; exact hrun) (by rw [htime]; exact ht) hH hK hp hVM hVS hvs h1 h2 h3 (fun _ _ => rfl)
  exact ⟨r', g1, g2, g3.trans n0⟩

end Rfsed.Props
