import Verif.Props.RecordedNoiseYu
import Verif.Props.RecordedNoiseCase
import Verif.Props.ExperimentCase5

/-!
# C146: a concrete case

Two events with radial spikes of different size; their average is a Gaussian pulse, the filter finds a lag of two seconds and
the thicker of two crusts wins.
-/

namespace Rfsed.Props
open Rfsed Spec Synrf Finset HkZhu ReverbFilter

/-- an environment whose stack returns the record `x` -/
def stackEnv {F : Type} (km : F) (x : List F) : Env F where
  km2deg1 := km
  stack := fun _ => .ok [x]
  draw := fun _ => .ok ()

/-- `hkYu` on the filtered average is decided, the thick crust wins -/
theorem shape_decided {p q s : ℝ} (h1 : s ≤ q) (h2 : 2 * q < p + s) {st : List (Trace ℝ)} {tr0 : Trace ℝ}
    (hst : st[0]? = some tr0) (hdt : tr0.delta = 1) (hlen0 : tr0.data.length = 4) :
    ∃ Q res, ReverbFilter.ResonanceFilt (stackEnv 1 [p, q, s, q]) st 0 = .ok Q ∧ Q.delta = 1 ∧ Q.time = [0, 1, 2, 3] ∧
      DecidedYu Q 2 (stackEnv 1 [p, q, s, q]) ⟨.py, 0.06⟩ ⟨.py, 6⟩ ⟨.py, 2⟩ ⟨.py, 0.5⟩ [20, 3] [1.8] 0.6 0.3 0.1 res ∧
      res.bestIdx = 0 := by
  obtain ⟨Q0, F0, F1, F2, F3, hQ0, hrf0, htime0, hdel0, hret0, hnl0, hct0, htl0, hfilt0, hF⟩ := shape_filter h1 h2
  obtain ⟨rest, rfl⟩ : ∃ rest, st = tr0 :: rest := by
    match st, hst with
    | t :: rest, h => exact ⟨rest, by simpa using h⟩
  obtain ⟨Q, hQ, hrf, hdel, -, htime⟩ := c28_succeeds (stackEnv 1 [p, q, s, q]) (tr0 :: rest) 0 tr0 rest [p, q, s, q] [] rfl rfl
    (by rw [hdt]; norm_num) (by simp)
  have hret : Returned Q := Or.inl ⟨_, _, _, hQ⟩
  have htime : Q.time = [0, 1, 2, 3] := by
    rw [htime, hlen0, hdt]
    norm_num [List.range, List.range.loop]
  rw [hdt] at hdel
  have e0 := (returned_eq hret0).2.2
  have e := (returned_eq hret).2.2
  rw [hrf0, hdel0, htime0] at e0
  rw [hrf, hdel, htime] at e
  have hnl : NotLinear Q.rf := by rw [hrf, ← hrf0]; exact hnl0
  have hct : ClearTrough 0 Q.autoc 2 := by rw [e]; rw [e0] at hct0; exact hct0
  have htl : Q.tlag.val = 2 := by rw [e]; rw [e0] at htl0; exact htl0
  have hfilt : Q.filteredrf = [F0, F1, F2, F3] := by rw [e]; rw [e0] at hfilt0; exact hfilt0
  obtain ⟨a1, a2, a3, a4⟩ := two_slow
  obtain ⟨e1, e2, e3⟩ := two_times
  have hlen : Q.rf.length = 4 := by rw [hrf]; rfl
  obtain ⟨r, hyu⟩ := c25_hkYu_succeeds (F := ℝ) (env := stackEnv 1 [p, q, s, q]) (rp := ⟨.py, 0.06⟩) (flt := Q.toYu) (H := [20, 3])
    (K := [1.8]) (VpMoho := ⟨.py, 6⟩) (VpSed := ⟨.py, 2⟩) (VsSed := ⟨.py, 0.5⟩) (w1 := 0.6) (w2 := 0.3) (w3 := 0.1)
    (by show Q.time ≠ []; rw [htime]; simp) (by show Q.time.length ≤ Q.filteredrf.length; rw [htime, hfilt]; simp)
    (divisor_real (by norm_num))
    (divisor_real (by norm_num)) (divisor_real (by norm_num)) (by simp) (by simp) (fun _ _ => rfl)
  obtain ⟨vs0, a0, b0, bmod, f⟩ := hkYu_inv hyu
  obtain ⟨-, cell, hgrid, hcell⟩ := yu_values hyu (by norm_num) (by norm_num)
  have hdelay : sedimentDelay 2 2 0.5 = 0.75 := by unfold sedimentDelay; norm_num
  obtain ⟨s1, s2, c1, c2, hT⟩ := two_cells hgrid
  obtain ⟨y1, y2, y3, v1, v2, v3, hs1⟩ := hcell _ _ _ c1
  obtain ⟨z1, z2, z3, u1, u2, u3, hs2⟩ := hcell _ _ _ c2
  simp only [FltResults.toYu, htl, hdelay, e1, e2, e3, htime, hfilt] at v1 v2 v3 u1 u2 u3
  have v1 := four_reads (i := 3) (by norm_num) (by norm_num; linarith) (Or.inr rfl) v1
  have v2 := four_reads (i := 3) (by norm_num) (by norm_num; linarith) (Or.inr rfl) v2
  have v3 := four_reads (i := 3) (by norm_num) (by norm_num; linarith) (Or.inr rfl) v3
  have u1 := four_reads (i := 1) (by norm_num) (by norm_num; linarith) (Or.inl (by norm_num; linarith)) u1
  have u2 := four_reads (i := 3) (by norm_num) (by norm_num; linarith) (Or.inr rfl) u2
  have u3 := four_reads (i := 3) (by norm_num) (by norm_num; linarith) (Or.inr rfl) u3
  simp only [List.getElem?_cons_zero, List.getElem?_cons_succ, Option.some.injEq] at v1 v2 v3 u1 u2 u3
  subst v1 u1 v2
  have hb := f.hbest
  rw [hT] at hb
  obtain ⟨n0, m0⟩ := two_best (by rw [hs1, hs2, ← v3, ← u2, ← u3]; norm_num; linarith) hb
  refine ⟨Q, r, hQ, hdel, htime, ⟨hret, hnl, hct, hyu, by rw [htime, hlen]; simp, by norm_num, by norm_num, ?_, by norm_num, ?_,
      by rw [hT]; exact m0⟩, n0⟩
  · intro k hk; rw [List.mem_singleton] at hk; subst hk; norm_num
  · intro k hk y hy
    simp only [List.mem_cons, List.not_mem_nil, or_false] at hk hy
    subst hk
    simp only [htl, hdelay, e1, e2, e3, htime]
    rcases hy with rfl | rfl
    · exact ⟨four_clear (i := 3) (by norm_num) (by norm_num; linarith) (Or.inr rfl),
        four_clear (i := 3) (by norm_num) (by norm_num; linarith) (Or.inr rfl),
        four_clear (i := 3) (by norm_num) (by norm_num; linarith) (Or.inr rfl)⟩
    · exact ⟨four_clear (i := 1) (by norm_num) (by norm_num; linarith) (Or.inl (by norm_num; linarith)),
        four_clear (i := 3) (by norm_num) (by norm_num; linarith) (Or.inr rfl),
        four_clear (i := 3) (by norm_num) (by norm_num; linarith) (Or.inr rfl)⟩

/-- Two noisy recordings: the thick crust wins, as in the exact analysis. -/
example {b c : ℝ} (hb : 0 < b) (hc : 0 < c) : ∃ x y s Q res,
    (RFMethod.iterative 400 0.001 "P").Gives 1 0 2 (spikes b) x ∧ (RFMethod.iterative 400 0.001 "P").Gives 1 0 2 (spikes c) y ∧
    AverageWithin 0 [x, y] s ∧ ReverbFilter.ResonanceFilt (stackEnv 1 s) [spikeTrace x, spikeTrace y] 0 = .ok Q ∧
    DecidedYu Q 2 (stackEnv 1 s) ⟨.py, 0.06⟩ ⟨.py, 6⟩ ⟨.py, 2⟩ ⟨.py, 0.5⟩ [20, 3] [1.8] 0.6 0.3 0.1 res ∧ res.bestIdx = 0 ∧
    ∃ C > 0, ∃ δ > 0, ∀ e, 0 < e → e ≤ δ → ∀ R : Rounding, R.u ≤ e →
      ∀ (es' : List (Recording × Trace (FL R))) (sd' : List (FL R))
        (flt' : HkYu.FltInput (FL R)) (H' K' : List (FL R)) (p' VpM' VpS' VsS' : Scalar (FL R)) (v1 v2 v3 : FL R) ac r,
        RecordedStream (.iterative 400 0.001 "P") 0 2 e [(spikes b, spikeTrace x), (spikes c, spikeTrace y)] es' →
        AverageWithin (5 * e) (es'.map fun q => q.2.data.map FL.val) (sd'.map FL.val) →
        Nonempty (ResonanceRun e (sd'.map FL.val) 1 ac r flt'.tlag.val.val (flt'.filteredrf.map FL.val)) →
        flt'.time.map FL.val = [0, 1, 2, 3] → H'.map FL.val = [20, 3] → K'.map FL.val = [1.8] →
        p'.val.val = 0.06 → VpM'.val.val = 6 → VpS'.val.val = 2 → VsS'.val.val = 0.5 →
        v1.val = 0.6 → v2.val = 0.3 → v3.val = 0.1 →
        ∃ res', HkYu.hkYu (twoEnv (FL R) ⟨1⟩) flt' p' H' K' (some VpM') (some VpS') (some VsS') (some v1) (some v2) (some v3) =
            .ok res' ∧ |res'.Pdelay.val - res.Pdelay| ≤ C * e ∧
          NearTable (C * e) res.stackvaluesSubSed (res'.stackvaluesSubSed.map exactRow) ∧ res'.bestIdx = 0 := by
  obtain ⟨x0, x1, x2, x3, gx, cx, e0, e1, e2, e3⟩ := spikes_pulse hb
  obtain ⟨y0, y1, y2, y3, gy, cy, f0, f1, f2, f3⟩ := spikes_pulse hc
  have hbc : 0 < (b + c) / 2 := by positivity
  obtain ⟨p1, p2, p3⟩ := pulse_shape
  obtain ⟨Q, res, hQ, hdel, htime, hdec, h0⟩ := shape_decided (p := (b + c) / 2 * gaussPulse 1 4 2 0)
    (q := (b + c) / 2 * gaussPulse 1 4 2 1) (s := (b + c) / 2 * gaussPulse 1 4 2 2)
    (st := [spikeTrace [x0, x1, x2, x3], spikeTrace [y0, y1, y2, y3]]) (tr0 := spikeTrace [x0, x1, x2, x3])
    (mul_le_mul_of_nonneg_left p2 hbc.le) (by have := mul_lt_mul_of_pos_left p3 hbc; linarith) rfl rfl rfl
  have havg : AverageWithin 0 [[x0, x1, x2, x3], [y0, y1, y2, y3]] [(b + c) / 2 * gaussPulse 1 4 2 0,
      (b + c) / 2 * gaussPulse 1 4 2 1, (b + c) / 2 * gaussPulse 1 4 2 2, (b + c) / 2 * gaussPulse 1 4 2 1] := by
    refine ⟨by simp, by simp, fun i hi => ?_⟩
    simp only [List.length_cons, List.length_nil] at hi
    interval_cases i <;> simp [e0, e1, e2, e3, f0, f1, f2, f3, p1] <;> ring
  obtain ⟨C, hC, δ, hδ, g⟩ := c146_hkYu (M := .iterative 400 0.001 "P") (pre := 0) (a := 2) (C0 := 5)
    (es := [(spikes b, spikeTrace [x0, x1, x2, x3]), (spikes c, spikeTrace [y0, y1, y2, y3])]) (by norm_num)
    (by
      intro q hq
      simp only [List.mem_cons, List.not_mem_nil, or_false] at hq
      rcases hq with rfl | rfl
      · exact ⟨gx, cx⟩
      · exact ⟨gy, cy⟩) rfl havg hQ hdec
  refine ⟨_, _, _, Q, res, gx, gy, havg, hQ, hdec, h0, C, hC, δ, hδ, ?_⟩
  intro e he hed R hR es' sd' flt' H' K' p' VpM' VpS' VsS' v1 v2 v3 ac r k1 k2 k3 k4 k5 k6 k7 k8 k9 k10 k11 k12 k13
  obtain ⟨res', q1, q2, q3, q4⟩ := g e he hed R hR (twoEnv (FL R) ⟨1⟩) es' sd' flt' H' K' p' VpM' VpS' VsS' v1 v2 v3 ac r k1 k2
    (by rw [hdel]; exact k3) (k4.trans htime.symm) k5 k6 k7 k8 k9 k10 k11 k12 k13 (fun _ _ => rfl)
  exact ⟨res', q1, q2, q3, q4.trans h0⟩

end Rfsed.Props
