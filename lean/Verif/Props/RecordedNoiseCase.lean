import Verif.Props.RecordedNoise
import Verif.Props.ExperimentCase
import Verif.Props.Variants

/-!
# C143: a concrete case

One event, radial seismogram `b, 0, 0, 0`, vertical `1, 0, 0, 0`, default parameters, a grid of two models.
-/

namespace Rfsed.Props
open Rfsed HkZhu Spec Synrf ReverbFilter Finset

theorem pulse_four' {dt a : ℝ} : gaussPulse dt 4 a 3 = gaussPulse dt 4 a 1 ∧ 0 < gaussPulse dt 4 a 0 + gaussPulse dt 4 a 1 ∧
    0 < gaussPulse dt 4 a 0 := by
  have c0 : Real.cos (2 * Real.pi / 4) = 0 := by rw [show 2 * Real.pi / 4 = Real.pi / 2 by ring]; exact Real.cos_pi_div_two
  have c1 : Real.cos (2 * Real.pi * 2 / 4) = -1 := by rw [show 2 * Real.pi * 2 / 4 = Real.pi by ring]; exact Real.cos_pi
  have c2 : Real.cos (2 * Real.pi * 3 / 4) = 0 := by
    rw [show 2 * Real.pi * 3 / 4 = Real.pi / 2 + Real.pi by ring, Real.cos_add_pi, Real.cos_pi_div_two, neg_zero]
  have c3 : Real.cos (2 * Real.pi * 6 / 4) = -1 := by
    rw [show 2 * Real.pi * 6 / 4 = Real.pi + 2 * Real.pi by ring, Real.cos_add_two_pi, Real.cos_pi]
  have c4 : Real.cos (2 * Real.pi * 9 / 4) = 0 := by
    rw [show 2 * Real.pi * 9 / 4 = Real.pi / 2 + 2 * Real.pi + 2 * Real.pi by ring, Real.cos_add_two_pi, Real.cos_add_two_pi, Real.cos_pi_div_two]
  have hpos : ∀ k, 0 < gaussResponse dt 4 a k := fun k => Real.exp_pos _
  have g0 := hpos 0
  have g1 := hpos 1
  have g2 := hpos 2
  have g3 := hpos 3
  unfold gaussPulse
  simp only [Finset.sum_range_succ, Finset.sum_range_zero]
  norm_num [c0, c1, c2, c3, c4]
  constructor <;> linarith

/-- a radial spike under a vertical spike -/
def spikes (b : ℝ) : Recording := ⟨[b, 0, 0, 0], [1, 0, 0, 0]⟩

/-- the receiver function of the spikes, with the default parameters, is a scaled Gaussian pulse -/
theorem spikes_pulse {b : ℝ} (hb : 0 < b) : ∃ x0 x1 x2 x3,
    (RFMethod.iterative 400 0.001 "P").Gives 1 0 2 (spikes b) [x0, x1, x2, x3] ∧
    (RFMethod.iterative 400 0.001 "P").Clear 1 0 2 (spikes b) ∧ x0 = b * gaussPulse 1 4 2 0 ∧ x1 = b * gaussPulse 1 4 2 1 ∧
    x2 = b * gaussPulse 1 4 2 2 ∧ x3 = b * gaussPulse 1 4 2 3 := by
  have hz : pyInt ((0 : ℝ) / 1) = 0 := by simp [pyInt]
  have n4 : nextPow2 4 = 4 := by decide
  obtain ⟨R, hR⟩ := (c112_iterative (uin := [b, 0, 0, 0]) (win := [1, 0, 0, 0]) (dt := 1) (nt := none)
    (preonset := 0) (a := 2) (itmax := 400) (minderr := 0.001) (phase := "P") (by norm_num)).2
    ⟨rfl, by norm_num, Or.inl rfl, Or.inl (by simp)⟩
  have key := steady_copy (L := 0) (b := b) hR (Or.inl rfl) (by norm_num) (by norm_num) (by norm_num)
    (Or.inl (by norm_num)) ⟨b, by simp, hb.ne'⟩
  simp only [List.length_cons, List.length_nil, zero_add, Nat.reduceAdd, n4] at key
  obtain ⟨P, rf, hP, hrf, hv⟩ := key ⟨by norm_num, fun _ => by norm_num⟩
    (by
      intro m hm
      interval_cases m <;> simp [smp, cyc])
    (by
      intro i c hi hne
      have h1 := hi.2 rfl
      omega)
  have hit : R.it ≤ 400 := (deconv_master hR rfl).2.2.1
  have hlen : rf.length = 4 := by
    rcases (deconv_master hR rfl).2.2.2 with ⟨P', rf', -, e, hl, -⟩ | ⟨-, -, e, -⟩
    · rw [hrf] at e; cases e; exact hl
    · exact e rf hrf
  have hv := hv (by rw [hz]; simp)
  obtain ⟨x0, x1, x2, x3, rfl⟩ : ∃ x0 x1 x2 x3, rf = [x0, x1, x2, x3] := by
    match rf, hlen with
    | [a, b, c, d], _ => exact ⟨a, b, c, d, rfl⟩
  have e : ∀ m < 4, smp [x0, x1, x2, x3] m = b * gaussPulse 1 4 2 m := by
    intro m hm
    have := hv m hm
    rw [hz, div_one] at this
    rw [this]
    interval_cases m <;> rfl
  refine ⟨x0, x1, x2, x3, ⟨R, hR, hrf⟩, ⟨by norm_num, ?_, R.it, hit, P, ?_⟩, e 0 (by norm_num), e 1 (by norm_num),
    e 2 (by norm_num), e 3 (by norm_num)⟩
  · show Real.cos (2 * Real.pi * (pyInt ((0 : ℝ) / 1) : ℝ) / _) ≠ 0
    rw [hz]; simp
  · show SteadyRun (nextPow2 4) 1 (lowpass (nextPow2 4) 1 2 [b, 0, 0, 0]) (lowpass (nextPow2 4) 1 2 [1, 0, 0, 0]) _ _ _ _ _
    rw [n4]; exact hP

/-- the receiver function of the spikes, with the default parameters -/
theorem spikes_rf {b : ℝ} (hb : 0 < b) : ∃ x0 x1 x2 x3,
    (RFMethod.iterative 400 0.001 "P").Gives 1 0 2 (spikes b) [x0, x1, x2, x3] ∧
    (RFMethod.iterative 400 0.001 "P").Clear 1 0 2 (spikes b) ∧ x1 < x0 ∧ x2 < x0 ∧ x3 < x0 ∧ x3 = x1 ∧ 0 < x0 + x1 := by
  obtain ⟨x0, x1, x2, x3, hg, hc, e0, e1, e2, e3⟩ := spikes_pulse hb
  obtain ⟨p1, p2, p3⟩ := pulse_four (dt := 1) (a := 2)
  obtain ⟨p4, p5, -⟩ := pulse_four' (dt := 1) (a := 2)
  refine ⟨x0, x1, x2, x3, hg, hc, ?_, ?_, ?_, ?_, ?_⟩
  · rw [e0, e1]; exact mul_lt_mul_of_pos_left p1 hb
  · rw [e0, e2]; exact mul_lt_mul_of_pos_left p2 hb
  · rw [e0, e3]; exact mul_lt_mul_of_pos_left p3 hb
  · rw [e1, e3, p4]
  · rw [e0, e1, ← mul_add]; exact mul_pos hb p5

/-- one event, `hkSynth` -/
example {b : ℝ} (hb : 0 < b) : ∃ x res, (RFMethod.iterative 400 0.001 "P").Gives 1 0 2 (spikes b) x ∧
    Decided twoModels (twoEnv ℝ 1) x res ∧ res.bestIdx = 0 ∧
    ∃ C > 0, ∃ δ > 0, ∀ e, 0 < e → e ≤ δ → ∀ q', (spikes b).Within e q' → ∀ R : Rounding, R.u ≤ e →
      ∀ (S' : Search (FL R)) (d : List (FL R)),
        (RFMethod.iterative 400 0.001 "P").Computes e 1 0 2 q' (d.map FL.val) → S'.exact = twoModels →
        ∃ res', S'.run (twoEnv (FL R) ⟨1⟩) d = .ok res' ∧
          NearTable (C * e) res.stackvalues (res'.stackvalues.map exactRow) ∧ res'.bestIdx = 0 := by
  obtain ⟨x0, x1, x2, x3, hg, hc, h1, h2, h3, -, -⟩ := spikes_rf hb
  obtain ⟨res, hd, h0⟩ := two_decided h1 h2 h3
  obtain ⟨C, hC, δ, hδ, g⟩ := c143_hkSynth hg hc hd
  refine ⟨_, res, hg, hd, h0, C, hC, δ, hδ, fun e he hed q' hq R hR S' d hrun hS => ?_⟩
  obtain ⟨res', r1, r2, r3⟩ := g e he hed q' hq R hR S' (twoEnv (FL R) ⟨1⟩) d e he.le le_rfl hrun hS (fun _ _ => rfl)
  exact ⟨res', r1, r2, r3.trans h0⟩

/-- an environment in which obspy's stack returns something -/
def oneEnv (F : Type) (z : F) : Env F where
  km2deg1 := z
  stack := fun _ => .ok [[z]]
  draw := fun _ => .ok ()

/-- the trace of the event -/
noncomputable def spikeTrace (x : List ℝ) : Trace ℝ where
  station := "STA"
  channel := "HHR"
  data := x
  delta := 1
  starttime := 0
  backAzimuth := none
  distance := none
  onset := some 0
  slowness := some ⟨.py, 0.06⟩

/-- one event, `hk` -/
example {b : ℝ} (hb : 0 < b) : ∃ x res, (RFMethod.iterative 400 0.001 "P").Gives 1 0 2 (spikes b) x ∧
    hk (oneEnv ℝ 1) [spikeTrace x] 0 [1, 12] [1.8] (some ⟨.py, 6⟩) (some 0.6) (some 0.3) (some 0.1) none (some false) =
      .ok res ∧ res.bestIdx = 0 ∧
    ∃ C > 0, ∃ δ > 0, ∀ e, 0 < e → e ≤ δ → ∀ q' x' res', (spikes b).Within e q' →
      (RFMethod.iterative 400 0.001 "P").Gives 1 0 2 q' x' →
      hk (oneEnv ℝ 1) [spikeTrace x'] 0 [1, 12] [1.8] (some ⟨.py, 6⟩) (some 0.6) (some 0.3) (some 0.1) none (some false) =
        .ok res' → NearTable (C * e) res.stackvalues res'.stackvalues ∧ res'.bestIdx = 0 := by
  obtain ⟨x0, x1, x2, x3, hg, hc, h1, h2, h3, -, -⟩ := spikes_rf hb
  obtain ⟨rs, hd, h0⟩ := two_decided h1 h2 h3
  have hax : (List.range 4).map (fun n : Nat => (1 : ℝ) * PyFloat.ofNat n - 0) = [0, 1, 2, 3] := by
    simp only [real_ofNat, one_mul, sub_zero]
    norm_num [List.range, List.range.loop]
  have hrun : ∃ r, SynthAnalysis.hkSynth (oneEnv ℝ 1) [x0, x1, x2, x3]
      ((List.range 4).map (fun n : Nat => (1 : ℝ) * PyFloat.ofNat n - 0)) ⟨.py, 1 * 0.06⟩ [1, 12] [1.8] (some ⟨.py, 6⟩) (some 0.6)
      (some 0.3) (some 0.1) none = .ok r ∧ r.stackvalues = rs.stackvalues ∧ r.bestIdx = rs.bestIdx := by
    rw [hax, one_mul]
    exact ⟨rs, hd.run, rfl, rfl⟩
  obtain ⟨res, hr, ht, hi⟩ := (c26_single_trace (env := oneEnv ℝ 1) (tr := spikeTrace [x0, x1, x2, x3]) (preonset := 0) rfl rfl
    rfl _ _).2 hrun
  have hM : Margin 0 res.stackvalues res.bestIdx := by rw [ht, hi]; exact hd.unique
  obtain ⟨C, hC, δ, hδ, g⟩ := c143_noise (e0 := (spikes b, spikeTrace [x0, x1, x2, x3])) (es := []) (by simp)
    (by intro p hp; rw [List.mem_singleton] at hp; subst hp; exact ⟨hg, hc⟩) hr hM
  refine ⟨_, res, hg, hr, hi.trans h0, C, hC, δ, hδ, fun e he hed q' x' res' hq hx' hres' => ?_⟩
  obtain ⟨r1, r2⟩ := g e he hed (oneEnv ℝ 1) [(q', spikeTrace x')] res' (.cons ⟨hq, ⟨rfl, rfl, rfl⟩, hx'⟩ .nil) rfl hres'
  exact ⟨r1, r2.trans (hi.trans h0)⟩

end Rfsed.Props
