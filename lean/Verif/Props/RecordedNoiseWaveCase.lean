import Verif.Props.RecordedNoiseWave
import Verif.Props.RecordedNoiseCase

/-!
# C145: a concrete case

Two events with radial spikes of different size; the data are the average of their receiver functions, the synthetics of
the two models of the grid are the data and twice the data.
-/

namespace Rfsed.Props
open Rfsed Spec Synrf Waveform Finset HkZhu

/-- no sample of the pulse is zero -/
theorem pulse_signed : gaussPulse 1 4 2 0 ≠ 0 ∧ gaussPulse 1 4 2 1 ≠ 0 ∧ gaussPulse 1 4 2 2 ≠ 0 ∧ gaussPulse 1 4 2 3 ≠ 0 := by
  have c0 : Real.cos (2 * Real.pi / 4) = 0 := by rw [show 2 * Real.pi / 4 = Real.pi / 2 by ring]; exact Real.cos_pi_div_two
  have c1 : Real.cos (2 * Real.pi * 2 / 4) = -1 := by rw [show 2 * Real.pi * 2 / 4 = Real.pi by ring]; exact Real.cos_pi
  have c2 : Real.cos (2 * Real.pi * 3 / 4) = 0 := by
    rw [show 2 * Real.pi * 3 / 4 = Real.pi / 2 + Real.pi by ring, Real.cos_add_pi, Real.cos_pi_div_two, neg_zero]
  have c3 : Real.cos (2 * Real.pi * 6 / 4) = -1 := by
    rw [show 2 * Real.pi * 6 / 4 = Real.pi + 2 * Real.pi by ring, Real.cos_add_two_pi, Real.cos_pi]
  have c5 : Real.cos (2 * Real.pi * 4 / 4) = 1 := by
    rw [show 2 * Real.pi * 4 / 4 = 2 * Real.pi by ring, Real.cos_two_pi]
  set q := Real.exp (-(Real.pi ^ 2 / 64)) with hq
  have g0 : gaussResponse 1 4 2 0 = 1 := by unfold gaussResponse; norm_num
  have g1 : gaussResponse 1 4 2 1 = q := by
    unfold gaussResponse
    rw [hq]; congr 1; norm_num; ring
  have g3 : gaussResponse 1 4 2 3 = q := by
    unfold gaussResponse
    rw [hq]; congr 1; norm_num; ring
  have g2 : gaussResponse 1 4 2 2 = q ^ 4 := by
    unfold gaussResponse
    rw [hq, ← Real.exp_nat_mul]; congr 1; norm_num; ring
  have q1 : q < 1 := by
    rw [hq, ← Real.exp_zero, Real.exp_lt_exp]
    have : 0 < Real.pi ^ 2 / 64 := by have := Real.pi_pos; positivity
    linarith
  have q8 : 0.8 < q := by
    have h1 := Real.add_one_le_exp (-(Real.pi ^ 2 / 64))
    have h2 : Real.pi ^ 2 < 12.25 := by
      have := Real.pi_lt_d2
      nlinarith [Real.pi_pos]
    rw [← hq] at h1
    norm_num at h2 ⊢
    linarith
  have e : gaussPulse 1 4 2 0 = (1 + 2 * q + q ^ 4) / 4 ∧ gaussPulse 1 4 2 1 = (1 - q ^ 4) / 4 ∧
      gaussPulse 1 4 2 2 = (1 - 2 * q + q ^ 4) / 4 := by
    unfold gaussPulse
    simp only [Finset.sum_range_succ, Finset.sum_range_zero, g0, g1, g2, g3]
    norm_num [c0, c1, c2, c3, c5]
    refine ⟨by ring, by ring, by ring⟩
  have h4 : q ^ 4 < 1 := pow_lt_one₀ (by linarith) q1 (by norm_num)
  have h2 : gaussPulse 1 4 2 2 < 0 := by
    rw [e.2.2]
    have : 1 - 2 * q + q ^ 4 = (q - 1) * (q ^ 3 + q ^ 2 + q - 1) := by ring
    rw [this]
    have k : 0 < q ^ 3 + q ^ 2 + q - 1 := by nlinarith [pow_pos (by linarith : (0 : ℝ) < q) 3]
    have := mul_neg_of_neg_of_pos (by linarith : q - 1 < 0) k
    linarith
  have h0 : 0 < gaussPulse 1 4 2 0 := by
    rw [e.1]
    have : 0 < q := by linarith
    positivity
  have h1 : 0 < gaussPulse 1 4 2 1 := by rw [e.2.1]; linarith
  exact ⟨h0.ne', h1.ne', h2.ne, by rw [pulse_four'.1]; exact h1.ne'⟩

/-- the exact fit of the example, with data `x` -/
noncomputable def pulseFit (x : List ℝ) : ExactFit where
  data := x
  synthetic := fun h _ => x.map (h * ·)
  phase := fun _ _ => 1
  depths := [1, 2]
  ratios := [1.8]
  wc := 0.4
  wr := 0.4
  wp := 0.2
  N := 0
  f := 1

theorem pulseFit_models (x : List ℝ) : (pulseFit x).models = [(1, 1.8), (2, 1.8)] := rfl

theorem pulseFit_regular {a b c d : ℝ} (h0 : a ≠ 0) (h1 : b ≠ 0) (h2 : c ≠ 0) (h3 : d ≠ 0) (hv : b < a) :
    ∃ M, (pulseFit [a, b, c, d]).Regular 1 M 1 ∧ (pulseFit [a, b, c, d]).OnlyBest (fun m => -(pulseFit [a, b, c, d]).misfit m) (1, 1.8) ∧
      (pulseFit [a, b, c, d]).OnlyBest ((pulseFit [a, b, c, d]).goodness 1 M 1) (1, 1.8) := by
  have v : ∀ s : ℝ, s ≠ 0 → ¬ Constant [s * a, s * b, s * c, s * d] := by
    intro s hs h
    have := h (s * a) (by simp) (s * b) (by simp)
    exact hv.ne' (mul_left_cancel₀ hs this)
  have v1 : ¬ Constant [a, b, c, d] := by simpa using v 1 one_ne_zero
  have k1 : (pulseFit [a, b, c, d]).corr (1, 1.8) = 1 := by
    show pearson [a, b, c, d] [1 * a, 1 * b, 1 * c, 1 * d] = 1
    simp only [one_mul]
    exact pearson_self v1
  have k2 : (pulseFit [a, b, c, d]).corr (2, 1.8) ≤ 1 :=
    (abs_le.1 (abs_pearson_le [a, b, c, d] [2 * a, 2 * b, 2 * c, 2 * d] rfl)).2
  have m1 : (pulseFit [a, b, c, d]).misfit (1, 1.8) = 0 := by
    show rms [a, b, c, d] [1 * a, 1 * b, 1 * c, 1 * d] = 0
    simp [rms]
  have m2 : 0 < (pulseFit [a, b, c, d]).misfit (2, 1.8) := by
    show 0 < rms [a, b, c, d] [2 * a, 2 * b, 2 * c, 2 * d]
    have e : ∀ z : ℝ, z - 2 * z = -z := fun z => by ring
    have := sq_pos_of_ne_zero h0
    simp only [rms, List.zipWith_cons_cons, List.zipWith_nil_right, e, neg_sq, List.sum_cons, List.sum_nil, List.length_cons,
      List.length_nil]
    apply Real.sqrt_pos.2
    positivity
  set E := pulseFit [a, b, c, d] with hE
  refine ⟨E.misfit (2, 1.8), ⟨v1, ?_, ?_, ?_, ?_, ?_, one_pos, m2, one_pos⟩, ?_, ?_⟩
  · show ∀ z ∈ [a, b, c, d], z ≠ 0
    simp [h0, h1, h2, h3]
  · intro m hm
    rw [pulseFit_models] at hm
    simp only [List.mem_cons, List.not_mem_nil, or_false] at hm
    rcases hm with rfl | rfl
    · refine ⟨v 1 one_ne_zero, rfl, ?_⟩
      show ∀ z ∈ [1 * a, 1 * b, 1 * c, 1 * d], z ≠ 0
      simp [h0, h1, h2, h3]
    · refine ⟨v 2 two_ne_zero, rfl, ?_⟩
      show ∀ z ∈ [2 * a, 2 * b, 2 * c, 2 * d], z ≠ 0
      simp [h0, h1, h2, h3]
  · rw [pulseFit_models]
    exact ⟨by simp [k1], by simp [k1, k2]⟩
  · rw [pulseFit_models]
    exact ⟨by simp, by simp [m1, m2.le]⟩
  · rw [pulseFit_models]
    exact ⟨by simp [hE, pulseFit], by simp [hE, pulseFit]⟩
  · refine ⟨by rw [pulseFit_models]; simp, fun m hm hne => ?_⟩
    rw [pulseFit_models] at hm
    simp only [List.mem_cons, List.not_mem_nil, or_false] at hm
    rcases hm with rfl | rfl
    · exact absurd rfl hne
    · show -E.misfit (2, 1.8) < -E.misfit (1, 1.8)
      rw [m1]; linarith
  · refine ⟨by rw [pulseFit_models]; simp, fun m hm hne => ?_⟩
    rw [pulseFit_models] at hm
    simp only [List.mem_cons, List.not_mem_nil, or_false] at hm
    rcases hm with rfl | rfl
    · exact absurd rfl hne
    · rw [ExactFit.goodness, ExactFit.goodness, k1, m1, div_self m2.ne']
      show 0.4 * (E.corr (2, 1.8) / 1) + 0.4 * (1 - 1) + 0.2 * (1 / 1) < 0.4 * (1 / 1) + 0.4 * (1 - 0 / E.misfit (2, 1.8)) + 0.2 * (1 / 1)
      rw [zero_div]
      linarith

/-- The fit of two noisy recordings whose average is fitted best by the first model reports the first model: by its misfit
and as the best overall. -/
example {b c : ℝ} (hb : 0 < b) (hc : 0 < c) : ∃ x y s M,
    (RFMethod.iterative 400 0.001 "P").Gives 1 0 2 (spikes b) x ∧ (RFMethod.iterative 400 0.001 "P").Gives 1 0 2 (spikes c) y ∧
    AverageWithin 0 [x, y] s ∧
    ∃ G > 0, ∃ δ > 0, ∀ ε, 0 < ε → ε ≤ δ → ∀ (p : ℕ) (R : Rounding), Nearest R p → R.u ≤ ε →
    ∀ (env : WEnv (FL R)) (es' : List (Recording × Trace (FL R)))
      (preonset HSed VpSed VpCrust rayp gaussian wc wr wp : FL R) (KMoho HMoho : List (FL R)) (tr0 : Trace (FL R))
      (sd : List (FL R)) (res : WResult (FL R)),
    RecordedData (.iterative 400 0.001 "P") 0 2 1 ε (pulseFit s) [(spikes b, spikeTrace x), (spikes c, spikeTrace y)] env es' sd →
    FitCall (pulseFit s) ε p env (es'.map Prod.snd) preonset HSed VpSed VpCrust rayp gaussian wc wr wp KMoho HMoho tr0 sd.length →
    WaveformFitting env (es'.map Prod.snd) preonset HSed VpSed VpCrust rayp KMoho HMoho gaussian wc wr wp = .ok res →
    RowsWithin (pulseFit s) 1 M 1 (G * ε) res.WaveformSolutions ∧
    (res.printed.rmse.h.val, res.printed.rmse.k.val) = (1, 1.8) ∧ (res.printed.gof.h.val, res.printed.gof.k.val) = (1, 1.8) := by
  obtain ⟨x0, x1, x2, x3, gx, cx, e0, e1, e2, e3⟩ := spikes_pulse hb
  obtain ⟨y0, y1, y2, y3, gy, cy, f0, f1, f2, f3⟩ := spikes_pulse hc
  obtain ⟨n0, n1, n2, n3⟩ := pulse_signed
  obtain ⟨p1, -, -⟩ := pulse_four (dt := 1) (a := 2)
  have hbc : 0 < (b + c) / 2 := by positivity
  obtain ⟨M, hE, hR, hG⟩ := pulseFit_regular (a := (b + c) / 2 * gaussPulse 1 4 2 0) (b := (b + c) / 2 * gaussPulse 1 4 2 1)
    (c := (b + c) / 2 * gaussPulse 1 4 2 2) (d := (b + c) / 2 * gaussPulse 1 4 2 3) (mul_ne_zero hbc.ne' n0)
    (mul_ne_zero hbc.ne' n1) (mul_ne_zero hbc.ne' n2) (mul_ne_zero hbc.ne' n3) (mul_lt_mul_of_pos_left p1 hbc)
  have havg : AverageWithin 0 [[x0, x1, x2, x3], [y0, y1, y2, y3]] [(b + c) / 2 * gaussPulse 1 4 2 0,
      (b + c) / 2 * gaussPulse 1 4 2 1, (b + c) / 2 * gaussPulse 1 4 2 2, (b + c) / 2 * gaussPulse 1 4 2 3] := by
    refine ⟨by simp, by simp, fun i hi => ?_⟩
    simp only [List.length_cons, List.length_nil] at hi
    interval_cases i <;> simp [e0, e1, e2, e3, f0, f1, f2, f3] <;> ring
  obtain ⟨G, hG0, δ, hδ, g⟩ := c145_waveform (M := .iterative 400 0.001 "P") (pre := 0) (a := 2) (C0 := 1) (c := 1)
    (es := [(spikes b, spikeTrace [x0, x1, x2, x3]), (spikes c, spikeTrace [y0, y1, y2, y3])]) hE one_pos zero_le_one
    (by
      intro q hq
      simp only [List.mem_cons, List.not_mem_nil, or_false] at hq
      rcases hq with rfl | rfl
      · exact ⟨gx, cx⟩
      · exact ⟨gy, cy⟩) havg
  refine ⟨_, _, _, M, gx, gy, havg, G, hG0, δ, hδ, fun ε he hed p R hN hu env es' preonset HSed VpSed VpCrust rayp gaussian wc wr wp
    KMoho HMoho tr0 sd res h1 h2 h3 => ?_⟩
  obtain ⟨-, r2, r3⟩ := g ε he hed p R hN hu env es' preonset HSed VpSed VpCrust rayp gaussian wc wr wp KMoho HMoho tr0 sd res h1
    (by rw [one_mul]; exact h2) h3
  exact ⟨r2, r3.1 _ hR, r3.2.2.2 _ hG⟩

/-- an environment of the example: the stack `s`, synthetics that are multiples of it -/
noncomputable def pulseEnv (R : Rounding) (s : List ℝ) : WEnv (FL R) where
  stackR := fun _ => .ok [s.map (fun z : ℝ => ⟨z⟩)]
  synthRF := fun args => .ok (s.map (fun z : ℝ => ⟨(args.depth.getD 1 ⟨0⟩).val * z⟩))
  pg := fun _ _ _ => .ok ⟨1⟩

/-- the trace of an event, in arithmetic `R` -/
noncomputable def spikeTraceFL (R : Rounding) (x : List ℝ) : Trace (FL R) where
  station := "STA"
  channel := "HHR"
  data := x.map (fun z : ℝ => ⟨z⟩)
  delta := ⟨1⟩
  starttime := ⟨0⟩
  backAzimuth := none
  distance := none
  onset := some ⟨0⟩
  slowness := some ⟨.py, ⟨0.06⟩⟩

theorem map_val_mk {R : Rounding} (x : List ℝ) : (x.map (fun z : ℝ => (⟨z⟩ : FL R))).map FL.val = x := by
  rw [List.map_map]
  exact List.map_id _

/-- There are calls that meet the conditions, in every binary arithmetic of at least 4 digits. -/
example {b c ε : ℝ} (hb : 0 < b) (hc : 0 < c) (hε : 0 < ε) : ∃ x y s, ∀ p : ℕ, 4 ≤ p → ∃ (env : WEnv (FL (Rounding.binary p)))
    (es' : List (Recording × Trace (FL (Rounding.binary p)))) (tr0 : Trace (FL (Rounding.binary p)))
    (sd : List (FL (Rounding.binary p))) (res : WResult (FL (Rounding.binary p))),
    RecordedData (.iterative 400 0.001 "P") 0 2 1 ε (pulseFit s) [(spikes b, spikeTrace x), (spikes c, spikeTrace y)] env es' sd ∧
    FitCall (pulseFit s) ε p env (es'.map Prod.snd) ⟨0⟩ ⟨1⟩ ⟨2⟩ ⟨6⟩ ⟨0⟩ ⟨1⟩ ⟨0.4⟩ ⟨0.4⟩ ⟨0.2⟩ [⟨1.8⟩] [⟨1⟩, ⟨2⟩] tr0 sd.length ∧
    WaveformFitting env (es'.map Prod.snd) ⟨0⟩ ⟨1⟩ ⟨2⟩ ⟨6⟩ ⟨0⟩ [⟨1.8⟩] [⟨1⟩, ⟨2⟩] ⟨1⟩ ⟨0.4⟩ ⟨0.4⟩ ⟨0.2⟩ = .ok res := by
  obtain ⟨x0, x1, x2, x3, gx, cx, e0, e1, e2, e3⟩ := spikes_pulse hb
  obtain ⟨y0, y1, y2, y3, gy, cy, f0, f1, f2, f3⟩ := spikes_pulse hc
  have self : ∀ x : List ℝ, SamplesWithin ε x x := fun x => List.forall₂_same.2 fun z _ => by simpa using hε
  set s : List ℝ := [(x0 + y0) / 2, (x1 + y1) / 2, (x2 + y2) / 2, (x3 + y3) / 2] with hs
  refine ⟨[x0, x1, x2, x3], [y0, y1, y2, y3], s, fun p hp => ?_⟩
  have h4 : (2 : ℕ) ^ 4 ≤ 2 ^ p := Nat.pow_le_pow_right (by norm_num) hp
  set tx := spikeTraceFL (Rounding.binary p) [x0, x1, x2, x3] with htx
  set ty := spikeTraceFL (Rounding.binary p) [y0, y1, y2, y3] with hty
  set sd : List (FL (Rounding.binary p)) := s.map (fun z : ℝ => ⟨z⟩) with hsd
  have rate : SamplesPerSecond p tx.delta.val 1 := by
    refine ⟨by norm_num, ?_, ?_⟩ <;> show _ <;> simp [tx, spikeTraceFL]
  have hbig : (0 + 25) * 1 < 2 ^ (p + 1) := by rw [pow_succ]; omega
  have hlen : tx.data.length = 4 := by simp [tx, spikeTraceFL]
  have hsl : sd.length = 4 := by simp [sd, s]
  obtain ⟨res, hres⟩ := c122_succeeds (R := Rounding.binary p) (env := pulseEnv _ s) (rfs := [tx, ty]) (preonset := ⟨0⟩)
    (HSed := ⟨1⟩) (VpSed := ⟨2⟩) (VpCrust := ⟨6⟩) (rayp := ⟨0⟩) (KMoho := [⟨1.8⟩]) (HMoho := [⟨1⟩, ⟨2⟩]) (gaussian := ⟨1⟩)
    (N := 0) (f := 1) (p := p) (tr0 := tx) (sd := sd) (S := [sd]) ⟨0.4⟩ ⟨0.4⟩ ⟨0.2⟩
    (Proofs.binary_nearest p) rfl rate (by simp) (by rw [hlen]; omega) hbig (by rw [hlen]; norm_num) rfl rfl (by rw [hsl, hlen])
    (fun _ => ⟨_, rfl, by simp [sd]⟩) (fun _ _ _ => ⟨_, rfl⟩) (by simp) (by simp)
  have comp : ∀ {d : ℝ} {z : List ℝ}, 0 < d → (RFMethod.iterative 400 0.001 "P").Gives 1 0 2 (spikes d) z →
      (RFMethod.iterative 400 0.001 "P").Clear 1 0 2 (spikes d) →
      (spikes d).Within ε (spikes d) ∧ SameHeader (spikeTrace z) (exactTrace (spikeTraceFL (Rounding.binary p) z)) ∧
        ∃ ε', 0 ≤ ε' ∧ ε' ≤ ε ∧ (RFMethod.iterative 400 0.001 "P").Computes ε' (spikeTrace z).delta 0 2 (spikes d)
          ((spikeTraceFL (Rounding.binary p) z).data.map FL.val) := by
    intro d z hd hg hcl
    refine ⟨⟨self _, self _⟩, ⟨rfl, rfl, rfl⟩, 0, le_rfl, hε.le, ?_⟩
    rw [spikeTraceFL, map_val_mk]
    exact c145_exact hg hcl rfl ⟨d, by simp [spikes], hd.ne'⟩ ⟨1, by simp [spikes], one_ne_zero⟩ le_rfl
  refine ⟨pulseEnv _ s, [(spikes b, tx), (spikes c, ty)], tx, sd, res, ⟨?_, ⟨[], rfl⟩, ?_⟩, ?_, hres⟩
  · exact .cons (comp hb gx cx) (.cons (comp hc gy cy) .nil)
  · rw [hsd, map_val_mk]
    simp only [List.map_cons, List.map_nil, tx, ty, spikeTraceFL]
    refine ⟨by simp, by simp [s], fun i hi => ?_⟩
    have hi : i < 4 := hi
    interval_cases i <;> simp [s, hε.le]
  · refine ⟨rfl, rate, by simp [pulseFit], by rw [hlen]; omega, hbig, ?_, rfl, rfl, ⟨rfl, rfl, rfl⟩, fun h _ k _ => ?_, ?_⟩
    · rw [hlen]; norm_num [pulseFit]
    · have : (syntheticOf (pulseEnv _ s) ⟨1⟩ ⟨2⟩ ⟨6⟩ ⟨0⟩ tx.delta ⟨0⟩ ⟨1⟩ sd.length h k).map FL.val =
          (pulseFit s).synthetic h.val k.val := by
        show (s.map (fun z : ℝ => (⟨h.val * z⟩ : FL (Rounding.binary p)))).map FL.val = s.map (h.val * ·)
        rw [List.map_map]; rfl
      rw [this]
      exact self _
    · intro h _ k _ u v w _ _ hw
      cases hw
      simpa [pulseFit] using hε.le

end Rfsed.Props
