import Verif.Props.TiesRF
import Verif.Props.WaveformSynth
import Verif.Props.WaveformNoise

/-!
# C138: the synthetics of the waveform fitting between the points of the grid
-/

namespace Rfsed.Props
open Spec Synrf PyFloat Waveform
open scoped Topology

/-- the synthetic of one model is the receiver function of the session -/
theorem runSynth_of_session {HSed VpSed VpCrust p dt preonset gaussian H K : ℝ} {n : ℕ} {bp : Bandpass}
    {f : ℝ → List ℝ → List ℝ} {o : Obj} {t : RFTr} (hn : 3 ≤ n) (hdt : dt ≠ 0)
    (hbp : ∀ d x, bp fitBand d x = .ok (f d x))
    (ho : init [HSed, H, 77.5] (alphas (gridLayers HSed VpSed VpCrust H K)) (betas (gridLayers HSed VpSed VpCrust H K))
      (rhos (gridLayers HSed VpSed VpCrust H K)) (.float p) dt n 1 = .ok o)
    (h : (run_deconvolution bp (after bp (run_fwd o).1 [Call.filter fitBand]) (some [0.05, 1.25]) |preonset| gaussian
      none {}).2 = .ok [t]) :
    runSynth bp (modelOf HSed VpSed VpCrust p dt preonset gaussian n H K) = .ok t := by
  set ls := gridLayers HSed VpSed VpCrust H K with hls
  have hne : ls ≠ [] := by simp [hls, gridLayers]
  have hth : thicknesses [HSed, H, 77.5] = hs ls := by
    simp [thicknesses, List.range_succ, hls, gridLayers, hs]
  obtain ⟨r', hr', ho'⟩ := init_ok.1 ho
  cases hr'
  have hrun : (run_fwd o).2 = .ok () := by
    have hfwd : ∀ q, ∃ u, fwd_seis q o.dt o.npts o.ipha o.vp o.vs o.rho o.thickness = .ok u := by
      intro q
      rw [ho']
      simp only
      rw [hth]
      refine (fwd_seis_outcome (p := q)).2.2.2.2 (by omega) hdt ?_
      simp [Complete, alphas, betas, rhos, hs, hne]
    choose u hu using hfwd
    have := (fwdLoop_ok (o := o) (ps := o.rayp) (acc := ([], []))).2 ⟨o.rayp.map u,
      List.forall₂_map_right_iff.2 (List.forall₂_same.2 (fun q _ => hu q)), rfl⟩
    unfold run_fwd
    simp only []
    rw [this]
  obtain ⟨rs, zs, hst, -⟩ := c51_one_trace_per_slowness (o := o) (o' := (run_fwd o).1)
    (by rw [← hrun])
  have hfil := filter_passed (bp := bp) (f := fun _ => f) (a := fitBand) hbp hst
  have e : after bp (run_fwd o).1 [Call.filter fitBand] = (Synrf.filter bp (run_fwd o).1 fitBand).1 := by
    simp [after, call]
  rw [e] at h
  have ho2 : init (modelOf HSed VpSed VpCrust p dt preonset gaussian n H K).depth
      (modelOf HSed VpSed VpCrust p dt preonset gaussian n H K).vp
      (modelOf HSed VpSed VpCrust p dt preonset gaussian n H K).vs
      (modelOf HSed VpSed VpCrust p dt preonset gaussian n H K).rho (.float p) dt n 1 = .ok o := ho
  have h1' : (run_deconvolution bp (Synrf.filter bp (run_fwd o).1
      { freqmin := 0.05, freqmax := 1.25, order := 2, zerophase := true }).1 (some [0.05, 1.25])
      (modelOf HSed VpSed VpCrust p dt preonset gaussian n H K).preonset
      (modelOf HSed VpSed VpCrust p dt preonset gaussian n H K).gaussian none {}).2 = .ok [t] := h
  have hf2 : (Synrf.filter bp (run_fwd o).1
      { freqmin := 0.05, freqmax := 1.25, order := 2, zerophase := true }).2 = .ok () := by
    have := congrArg Prod.snd hfil
    exact this
  unfold runSynth
  show (init _ _ _ _ (.float p) dt n 1 >>= _) = _
  rw [ho2, except_ok_bind]
  simp only []
  rw [hrun, except_ok_bind, hf2, except_ok_bind, h1', except_ok_bind]
  rfl

/-- a function that can be differentiated changes at most in proportion, nearby -/
theorem proportional_near {X : Type} [NormedAddCommGroup X] [NormedSpace ℝ X] {F : X → ℝ} {x0 : X}
    (h : DifferentiableAt ℝ F x0) :
    ∃ c > 0, ∃ d > 0, ∀ x, ‖x - x0‖ < d → |F x - F x0| ≤ c * ‖x - x0‖ := by
  obtain ⟨c, hc, e⟩ := bigO_bound h
  obtain ⟨d, hd, hb⟩ := Metric.eventually_nhds_iff.1 e
  exact ⟨c, hc, d, hd, fun x hx => hb (by rwa [dist_eq_norm])⟩

theorem vsPoly_diff (v : ℝ) : DifferentiableAt ℝ vsPoly v := by
  unfold vsPoly; fun_prop

theorem rhoPoly_diff (v : ℝ) : DifferentiableAt ℝ rhoPoly v := by
  unfold rhoPoly; fun_prop

section
variable {HSed VpSed VpCrust p dt preonset gaussian H K : ℝ} {n : ℕ} {bp : Bandpass} {f : ℝ → List ℝ → List ℝ}

/-- **C138** The synthetic the waveform fitting compares the data with, away from ties of the deconvolution: the change of
every sample is at most a fixed multiple of the largest change of sediment thickness, velocities, slowness, Moho depth and
Vp/Vs. -/
theorem c138_synthetic (hK : K ≠ 0) (hprop : ∀ l ∈ gridLayers HSed VpSed VpCrust H K, l.Propagating p) (hn : 3 ≤ n)
    (hdt : dt ≠ 0) (hbp : ∀ d x, bp fitBand d x = .ok (f d x)) (hf : ProportionalFilter (f dt))
    (hcos : Real.cos (2 * Real.pi * (pyInt (|preonset| / dt) : ℝ) / nextPow2 n) ≠ 0)
    (hrun : ∀ u z, fwd_seis p dt n 1 (alphas (gridLayers HSed VpSed VpCrust H K))
        (betas (gridLayers HSed VpSed VpCrust H K)) (rhos (gridLayers HSed VpSed VpCrust H K))
        (hs (gridLayers HSed VpSed VpCrust H K)) = .ok (.num u, .num z) →
      let N := nextPow2 n
      ∃ k ≤ 400, ∃ P, SteadyRun N dt (lowpass N dt gaussian (f dt (f dt u))) (lowpass N dt gaussian (f dt (f dt z))) "P"
        0.001 400 k P) :
    ∃ t x, runSynth bp (modelOf HSed VpSed VpCrust p dt preonset gaussian n H K) = .ok t ∧ t.data = some x ∧
      ∃ C > 0, ∃ δ₀ > 0, ∀ δ, 0 < δ → δ ≤ δ₀ → ∀ HSed' VpSed' VpCrust' p' H' K' : ℝ,
        |HSed' - HSed| < δ → |VpSed' - VpSed| < δ → |VpCrust' - VpCrust| < δ → |p' - p| < δ → |H' - H| < δ →
        |K' - K| < δ →
        ∃ t' x', runSynth bp (modelOf HSed' VpSed' VpCrust' p' dt preonset gaussian n H' K') = .ok t' ∧
          t'.data = some x' ∧ t'.iter = t.iter ∧ SamplesWithin (C * δ) x x' := by
  have hth : ∀ a b c d e : ℝ, thicknesses [a, d, 77.5] = hs (gridLayers a b c d e) := by
    intro a b c d e
    simp [thicknesses, List.range_succ, gridLayers, hs]
  have hpass : (Call.deconv (some [0.05, 1.25]) |preonset| gaussian none {}).pass = some fitBand := rfl
  have hband : ∀ c ∈ [Call.filter fitBand] ++ [Call.deconv (some [0.05, 1.25]) |preonset| gaussian none {}],
      ∀ a, c.pass = some a → a = fitBand := by
    intro c hc a ha
    simp only [List.cons_append, List.nil_append, List.mem_cons, List.not_mem_nil, or_false] at hc
    rcases hc with rfl | rfl
    · exact (Option.some.inj ha).symm
    · rw [hpass] at ha; exact (Option.some.inj ha).symm
  have hpasses : ([Call.filter fitBand] ++ [Call.deconv (some [0.05, 1.25]) |preonset| gaussian none {}]).filterMap
      Call.pass = [fitBand, fitBand] := rfl
  obtain ⟨rfs, h1, h2, C, hC, δ1, hδ1, hball⟩ := c137_receiver_functions (calls := [Call.filter fitBand])
    (pf := some [0.05, 1.25]) (pre := |preonset|) (g := gaussian) (bp := bp) (f := fun _ => f) (r := [p]) (meth := none)
    (kw := {}) (dt := dt) (npts := n) (ipha := 1) (depth := [HSed, H, 77.5])
    (ls := gridLayers HSed VpSed VpCrust H K) (rayp := .float p)
    (toLower_eq (by decide)) hn hdt (by simp [gridLayers])
    (by intro q hq; rw [List.mem_singleton.1 hq]; exact hprop) (hth _ _ _ _ _) rfl rfl
    (by simp [Call.isFwd]) (Or.inr (by rw [hpass]; simp))
    (fun c hc a ha d x => by rw [hband c hc a ha]; exact hbp d x) ⟨rfl, rfl⟩ (Or.inl rfl) (by norm_num) hcos
    (fun _ _ _ _ => hf)
    (by
      intro q hq u z huz
      rw [List.mem_singleton.1 hq] at huz
      rw [hpasses]
      exact hrun u z huz)
  obtain ⟨t, rfl⟩ := List.length_eq_one_iff.1 h2
  have hrs := runSynth_of_session hn hdt hbp rfl h1
  -- the data of the unperturbed synthetic
  obtain ⟨x, hx⟩ : ∃ x, t.data = some x := by
    obtain ⟨rfs', -, hrel⟩ := hball δ1 hδ1 le_rfl [HSed, H, 77.5] _ _ _ [p] (.float p) _
      (List.forall₂_same.2 (fun a _ => by simpa using hδ1)) (List.forall₂_same.2 (fun a _ => by simpa using hδ1))
      (List.forall₂_same.2 (fun a _ => by simpa using hδ1)) (List.forall₂_same.2 (fun a _ => by simpa using hδ1)) rfl
      (List.forall₂_same.2 (fun a _ => by simpa using hδ1)) rfl
    cases hrel with
    | cons hh _ => obtain ⟨-, x, -, hx, -⟩ := hh; exact ⟨x, hx⟩
  obtain ⟨c1, hc1, d1, hd1, l1⟩ := proportional_near (vsPoly_diff VpSed)
  obtain ⟨c2, hc2, d2, hd2, l2⟩ := proportional_near (rhoPoly_diff VpSed)
  obtain ⟨c3, hc3, d3, hd3, l3⟩ := proportional_near (rhoPoly_diff VpCrust)
  obtain ⟨c4, hc4, d4, hd4, l4⟩ := proportional_near (F := fun v : ℝ × ℝ => v.1 / v.2) (x0 := (VpCrust, K))
    (by
      simp only [div_eq_mul_inv]
      exact DifferentiableAt.fun_mul differentiableAt_fst (DifferentiableAt.fun_inv differentiableAt_snd hK))
  set M := 1 + c1 + c2 + c3 + c4 with hM
  have hM1 : 1 ≤ M := by linarith
  have hM0 : 0 < M := by linarith
  refine ⟨t, x, hrs, hx, C * M, by positivity, min (δ1 / M) (min d1 (min d2 (min d3 d4))), by positivity, ?_⟩
  intro δ hδ hle HSed' VpSed' VpCrust' p' H' K' q1 q2 q3 q4 q5 q6
  have b0 : M * δ ≤ δ1 := by
    have := hle.trans (min_le_left _ _)
    rw [le_div_iff₀ hM0] at this
    linarith
  have b1 := lt_of_lt_of_le q2 (hle.trans ((min_le_right _ _).trans (min_le_left _ _)))
  have b2 := lt_of_lt_of_le q2 (hle.trans ((min_le_right _ _).trans ((min_le_right _ _).trans (min_le_left _ _))))
  have b3 := lt_of_lt_of_le q3 (hle.trans ((min_le_right _ _).trans ((min_le_right _ _).trans
    ((min_le_right _ _).trans (min_le_left _ _)))))
  have b4' : ‖((VpCrust', K') : ℝ × ℝ) - (VpCrust, K)‖ < δ := by
    rw [Prod.norm_def]
    exact max_lt q3 q6
  have b4 := lt_of_lt_of_le b4' (hle.trans ((min_le_right _ _).trans ((min_le_right _ _).trans
    ((min_le_right _ _).trans (min_le_right _ _)))))
  have hmul : ∀ c > 0, c + 1 ≤ M → ∀ y d : ℝ, d < δ → y ≤ c * d → y < M * δ := by
    intro c hc hcM y d hd hy
    nlinarith
  have k0 : ∀ y : ℝ, y < δ → y < M * δ := fun y hy => by nlinarith
  have k1 : |vsPoly VpSed' - vsPoly VpSed| < M * δ := hmul c1 hc1 (by linarith) _ _ q2 (l1 _ b1)
  have k2 : |rhoPoly VpSed' - rhoPoly VpSed| < M * δ := hmul c2 hc2 (by linarith) _ _ q2 (l2 _ b2)
  have k3 : |rhoPoly VpCrust' - rhoPoly VpCrust| < M * δ := hmul c3 hc3 (by linarith) _ _ q3 (l3 _ b3)
  have k4 : |VpCrust' / K' - VpCrust / K| < M * δ := hmul c4 hc4 (by linarith) _ _ b4' (l4 _ b4)
  have kz : ∀ a : ℝ, |a - a| < M * δ := fun a => by rw [sub_self, abs_zero]; positivity
  obtain ⟨rfs', g1, g2⟩ := hball (M * δ) (by positivity) b0 [HSed', H', 77.5]
    (alphas (gridLayers HSed' VpSed' VpCrust' H' K')) (betas (gridLayers HSed' VpSed' VpCrust' H' K'))
    (rhos (gridLayers HSed' VpSed' VpCrust' H' K')) [p'] (.float p') _
    (.cons (k0 _ q1) (.cons (k0 _ q5) (.cons (kz _) .nil)))
    (.cons (k0 _ q2) (.cons (k0 _ q3) (.cons (kz _) .nil)))
    (.cons k1 (.cons k4 (.cons (kz _) .nil)))
    (.cons k2 (.cons k3 (.cons (kz _) .nil))) rfl (.cons (k0 _ q4) .nil) rfl
  cases g2 with
  | @cons _ t' _ _ hh hnil =>
    cases hnil
    obtain ⟨hit, y, x', hy, hx', hxx⟩ := hh
    rw [hx] at hy
    cases hy
    exact ⟨t', x', runSynth_of_session hn hdt hbp rfl g1, hx', hit, by rw [mul_assoc]; exact hxx⟩

end

/-! ## the fit -/

theorem window_within {d pre ε : ℝ} {x y : List ℝ} (h : SamplesWithin ε x y) :
    SamplesWithin ε (window d pre x) (window d pre y) := by
  have key : ∀ (Q : ℕ → Bool) (x y : List ℝ), SamplesWithin ε x y → ∀ k,
      SamplesWithin ε (((x.zipIdx k).filter (fun q : ℝ × ℕ => Q q.2)).map Prod.fst)
        (((y.zipIdx k).filter (fun q : ℝ × ℕ => Q q.2)).map Prod.fst) := by
    intro Q x y h
    induction h with
    | nil => intro k; exact .nil
    | cons hab _ ih =>
      intro k
      simp only [List.zipIdx_cons, List.filter_cons]
      cases Q k with
      | true => simp only [if_true, List.map_cons]; exact .cons hab (ih (k + 1))
      | false => exact ih (k + 1)
  exact key (fun i => @decide (0 ≤ d * (i : ℝ) - pre ∧ d * (i : ℝ) - pre ≤ 25 - d) (Classical.propDecidable _)) x y h 0

theorem rms_within {ε : ℝ} {x y : List ℝ} (hε : 0 < ε) (h : SamplesWithin ε x y) : rms x y ≤ ε := by
  rw [rms]
  refine Real.sqrt_le_iff.2 ⟨hε.le, ?_⟩
  by_cases hx : x = []
  · subst hx; simp; positivity
  have hl : (0 : ℝ) < x.length := by exact_mod_cast List.length_pos_of_ne_nil hx
  rw [div_le_iff₀ hl]
  clear hx hl
  induction h with
  | nil => simp
  | @cons a b x y hab _ ih =>
    rw [List.zipWith_cons_cons, List.sum_cons, List.length_cons]
    push_cast
    have : (a - b) ^ 2 ≤ ε ^ 2 := by
      rw [← sq_abs (a - b), abs_sub_comm]
      exact pow_le_pow_left₀ (abs_nonneg _) hab.le 2
    linarith

theorem stdDev_near {x y : List ℝ} (h : y.length = x.length) (hx : x ≠ []) : |stdDev y - stdDev x| ≤ rms x y := by
  have hy : y ≠ [] := by rw [← List.length_pos_iff, h]; exact List.length_pos_of_ne_nil hx
  have hl : (0 : ℝ) < x.length := by exact_mod_cast List.length_pos_of_ne_nil hx
  have h1 := (abs_norm_diff h).trans (diff_size h)
  rw [size_std hx, size_std hy, h, ← mul_sub, abs_mul, abs_of_nonneg (Real.sqrt_nonneg _)] at h1
  exact le_of_mul_le_mul_left h1 (Real.sqrt_pos.2 hl)

theorem constant_stdDev {x : List ℝ} (h : Constant x) : stdDev x = 0 := by
  by_cases hx : x = []
  · subst hx; simp [stdDev]
  obtain ⟨a, ha⟩ := List.exists_mem_of_ne_nil x hx
  have hr : x = List.replicate x.length a := List.eq_replicate_iff.2 ⟨rfl, fun b hb => h b hb a ha⟩
  have hl : (x.length : ℝ) ≠ 0 := by
    have := List.length_pos_of_ne_nil hx
    positivity
  rw [stdDev_eq, comoment, mean]
  have hm : x.sum / x.length = a := by
    rw [hr]
    simp only [List.sum_replicate, List.length_replicate, nsmul_eq_mul]
    field_simp
  rw [hm, hr]
  simp

section
variable {env : WEnv ℝ} {HSed VpSed VpCrust p dt preonset gaussian H K : ℝ} {n : ℕ} {bp : Bandpass}
  {f : ℝ → List ℝ → List ℝ}

/-- one run of the fitting on data near the synthetic of some model -/
theorem fit_near {rfs : List (Trace ℝ)} {tr0 : Trace ℝ} {HSed' VpSed' VpCrust' p' wc wr wp H' K' : ℝ}
    {KMoho HMoho : List ℝ} {R : WResult ℝ} {S : List (List ℝ)} {sd x x' : List ℝ} {ε : ℝ}
    (h0 : rfs[0]? = some tr0) (hd : 0 < tr0.delta)
    (h : WaveformFitting env rfs preonset HSed' VpSed' VpCrust' p' KMoho HMoho gaussian wc wr wp = .ok R)
    (hS : env.stackR rfs = .ok S) (hsd : S[0]? = some sd) (hH : H' ∈ HMoho) (hK : K' ∈ KMoho)
    (hw : window tr0.delta preonset sd = window tr0.delta preonset x)
    (hsyn : env.synthRF (modelOf HSed' VpSed' VpCrust' p' tr0.delta preonset gaussian sd.length H' K') = .ok x')
    (hε : 0 < ε) (hxx : SamplesWithin ε x x') :
    R.printed.rmse.rmse ≤ ε ∧
    (∃ syn, env.synthRF (modelOf HSed' VpSed' VpCrust' p' tr0.delta preonset gaussian sd.length R.printed.rmse.h
        R.printed.rmse.k) = .ok syn ∧
      rms (window tr0.delta preonset x) (window tr0.delta preonset syn) ≤ ε) ∧
    (2 * ε ≤ stdDev (window tr0.delta preonset x) → 1 - (ε / stdDev (window tr0.delta preonset x)) ^ 2 ≤
      R.printed.corr.corr) := by
  have hwin := window_within (d := tr0.delta) (pre := preonset) hxx
  have hrms := rms_within hε hwin
  obtain ⟨g1, -, -, g4⟩ := c114_truth h0 hd h hS hsd hH hK hsyn rfl
  rw [hw] at g1 g4
  have hbest := g1.trans hrms
  refine ⟨hbest, ?_, fun hσ => ?_⟩
  · obtain ⟨-, ⟨r1, -⟩, -⟩ := best_rows (produced_of h)
    obtain ⟨S', sd', e1, e2, hcrit⟩ := c36_serial_window h0 hd h
    rw [hS] at e1; cases Except.ok.inj e1
    rw [hsd] at e2; cases e2
    obtain ⟨y, hy, -, -, q3, -⟩ := hcrit _ r1
    refine ⟨y, hy, ?_⟩
    rw [← hw, ← q3]
    exact hbest
  · set X := window tr0.delta preonset x
    set Y := window tr0.delta preonset x'
    have hσ0 : 0 < stdDev X := by linarith
    have hX : ¬ Constant X := fun hc => by rw [constant_stdDev hc] at hσ0; exact lt_irrefl _ hσ0
    have hσ' : stdDev X / 2 ≤ stdDev Y := by
      have := (abs_le.1 ((stdDev_near hwin.length_eq.symm (ne_nil_of_not_constant hX)).trans hrms)).1
      linarith
    have hY : ¬ Constant Y := fun hc => by rw [constant_stdDev hc] at hσ'; linarith
    refine le_trans ?_ (g4 hX hY)
    have h1 : rms X Y ^ 2 ≤ ε ^ 2 := pow_le_pow_left₀ (rms_nonneg _ _) hrms 2
    have h2 : rms X Y ^ 2 / (2 * stdDev X * stdDev Y) ≤ (ε / stdDev X) ^ 2 := by
      rw [div_pow]
      refine div_le_div₀ (sq_nonneg _) h1 (by positivity) ?_
      nlinarith
    linarith

/-- **C138** A true model between the points of the grid. The data are, over the window, the synthetic of a model for which
the deconvolution makes its decisions clearly; the run uses sediment, crustal velocity and slowness within `δ` of the true
ones, and so is some point of the grid. Then the best misfit is at most `C δ`, the synthetic of the model found fits the
data to `C δ`, and, unless the data are constant, the best correlation is at least `1 - C δ²`. -/
theorem c138_off_grid (hK : K ≠ 0) (hprop : ∀ l ∈ gridLayers HSed VpSed VpCrust H K, l.Propagating p) (hn : 3 ≤ n)
    (hdt : 0 < dt) (hbp : ∀ d x, bp fitBand d x = .ok (f d x)) (hf : ProportionalFilter (f dt))
    (hcos : Real.cos (2 * Real.pi * (pyInt (|preonset| / dt) : ℝ) / nextPow2 n) ≠ 0)
    (hrun : ∀ u z, fwd_seis p dt n 1 (alphas (gridLayers HSed VpSed VpCrust H K))
        (betas (gridLayers HSed VpSed VpCrust H K)) (rhos (gridLayers HSed VpSed VpCrust H K))
        (hs (gridLayers HSed VpSed VpCrust H K)) = .ok (.num u, .num z) →
      let N := nextPow2 n
      ∃ k ≤ 400, ∃ P, SteadyRun N dt (lowpass N dt gaussian (f dt (f dt u))) (lowpass N dt gaussian (f dt (f dt z))) "P"
        0.001 400 k P)
    (henv : ∀ a t x, runSynth bp a = .ok t → t.data = some x → env.synthRF a = .ok x) :
    ∃ x, env.synthRF (modelOf HSed VpSed VpCrust p dt preonset gaussian n H K) = .ok x ∧
      ∃ C > 0, ∃ δ₀ > 0, ∀ δ, 0 < δ → δ ≤ δ₀ → ∀ HSed' VpSed' VpCrust' p' H' K' : ℝ,
        |HSed' - HSed| < δ → |VpSed' - VpSed| < δ → |VpCrust' - VpCrust| < δ → |p' - p| < δ → |H' - H| < δ →
        |K' - K| < δ →
        ∀ rfs tr0 KMoho HMoho S sd, rfs[0]? = some tr0 → tr0.delta = dt → env.stackR rfs = .ok S → S[0]? = some sd →
        sd.length = n → window dt preonset sd = window dt preonset x → H' ∈ HMoho → K' ∈ KMoho →
        (∀ wc wr wp R, WaveformFitting env rfs preonset HSed' VpSed' VpCrust' p' KMoho HMoho gaussian wc wr wp = .ok R →
          R.printed.rmse.rmse ≤ C * δ ∧
          (∃ syn, env.synthRF (modelOf HSed' VpSed' VpCrust' p' dt preonset gaussian n R.printed.rmse.h
              R.printed.rmse.k) = .ok syn ∧ rms (window dt preonset x) (window dt preonset syn) ≤ C * δ) ∧
          (¬ Constant (window dt preonset sd) → 1 - C * δ ^ 2 ≤ R.printed.corr.corr)) ∧
        (∀ P nproc res wc wr wp savepath format sols best figs, 0 < nproc →
          WaveformPara env rfs preonset HSed' VpSed' VpCrust' p' KMoho HMoho gaussian = .ok P →
          RunWaveformfitting env nproc HMoho P (.ok (res.map some)) →
          plotbestmodel env res P (some wc) (some wr) (some wp) savepath format = .ok (sols, best, figs) →
          best.rmse.rmse ≤ C * δ ∧ (¬ Constant (window dt preonset sd) → 1 - C * δ ^ 2 ≤ best.corr.corr)) := by
  obtain ⟨t, x, ht, hx, C, hC, δ₀, hδ₀, hnear⟩ := c138_synthetic (preonset := preonset) hK hprop hn hdt.ne' hbp hf hcos hrun
  obtain ⟨σ, hσ⟩ : ∃ σ, σ = stdDev (window dt preonset x) := ⟨_, rfl⟩
  obtain ⟨δ2, hδ2, hδ2'⟩ : ∃ δ2 > 0, 0 < σ → 2 * (C * δ2) ≤ σ := by
    by_cases h : 0 < σ
    · refine ⟨σ / (2 * C), by positivity, fun _ => le_of_eq ?_⟩
      field_simp
    · exact ⟨1, one_pos, fun h' => absurd h' h⟩
  refine ⟨x, henv _ t x ht hx, C + (C / σ) ^ 2, by positivity, min δ₀ δ2, lt_min hδ₀ hδ2, ?_⟩
  intro δ hδ hle HSed' VpSed' VpCrust' p' H' K' q1 q2 q3 q4 q5 q6 rfs tr0 KMoho HMoho S sd h0 hdl hS hsd hl hw hH hK'
  obtain ⟨t', x', ht', hx', -, hxx⟩ := hnear δ hδ (hle.trans (min_le_left _ _)) HSed' VpSed' VpCrust' p' H' K' q1 q2 q3 q4
    q5 q6
  subst hdl hl
  have hCδ : C * δ ≤ (C + (C / σ) ^ 2) * δ := by
    have := mul_nonneg (sq_nonneg (C / σ)) hδ.le
    linarith
  have main : ∀ wc wr wp R, WaveformFitting env rfs preonset HSed' VpSed' VpCrust' p' KMoho HMoho gaussian wc wr wp =
      .ok R → R.printed.rmse.rmse ≤ C * δ ∧
        (∃ syn, env.synthRF (modelOf HSed' VpSed' VpCrust' p' tr0.delta preonset gaussian sd.length R.printed.rmse.h
            R.printed.rmse.k) = .ok syn ∧ rms (window tr0.delta preonset x) (window tr0.delta preonset syn) ≤ C * δ) ∧
        (¬ Constant (window tr0.delta preonset sd) → 1 - (C + (C / σ) ^ 2) * δ ^ 2 ≤ R.printed.corr.corr) := by
    intro wc wr wp R hR
    obtain ⟨g1, g2, g3⟩ := fit_near h0 hdt hR hS hsd hH hK' hw (henv _ t' x' ht' hx') (by positivity) hxx
    refine ⟨g1, g2, fun hc => ?_⟩
    rw [hw] at hc
    rw [← hσ] at g3
    have hσ0 : 0 < σ := by rw [hσ]; exact stdDev_pos hc
    have h2 : 2 * (C * δ) ≤ σ := by
      have := mul_le_mul_of_nonneg_left (hle.trans (min_le_right _ _)) hC.le
      have := hδ2' hσ0
      linarith
    have h3 := g3 h2
    have h4 : (C * δ / σ) ^ 2 ≤ (C + (C / σ) ^ 2) * δ ^ 2 := by
      have : (C * δ / σ) ^ 2 = (C / σ) ^ 2 * δ ^ 2 := by ring
      rw [this]
      have := mul_nonneg hC.le (sq_nonneg δ)
      linarith
    linarith
  refine ⟨fun wc wr wp R hR => ?_, ?_⟩
  · obtain ⟨g1, ⟨syn, g2, g3⟩, g4⟩ := main wc wr wp R hR
    exact ⟨g1.trans hCδ, ⟨syn, g2, g3.trans hCδ⟩, g4⟩
  · intro P nproc res wc wr wp savepath format sols best figs hnp hP hres hplot
    obtain ⟨R, hR⟩ := c37_converse wc wr wp hnp (List.ne_nil_of_mem hK') (List.ne_nil_of_mem hH) hP hres
    obtain ⟨-, e1, e2, -⟩ := c37_same_best hnp hR hP hres hplot
    obtain ⟨g1, -, g4⟩ := main wc wr wp R hR
    rw [e1, e2]
    exact ⟨g1.trans hCδ, g4⟩

end

end Rfsed.Props
