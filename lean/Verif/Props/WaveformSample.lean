import Verif.Props.Waveform4

/-!
# Waveform fitting: a concrete run, used to show that the hypotheses of C36–C44, C69–C71 are met,
and the counterexample to C41
-/

namespace Rfsed.Props
open Rfsed PyFloat Spec Waveform

/-- one radial trace with three samples -/
noncomputable def wTrace : Trace ℝ where
  station := "STA"
  channel := "BHR"
  data := [0, 1, 2]
  delta := 1
  starttime := 0
  onset := some 0
  slowness := none
  backAzimuth := none
  distance := none

/-- a synthetic of the right shape but twice too large for depth 30, one of the right size but
another shape for other depths -/
noncomputable def wEnv : WEnv ℝ where
  stackR rfs := .ok (rfs.map Trace.data)
  synthRF a := .ok (@ite _ (a.depth[1]? = some 30) (Classical.propDecidable _) [0, 2, 4] [0, 1, 1])
  pg _ _ _ := .ok 1

theorem wEnv_synth (a b c d e f g : ℝ) (n : ℕ) (H K : ℝ) :
    wEnv.synthRF (modelOf a b c d e f g n H K) =
      .ok (@ite _ (H = 30) (Classical.propDecidable _) [0, 2, 4] [0, 1, 1]) := by
  by_cases h : H = 30
  · rw [if_pos h]; simp [wEnv, modelOf, h]
  · rw [if_neg h]; simp [wEnv, modelOf, h]

/-- all three samples are in the window -/
theorem wWindow (a b c : ℝ) : window 1 0 [a, b, c] = [a, b, c] := by
  unfold window
  rw [List.zipIdx_cons, List.zipIdx_cons, List.zipIdx_cons, List.zipIdx_nil]
  rw [List.filter_cons_of_pos, List.filter_cons_of_pos, List.filter_cons_of_pos]
  · rfl
  all_goals
    refine (@decide_eq_true_iff _ (Classical.propDecidable _)).2 ?_
    constructor <;> norm_num

theorem wPara : ∃ P, WaveformPara wEnv [wTrace] 0 1 2 6 (6/100) [2] [30, 40] 1 = .ok P :=
  (c36_index_error (S := [[0, 1, 2]]) (sd := [0, 1, 2]) 0 1 2 6 (6/100) 1 1 0 0 [2] [30, 40] rfl
    (show (0 : ℝ) < 1 by norm_num) (by simp [wTrace]) rfl rfl).1 ⟨0, by simp [wTrace], by simp⟩

theorem sol_pair {sols : List (Sol ℝ)} (h : sols.length = 2) {s0 s1 : Sol ℝ}
    (h0 : sols[0]? = some s0) (h1 : sols[1]? = some s1) : sols = [s0, s1] := by
  match sols, h with
  | [a, b], _ =>
    simp at h0 h1
    rw [h0, h1]

/-- The run succeeds for all weights; it finds correlation 1 and misfit √(5/3) for depth 30, a
smaller correlation and misfit √(1/3) for depth 40. -/
theorem wRun (wc wr wp : ℝ) : ∃ R s0 s1,
    WaveformFitting wEnv [wTrace] 0 1 2 6 (6/100) [2] [30, 40] 1 wc wr wp = .ok R ∧
    R.WaveformSolutions = [s0, s1] ∧ s0.h = 30 ∧ s0.k = 2 ∧ s1.h = 40 ∧ s1.k = 2 ∧
    s0.corr = 1 ∧ s0.rmse = √(5/3) ∧ s1.corr = 1 / (√2 * √(2/3)) ∧ s1.rmse = √(1/3) ∧
    s0.pg = 1 ∧ s1.pg = 1 := by
  obtain ⟨P, hP⟩ := wPara
  have hP' := hP
  rw [WaveformPara_eq] at hP'
  have hgp : ∀ p ∈ ([2] : List ℝ).flatMap (fun k => ([30, 40] : List ℝ).map (fun h => (h, k))),
      ∃ c, gridPoint wEnv P p.1 p.2 = .ok c := by
    intro p _
    obtain ⟨tr0, S, sd, z, e, h0, hS, hsd, hl, hz, hd0, he, rfl⟩ := prepare_ok hP'
    cases h0
    cases Except.ok.inj hS
    cases hsd
    obtain ⟨_, hzt⟩ := whereEq_first hz
    have he : e = truncR (25 / wTrace.delta) := by
      have := Except.ok.inj he
      rw [← this, real_ofNat]; norm_num
    have hd : (0 : ℝ) < wTrace.delta := by simp [wTrace]
    have hsyn : ∃ a b c, wEnv.synthRF (synthArgs 1 2 (vsOf 2) (rhoOf 2) 6 (rhoOf 6) (6/100)
        wTrace.delta (PyFloat.abs (wTrace.delta * ofNat 0 - 0)) 1 wTrace.data.length p.1 p.2)
        = .ok [a, b, c] := by
      by_cases h : p.1 = 30
      · exact ⟨0, 2, 4, by simp [wEnv, synthArgs, h]⟩
      · exact ⟨0, 1, 1, by simp [wEnv, synthArgs, h]⟩
    obtain ⟨a, b, c, hsyn⟩ := hsyn
    unfold gridPoint
    simp only
    rw [hsyn, except_ok_bind]
    have hw : ∀ a b c : ℝ, pySlice [a, b, c] z ((z : ℤ) + e) = [a, b, c] := by
      intro a b c
      have := slice_window hd hzt [a, b, c]
      rw [he, this]
      exact wWindow a b c
    refine criteria_total (p := 1) ?_ ?_ rfl
    · have : wTrace.data = [0, 1, 2] := rfl
      rw [this, hw, hw]; rfl
    · have : wTrace.data = [0, 1, 2] := rfl
      rw [this, hw]; simp
  obtain ⟨all, hall⟩ := mapM_ok_of_forall hgp
  have hne : all ≠ [] := by
    rintro rfl
    have := mapM_length hall
    simp at this
  obtain ⟨sols, hs⟩ := normalise_total wc wr wp hne
  have hsne : sols ≠ [] := by
    obtain ⟨_, _, _, _, _, _, rfl⟩ := normalise_ok hs
    simpa using hne
  obtain ⟨best, hb⟩ := bestModels_total hsne
  have hrun := WaveformFitting_of hP' hall hs hb
  obtain ⟨hlen, hgrid⟩ := c71_grid hrun
  obtain ⟨s0, h0, h0h, h0k⟩ := hgrid 0 0 2 30 rfl rfl
  obtain ⟨s1, h1, h1h, h1k⟩ := hgrid 0 1 2 40 rfl rfl
  obtain ⟨S, sd, hS, hsd, hcrit⟩ := c36_serial_window (tr0 := wTrace) rfl
    (show (0 : ℝ) < 1 by norm_num) hrun
  cases Except.ok.inj hS
  cases hsd
  refine ⟨_, s0, s1, hrun, sol_pair hlen h0 h1, h0h, h0k, h1h, h1k, ?_⟩
  have hx : window wTrace.delta 0 wTrace.data = [0, 1, 2] := wWindow _ _ _
  obtain ⟨y0, hy0, _, _, hr0, _, _, hc0, hp0⟩ := hcrit s0 (List.mem_of_getElem? h0)
  obtain ⟨y1, hy1, _, _, hr1, _, _, hc1, hp1⟩ := hcrit s1 (List.mem_of_getElem? h1)
  rw [wEnv_synth, h0h, if_pos rfl] at hy0
  rw [wEnv_synth, h1h, if_neg (by norm_num)] at hy1
  cases Except.ok.inj hy0
  cases Except.ok.inj hy1
  have e0 : window wTrace.delta 0 [0, 2, 4] = [0, 2, 4] := wWindow _ _ _
  have e1 : window wTrace.delta 0 [0, 1, 1] = [0, 1, 1] := wWindow _ _ _
  rw [hx, e0] at hr0 hc0
  rw [hx, e1] at hr1 hc1
  have n0 : ¬ Constant [0, 1, 2] := fun h => by have := h 0 (by simp) 1 (by simp); norm_num at this
  have n1 : ¬ Constant [0, 2, 4] := fun h => by have := h 0 (by simp) 2 (by simp); norm_num at this
  have n2 : ¬ Constant [0, 1, 1] := fun h => by have := h 0 (by simp) 1 (by simp); norm_num at this
  refine ⟨?_, ?_, ?_, ?_, (Except.ok.inj hp0).symm, (Except.ok.inj hp1).symm⟩
  · rw [hc0 n0 n1]
    have : √(2 : ℝ) * √8 = 4 := by
      rw [← Real.sqrt_mul (by norm_num), show (2 : ℝ) * 8 = 4 ^ 2 by norm_num,
        Real.sqrt_sq (by norm_num)]
    norm_num [pearson, comoment, mean]
    rw [this]; norm_num
  · rw [hr0]; norm_num [rms]
  · rw [hc1 n0 n2]
    norm_num [pearson, comoment, mean]
  · rw [hr1]; norm_num [rms]

theorem wCorr_lt : 1 / (√2 * √(2/3)) < (1 : ℝ) := by
  rw [← Real.sqrt_mul (by norm_num)]
  have h : (1 : ℝ) < √(2 * (2/3)) := by
    rw [Real.lt_sqrt (by norm_num)]; norm_num
  rw [div_lt_one (by linarith)]
  exact h

theorem wRmse_lt : √(1/3 : ℝ) < √(5/3) := Real.sqrt_lt_sqrt (by norm_num) (by norm_num)

theorem wProduced {wc wr wp : ℝ} {R : WResult ℝ}
    (h : WaveformFitting wEnv [wTrace] 0 1 2 6 (6/100) [2] [30, 40] 1 wc wr wp = .ok R) :
    Produced R.WaveformSolutions R.printed wc wr wp :=
  .inl ⟨_, _, _, _, _, _, _, _, _, _, R, h, rfl, rfl⟩

/-- all hypotheses of C38, C39 and C40 are met by the run -/
theorem wNormalisable (wc wr wp : ℝ) : ∃ R,
    WaveformFitting wEnv [wTrace] 0 1 2 6 (6/100) [2] [30, 40] 1 wc wr wp = .ok R ∧
    Produced R.WaveformSolutions R.printed wc wr wp ∧ Normalisable R.WaveformSolutions ∧
    R.printed.corr.h = 30 ∧ R.printed.rmse.h = 40 := by
  obtain ⟨R, s0, s1, hR, hs, h0, _, h1, _, c0, r0, c1, r1, p0, p1⟩ := wRun wc wr wp
  have hp := wProduced hR
  refine ⟨R, hR, hp, ⟨⟨s0, by rw [hs]; simp, by rw [c0]; norm_num⟩,
    ⟨s0, by rw [hs]; simp, by rw [r0]; exact Real.sqrt_pos.2 (by norm_num)⟩,
    ⟨s0, by rw [hs]; simp, by rw [p0]; norm_num⟩, ?_⟩, ?_, ?_⟩
  · intro s hm
    rw [hs] at hm
    rcases List.mem_cons.1 hm with rfl | hm
    · rw [r0]; exact Real.sqrt_nonneg _
    · rw [List.mem_singleton.1 hm, r1]; exact Real.sqrt_nonneg _
  · obtain ⟨_, _, hb⟩ := produced_normalised hp
    obtain ⟨i, j, k, l, a1, a2, a3, a4, a5, a6, a7, a8⟩ := bestModels_ok hb
    obtain ⟨b1, b2⟩ := argmax_real a1 a2
    have := b2 s0 (by rw [hs]; simp)
    rw [hs] at b1
    rcases List.mem_cons.1 b1 with hc | hc
    · rw [hc, h0]
    · rw [List.mem_singleton.1 hc, c0, c1] at this
      linarith [wCorr_lt]
  · obtain ⟨_, _, hb⟩ := produced_normalised hp
    obtain ⟨i, j, k, l, a1, a2, a3, a4, a5, a6, a7, a8⟩ := bestModels_ok hb
    obtain ⟨b1, b2⟩ := argmin_real a3 a4
    have := b2 s1 (by rw [hs]; simp)
    rw [hs] at b1
    rcases List.mem_cons.1 b1 with hc | hc
    · rw [hc, r0, r1] at this
      linarith [wRmse_lt]
    · rw [List.mem_singleton.1 hc, h1]

example : ∃ sols best, Produced sols best (1/2) (1/2) 0 ∧ Normalisable sols := by
  obtain ⟨R, _, h, hn, _⟩ := wNormalisable (1/2) (1/2) 0
  exact ⟨_, _, h, hn⟩

/-- **C41** (the documented behaviour is refuted): a result computed with weights (1,0,0) and
plotted with weights (0,1,0): whenever the figures are drawn, the "Overall Goodness of Fit" figure
marks the Moho at 30 km, although the overall best model for weights (0,1,0) is at 40 km. -/
theorem c41_refuted : ∃ (R R' : WResult ℝ) (figs : List (Fig ℝ)) (f : Fig ℝ),
    WaveformFitting wEnv [wTrace] 0 1 2 6 (6/100) [2] [30, 40] 1 1 0 0 = .ok R ∧
    WaveformFitting wEnv [wTrace] 0 1 2 6 (6/100) [2] [30, 40] 1 0 1 0 = .ok R' ∧
    PlotWaveformFitting wEnv R 0 1 0 "out" "pdf" = .ok figs ∧ figs[3]? = some f ∧
    f.suff = "Overall Goodness of Fit" ∧ f.bestH = 30 ∧ R'.printed.gof.h = 40 := by
  obtain ⟨R, hR, hp, hn, hc, _⟩ := wNormalisable 1 0 0
  obtain ⟨R', hR', hp', hn', _, hr'⟩ := wNormalisable 0 1 0
  have g := c39_only_corr hp hn.1
  have g' := c39_only_rmse hp' hn'.2.1
  have hfig : ∃ figs, PlotWaveformFitting wEnv R 0 1 0 "out" "pdf" = .ok figs := by
    obtain ⟨P, all, sols, best, hP, ha, hs, hb, rfl⟩ := WaveformFitting_ok hR
    unfold PlotWaveformFitting
    simp only
    have h0 : item [wTrace] 0 = .ok wTrace := rfl
    rw [h0, except_ok_bind, hb, except_ok_bind]
    refine mapM_ok_of_forall (fun p _ => ?_)
    simp only [item, List.getElem?_cons_zero, List.reverse_cons, List.reverse_nil,
      List.nil_append, List.cons_append, except_ok_bind, Trace.getOnset, wTrace, plotOne,
      List.length_cons, List.length_nil, wEnv, List.map_cons, List.map_nil]
    exact ⟨_, rfl⟩
  obtain ⟨figs, hfig⟩ := hfig
  have hf := c41_figures hR hfig
  have hlen : figs.length = 4 := by simpa using congrArg List.length hf
  have h3 : figs[3]? = some figs[3] := List.getElem?_eq_getElem (by omega)
  have h4 := congrArg (fun l => l[3]?) hf
  simp only [List.getElem?_map, h3] at h4
  simp at h4
  exact ⟨R, R', figs, _, hR, hR', hfig, h3, h4.1, by rw [h4.2.1, g, hc], by rw [g', hr']⟩

/-- the hypotheses of C37, C42 (as many results as grid points) and C70 are met: the parallel
program run on the same input with two processes and plotted -/
theorem wParallel : ∃ (P : Para ℝ) (res : List (List (Crit ℝ))) (sols : List (Sol ℝ))
    (best : Best ℝ) (figs : List (Fig ℝ)),
    WaveformPara wEnv [wTrace] 0 1 2 6 (6/100) [2] [30, 40] 1 = .ok P ∧
    RunWaveformfitting wEnv 2 [30, 40] P (.ok (res.map some)) ∧
    res.flatten.length = P.HMoho.length * P.KMoho.length ∧
    plotbestmodel wEnv res P (some 1) (some 0) (some 0) "out" "pdf" = .ok (sols, best, figs) := by
  obtain ⟨R, hR, _⟩ := wNormalisable 1 0 0
  obtain ⟨P, hP⟩ := wPara
  obtain ⟨out, log, hout⟩ := c46_has_outcome 2 (WaveformFit_multiproc wEnv P) [30, 40]
  obtain ⟨res, hres, hl, hperm⟩ := c37_same_criteria (by norm_num) hR hP ⟨log, hout⟩
  have hP' := hP
  rw [WaveformPara_eq] at hP'
  obtain ⟨tr0, S, sd, z, e, h0, hS, hsd, _, _, _, _, hPe⟩ := prepare_ok hP'
  cases h0
  have hlen : res.flatten.length = 2 := by
    rw [hperm.length_eq, List.length_map, (c71_grid hR).1]; rfl
  have hPl : P.HMoho.length * P.KMoho.length = 2 := by rw [hPe]; rfl
  have ht : ∃ sb, tabulate res P (some 1) (some 0) (some 0) = .ok sb := by
    rw [tabulate_eq, hPl, ← hlen, fillRows_self, except_ok_bind]
    have hne : res.flatten ≠ [] := by intro hc; rw [hc] at hlen; simp at hlen
    obtain ⟨sols, hs⟩ := normalise_total (F := ℝ) 1 0 0 hne
    have hsne : sols ≠ [] := by
      obtain ⟨_, _, _, _, _, _, rfl⟩ := normalise_ok hs
      simpa using hne
    obtain ⟨b, hb⟩ := bestModels_total hsne
    simp only [Option.getD_some, hs, except_ok_bind, hb]
    exact ⟨_, rfl⟩
  obtain ⟨⟨sols, best⟩, ht⟩ := ht
  have hplot : ∃ figs, plotbestmodel wEnv res P (some 1) (some 0) (some 0) "out" "pdf" =
      .ok (sols, best, figs) := by
    unfold plotbestmodel
    rw [ht, except_ok_bind]
    have hm : ∀ q ∈ panels best, ∃ f, (do
        let minVpVs ← pyMin P.KMoho
        let maxVpVs ← pyMax P.KMoho
        let minMoho ← pyMin P.HMoho
        let maxMoho ← pyMax P.HMoho
        plotOne wEnv P.rfstream P.staname P.HSed P.VpSed P.VsSed P.SedDen P.VpCrust P.CrustDen
          P.rayp P.gaussian P.preonset (minMoho, maxMoho) (minVpVs, maxVpVs) sols q.1 q.2.1 q.2.2
          "out" "pdf") = Except.ok f := by
      intro q _
      rw [hPe]
      simp only [pyMin, pyMax, except_ok_bind, plotOne, item, List.getElem?_cons_zero,
        Trace.getOnset, wTrace, wEnv, List.map_cons, List.map_nil]
      exact ⟨_, rfl⟩
    obtain ⟨figs, hf⟩ := mapM_ok_of_forall hm
    simp only
    rw [hf]
    exact ⟨figs, rfl⟩
  obtain ⟨figs, hplot⟩ := hplot
  exact ⟨P, res, sols, best, figs, hP, hres ▸ ⟨log, hout⟩, by rw [hlen, hPl], hplot⟩

/-- C44 on the run: depth 30 has a misfit different from zero and correlation one -/
example : (0 : ℝ) < rms [0, 1, 2] [0, 2, 4] := by
  rw [(rms_nonneg _ _).lt_iff_ne', Ne, c44_rms_zero (x := [0, 1, 2]) (y := [0, 2, 4]) rfl]
  norm_num

/-- the hypotheses of `c69_first_nan` and `c69_dead_station` are met by a dead station -/
noncomputable def wDead : Trace NReal where
  station := "STA"
  channel := "BHR"
  data := [.num 0, .num 0, .num 0]
  delta := .num 1
  starttime := .num 0
  onset := some (.num 0)
  slowness := none
  backAzimuth := none
  distance := none

noncomputable def wDeadEnv : WEnv NReal where
  stackR rfs := .ok (rfs.map Trace.data)
  synthRF _ := .ok [.num 0, .num 1, .num 1]
  pg _ _ _ := .ok (.num 1)

theorem wDead_run : ∃ R, WaveformFitting wDeadEnv [wDead] (.num 0) (.num 1) (.num 2) (.num 6)
    (.num 1) [.num 2] [.num 30, .num 40] (.num 1) (.num 1) (.num 0) (.num 0) = .ok R := by
  have hz : whereEq (timeAxis wDead.delta (.num 0) wDead.data.length) zero = [0] := by
    have hr : List.range wDead.data.length = [0, 1, 2] := rfl
    have h1 : timeAxis wDead.delta (.num 0) wDead.data.length = [.num 0, .num 1, .num 2] := by
      rw [timeAxis, hr]; simp [wDead]
    have a0 : eq (NReal.num 0) (NReal.num 0) = true := by simp [PyFloat.eq]
    have a1 : eq (NReal.num 1) (NReal.num 0) = false := by
      have : le (NReal.num 1) (NReal.num 0) = false := by
        rw [← Bool.not_eq_true, nreal_le]; norm_num
      simp [PyFloat.eq, this]
    have a2 : eq (NReal.num 2) (NReal.num 0) = false := by
      have : le (NReal.num 2) (NReal.num 0) = false := by
        rw [← Bool.not_eq_true, nreal_le]; norm_num
      simp [PyFloat.eq, this]
    rw [h1, whereEq]
    have hr3 : List.range [NReal.num 0, NReal.num 1, NReal.num 2].length = [0, 1, 2] := rfl
    rw [hr3, nreal_zero]
    simp [a0, a1, a2]
  have hd : eq wDead.delta zero = false := by
    have : le (NReal.num 1) (NReal.num 0) = false := by
      rw [← Bool.not_eq_true, nreal_le]; norm_num
    simp [PyFloat.eq, wDead, this]
  have he : PyTrunc.trunc (ofNat 25 / wDead.delta) = .ok 25 := by
    have : (ofNat 25 / wDead.delta : NReal) = .num 25 := by
      rw [nreal_ofNat]
      show (NReal.num _ / NReal.num 1 : NReal) = _
      rw [nreal_div _ _ one_ne_zero]; norm_num
    rw [this]
    show Except.ok (truncR 25) = _
    rw [truncR, if_pos (by norm_num)]
    norm_num
  have hP : ∃ P, prepare wDeadEnv [wDead] (.num 0) (.num 1) (.num 2) (.num 6)
      (.num 1) [.num 2] [.num 30, .num 40] (.num 1) = .ok P ∧ P.StackedData = wDead.data ∧
      P.tstart = 0 ∧ P.tend = 25 := by
    unfold prepare
    have h0 : item [wDead] 0 = .ok wDead := rfl
    have ht : ∃ t0, item (timeAxis wDead.delta (.num 0) wDead.data.length) 0 = .ok t0 :=
      ⟨_, item_lt (by simp [timeAxis, wDead])⟩
    obtain ⟨t0, ht⟩ := ht
    have hst : wDeadEnv.stackR [wDead] = .ok [wDead.data] := rfl
    have hit : item [wDead.data] 0 = .ok wDead.data := rfl
    have hi0 : item [0] 0 = .ok 0 := rfl
    simp only [h0, except_ok_bind, hst, hit, ht, hz, hi0, hd, he]
    exact ⟨_, rfl, rfl, rfl, rfl⟩
  obtain ⟨P, hP, hsd, hts, hte⟩ := hP
  have hgp : ∀ p ∈ ([.num 2] : List NReal).flatMap
      (fun k => ([.num 30, .num 40] : List NReal).map (fun h => (h, k))),
      ∃ c, gridPoint wDeadEnv P p.1 p.2 = .ok c := by
    intro p _
    have hsl : ∀ a b c : NReal, pySlice [a, b, c] 0 25 = [a, b, c] := by
      intro a b c; simp [pySlice]
    have hdat : wDead.data = [.num 0, .num 0, .num 0] := rfl
    have hfin : ∀ x : ℝ, isFinite (NReal.num x) = true := by
      intro x; simp [isFinite, PyFloat.eq]
    unfold gridPoint criteria
    simp only [wDeadEnv, except_ok_bind, hsd, hts, hte, hdat, hsl, corrcoef01, meanSquaredError,
      List.all_cons, hfin, List.all_nil, List.length_cons, List.length_nil, ne_eq,
      not_true_eq_false, if_false, Nat.add_eq_zero_iff, one_ne_zero, and_false, or_false,
      Bool.and_self, Bool.not_true, Bool.false_eq_true]
    exact ⟨_, rfl⟩
  obtain ⟨all, hall⟩ := mapM_ok_of_forall hgp
  have hne : all ≠ [] := by
    rintro rfl
    have := mapM_length hall
    simp at this
  obtain ⟨sols, hs⟩ := normalise_total (F := NReal) (.num 1) (.num 0) (.num 0) hne
  have hsne : sols ≠ [] := by
    obtain ⟨_, _, _, _, _, _, rfl⟩ := normalise_ok hs
    simpa using hne
  obtain ⟨best, hb⟩ := bestModels_total hsne
  exact ⟨_, WaveformFitting_of hP hall hs hb⟩

example : ∃ R : WResult NReal, R.WaveformSolutions ≠ [] ∧
    (∀ s ∈ R.WaveformSolutions, s.corr = .nan ∧ s.gof = .nan) ∧
    (R.printed.gof.h, R.printed.gof.k) = (.num 30, .num 2) := by
  obtain ⟨R, hR⟩ := wDead_run
  have := c69_dead_station (S := [wDead.data]) (sd := wDead.data) (c := 0) rfl rfl
    (by simp [wDead]) rfl rfl hR
  refine ⟨R, fun hc => ?_, this.1, this.2.2⟩
  have := (c71_grid hR).1
  rw [hc] at this
  simp at this

end Rfsed.Props
