import Verif.Props.WaveformSample
import Verif.Spec.WaveFigure

/-!
# Property C81: what the waveform-fitting figures show
-/

namespace Rfsed.Props
open PyFloat Spec Waveform

theorem npStd_real (x : List ℝ) : npStd x = stdDev x := by
  unfold npStd stdDev
  rw [centre_real, npMean_eq_mean]
  simp [mean, square, Function.comp_def, real_powHalf, pow_two]

theorem plotOne_figure {env : WEnv ℝ} {rfs : List (Trace ℝ)} {sta : String}
    {HSed VpSed SedDen VpCrust CrustDen rayp gaussian preonset : ℝ} {xl yl : ℝ × ℝ}
    {sols : List (Sol ℝ)} {suff : String} {crit : Sol ℝ → ℝ} {best : Sol ℝ}
    {savepath format : String} {fig : Fig ℝ} {tr0 : Trace ℝ} (h0 : rfs[0]? = some tr0)
    (hsta : sta = tr0.station)
    (h : plotOne env rfs sta HSed VpSed (vsOf VpSed) SedDen VpCrust CrustDen rayp gaussian preonset
      xl yl sols suff crit best savepath format = .ok fig) :
    ∃ onset S sd, tr0.onset = some onset ∧ env.stackR rfs = .ok S ∧ S[0]? = some sd ∧
      WaveformFigure fig suff sols crit best.h best.k tr0 onset sd HSed VpSed VpCrust savepath
        format ∧ fig.xlim = xl ∧ fig.ylim = yl := by
  subst hsta
  unfold plotOne at h
  simp only [bind_eq_ok, item_ok] at h
  obtain ⟨tr1, h1, onset, hon, S, hS, sd, hsd, syn, hsyn, u, hu, h⟩ := h
  rw [h0] at h1
  cases h1
  cases Except.ok.inj h
  have hon' : tr0.onset = some onset := by
    unfold Trace.getOnset at hon
    split at hon
    · rename_i o ho
      cases Except.ok.inj hon
      exact ho
    · cases hon
  refine ⟨onset, S, sd, hon', hS, hsd, ⟨rfl, rfl, ⟨rfl, rfl⟩, ?_, ?_, ⟨?_, ?_⟩, ?_, ?_, ?_, rfl⟩,
    rfl, rfl⟩
  · simp only [real_dec]; norm_num
  · simp
  · simp only [npStd_real]
  · simp only [npStd_real]
  · simp
  · simp only [real_dec]; norm_num
  · simp only [real_dec, vsOf_real]; norm_num

theorem mapM_forall₂ {α β : Type} {f : α → Except PyErr β} {R : α → β → Prop} {xs : List α}
    {ys : List β} (h : xs.mapM f = .ok ys) (hr : ∀ x ∈ xs, ∀ y, f x = .ok y → R x y) :
    List.Forall₂ R xs ys := by
  have := mapM_ok_iff.1 h
  clear h
  induction this with
  | nil => exact .nil
  | @cons a b l1 l2 h1 _ ih =>
    exact .cons (hr a (by simp) b h1) (ih (fun x hx y hy => hr x (by simp [hx]) y hy))

theorem forall₂_panels {best : Best ℝ} {figs : List (Fig ℝ)}
    {R : String × (Sol ℝ → ℝ) × Sol ℝ → Fig ℝ → Prop} (h : List.Forall₂ R (panels best) figs) :
    ∃ p f, R p f := by
  unfold panels at h
  rcases h with _ | ⟨h1, _⟩
  exact ⟨_, _, h1⟩

/-- the four figures and what each is about -/
def fourPanels (best : Best ℝ) : List (String × (Sol ℝ → ℝ) × Sol ℝ) :=
  [("Correlation Coefficient", fun s => s.corr, best.corr),
   ("Root-mean-square Error", fun s => s.rmse, best.rmse),
   ("Phase Goodness of Fit", fun s => s.pg, best.pg),
   ("Overall Goodness of Fit", fun s => s.gof, best.gof)]

/-- **C81** (serial): the four figures of `PlotWaveformFitting`.  The axes of the contour plot run
from the *first* to the *last* grid value (so an unsorted grid is cut off). -/
theorem c81_serial {env env' : WEnv ℝ} {rfs : List (Trace ℝ)}
    {preonset HSed VpSed VpCrust rayp gaussian wc wr wp : ℝ} {KMoho HMoho : List ℝ}
    {R : WResult ℝ} {wc' wr' wp' : ℝ} {savepath format : String} {figs : List (Fig ℝ)}
    (h : WaveformFitting env rfs preonset HSed VpSed VpCrust rayp KMoho HMoho gaussian wc wr wp
      = .ok R)
    (hp : PlotWaveformFitting env' R wc' wr' wp' savepath format = .ok figs) :
    ∃ tr0 onset S sd H0 H1 K0 K1, rfs[0]? = some tr0 ∧ tr0.onset = some onset ∧
      env'.stackR rfs = .ok S ∧ S[0]? = some sd ∧
      HMoho.head? = some H0 ∧ HMoho.getLast? = some H1 ∧
      KMoho.head? = some K0 ∧ KMoho.getLast? = some K1 ∧
      List.Forall₂ (fun p f =>
        WaveformFigure f p.1 R.WaveformSolutions p.2.1 p.2.2.h p.2.2.k tr0 onset sd HSed VpSed
          VpCrust savepath format ∧ f.xlim = (H0, H1) ∧ f.ylim = (K0, K1))
        (fourPanels R.printed) figs := by
  obtain ⟨P, all, sols, best, hP, ha, hs, hb, rfl⟩ := WaveformFitting_ok h
  unfold PlotWaveformFitting at hp
  obtain ⟨tr0, g0, hp⟩ := bind_eq_ok.1 hp
  rw [item_ok] at g0
  simp only at g0
  obtain ⟨best', hb', hp⟩ := bind_eq_ok.1 hp
  simp only at hb'
  rw [hb] at hb'
  cases Except.ok.inj hb'
  have hf2 : List.Forall₂ (fun (p : String × (Sol ℝ → ℝ) × Sol ℝ) (f : Fig ℝ) => ∃ onset S sd H0 H1 K0 K1, tr0.onset = some onset ∧
      env'.stackR rfs = .ok S ∧ S[0]? = some sd ∧
      HMoho.head? = some H0 ∧ HMoho.getLast? = some H1 ∧
      KMoho.head? = some K0 ∧ KMoho.getLast? = some K1 ∧
      WaveformFigure f p.1 sols p.2.1 p.2.2.h p.2.2.k tr0 onset sd HSed VpSed
          VpCrust savepath format ∧ f.xlim = (H0, H1) ∧ f.ylim = (K0, K1)) (panels best) figs := by
    refine mapM_forall₂ hp (fun p _ f hf => ?_)
    simp only [bind_eq_ok, item_ok] at hf
    obtain ⟨H0, hH0, H1, hH1, K0, hK0, K1, hK1, _, _, _, _, hf⟩ := hf
    obtain ⟨onset, S, sd, a1, a2, a3, a4, a5, a6⟩ := plotOne_figure g0 rfl hf
    refine ⟨onset, S, sd, H0, H1, K0, K1, a1, a2, a3, ?_, ?_, ?_, ?_, a4, a5, a6⟩
    · rw [List.head?_eq_getElem?]; exact hH0
    · rw [← List.head?_reverse, List.head?_eq_getElem?]; exact hH1
    · rw [List.head?_eq_getElem?]; exact hK0
    · rw [← List.head?_reverse, List.head?_eq_getElem?]; exact hK1
  obtain ⟨p1, f1, h1⟩ := forall₂_panels hf2
  obtain ⟨onset, S, sd, H0, H1, K0, K1, b1, b2, b3, b4, b5, b6, b7, _⟩ := h1
  refine ⟨tr0, onset, S, sd, H0, H1, K0, K1, g0, b1, b2, b3, b4, b5, b6, b7, ?_⟩
  refine hf2.imp ?_
  rintro p f ⟨onset', S', sd', H0', H1', K0', K1', c1, c2, c3, c4, c5, c6, c7, c8⟩
  rw [b1] at c1; cases c1
  rw [b2] at c2; cases Except.ok.inj c2
  rw [b3] at c3; cases c3
  rw [b4] at c4; cases c4
  rw [b5] at c5; cases c5
  rw [b6] at c6; cases c6
  rw [b7] at c7; cases c7
  exact c8

/-- **C81** (parallel): the four figures of `plotbestmodel`.  Here the axes run from the smallest to
the largest grid value. -/
theorem c81_parallel {env env' : WEnv ℝ} {rfs : List (Trace ℝ)}
    {preonset HSed VpSed VpCrust rayp gaussian : ℝ} {KMoho HMoho : List ℝ} {P : Para ℝ}
    {res : List (List (Crit ℝ))} {wc wr wp : Option ℝ} {savepath format : String}
    {sols : List (Sol ℝ)} {best : Best ℝ} {figs : List (Fig ℝ)}
    (hP : WaveformPara env rfs preonset HSed VpSed VpCrust rayp KMoho HMoho gaussian = .ok P)
    (h : plotbestmodel env' res P wc wr wp savepath format = .ok (sols, best, figs)) :
    ∃ tr0 onset S sd H0 H1 K0 K1, rfs[0]? = some tr0 ∧ tr0.onset = some onset ∧
      env'.stackR rfs = .ok S ∧ S[0]? = some sd ∧
      IsMinVal HMoho H0 ∧ IsMaxVal HMoho H1 ∧ IsMinVal KMoho K0 ∧ IsMaxVal KMoho K1 ∧
      List.Forall₂ (fun p f =>
        WaveformFigure f p.1 sols p.2.1 p.2.2.h p.2.2.k tr0 onset sd HSed VpSed
          VpCrust savepath format ∧ f.xlim = (H0, H1) ∧ f.ylim = (K0, K1))
        (fourPanels best) figs := by
  rw [WaveformPara_eq] at hP
  obtain ⟨tr0, S₀, sd₀, z, e, g0, _, _, _, _, _, _, rfl⟩ := prepare_ok hP
  unfold plotbestmodel at h
  obtain ⟨⟨sols', best'⟩, h1, h⟩ := bind_eq_ok.1 h
  obtain ⟨figs', hp, h⟩ := bind_eq_ok.1 h
  cases Except.ok.inj h
  have hf2 : List.Forall₂ (fun (p : String × (Sol ℝ → ℝ) × Sol ℝ) (f : Fig ℝ) => ∃ onset S sd H0 H1 K0 K1, tr0.onset = some onset ∧
      env'.stackR rfs = .ok S ∧ S[0]? = some sd ∧
      pyMin HMoho = .ok H0 ∧ pyMax HMoho = .ok H1 ∧ pyMin KMoho = .ok K0 ∧ pyMax KMoho = .ok K1 ∧
      WaveformFigure f p.1 sols p.2.1 p.2.2.h p.2.2.k tr0 onset sd HSed VpSed
          VpCrust savepath format ∧ f.xlim = (H0, H1) ∧ f.ylim = (K0, K1)) (panels best) figs := by
    refine mapM_forall₂ hp (fun p _ f hf => ?_)
    simp only [bind_eq_ok] at hf
    obtain ⟨K0, hK0, K1, hK1, H0, hH0, H1, hH1, hf⟩ := hf
    obtain ⟨onset, S, sd, a1, a2, a3, a4, a5, a6⟩ := plotOne_figure g0 rfl hf
    exact ⟨onset, S, sd, H0, H1, K0, K1, a1, a2, a3, hH0, hH1, hK0, hK1, a4, a5, a6⟩
  obtain ⟨p1, f1, h1⟩ := forall₂_panels hf2
  obtain ⟨onset, S, sd, H0, H1, K0, K1, b1, b2, b3, b4, b5, b6, b7, _⟩ := h1
  refine ⟨tr0, onset, S, sd, H0, H1, K0, K1, g0, b1, b2, b3, pyMin_real b4, pyMax_real b5,
    pyMin_real b6, pyMax_real b7, ?_⟩
  refine hf2.imp ?_
  rintro p f ⟨onset', S', sd', H0', H1', K0', K1', c1, c2, c3, c4, c5, c6, c7, c8⟩
  rw [b1] at c1; cases c1
  rw [b2] at c2; cases Except.ok.inj c2
  rw [b3] at c3; cases c3
  rw [b4] at c4; cases Except.ok.inj c4
  rw [b5] at c5; cases Except.ok.inj c5
  rw [b6] at c6; cases Except.ok.inj c6
  rw [b7] at c7; cases Except.ok.inj c7
  exact c8

/-- the hypotheses are met by the sample run; the axis of its contour plot is 30–40 km -/
example : ∃ (P : Para ℝ) (res : List (List (Crit ℝ))) (sols : List (Sol ℝ))
    (best : Best ℝ) (figs : List (Fig ℝ)),
    WaveformPara wEnv [wTrace] 0 1 2 6 (6/100) [2] [30, 40] 1 = .ok P ∧
    plotbestmodel wEnv res P (some 1) (some 0) (some 0) "out" "pdf" = .ok (sols, best, figs) ∧
    figs.length = 4 ∧ ∀ f ∈ figs, f.xlim = (30, 40) := by
  obtain ⟨P, res, sols, best, figs, hP, _, _, hplot⟩ := wParallel
  refine ⟨P, res, sols, best, figs, hP, hplot, ?_⟩
  obtain ⟨_, _, _, _, H0, H1, _, _, _, _, _, _, ⟨m0, m0'⟩, ⟨m1, m1'⟩, _, _, hf⟩ :=
    c81_parallel hP hplot
  refine ⟨hf.length_eq.symm, ?_⟩
  have e0 : H0 = 30 := by
    have := m0' 30 (by simp)
    simp at m0
    rcases m0 with rfl | rfl
    · rfl
    · norm_num at this
  have e1 : H1 = 40 := by
    have := m1' 40 (by simp)
    simp at m1
    rcases m1 with rfl | rfl
    · norm_num at this
    · rfl
  subst e0 e1
  intro f hfm
  obtain ⟨i, hi, rfl⟩ := List.mem_iff_getElem.1 hfm
  have := (List.forall₂_iff_get.1 hf).2 i (by rw [hf.length_eq]; exact hi) hi
  exact this.2.1

end Rfsed.Props
