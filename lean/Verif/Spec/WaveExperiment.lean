import Verif.Spec.Waveform
import Verif.Spec.Continuity

/-!
# Specification vocabulary for a waveform fit without rounding
-/

namespace Rfsed.Spec

/-- the exact quantities of a waveform fit -/
structure ExactFit where
  /-- the stacked receiver function -/
  data : List ℝ
  /-- the synthetic receiver function of the model with Moho depth `h` and crustal Vp/Vs ratio `k` -/
  synthetic : ℝ → ℝ → List ℝ
  /-- the phase criterion of the model -/
  phase : ℝ → ℝ → ℝ
  /-- the Moho depths -/
  depths : List ℝ
  /-- the Vp/Vs ratios -/
  ratios : List ℝ
  /-- the weights of correlation, misfit and phase criterion -/
  wc : ℝ
  wr : ℝ
  wp : ℝ
  /-- seconds before the onset -/
  N : ℕ
  /-- samples per second -/
  f : ℕ

namespace ExactFit

/-- the samples of the first 25 seconds behind the onset -/
def cut (E : ExactFit) (x : List ℝ) : List ℝ := (x.drop (E.N * E.f)).take (25 * E.f)

/-- the models of the grid: for each ratio all depths -/
def models (E : ExactFit) : List (ℝ × ℝ) := E.ratios.flatMap (fun k => E.depths.map (fun h => (h, k)))

/-- correlation of the synthetic of `m` with the data -/
noncomputable def corr (E : ExactFit) (m : ℝ × ℝ) : ℝ := pearson (E.cut E.data) (E.cut (E.synthetic m.1 m.2))

/-- misfit of the synthetic of `m` -/
noncomputable def misfit (E : ExactFit) (m : ℝ × ℝ) : ℝ := rms (E.cut E.data) (E.cut (E.synthetic m.1 m.2))

/-- goodness of fit of `m`; `C`, `M`, `Q` are the largest correlation, misfit and phase criterion -/
noncomputable def goodness (E : ExactFit) (C M Q : ℝ) (m : ℝ × ℝ) : ℝ :=
  E.wc * (E.corr m / C) + E.wr * (1 - E.misfit m / M) + E.wp * (E.phase m.1 m.2 / Q)

/-- the signs of the samples -/
noncomputable def signs (x : List ℝ) : List ℝ := x.map (fun a : ℝ => (SignType.sign a : ℝ))

/-- the fitted parts of the data and of all synthetics vary, are equally long and have no sample that is zero; the largest
correlation, misfit and phase criterion are `C`, `M` and `Q`, and these are positive -/
structure Regular (E : ExactFit) (C M Q : ℝ) : Prop where
  varies : ¬ Constant (E.cut E.data)
  signed : ∀ a ∈ E.cut E.data, a ≠ 0
  synthetics : ∀ m ∈ E.models, ¬ Constant (E.cut (E.synthetic m.1 m.2)) ∧
    (E.cut E.data).length = (E.cut (E.synthetic m.1 m.2)).length ∧ ∀ a ∈ E.cut (E.synthetic m.1 m.2), a ≠ 0
  maxCorr : IsMaxVal (E.models.map E.corr) C
  maxMisfit : IsMaxVal (E.models.map E.misfit) M
  maxPhase : IsMaxVal (E.models.map (fun m => E.phase m.1 m.2)) Q
  posC : 0 < C
  posM : 0 < M
  posQ : 0 < Q

/-- `b` is the only model of the grid with the largest value of `g` -/
def OnlyBest (E : ExactFit) (g : ℝ × ℝ → ℝ) (b : ℝ × ℝ) : Prop := b ∈ E.models ∧ ∀ m ∈ E.models, m ≠ b → g m < g b

end ExactFit

end Rfsed.Spec
