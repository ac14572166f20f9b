import Verif.Props.RecordedNoiseStack
import Verif.Props.ExperimentWave

/-!
# C145: noise in the recorded seismograms and the waveform fit
-/

namespace Rfsed.Props
open Rfsed Spec Synrf Waveform

/-- The call of the waveform fit in arithmetic `R` belongs to the exact fit `E`, as far as everything but the data is
concerned: same grid, weights, sampling and onset; the synthetics are within `e` of the exact ones; where `pg` is given the
signs of the exact records, it returns a value within `e` of the exact phase criterion. -/
structure FitCall (E : ExactFit) (e : ℝ) (p : ℕ) {R : Rounding} (env : WEnv (FL R)) (rfs : List (Trace (FL R)))
    (preonset HSed VpSed VpCrust rayp gaussian wc wr wp : FL R) (KMoho HMoho : List (FL R)) (tr0 : Trace (FL R))
    (n : ℕ) : Prop where
  first : rfs[0]? = some tr0
  rate : SamplesPerSecond p tr0.delta.val E.f
  onset : preonset.val = E.N
  short : tr0.data.length ≤ 2 ^ p
  bounded : (E.N + 25) * E.f < 2 ^ (p + 1)
  inside : E.N * E.f < tr0.data.length
  depths : HMoho.map FL.val = E.depths
  ratios : KMoho.map FL.val = E.ratios
  weights : wc.val = E.wc ∧ wr.val = E.wr ∧ wp.val = E.wp
  synthetics : ∀ h ∈ HMoho, ∀ k ∈ KMoho, SamplesWithin e (E.synthetic h.val k.val)
    ((syntheticOf env HSed VpSed VpCrust rayp tr0.delta preonset gaussian n h k).map FL.val)
  phases : ∀ h ∈ HMoho, ∀ k ∈ KMoho, ∀ x y v, x.map FL.val = ExactFit.signs (E.cut E.data) →
    y.map FL.val = ExactFit.signs (E.cut (E.synthetic h.val k.val)) → env.pg x y tr0.delta = .ok v →
    |v.val - E.phase h.val k.val| ≤ e

/-- The data of the exact fit is the average of the receiver functions of the recordings `es`; the stream given to the call
has the receiver functions of noisy recordings, and its stack is their average up to `C0 e`. -/
structure RecordedData (M : RFMethod) (pre a C0 e : ℝ) (E : ExactFit) (es : List (Recording × Trace ℝ)) {R : Rounding}
    (env : WEnv (FL R)) (es' : List (Recording × Trace (FL R))) (sd : List (FL R)) : Prop where
  stream : RecordedStream M pre a e es es'
  stack : ∃ more, env.stackR (es'.map Prod.snd) = .ok (sd :: more)
  average : AverageWithin (C0 * e) (es'.map fun q => q.2.data.map FL.val) (sd.map FL.val)

/-- the stack of the noisy recordings is near the data of the exact fit -/
theorem recorded_stack {M : RFMethod} {pre a C0 : ℝ} {E : ExactFit} {es : List (Recording × Trace ℝ)} (hC0 : 0 ≤ C0)
    (hrf : ∀ q ∈ es, M.Gives q.2.delta pre a q.1 q.2.data ∧ M.Clear q.2.delta pre a q.1)
    (havg : AverageWithin 0 (es.map fun q => q.2.data) E.data) :
    ∃ C > 0, ∃ δ > 0, ∀ e, 0 < e → e ≤ δ → ∀ (R : Rounding) (env : WEnv (FL R)) (es' : List (Recording × Trace (FL R)))
      (sd : List (FL R)), RecordedData M pre a C0 e E es env es' sd → SamplesWithin (C * e) E.data (sd.map FL.val) := by
  obtain ⟨C1, hC1, δ1, hδ1, g1⟩ := recorded_near es hrf
  refine ⟨C1 + C0 + 1, by positivity, δ1, hδ1, fun e he hed R env es' sd h => ?_⟩
  have hd := nearStream_data (g1 e he hed R es' h.stream)
  rw [List.map_map, List.map_map] at hd
  refine forall₂_weaken (average_near hd havg h.average) fun x y _ _ k => lt_of_le_of_lt ((abs_sub_comm ..).trans_le k) ?_
  nlinarith

/-- the exact receiver function is one of the computed ones, for every tolerance -/
theorem c145_exact {M : RFMethod} {dt pre a ε : ℝ} {q : Recording} {rf : List ℝ} (h : M.Gives dt pre a q rf)
    (hclear : M.Clear dt pre a q) (hl : q.vertical.length = q.radial.length) (hu : ∃ x ∈ q.radial, x ≠ 0)
    (hw : ∃ x ∈ q.vertical, x ≠ 0) (hε : 0 ≤ ε) : M.Computes ε dt pre a q rf := by
  cases M with
  | water wlevel normalize =>
    obtain ⟨rms, h⟩ := h
    exact c131_exact h hε
  | iterative itmax minderr phase =>
    obtain ⟨R, hR, hrf⟩ := h
    obtain ⟨-, hcos, -⟩ := hclear
    have hn : 0 < nextPow2 q.radial.length := by
      have := (deconv_master hR rfl).2.1
      omega
    have key : ∀ x : List ℝ, x.length ≤ nextPow2 q.radial.length → (∃ z ∈ x, z ≠ 0) →
        0 < energy (nextPow2 q.radial.length) (lowpass (nextPow2 q.radial.length) dt a x) := by
      rintro x hx ⟨z, hz, hz0⟩
      refine lt_of_le_of_ne (energy_nonneg _ _) fun h0 => ?_
      exact hz0 ((cconv_smp_inj hn hx).1 h0.symm z hz)
    obtain ⟨rf', rms, h1, -, h2⟩ := c139_exact (ε := ε) hR (Or.inl rfl) (key _ (le_nextPow2 _) hu)
      (key _ (hl ▸ le_nextPow2 _) hw) hε hcos
    rw [hrf] at h1
    cases h1
    exact ⟨_, rms, h2⟩

theorem samplesWithin_le {e e' : ℝ} (h : e ≤ e') {x y : List ℝ} (hx : SamplesWithin e x y) : SamplesWithin e' x y :=
  forall₂_weaken hx fun _ _ _ _ k => lt_of_lt_of_le k h

theorem FitCall.near {E : ExactFit} {e e' : ℝ} {p : ℕ} {R : Rounding} {env : WEnv (FL R)} {rfs : List (Trace (FL R))}
    {preonset HSed VpSed VpCrust rayp gaussian wc wr wp : FL R} {KMoho HMoho : List (FL R)} {tr0 : Trace (FL R)}
    {sd : List (FL R)} (h : FitCall E e p env rfs preonset HSed VpSed VpCrust rayp gaussian wc wr wp KMoho HMoho tr0 sd.length)
    (he : e ≤ e') (hs : ∃ more, env.stackR rfs = .ok (sd :: more)) (hd : SamplesWithin e' E.data (sd.map FL.val)) :
    NearFit E e' p env rfs preonset HSed VpSed VpCrust rayp gaussian wc wr wp KMoho HMoho tr0 sd where
  first := h.first
  rate := h.rate
  onset := h.onset
  short := h.short
  bounded := h.bounded
  inside := h.inside
  depths := h.depths
  ratios := h.ratios
  weights := h.weights
  stack := hs
  data := hd
  synthetics := fun y hy k hk => samplesWithin_le he (h.synthetics y hy k hk)
  phases := fun y hy k hk u v w h1 h2 h3 => (h.phases y hy k hk u v w h1 h2 h3).trans he

section
variable {M : RFMethod} {pre a C0 c : ℝ} {E : ExactFit} {es : List (Recording × Trace ℝ)} {C Mx Q : ℝ}

/-- **C145** The waveform fit of the receiver functions of noisy recordings, in arithmetic of precision `ε`, ends with the exact
table up to `G ε` and with the exact best models, where they are unique. -/
theorem c145_waveform (hE : E.Regular C Mx Q) (hc : 0 < c) (hC0 : 0 ≤ C0)
    (hrf : ∀ q ∈ es, M.Gives q.2.delta pre a q.1 q.2.data ∧ M.Clear q.2.delta pre a q.1)
    (havg : AverageWithin 0 (es.map fun q => q.2.data) E.data) :
    ∃ G > 0, ∃ δ > 0, ∀ ε, 0 < ε → ε ≤ δ → ∀ (p : ℕ) (R : Rounding), Nearest R p → R.u ≤ ε →
    ∀ (env : WEnv (FL R)) (es' : List (Recording × Trace (FL R)))
      (preonset HSed VpSed VpCrust rayp gaussian wc wr wp : FL R) (KMoho HMoho : List (FL R)) (tr0 : Trace (FL R))
      (sd : List (FL R)) (res : WResult (FL R)),
    RecordedData M pre a C0 ε E es env es' sd →
    FitCall E (c * ε) p env (es'.map Prod.snd) preonset HSed VpSed VpCrust rayp gaussian wc wr wp KMoho HMoho tr0 sd.length →
    WaveformFitting env (es'.map Prod.snd) preonset HSed VpSed VpCrust rayp KMoho HMoho gaussian wc wr wp = .ok res →
    res.WaveformSolutions.map (fun s => (s.h.val, s.k.val)) = E.models ∧
    RowsWithin E C Mx Q (G * ε) res.WaveformSolutions ∧ ReportsBest E C Mx Q res.printed := by
  obtain ⟨C1, hC1, δ1, hδ1, g1⟩ := recorded_stack hC0 hrf havg
  obtain ⟨G, hG, δ2, hδ2, g2⟩ := c142_waveform hE (add_pos hC1 hc)
  refine ⟨G, hG, min δ1 δ2, lt_min hδ1 hδ2, fun ε he hed p R hR hu env es' preonset HSed VpSed VpCrust rayp gaussian wc wr wp
    KMoho HMoho tr0 sd res hes hcall hres => ?_⟩
  have hd := g1 ε he (hed.trans (min_le_left _ _)) R env es' sd hes
  exact g2 ε he (hed.trans (min_le_right _ _)) p R hR hu env _ preonset HSed VpSed VpCrust rayp gaussian wc wr wp KMoho HMoho
    tr0 sd res (hcall.near (by nlinarith) hes.stack (samplesWithin_le (by nlinarith) hd)) hres

/-- **C145** The same for `WaveformPara`, `run_waveformfitting` and `plotbestmodel` with any number of processes. -/
theorem c145_parallel (hE : E.Regular C Mx Q) (hc : 0 < c) (hC0 : 0 ≤ C0)
    (hrf : ∀ q ∈ es, M.Gives q.2.delta pre a q.1 q.2.data ∧ M.Clear q.2.delta pre a q.1)
    (havg : AverageWithin 0 (es.map fun q => q.2.data) E.data) :
    ∃ G > 0, ∃ δ > 0, ∀ ε, 0 < ε → ε ≤ δ → ∀ (p : ℕ) (R : Rounding), Nearest R p → R.u ≤ ε →
    ∀ (env : WEnv (FL R)) (es' : List (Recording × Trace (FL R)))
      (preonset HSed VpSed VpCrust rayp gaussian wc wr wp : FL R) (KMoho HMoho : List (FL R)) (tr0 : Trace (FL R))
      (sd : List (FL R)) (P : Para (FL R)) (nproc : ℕ) (res : List (List (Crit (FL R)))) (savepath format : String)
      (sols : List (Sol (FL R))) (best : Best (FL R)) (figs : List (Fig (FL R))),
    RecordedData M pre a C0 ε E es env es' sd →
    FitCall E (c * ε) p env (es'.map Prod.snd) preonset HSed VpSed VpCrust rayp gaussian wc wr wp KMoho HMoho tr0 sd.length →
    0 < nproc → WaveformPara env (es'.map Prod.snd) preonset HSed VpSed VpCrust rayp KMoho HMoho gaussian = .ok P →
    RunWaveformfitting env nproc HMoho P (.ok (res.map some)) →
    plotbestmodel env res P (some wc) (some wr) (some wp) savepath format = .ok (sols, best, figs) →
    (sols.map (fun s => (s.h.val, s.k.val))).Perm E.models ∧
    RowsWithin E C Mx Q (G * ε) sols ∧ ReportsBest E C Mx Q best := by
  obtain ⟨C1, hC1, δ1, hδ1, g1⟩ := recorded_stack hC0 hrf havg
  obtain ⟨G, hG, δ2, hδ2, g2⟩ := c142_parallel hE (add_pos hC1 hc)
  refine ⟨G, hG, min δ1 δ2, lt_min hδ1 hδ2, fun ε he hed p R hR hu env es' preonset HSed VpSed VpCrust rayp gaussian wc wr wp
    KMoho HMoho tr0 sd P nproc res savepath format sols best figs hes hcall hn hP hrun hplot => ?_⟩
  have hd := g1 ε he (hed.trans (min_le_left _ _)) R env es' sd hes
  exact g2 ε he (hed.trans (min_le_right _ _)) p R hR hu env _ preonset HSed VpSed VpCrust rayp gaussian wc wr wp KMoho HMoho
    tr0 sd P nproc res savepath format sols best figs
    (hcall.near (by nlinarith) hes.stack (samplesWithin_le (by nlinarith) hd)) hn hP hrun hplot

end

end Rfsed.Props
