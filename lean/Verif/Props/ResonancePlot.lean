import Verif.Props.Resonance
import Verif.Props.Variants

/-!
# C67 (figures of the resonance filter) and C68 (`ResonanceFilt` followed by `hkYu`)
-/

namespace Rfsed.Props
open Rfsed Rfsed.Spec Finset

theorem saveBlock_ok {env : Env ℝ} {t f : String} {xy : List (List ℝ × List ℝ)}
    {saved : List LineFig} (h : ∀ p ∈ xy, p.1.length = p.2.length)
    (hs : env.savefig f = .ok ()) :
    saveBlock env t xy f saved = (saved ++ [⟨t, xy, f⟩], .ok ()) := by
  have : (xy.mapM (fun p => pltPlot p.1 p.2) : Except PyErr _) = .ok xy := by
    induction xy with
    | nil => rfl
    | cons p xy ih =>
      have hp := h p (by simp)
      rw [List.mapM_cons, ih (fun q hq => h q (by simp [hq]))]
      simp [pltPlot, hp, bind, Except.bind, pure, Except.pure]
  unfold saveBlock
  rw [this]
  simp only [hs]

/-- The figures one expects. -/
def resonanceFigures (R : FltResults) (name savepath format : String) : List LineFig :=
  [⟨s!"Autocorrelation of {name}", [(R.time, R.autoc)], s!"{savepath}/Autocorrelation.{format}"⟩,
   ⟨s!"Resonance Filter of {name}", [(R.time, R.resonancefilter.map Complex.re)],
     s!"{savepath}/Resonance_Filter.{format}"⟩,
   ⟨s!"RF and Filtered RF of {name}", [(R.time, R.rf), (R.time, R.filteredrf)],
     s!"{savepath}/RF_FilteredRF.{format}"⟩]

theorem plotfilt_ok {env : Env ℝ} {R : FltResults} (h : Returned R)
    (ht : R.time.length = R.rf.length) (hs : ∀ f, env.savefig f = .ok ())
    (name savepath format : String) :
    plotfilt env R name savepath format = (resonanceFigures R name savepath format, .ok ()) := by
  obtain ⟨l1, l2, l3, _⟩ := c28_one_coefficient_per_sample h
  unfold plotfilt
  rw [saveBlock_ok (by simp [ht, l3]) (hs _)]
  simp only
  rw [saveBlock_ok (by simp [ht, l1, toRe]) (hs _)]
  simp only
  rw [saveBlock_ok (by simp [ht, l2]) (hs _)]
  simp [resonanceFigures, toRe]

/-- C67: on a result of `ResonanceFilt` whose time axis has the length of the stack, the plotting
functions save exactly three figures: autocorrelation, real part of the filter, and data with
filtered data, all against the receiver-function time axis. -/
theorem c67_three_figures {env : Env ℝ} {R : FltResults} (h : Returned R)
    (ht : R.time.length = R.rf.length) (hs : ∀ f, env.savefig f = .ok ())
    (savepath format : String) :
    ReverbFilter.plotfiltrf env R savepath format =
      (resonanceFigures R R.staname savepath format, .ok ()) ∧
    SynthAnalysis.plotfiltSynthrf env R savepath format =
      (resonanceFigures R "SyntheticRF" savepath format, .ok ()) :=
  ⟨plotfilt_ok h ht hs _ _ _, plotfilt_ok h ht hs _ _ _⟩

/-- C67: the autocorrelation at lag `k·dt` is drawn at the time `k·dt - preonset`: the trough the
filter uses appears `preonset` seconds too early in the figure. -/
theorem c67_lag_axis_shifted {env env' : Env ℝ} {st : List (Trace ℝ)} {pre : ℝ} {R : FltResults}
    (h : ReverbFilter.ResonanceFilt env st pre = .ok R) (hs : ∀ f, env'.savefig f = .ok ())
    (ht : R.time.length = R.rf.length) (savepath format : String) :
    ∃ fig ∈ (ReverbFilter.plotfiltrf env' R savepath format).1,
      fig.filename = s!"{savepath}/Autocorrelation.{format}" ∧
      ∃ xs ys, fig.curves = [(xs, ys)] ∧ ys = R.autoc ∧
        ∀ k < R.rf.length, xs.getD k 0 = (k : ℝ) * R.delta - pre := by
  have hr : Returned R := Or.inl ⟨_, _, _, h⟩
  rw [(c67_three_figures hr ht hs savepath format).1]
  refine ⟨_, List.mem_cons_self, rfl, R.time, R.autoc, rfl, rfl, ?_⟩
  intro k hk
  obtain ⟨tr0, S, data, _, _, _, h4, h5, rfl⟩ := resRev_of h
  rw [← ht] at hk
  simp only [resRec] at hk ⊢
  rw [timeAxis, List.length_map, List.length_range] at hk
  rw [timeAxis, getD_map_range _ _ _ hk]
  simp; ring

/-- C67: if the stack does not have the length of the first trace, `plotfiltrf` raises
`ValueError` before anything is saved. -/
theorem c67_length_mismatch {env : Env ℝ} {R : FltResults} (h : Returned R)
    (ht : R.time.length ≠ R.rf.length) (savepath format : String) :
    ReverbFilter.plotfiltrf env R savepath format = ([], .error .valueError) := by
  obtain ⟨_, _, l3, _⟩ := c28_one_coefficient_per_sample h
  have : saveBlock env s!"Autocorrelation of {R.staname}" [(R.time, R.autoc)]
      s!"{savepath}/Autocorrelation.{format}" [] = ([], .error .valueError) := by
    unfold saveBlock
    simp [List.mapM_cons, pltPlot, l3, ht, bind, Except.bind]
  unfold ReverbFilter.plotfiltrf plotfilt
  rw [this]

/-- C68: running `hkYu` on the output of `ResonanceFilt` always finds sediment: for every record
that is not a straight line the reported sediment thickness is a positive multiple of
`dt·Vs/2`, the thickness resolution of the method. -/
theorem c68_sediment_always_found {R : FltResults} (hR : Returned R) (hx : NotLinear R.rf)
    (hdt : 0 < R.delta) {env : Env ℝ} {rp : Scalar ℝ} {H K : List ℝ}
    {VpMoho : Option (Scalar ℝ)} {VpSed VsSed : Scalar ℝ} {w1 w2 w3 : Option ℝ}
    {r : HkYu.YuResult ℝ}
    (h : HkYu.hkYu env R.toYu rp H K VpMoho (some VpSed) (some VsSed) w1 w2 w3 = .ok r)
    (hVs : 0 < VsSed.val) (hle : VsSed.val ≤ VpSed.val) :
    ∃ L : Nat, 1 ≤ L ∧ r.SedThick = (L : ℝ) * (R.delta * VsSed.val / 2) ∧
      R.delta * VsSed.val / 2 ≤ r.SedThick ∧ 0 ≤ r.Pdelay := by
  obtain ⟨_, L, h1, h2, h3⟩ := c64_always_detects hR hx
  obtain ⟨t1, _, t3⟩ := c23_thickness_delay h hVs hle
  have ht : R.toYu.tlag.val = (L : ℝ) * R.delta := h3
  have hL : (1 : ℝ) ≤ L := by exact_mod_cast h1
  refine ⟨L, h1, by rw [t1, ht]; ring, ?_, ?_⟩
  · rw [t1, ht]
    have := mul_pos hdt hVs
    nlinarith
  · exact (t3 (by rw [ht]; positivity)).1

/-- C68: the two halves fit together: on every non-empty result of `ResonanceFilt` with a
non-empty grid and non-zero velocities, `hkYu` runs. -/
theorem c68_pipeline_runs {R : FltResults} (hR : Returned R) {env : Env ℝ} {rp : Scalar ℝ}
    {H K : List ℝ} {VpMoho VpSed VsSed : Scalar ℝ} {w1 w2 w3 : ℝ}
    (ht : R.time.length = R.rf.length) (hV : VpMoho.val ≠ 0) (hVp : VpSed.val ≠ 0)
    (hVs : VsSed.val ≠ 0) (hH : H ≠ []) (hK : K ≠ [])
    (hdraw : ∀ tb, env.draw tb = .ok ()) :
    ∃ r, HkYu.hkYu env R.toYu rp H K (some VpMoho) (some VpSed) (some VsSed) (some w1) (some w2)
      (some w3) = .ok r := by
  have hn := (returned_eq hR).1
  have hd : ∀ {v : Scalar ℝ}, v.val ≠ 0 → Divisor v := fun {v} h => divisor_real (k := v.kind) h
  refine c25_hkYu_succeeds ?_ ?_ (hd hV) (hd hVs) (hd hVp) hK hH (fun tb _ => hdraw tb)
  · intro h
    have : R.time = [] := h
    rw [this] at ht; simp at ht; omega
  · show R.time.length ≤ R.filteredrf.length
    rw [filteredrf_length hR, ht]

/-- hypotheses of C67 and C68 are met by the sample record -/
example : ∃ R, Returned R ∧ NotLinear R.rf ∧ 0 < R.delta ∧ R.time.length = R.rf.length := by
  obtain ⟨R, h1, h2, h3, _⟩ := sample_resonance
  obtain ⟨t0, t1, e0, e1, _, rfl⟩ := resSyn_of h1
  refine ⟨_, h2, h3, ?_, rfl⟩
  simp only [List.getElem?_cons_zero, List.getElem?_cons_succ, Option.some.injEq] at e0 e1
  simp [resRec, ← e0, ← e1]

end Rfsed.Props
