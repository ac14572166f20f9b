import Verif.Props.ExperimentYu
import Verif.Props.ExperimentRF
import Verif.Props.ResonanceRounded

/-!
# C140: the resonance filter followed by `hkYu`, in arithmetic of precision `ε`
-/

namespace Rfsed.Props
open Rfsed HkZhu Spec Finset ReverbFilter Filter Topology
open Synrf

theorem trough_mono {a : List ℝ} {L : Nat} {δ δ' : ℝ} (h : δ' ≤ δ) (hc : ClearTrough δ a L) : ClearTrough δ' a L :=
  ⟨hc.1, hc.2.1, fun k hk => by have := hc.2.2.1 k hk; linarith, by have := hc.2.2.2; linarith⟩

/-- a trough that is clear at all is clear by a little -/
theorem trough_eventually {a : List ℝ} {L : Nat} (h : ClearTrough 0 a L) (c : ℝ) :
    ∀ᶠ u in 𝓝 (0 : ℝ), ClearTrough (c * u) a L := by
  have ht : Tendsto (fun u : ℝ => c * u) (𝓝 0) (𝓝 0) := by
    have : Continuous fun u : ℝ => c * u := by fun_prop
    simpa using this.tendsto 0
  have small : ∀ g : ℝ, 0 < g → ∀ᶠ u in 𝓝 (0 : ℝ), c * u < g := fun g hg => ht.eventually (Iio_mem_nhds hg)
  have h1 : ∀ᶠ u in 𝓝 (0 : ℝ), ∀ k ∈ Finset.range L, c * u < a.getD k 0 - a.getD (k + 1) 0 := by
    rw [Filter.eventually_all_finset]
    intro k hk
    have := h.2.2.1 k (mem_range.1 hk)
    exact small _ (by linarith)
  have h2 := small (a.getD (L + 1) 0 - a.getD L 0) (by have := h.2.2.2; linarith)
  filter_upwards [h1, h2] with u a1 a2
  exact ⟨h.1, h.2.1, fun k hk => by have := a1 k (mem_range.2 hk); linarith, by linarith⟩

/-- a trough stays where it is when the samples move by at most `η` -/
theorem trough_near {a b : List ℝ} {L : Nat} {δ η : ℝ} (hl : b.length = a.length)
    (hn : ∀ k < a.length, |b.getD k 0 - a.getD k 0| ≤ η) (h : ClearTrough (δ + 2 * η) a L) : ClearTrough δ b L := by
  obtain ⟨c1, c2, c3, c4⟩ := h
  refine ⟨c1, by omega, fun k hk => ?_, ?_⟩
  · have n1 := abs_le.1 (hn k (by omega))
    have n2 := abs_le.1 (hn (k + 1) (by omega))
    have := c3 k hk
    linarith
  · have n1 := abs_le.1 (hn L (by omega))
    have n2 := abs_le.1 (hn (L + 1) (by omega))
    linarith

/-- the size of a difference of records whose samples are near -/
theorem within_size {e : ℝ} {x y : List ℝ} (h : SamplesWithin e x y) (he : 0 ≤ e) :
    size x.length (fun m => y.getD m 0 - x.getD m 0) ≤ √(x.length) * e := by
  have hs := (samplesWithin_iff.1 h).2
  unfold size
  rw [← Real.sqrt_sq he, ← Real.sqrt_mul (Nat.cast_nonneg _)]
  apply Real.sqrt_le_sqrt
  unfold energy
  have : ∑ m ∈ range x.length, (y.getD m 0 - x.getD m 0) ^ 2 ≤ ∑ m ∈ range x.length, e ^ 2 := by
    refine sum_le_sum (fun m hm => ?_)
    have := hs m (mem_range.1 hm)
    exact sq_le_sq.2 (by rw [abs_of_nonneg he]; exact this.le)
  simpa using this

/-- the resonance filter in arithmetic of precision `ε`, on a record within `C ε` of the exact one -/
theorem resonance_near {Q : FltResults} {L : Nat} (h : Returned Q) (hx : NotLinear Q.rf) (hc : ClearTrough 0 Q.autoc L)
    {C : ℝ} (hC : 0 ≤ C) :
    ∃ C' > 0, ∃ δ > 0, ∀ ε, 0 < ε → ε ≤ δ → ∀ x' ac r tlag out, SamplesWithin (C * ε) Q.rf x' →
      Nonempty (ResonanceRun ε x' Q.delta ac r tlag out) →
      SamplesWithin (C' * ε) Q.filteredrf out ∧ |tlag - Q.tlag.val| ≤ C' * ε ∧ |r - Q.r| ≤ C' * ε := by
  obtain ⟨D, hD⟩ := exists_detrended Q.rf
  obtain ⟨hn0, hdel, -⟩ := returned_eq h
  have pE := energy_pos hD hx
  rw [autocorr_lagSum hD.1, lagSum_zero] at pE
  set n := Q.rf.length with hn
  set N := √(n : ℝ) with hN
  have hNpos : 0 < N := Real.sqrt_pos.2 (by exact_mod_cast hn0)
  set d := size n (fun m => D.getD m 0) with hd
  have hd0 : 0 < d := Real.sqrt_pos.2 pE
  set S := size n (smp Q.rf) with hS
  have hS0 : 0 ≤ S := size_nonneg _ _
  have hstd : d = N * stdDev D := std_detrended hD
  have hsd : stdDev D = d / N := by rw [hstd]; field_simp
  set κ := 4 * (N * C) / d with hκ
  set ρ := 2 * (S + N * C) / d with hρ
  have hκ0 : 0 ≤ κ := by positivity
  have hρ0 : 0 ≤ ρ := by positivity
  set C' := (16 + 10 * L) * (S + N * C) + N * (6 * C) + |Q.tlag.val| + 8 * ρ + κ + 1 with hC'
  have hC'0 : 0 < C' := by positivity
  have ev : ∀ᶠ u in 𝓝 (0 : ℝ), u < 1 ∧ u < 1 / (100 * (n : ℝ)) ∧ N * C * u < d / 2 ∧
      ClearTrough ((16 * ρ + 2 * κ) * u) Q.autoc L := by
    have hn1 : (0 : ℝ) < 1 / (100 * (n : ℝ)) := by
      have : (0 : ℝ) < n := by exact_mod_cast hn0
      positivity
    have ht : Tendsto (fun u : ℝ => N * C * u) (𝓝 0) (𝓝 0) := by
      have : Continuous fun u : ℝ => N * C * u := by fun_prop
      simpa using this.tendsto 0
    filter_upwards [Iio_mem_nhds zero_lt_one, Iio_mem_nhds hn1, ht.eventually (Iio_mem_nhds (half_pos hd0)),
      trough_eventually hc (16 * ρ + 2 * κ)] with u a b c e
    exact ⟨a, b, c, e⟩
  obtain ⟨δ, hδ, hev⟩ := exists_radius ev
  refine ⟨C', hC'0, δ, hδ, ?_⟩
  rintro ε hε hεδ x' ac r tlag out hx' ⟨run⟩
  obtain ⟨e1, e2, e3, e4⟩ := hev ε hε.le hεδ
  have hl : x'.length = n := (samplesWithin_iff.1 hx').1.symm
  have hCε : 0 ≤ C * ε := by positivity
  have hν := within_size hx' hCε
  rw [← hn, ← hN] at hν
  set ν := size n (fun m => x'.getD m 0 - Q.rf.getD m 0) with hνd
  have hν' : ν ≤ N * C * ε := by rw [mul_assoc]; exact hν
  -- the exact filter on the computed record
  obtain ⟨Q', hQ', hrf', -, hdel'⟩ := c28_succeeds_synth x' [0, Q.delta] (by
    intro e
    rw [e] at hl
    simp at hl
    omega) (by simp)
  have hdel' : Q'.delta = Q.delta := by rw [hdel']; simp
  have hret : Returned Q' := Or.inr ⟨_, _, hQ', by rw [hdel']; exact hdel⟩
  obtain ⟨D', hD'⟩ := exists_detrended x'
  have hdd : size n (fun m => D'.getD m 0 - D.getD m 0) ≤ ν := Real.sqrt_le_sqrt (detrend_noise hl hD hD')
  have hD'half : d / 2 ≤ size n (fun m => D'.getD m 0) := by
    have h1 := size_le n (fun m => D.getD m 0) (fun m => D'.getD m 0)
    rw [size_sub_comm] at h1
    linarith
  have hnl : NotLinear x' := by
    rintro ⟨a, b, hab⟩
    have hz : IsDetrended x' (List.replicate x'.length (0 : ℝ)) := by
      have hzero : ∀ i, (List.replicate x'.length (0 : ℝ)).getD i 0 = 0 := by
        intro i
        rw [List.getD, List.getElem?_replicate]
        split <;> rfl
      refine ⟨by simp, ⟨a, b, fun i hi => ?_⟩, ?_, ?_⟩
      · rw [hzero, sub_zero]; exact hab i hi
      · exact sum_eq_zero (fun i _ => hzero i)
      · exact sum_eq_zero (fun i _ => by rw [hzero, mul_zero])
    have e : D' = List.replicate x'.length (0 : ℝ) := isDetrended_unique hD' hz rfl ⟨0, 0, fun i _ => by ring⟩
    have : size n (fun m => D'.getD m 0) = 0 := by
      rw [e]
      have hzero : ∀ i, (List.replicate x'.length (0 : ℝ)).getD i 0 = 0 := by
        intro i
        rw [List.getD, List.getElem?_replicate]
        split <;> rfl
      unfold size energy
      simp only [hzero]
      simp
    linarith
  have hrms : N * rms Q.rf x' = ν := (rms_energy hl).symm
  have hrms' : rms Q.rf x' = ν / N := by rw [← hrms]; field_simp
  have hη : 4 * rms Q.rf x' / stdDev D ≤ κ * ε := by
    rw [hrms', hsd, show 4 * (ν / N) / (d / N) = 4 * ν / d by field_simp, hκ, div_mul_eq_mul_div]
    exact div_le_div_of_nonneg_right (by linarith) hd0.le
  have hκε : 0 ≤ κ * ε := by positivity
  have hρε : 0 ≤ ρ * ε := by positivity
  have hnl' : NotLinear Q'.rf := by rw [hrf']; exact hnl
  obtain ⟨f1, f2, f3, f4⟩ := c115_filter (L := L) h hret (by rw [hrf']; exact hl) hdel' hD hx hnl'
    (by rw [hrf']; exact trough_mono (by linarith) e4)
  have hauto := c115_autoc h hret (by rw [hrf']; exact hl) hD hx hnl'
  rw [hrf'] at f3 f4 hauto
  -- the size of the computed record
  have hS' : size n (smp x') ≤ S + N * C := by
    have h1 := size_le n (smp x') (smp Q.rf)
    have h2 : size n (fun m => smp x' m - smp Q.rf m) = ν := rfl
    have h3 : N * C * ε ≤ N * C * 1 := mul_le_mul_of_nonneg_left e1.le (by positivity)
    linarith
  have hratio : size n (smp x') / size n (smp D') ≤ ρ := by
    rw [hρ, show 2 * (S + N * C) / d = (S + N * C) / (d / 2) by field_simp]
    exact div_le_div₀ (by positivity) hS' (by linarith) hD'half
  have hal : Q.autoc.length = n := (c30_autoc h hD).1
  have hal' : Q'.autoc.length = n := by rw [(c30_autoc hret (by rw [hrf']; exact hD')).1, hrf', hl]
  have r8 : 8 * ε * (size n (smp x') / size n (smp D')) ≤ 8 * (ρ * ε) := by
    have := mul_le_mul_of_nonneg_left hratio (show (0 : ℝ) ≤ 8 * ε by positivity)
    linarith
  have hclear : ClearTrough (2 * (8 * ε * (size Q'.rf.length (smp Q'.rf) / size Q'.rf.length (smp D')))) Q'.autoc L := by
    rw [hrf', hl]
    refine trough_near (η := κ * ε) (hal'.trans hal.symm) (fun k hk => (hauto k (by omega)).trans hη) ?_
    exact trough_mono (by linarith) e4
  have run' : ResonanceRun ε Q'.rf Q'.delta ac r tlag out := by rw [hrf', hdel']; exact run
  obtain ⟨g1, g2, g3, g4, g5⟩ := c133_filter hret run' (by rw [hrf']; exact hD') hnl' hε.le
    (by
      have : (0 : ℝ) < n := by exact_mod_cast hn0
      rw [hrf', hl]
      have := mul_le_mul_of_nonneg_right e2.le this.le
      rw [show (1 : ℝ) / (100 * n) * n = 1 / 100 by field_simp] at this
      exact this) hclear
  rw [hrf', hl] at g3 g5
  have hfl : Q.filteredrf.length = n := filteredrf_length h
  have hfl' : Q'.filteredrf.length = n := by rw [filteredrf_length hret, hrf', hl]
  have hrest : 0 ≤ |Q.tlag.val| * ε := by positivity
  have eC : C' * ε = (16 + 10 * L) * (S + N * C) * ε + N * (6 * C) * ε + |Q.tlag.val| * ε + 8 * (ρ * ε) + κ * ε + ε := by
    rw [hC']; ring
  have p1 : 0 ≤ (16 + 10 * (L : ℝ)) * (S + N * C) * ε := by positivity
  have p2 : 0 ≤ N * (6 * C) * ε := by positivity
  refine ⟨samplesWithin_iff.2 ⟨by rw [g4, hfl, hfl'], fun m hm => ?_⟩, ?_, ?_⟩
  · rw [hfl] at hm
    have a1 := abs_le_size (fun m => smp out m - smp Q'.filteredrf m) hm
    have a2 : |smp Q'.filteredrf m - smp Q.filteredrf m| ≤ N * (6 * C) * ε := by
      have b1 := rms_energy (x := Q.filteredrf) (y := Q'.filteredrf) (by rw [hfl, hfl'])
      rw [hfl] at b1
      have b2 := abs_le_size (fun m => Q'.filteredrf.getD m 0 - Q.filteredrf.getD m 0) hm
      have b3 : size n (fun m => Q'.filteredrf.getD m 0 - Q.filteredrf.getD m 0) = N * rms Q.filteredrf Q'.filteredrf := b1
      rw [b3] at b2
      refine le_trans b2 ?_
      have b4 : rms Q.rf x' ≤ C * ε := by
        rw [hrms', div_le_iff₀ hNpos]
        linarith
      rw [mul_assoc]
      exact mul_le_mul_of_nonneg_left (by linarith) hNpos.le
    have a3 : ε * (16 + 10 * (L : ℝ)) * size n (smp x') ≤ (16 + 10 * L) * (S + N * C) * ε := by
      have := mul_le_mul_of_nonneg_left hS' (show (0 : ℝ) ≤ ε * (16 + 10 * L) by positivity)
      linarith
    have a4 : |smp out m - smp Q.filteredrf m| ≤ |smp out m - smp Q'.filteredrf m| +
        |smp Q'.filteredrf m - smp Q.filteredrf m| := abs_sub_le _ _ _
    have a5 : |smp out m - smp Q'.filteredrf m| ≤ ε * (16 + 10 * (L : ℝ)) * size n (smp x') := le_trans a1 g5
    rw [eC]
    linarith
  · rw [f1] at g2
    rw [eC]
    linarith
  · have := abs_sub_le r Q'.r Q.r
    rw [eC]
    linarith

/-- **C140** The resonance filter and `hkYu`: if the trough of the exact autocorrelation is clear and the exact stacking is
decided, then the filter in arithmetic of precision `ε`, applied to a record within `C ε` of the exact one, followed by
`hkYu` in floating-point arithmetic of precision `ε`, ends with the same best model. -/
theorem c140_resonance {Q : FltResults} {L : Nat} (hQ : Returned Q) (hx : NotLinear Q.rf) (hc : ClearTrough 0 Q.autoc L)
    {env : Env ℝ} {p VpM VpS VsS : Scalar ℝ} {H K : List ℝ} {w1 w2 w3 : ℝ} {r : HkYu.YuResult ℝ}
    (h : HkYu.hkYu env Q.toYu p H K (some VpM) (some VpS) (some VsS) (some w1) (some w2) (some w3) = .ok r)
    (hlen : Q.time.length ≤ Q.rf.length) (hvs : VsS.val ≠ 0) (hvp : VpS.val ≠ 0)
    (hS : ∀ k ∈ K, p.val ^ 2 < (k / VpM.val) ^ 2) (hP : p.val ^ 2 < (1 / VpM.val) ^ 2)
    (hclear : ∀ k ∈ K, ∀ y ∈ H, ClearTimes Q.time
      (tPs p.val VpM.val y k + sedimentDelay Q.tlag.val VpS.val VsS.val)
      (tPpPs p.val VpM.val y k + Q.tlag.val - sedimentDelay Q.tlag.val VpS.val VsS.val)
      (tPsPs p.val VpM.val y k + Q.tlag.val) 0)
    (hbest : Margin 0 r.stackvaluesSubSed r.bestIdx) {C : ℝ} (hC : 0 ≤ C) :
    ∃ C' > 0, ∃ δ > 0, ∀ ε, 0 < ε → ε ≤ δ → ∀ x' ac s, SamplesWithin (C * ε) Q.rf x' → ∀ R : Rounding, R.u ≤ ε →
      ∀ (env' : Env (FL R)) (flt' : HkYu.FltInput (FL R)) (H' K' : List (FL R)) (p' VpM' VpS' VsS' : Scalar (FL R))
        (v1 v2 v3 : FL R),
        Nonempty (ResonanceRun ε x' Q.delta ac s flt'.tlag.val.val (flt'.filteredrf.map FL.val)) →
        flt'.time.map FL.val = Q.time → H'.map FL.val = H → K'.map FL.val = K →
        p'.val.val = p.val → VpM'.val.val = VpM.val → VpS'.val.val = VpS.val → VsS'.val.val = VsS.val →
        v1.val = w1 → v2.val = w2 → v3.val = w3 →
        (∀ tb, tb ≠ [] → env'.draw tb = .ok ()) →
        ∃ r', HkYu.hkYu env' flt' p' H' K' (some VpM') (some VpS') (some VsS') (some v1) (some v2) (some v3) = .ok r' ∧
          |r'.Pdelay.val - r.Pdelay| ≤ C' * ε ∧
          NearTable (C' * ε) r.stackvaluesSubSed (r'.stackvaluesSubSed.map exactRow) ∧ r'.bestIdx = r.bestIdx := by
  obtain ⟨C1, hC1, δ1, hδ1, g1⟩ := resonance_near hQ hx hc hC
  obtain ⟨C2, hC2, δ2, hδ2, g2⟩ := c140_hkYu h (by
    show Q.time.length ≤ Q.filteredrf.length
    rw [filteredrf_length hQ]
    exact hlen) hvs hvp hS hP hclear hbest hC1.le
  refine ⟨C2, hC2, min δ1 δ2, lt_min hδ1 hδ2, ?_⟩
  intro ε hε hεδ x' ac s hx' R hR env' flt' H' K' p' VpM' VpS' VsS' v1 v2 v3 hrun ht hH hK hp hVM hVS hVs h1 h2 h3 hdraw
  obtain ⟨a1, a2, -⟩ := g1 ε hε (hεδ.trans (min_le_left _ _)) x' ac s _ _ hx' hrun
  exact g2 ε hε (hεδ.trans (min_le_right _ _)) R hR env' flt' H' K' p' VpM' VpS' VsS' v1 v2 v3 a1 ht a2 hH hK hp hVM hVS hVs
    h1 h2 h3 hdraw

end Rfsed.Props
