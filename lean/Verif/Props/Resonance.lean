import Verif.Proofs.Resonance3
import Mathlib.Tactic.IntervalCases

/-!
# C28–C35, C64–C67: the resonance filter (`ResonanceFilt`)
-/

namespace Rfsed.Props
open Rfsed Rfsed.Spec Finset

/-- `R` is a dictionary returned by one of the two `ResonanceFilt` functions (for the synthetic
one: with a time axis whose first two entries differ). -/
def Returned (R : FltResults) : Prop :=
  (∃ env st pre, ReverbFilter.ResonanceFilt env st pre = .ok R) ∨
  (∃ rf time, SynthAnalysis.ResonanceFilt rf time = .ok R ∧ R.delta ≠ 0)

theorem returned_eq {R : FltResults} (h : Returned R) :
    0 < R.rf.length ∧ R.delta ≠ 0 ∧ R = resRec R.rf R.delta R.time R.staname := by
  rcases h with ⟨env, st, pre, h⟩ | ⟨rf, time, h, hd⟩
  · obtain ⟨tr0, S, data, _, _, _, h4, h5, rfl⟩ := resRev_of h
    exact ⟨h5, h4, rfl⟩
  · obtain ⟨t0, t1, _, _, h5, rfl⟩ := resSyn_of h
    exact ⟨h5, hd, rfl⟩

/-- all facts in one place -/
theorem returned_facts {R : FltResults} (h : Returned R) {D : List ℝ} (hD : IsDetrended R.rf D) :
    0 < R.rf.length ∧ R.delta ≠ 0 ∧ R.autoc = acOf D ∧
    ∃ L : Nat, R.tlag.val = (L : ℝ) * R.delta ∧
      (R.r = 0 ∧ L = 0 ∧ R.tlag = ⟨.py, 0⟩ ∧ (∀ s e, ¬ Trough R.autoc s e) ∨
        ∃ s e, FirstTrough R.autoc s e ∧ L = (s + e) / 2 ∧
          R.tlag.kind = .np ∧ R.r = |R.autoc.getD L 0|) ∧
      (∀ k < R.rf.length, R.resonancefilter.getD k 0 =
        1 + (R.r : ℂ) * W R.rf.length (-((L : ℤ) * k))) ∧
      ∀ m < R.rf.length, R.filteredrf.getD m 0 =
        D.getD m 0 + R.r * periodic D ((m : ℤ) - L) := by
  obtain ⟨hn, hdt, he⟩ := returned_eq h
  have hf := resRec_facts R.time R.staname hn hdt hD
  rw [← he] at hf
  obtain ⟨h1, L, h2, h3, h4, h5⟩ := hf
  exact ⟨hn, hdt, h1, L, h2, by rw [h1]; exact h3, h4, h5⟩

theorem filteredrf_length {R : FltResults} (h : Returned R) :
    R.filteredrf.length = R.rf.length := by
  obtain ⟨_, _, he⟩ := returned_eq h
  rw [he]; simp [resRec, toRe_length, ifft_length]

theorem exists_detrended (x : List ℝ) : ∃ D, IsDetrended x D := ⟨_, detrend_isDetrended x⟩

/-! ## C28 -/

/-- C28: the filter has one coefficient per sample, and coefficient `k` is
`1 + r exp(-2πi f_k tlag)` with the FFT frequency `f_k`. -/
theorem c28_one_coefficient_per_sample {R : FltResults} (h : Returned R) :
    R.resonancefilter.length = R.rf.length ∧ R.filteredrf.length = R.rf.length ∧
    R.autoc.length = R.rf.length ∧
    ∀ k < R.rf.length, R.resonancefilter.getD k 0 =
      1 + (R.r : ℂ) * Complex.exp
        (-(2 * Real.pi * (fftFreq R.rf.length R.delta k : ℂ) * (R.tlag.val : ℂ) * Complex.I)) := by
  obtain ⟨hn, hdt, he⟩ := returned_eq h
  refine ⟨by rw [he]; simp [resRec], filteredrf_length h, ?_, ?_⟩
  · rw [he]; simp [resRec, acOf_length, detrend_length]
  · intro k hk
    have : R.resonancefilter.getD k 0 = 1 + (R.r : ℂ) * Complex.exp (-1 * Complex.I *
      ((2 * Real.pi * (1 / (2 * R.delta) / ((R.rf.length : ℝ) / 2)) *
        (fftIdx R.rf.length k : ℝ) : ℝ) : ℂ) * (R.tlag.val : ℂ)) := by
      conv_lhs => rw [he]
      rw [show (resRec R.rf R.delta R.time R.staname).resonancefilter = _ from rfl]
      have e1 : R.r = (resRec R.rf R.delta R.time R.staname).r := congrArg FltResults.r he
      have e2 : R.tlag = (resRec R.rf R.delta R.time R.staname).tlag :=
        congrArg FltResults.tlag he
      rw [e1, e2]
      exact getD_map_range _ _ _ hk
    rw [this]
    have hn' : (R.rf.length : ℂ) ≠ 0 := by exact_mod_cast hn.ne'
    have hdt' : (R.delta : ℂ) ≠ 0 := by exact_mod_cast hdt
    congr 3
    unfold fftIdx fftFreq
    split_ifs
    · push_cast; field_simp
    · push_cast; field_simp

/-- C28: filtering real data succeeds for every record length and every non-zero sampling
interval; in particular filter and spectrum always have the same shape. -/
theorem c28_succeeds (env : Env ℝ) (st : List (Trace ℝ)) (pre : ℝ) (tr0 : Trace ℝ)
    (rest : List (Trace ℝ)) (data : List ℝ) (more : List (List ℝ)) (h0 : st = tr0 :: rest)
    (hS : env.stack st = .ok (data :: more)) (hdt : tr0.delta ≠ 0) (hn : data ≠ []) :
    ∃ R, ReverbFilter.ResonanceFilt env st pre = .ok R ∧ R.rf = data ∧ R.delta = tr0.delta ∧
      R.staname = tr0.station ∧
      R.time = (List.range tr0.data.length).map (fun i : Nat => tr0.delta * (i : ℝ) - pre) := by
  refine ⟨_, resRev_eq (by rw [h0]; rfl) hS rfl hdt (List.length_pos_of_ne_nil hn),
    rfl, rfl, rfl, ?_⟩
  simp [resRec, timeAxis]

/-- C28, synthetic version. -/
theorem c28_succeeds_synth (rf time : List ℝ) (hn : rf ≠ []) (ht : 2 ≤ time.length) :
    ∃ R, SynthAnalysis.ResonanceFilt rf time = .ok R ∧ R.rf = rf ∧ R.time = time ∧
      R.delta = time.getD 1 0 - time.getD 0 0 := by
  match time, ht with
  | t0 :: t1 :: ts, _ =>
    exact ⟨_, resSyn_eq rfl rfl (List.length_pos_of_ne_nil hn), rfl, rfl, rfl⟩

/-! ## C29 -/

/-- C29: the filtered receiver function is the detrended stack plus `r` times the detrended
stack delayed by `tlag = L·dt` (circularly). -/
theorem c29_delayed_copy {R : FltResults} (h : Returned R) {D : List ℝ}
    (hD : IsDetrended R.rf D) :
    ∃ L : Nat, R.tlag.val = (L : ℝ) * R.delta ∧ L < R.rf.length ∧
      R.filteredrf.length = R.rf.length ∧
      ∀ m < R.rf.length, R.filteredrf.getD m 0 =
        D.getD m 0 + R.r * periodic D ((m : ℤ) - L) := by
  obtain ⟨hn, hdt, hac, L, h2, h3, h4, h5⟩ := returned_facts h hD
  refine ⟨L, h2, ?_, filteredrf_length h, h5⟩
  rcases h3 with ⟨_, h, _⟩ | ⟨s, e, hf, hL, _⟩
  · omega
  · have := hf.1.2.2.1
    have := hf.1.2.1
    rw [hac, acOf_length, hD.1] at *
    omega

/-- C29: before the lag the delayed copy is taken from the END of the record: the first `L`
samples of the output are contaminated by the last `L` samples of the input. -/
theorem c29_wraps_around {R : FltResults} (h : Returned R) {D : List ℝ}
    (hD : IsDetrended R.rf D) :
    ∃ L : Nat, R.tlag.val = (L : ℝ) * R.delta ∧
      (∀ m < R.rf.length, L ≤ m →
        R.filteredrf.getD m 0 = D.getD m 0 + R.r * D.getD (m - L) 0) ∧
      (∀ m < R.rf.length, m < L →
        R.filteredrf.getD m 0 = D.getD m 0 + R.r * D.getD (R.rf.length + m - L) 0) := by
  obtain ⟨L, h1, h2, _, h3⟩ := c29_delayed_copy h hD
  refine ⟨L, h1, ?_, ?_⟩
  · intro m hm hl
    rw [h3 m hm, periodic, hD.1, Int.emod_eq_of_lt (by omega) (by omega)]
    congr 3; omega
  · intro m hm hl
    rw [h3 m hm, periodic, hD.1, ← Int.add_emod_right, Int.emod_eq_of_lt (by omega) (by omega)]
    congr 3; omega

/-! ## C30 -/

/-- The data are not a straight line. -/
def NotLinear (x : List ℝ) : Prop := ¬ ∃ a b : ℝ, ∀ i < x.length, x.getD i 0 = a + b * (i : ℝ)

theorem energy_pos {x D : List ℝ} (hD : IsDetrended x D) (hx : NotLinear x) :
    0 < autocorr D 0 := by
  refine lt_of_le_of_ne (sq_nonneg_sum D) (fun hz => hx ?_)
  obtain ⟨hl, ⟨a, b, hab⟩, _⟩ := hD
  refine ⟨a, b, fun i hi => ?_⟩
  have := (autocorr_zero_iff D).1 hz.symm i (by omega)
  have h := hab i hi
  rw [this] at h
  linarith

/-- C30: `autoc` is the autocorrelation of the detrended data divided by its value at lag 0. -/
theorem c30_autoc {R : FltResults} (h : Returned R) {D : List ℝ} (hD : IsDetrended R.rf D) :
    R.autoc.length = R.rf.length ∧
    ∀ k < R.rf.length, R.autoc.getD k 0 = autocorr D k / autocorr D 0 := by
  obtain ⟨hn, hdt, hac, _⟩ := returned_facts h hD
  rw [hac, acOf_length, hD.1]
  refine ⟨rfl, fun k hk => ?_⟩
  exact acOf_getD D (by rw [hD.1]; exact hk)

/-- C30: for data that are not a straight line, `autoc[0] = 1` and every other entry is
strictly between `-1` and `1`. -/
theorem c30_autoc_bounds {R : FltResults} (h : Returned R) (hx : NotLinear R.rf) :
    R.autoc.getD 0 0 = 1 ∧ ∀ k, 1 ≤ k → k < R.rf.length → |R.autoc.getD k 0| < 1 := by
  obtain ⟨D, hD⟩ := exists_detrended R.rf
  obtain ⟨hn, _⟩ := returned_facts h hD
  obtain ⟨_, hc⟩ := c30_autoc h hD
  have hp := energy_pos hD hx
  refine ⟨by rw [hc 0 hn, div_self hp.ne'], fun k hk1 hk => ?_⟩
  rw [hc k hk, abs_div, abs_of_pos hp, div_lt_one hp]
  exact autocorr_lt hp hk1

/-- C30: the reported strength satisfies `0 ≤ r < 1` for every record, and `tlag` is a whole
number `L` of samples with `1 ≤ L ≤ n - 2` when a trough was found; otherwise both are zero. -/
theorem c30_ranges {R : FltResults} (h : Returned R) :
    0 ≤ R.r ∧ R.r < 1 ∧ ∃ L : Nat, R.tlag.val = (L : ℝ) * R.delta ∧
      ((∃ s e, Trough R.autoc s e) → 1 ≤ L ∧ L + 2 ≤ R.rf.length) ∧
      ((¬ ∃ s e, Trough R.autoc s e) → L = 0 ∧ R.r = 0) := by
  obtain ⟨D, hD⟩ := exists_detrended R.rf
  obtain ⟨hn, hdt, hac, L, h2, h3, h4, h5⟩ := returned_facts h hD
  rcases h3 with ⟨hr, _, _, hno⟩ | ⟨s, e, hf, hL, _, hr⟩
  · exact ⟨hr.ge, hr ▸ one_pos, L, h2, fun ⟨s, e, ht⟩ => absurd ht (hno s e), fun _ => ⟨by assumption, hr⟩⟩
  · have hb : 1 ≤ L ∧ L + 2 ≤ R.rf.length := by
      have h1 := hf.1.1
      have h2 := hf.1.2.1
      have h3 := hf.1.2.2.1
      rw [hac, acOf_length, hD.1] at h3
      omega
    refine ⟨hr ▸ abs_nonneg _, ?_, L, h2, fun _ => hb, fun hno => absurd ⟨s, e, hf.1⟩ hno⟩
    rw [hr]
    have hp : 0 < autocorr D 0 := by
      refine lt_of_le_of_ne (sq_nonneg_sum D) (fun hz => ?_)
      have hd := hf.1.2.2.2.2.1
      have h1 := hf.1.1
      have h2 := hf.1.2.1
      have h3 := hf.1.2.2.1
      rw [hac, acOf_length] at h3
      rw [hac, acOf_getD D (by omega), acOf_getD D (by omega), ← hz] at hd
      simp at hd
    rw [hac, acOf_getD D (by rw [hD.1]; omega), abs_div, abs_of_pos hp, div_lt_one hp]
    exact autocorr_lt hp hb.1

/-! ## C31 -/

/-- C31: if the autocorrelation has no trough, the strength and the lag are zero, the filter is
identically one and the output is the detrended data. -/
theorem c31_no_trough {R : FltResults} (h : Returned R) {D : List ℝ} (hD : IsDetrended R.rf D)
    (hno : ∀ s e, ¬ Trough R.autoc s e) :
    R.r = 0 ∧ R.tlag.val = 0 ∧ (∀ c ∈ R.resonancefilter, c = 1) ∧ R.filteredrf = D := by
  obtain ⟨hn, hdt, hac, L, h2, h3, h4, h5⟩ := returned_facts h hD
  have hlen := (c28_one_coefficient_per_sample h).1
  rcases h3 with ⟨hr, hL, _, _⟩ | ⟨s, e, hf, _⟩
  · refine ⟨hr, by rw [h2, hL]; simp, ?_, ?_⟩
    · intro c hc
      obtain ⟨i, hi, rfl⟩ := List.getElem_of_mem hc
      have := h4 i (by omega)
      rw [List.getD_eq_getElem?_getD, List.getElem?_eq_getElem hi] at this
      simpa [hr] using this
    · apply ext_getD (0 : ℝ) (by rw [filteredrf_length h, hD.1])
      intro i hi
      rw [filteredrf_length h] at hi
      rw [h5 i hi, hr]; simp
  · exact absurd hf.1 (hno s e)

/-! ## C32 -/

/-- C32: if the detrended data are a signal `S` carrying a (circular) reverberation train of
exactly the detected strength and lag, the output is `S`. -/
theorem c32_cancels_reverberation {R : FltResults} (h : Returned R) {D S : List ℝ}
    (hD : IsDetrended R.rf D) (hS : S.length = R.rf.length) (L : Nat)
    (hL : R.tlag.val = (L : ℝ) * R.delta)
    (hrev : ∀ m < R.rf.length, D.getD m 0 = S.getD m 0 - R.r * periodic D ((m : ℤ) - L)) :
    R.filteredrf = S := by
  obtain ⟨L', h1, h2, h3, h4⟩ := c29_delayed_copy h hD
  have hdt := (returned_eq h).2.1
  have : L' = L := by
    have := h1.symm.trans hL
    have := mul_right_cancel₀ hdt this
    exact_mod_cast this
  subst this
  apply ext_getD (0 : ℝ) (by rw [h3, hS])
  intro i hi
  rw [h3] at hi
  rw [h4 i hi]
  conv_lhs => rw [hrev i hi]
  ring

/-- The filter is invertible: if two runs report the same strength and lag (and the same
sampling) and give the same output, their detrended inputs were the same. -/
theorem c32_filter_loses_nothing {R R' : FltResults} (h : Returned R) (h' : Returned R')
    {D D' : List ℝ} (hD : IsDetrended R.rf D) (hD' : IsDetrended R'.rf D')
    (hr : R.r = R'.r) (hdt : R.delta = R'.delta) (ht : R.tlag.val = R'.tlag.val)
    (hf : R.filteredrf = R'.filteredrf) : D = D' := by
  obtain ⟨L, h1, h2, h3, h4⟩ := c29_delayed_copy h hD
  obtain ⟨L', h1', h2', h3', h4'⟩ := c29_delayed_copy h' hD'
  have hd0 := (returned_eq h).2.1
  have hn := (returned_eq h).1
  obtain ⟨hr0, hr1, _⟩ := c30_ranges h
  have hLL : L = L' := by
    rw [h1, h1', ← hdt] at ht
    exact_mod_cast mul_right_cancel₀ hd0 ht
  subst hLL
  have hlen : R.rf.length = R'.rf.length := by rw [← h3, ← h3', hf]
  have hDl : D.length = D'.length := by rw [hD.1, hD'.1, hlen]
  -- `E = D - D'` satisfies `E[m] = -r E[m-L]`, so its energy is `r²` times itself
  have hE : ∀ m < R.rf.length, D.getD m 0 - D'.getD m 0 =
      -(R.r * (periodic D ((m : ℤ) - L) - periodic D' ((m : ℤ) - L))) := by
    intro m hm
    have a := h4 m hm
    have b := h4' m (by omega)
    rw [hf, b, ← hr] at a
    linarith
  set E : List ℝ := (List.range D.length).map (fun i : Nat => D.getD i 0 - D'.getD i 0) with hEd
  have hEl : E.length = D.length := by simp [hEd]
  have hEg : ∀ i < D.length, E.getD i 0 = D.getD i 0 - D'.getD i 0 := fun i hi =>
    getD_map_range _ _ _ hi
  have hEp : ∀ j : ℤ, periodic E j = periodic D j - periodic D' j := by
    intro j
    unfold periodic
    rw [hEl, ← hDl, hEg]
    have := cyc_lt (n := D.length) (by rw [hD.1]; exact hn) j
    exact this
  have hs := sum_periodic E (by rw [hEl, hD.1]; exact hn) L (fun x => x ^ 2)
  have hs2 : ∑ m ∈ range E.length, E.getD m 0 ^ 2 =
      R.r ^ 2 * ∑ m ∈ range E.length, periodic E ((m : ℤ) - L) ^ 2 := by
    rw [Finset.mul_sum]
    apply Finset.sum_congr rfl
    intro m hm
    have hm := Finset.mem_range.1 hm
    rw [hEl] at hm
    rw [hEp, hEg m hm, hE m (by rw [← hD.1]; exact hm)]
    ring
  rw [hs] at hs2
  have hz : ∑ m ∈ range E.length, E.getD m 0 ^ 2 = 0 := by
    have hnn := Finset.sum_nonneg (s := range E.length) (f := fun m => E.getD m 0 ^ 2)
      (fun i _ => sq_nonneg _)
    have hlt : R.r ^ 2 < 1 := by nlinarith
    by_contra hne
    have hpos := lt_of_le_of_ne hnn (Ne.symm hne)
    have := mul_lt_mul_of_pos_right hlt hpos
    rw [one_mul] at this
    linarith
  have hzz := (Finset.sum_eq_zero_iff_of_nonneg (fun i _ => sq_nonneg _)).1 hz
  apply ext_getD (0 : ℝ) hDl
  intro i hi
  have := pow_eq_zero_iff two_ne_zero |>.1 (hzz i (Finset.mem_range.2 (by omega)))
  rw [hEg i hi] at this
  linarith

/-! ## C33 -/

/-- C33: adding a constant or a linear trend to the data changes nothing but `rf` itself. -/
theorem c33_trend_invariance {R R' : FltResults} (h : Returned R) (h' : Returned R')
    (hl : R.rf.length = R'.rf.length) (hdt : R.delta = R'.delta) (a b : ℝ)
    (htrend : ∀ i < R.rf.length, R'.rf.getD i 0 = R.rf.getD i 0 + (a + b * (i : ℝ))) :
    R'.filteredrf = R.filteredrf ∧ R'.r = R.r ∧ R'.tlag = R.tlag ∧ R'.autoc = R.autoc ∧
      R'.resonancefilter = R.resonancefilter := by
  obtain ⟨_, _, he⟩ := returned_eq h
  obtain ⟨_, _, he'⟩ := returned_eq h'
  have hdd : detrend (R'.rf.map (fun x => x - npMean R'.rf)) =
      detrend (R.rf.map (fun x => x - npMean R.rf)) := by
    rw [detrend_of (detrend_isDetrended R'.rf), detrend_of (detrend_isDetrended R.rf)]
    refine isDetrended_unique (detrend_isDetrended _) (detrend_isDetrended _) hl.symm
      ⟨a, b, fun i hi => ?_⟩
    rw [htrend i (by omega)]; ring
  rw [he, he', ← hdt]
  simp only [resRec, hdd, ← hl, and_self]

/-- C33: the filtered receiver function has zero mean. -/
theorem c33_zero_mean {R : FltResults} (h : Returned R) : R.filteredrf.sum = 0 := by
  obtain ⟨D, hD⟩ := exists_detrended R.rf
  obtain ⟨L, h1, h2, h3, h4⟩ := c29_delayed_copy h hD
  have hn := (returned_eq h).1
  rw [list_sum_getD, h3, Finset.sum_congr rfl (fun m hm => h4 m (Finset.mem_range.1 hm)),
    Finset.sum_add_distrib, ← Finset.mul_sum, hD.2.2.1]
  have := sum_periodic D (by rw [hD.1]; exact hn) L (fun x => x)
  rw [hD.1] at this
  rw [this, hD.2.2.1]; ring

/-! ## C34 -/

/-- C34: the synthetic version applied to the stack of the stream and its regular time axis
gives the same dictionary as the stream version (apart from the station name). -/
theorem c34_versions_agree (env : Env ℝ) (st : List (Trace ℝ)) (pre : ℝ) (R : FltResults)
    (h : ReverbFilter.ResonanceFilt env st pre = .ok R) (ht : 2 ≤ R.time.length) :
    ∃ R', SynthAnalysis.ResonanceFilt R.rf R.time = .ok R' ∧
      R'.filteredrf = R.filteredrf ∧ R'.autoc = R.autoc ∧
      R'.resonancefilter = R.resonancefilter ∧ R'.r = R.r ∧ R'.tlag = R.tlag ∧
      R'.rf = R.rf ∧ R'.time = R.time ∧ R'.delta = R.delta := by
  obtain ⟨tr0, S, data, _, _, _, h4, h5, rfl⟩ := resRev_of h
  simp only [resRec] at ht
  rw [timeAxis, List.length_map, List.length_range] at ht
  have g0 : (timeAxis tr0.delta pre tr0.data.length)[0]? = some (tr0.delta * 0 - pre) := by
    simp [timeAxis, List.getElem?_range (show 0 < tr0.data.length by omega)]
  have g1 : (timeAxis tr0.delta pre tr0.data.length)[1]? = some (tr0.delta * 1 - pre) := by
    simp [timeAxis, List.getElem?_range (show 1 < tr0.data.length by omega)]
  have hs := resSyn_eq (rf := data) g0 g1 h5
  have e : tr0.delta * 1 - pre - (tr0.delta * 0 - pre) = tr0.delta := by ring
  rw [e] at hs
  exact ⟨_, hs, rfl, rfl, rfl, rfl, rfl, rfl, rfl, rfl⟩

/-- C34: the synthetic version needs two time samples. -/
theorem c34_short_time_axis (rf time : List ℝ) (ht : time.length < 2) :
    SynthAnalysis.ResonanceFilt rf time = .error .indexError := by
  have : time[1]? = none := List.getElem?_eq_none (by omega)
  simp [SynthAnalysis.ResonanceFilt, item, this, bind, Except.bind]

/-! ## C35 -/

/-- C35: `tlag` is the midpoint of the first trough of the autocorrelation and `r` the absolute
value there, whether the trough value is negative or positive. -/
theorem c35_first_trough {R : FltResults} (h : Returned R) {s e : Nat}
    (hf : FirstTrough R.autoc s e) :
    R.tlag.val = (((s + e) / 2 : Nat) : ℝ) * R.delta ∧ R.r = |R.autoc.getD s 0| := by
  obtain ⟨D, hD⟩ := exists_detrended R.rf
  obtain ⟨hn, hdt, hac, L, h2, h3, _⟩ := returned_facts h hD
  rcases h3 with ⟨_, _, _, hno⟩ | ⟨s', e', hf', hL, _, hr⟩
  · exact absurd hf.1 (hno s e)
  · have es : s = s' := le_antisymm (hf.2 _ _ hf'.1) (hf'.2 _ _ hf.1)
    subst es
    have ee : e = e' := by
      have a := hf.1; have b := hf'.1
      rcases Nat.lt_trichotomy e e' with hlt | heq | hgt
      · have := b.2.2.2.1 (e + 1) (by have := a.2.1; omega) hlt
        exact absurd this a.2.2.2.2.2.ne'
      · exact heq
      · have := a.2.2.2.1 (e' + 1) (by have := b.2.1; omega) hgt
        exact absurd this b.2.2.2.2.2.ne'
    subst ee
    have hse := hf.1.2.1
    refine ⟨by rw [h2, hL], ?_⟩
    rw [hr, hL, hf.1.2.2.2.1 _ (by omega) (by omega)]

/-- C35: a first trough exists as soon as there is any trough. -/
theorem c35_first_exists {R : FltResults} {s e : Nat} (ht : Trough R.autoc s e) :
    ∃ s' e', FirstTrough R.autoc s' e' := by
  classical
  have hex : ∃ s, ∃ e, Trough R.autoc s e := ⟨s, e, ht⟩
  obtain ⟨e', he'⟩ := Nat.find_spec hex
  exact ⟨Nat.find hex, e', he', fun s'' e'' h => Nat.find_min' hex ⟨e'', h⟩⟩

/-! ## C64: reverberation is always reported -/

/-- C64: for every record that is not exactly a straight line a trough exists, so
"No reverberation detected" is never reported: `tlag` is a positive whole number of samples
(for a positive sampling interval). -/
theorem c64_always_detects {R : FltResults} (h : Returned R) (hx : NotLinear R.rf) :
    (∃ s e, FirstTrough R.autoc s e) ∧
    ∃ L : Nat, 1 ≤ L ∧ L + 2 ≤ R.rf.length ∧ R.tlag.val = (L : ℝ) * R.delta := by
  obtain ⟨D, hD⟩ := exists_detrended R.rf
  obtain ⟨hn, hdt, hac, _⟩ := returned_facts h hD
  obtain ⟨s, e, ht⟩ := exists_trough (by rw [hD.1]; exact hD.2.2.1) (by rw [hD.1]; exact hD.2.2.2)
    (energy_pos hD hx)
  rw [← hac] at ht
  refine ⟨c35_first_exists ht, ?_⟩
  obtain ⟨_, _, L, hL, hb, _⟩ := c30_ranges h
  obtain ⟨h1, h2⟩ := hb ⟨s, e, ht⟩
  exact ⟨L, h1, h2, hL⟩

/-- C64: for a straight line nothing is detected and the output is zero. -/
theorem c64_straight_line {R : FltResults} (h : Returned R) (hx : ¬ NotLinear R.rf) :
    R.r = 0 ∧ R.tlag.val = 0 ∧ ∀ v ∈ R.filteredrf, v = 0 := by
  have hlin := not_not.1 hx
  obtain ⟨a, b, hab⟩ := hlin
  have hD : IsDetrended R.rf ((List.range R.rf.length).map (fun _ : Nat => (0 : ℝ))) := by
    have hg : ∀ i, ((List.range R.rf.length).map (fun _ : Nat => (0 : ℝ))).getD i 0 = 0 := by
      intro i
      by_cases hi : i < R.rf.length
      · exact getD_map_range _ _ _ hi
      · rw [List.getD_eq_getElem?_getD, List.getElem?_eq_none (by simp; omega)]; rfl
    exact ⟨by simp, ⟨a, b, fun i hi => by rw [hg, hab i hi]; ring⟩,
      Finset.sum_eq_zero (fun i _ => hg i),
      Finset.sum_eq_zero (fun i _ => by rw [hg i, mul_zero])⟩
  obtain ⟨hn, hdt, hac, _⟩ := returned_facts h hD
  have hz : ∀ k < R.rf.length, R.autoc.getD k 0 = 0 := by
    intro k hk
    rw [(c30_autoc h hD).2 k hk]
    have : autocorr ((List.range R.rf.length).map (fun _ : Nat => (0 : ℝ))) 0 = 0 := by
      rw [autocorr_zero_iff]
      intro i hi
      simp only [List.length_map, List.length_range] at hi
      exact getD_map_range _ _ _ hi
    rw [this, div_zero]
  have hno : ∀ s e, ¬ Trough R.autoc s e := by
    intro s e ht
    have h1 := ht.2.2.1
    rw [(c30_autoc h hD).1] at h1
    have := ht.2.2.2.2.1
    have := ht.2.1
    rw [hz s (by omega), hz (s - 1) (by omega)] at *
    exact lt_irrefl _ ‹_›
  obtain ⟨r1, r2, _, r4⟩ := c31_no_trough h hD hno
  refine ⟨r1, r2, ?_⟩
  rw [r4]; simp

/-! ## C65: energy -/

/-- C65: filtering changes the energy of the detrended record by a factor between `(1-r)²` and
`(1+r)²`; it never amplifies more than fourfold. -/
theorem c65_energy {R : FltResults} (h : Returned R) {D : List ℝ} (hD : IsDetrended R.rf D) :
    (1 - R.r) ^ 2 * ∑ m ∈ range R.rf.length, D.getD m 0 ^ 2 ≤
      ∑ m ∈ range R.rf.length, R.filteredrf.getD m 0 ^ 2 ∧
    ∑ m ∈ range R.rf.length, R.filteredrf.getD m 0 ^ 2 ≤
      (1 + R.r) ^ 2 * ∑ m ∈ range R.rf.length, D.getD m 0 ^ 2 := by
  obtain ⟨L, h1, h2, h3, h4⟩ := c29_delayed_copy h hD
  have hn := (returned_eq h).1
  obtain ⟨hr0, hr1, _⟩ := c30_ranges h
  have hs := sum_periodic D (by rw [hD.1]; exact hn) L (fun x => x ^ 2)
  rw [hD.1] at hs
  set N := R.rf.length with hN
  set A := ∑ m ∈ range N, D.getD m 0 ^ 2 with hA
  have e1 : ∑ m ∈ range N, R.filteredrf.getD m 0 ^ 2 =
      A + R.r ^ 2 * A + 2 * R.r * ∑ m ∈ range N, D.getD m 0 * periodic D ((m : ℤ) - L) := by
    have : ∀ m ∈ range N, R.filteredrf.getD m 0 ^ 2 = D.getD m 0 ^ 2 +
        R.r ^ 2 * periodic D ((m : ℤ) - L) ^ 2 +
        2 * R.r * (D.getD m 0 * periodic D ((m : ℤ) - L)) := by
      intro m hm; rw [h4 m (Finset.mem_range.1 hm)]; ring
    rw [Finset.sum_congr rfl this, Finset.sum_add_distrib, Finset.sum_add_distrib,
      ← Finset.mul_sum, ← Finset.mul_sum, hs]
  have e2 : ∑ m ∈ range N, D.getD m 0 * periodic D ((m : ℤ) - L) ≤ A := by
    have : ∀ m ∈ range N, D.getD m 0 * periodic D ((m : ℤ) - L) ≤
        (D.getD m 0 ^ 2 + periodic D ((m : ℤ) - L) ^ 2) / 2 := by
      intro m _; nlinarith [sq_nonneg (D.getD m 0 - periodic D ((m : ℤ) - L))]
    have := Finset.sum_le_sum this
    rw [← Finset.sum_div, Finset.sum_add_distrib, hs] at this
    linarith
  have e3 : -A ≤ ∑ m ∈ range N, D.getD m 0 * periodic D ((m : ℤ) - L) := by
    have : ∀ m ∈ range N, -((D.getD m 0 ^ 2 + periodic D ((m : ℤ) - L) ^ 2) / 2) ≤
        D.getD m 0 * periodic D ((m : ℤ) - L) := by
      intro m _; nlinarith [sq_nonneg (D.getD m 0 + periodic D ((m : ℤ) - L))]
    have := Finset.sum_le_sum this
    rw [Finset.sum_neg_distrib, ← Finset.sum_div, Finset.sum_add_distrib, hs] at this
    linarith
  rw [e1]
  constructor <;> nlinarith

/-! ## C66: amplitude scaling -/

theorem autocorr_scale {D D' : List ℝ} (c : ℝ) (hl : D'.length = D.length)
    (h : ∀ i < D.length, D'.getD i 0 = c * D.getD i 0) (k : Nat) :
    autocorr D' k = c ^ 2 * autocorr D k := by
  unfold autocorr
  rw [hl, Finset.mul_sum]
  apply Finset.sum_congr rfl
  intro m hm
  have := Finset.mem_range.1 hm
  rw [h m (by omega), h (m + k) (by omega)]; ring

/-- C66: scaling the data by any non-zero factor scales the filtered receiver function by the
same factor and leaves strength, lag, autocorrelation and filter unchanged. -/
theorem c66_amplitude_scaling {R R' : FltResults} (h : Returned R) (h' : Returned R')
    (hl : R'.rf.length = R.rf.length) (hdt : R'.delta = R.delta) (c : ℝ) (hc : c ≠ 0)
    (hscale : ∀ i < R.rf.length, R'.rf.getD i 0 = c * R.rf.getD i 0) :
    R'.autoc = R.autoc ∧ R'.r = R.r ∧ R'.tlag = R.tlag ∧
      R'.filteredrf = R.filteredrf.map (fun v => c * v) := by
  obtain ⟨D, hD⟩ := exists_detrended R.rf
  obtain ⟨D', hD'⟩ := exists_detrended R'.rf
  have hsc : IsDetrended R'.rf (D.map (fun v => c * v)) := by
    have hg : ∀ i, (D.map (fun v => c * v)).getD i 0 = c * D.getD i 0 :=
      fun i => getD_map_zero (fun v => c * v) (by simp) D i
    obtain ⟨d1, ⟨a, b, d2⟩, d3, d4⟩ := hD
    refine ⟨by simp [d1, hl], ⟨c * a, c * b, fun i hi => ?_⟩, ?_, ?_⟩
    · rw [hg, hscale i (by omega)]
      have := d2 i (by omega)
      linear_combination c * this
    · simp only [hg]; rw [← Finset.mul_sum, hl, d3, mul_zero]
    · have : ∀ i ∈ range R'.rf.length, (i : ℝ) * (D.map (fun v => c * v)).getD i 0 =
          c * ((i : ℝ) * D.getD i 0) := by intro i _; rw [hg]; ring
      rw [Finset.sum_congr rfl this, ← Finset.mul_sum, hl, d4, mul_zero]
  have hDD : ∀ i, (D.map (fun v => c * v)).getD i 0 = c * D.getD i 0 :=
    fun i => getD_map_zero (fun v => c * v) (by simp) D i
  have hac : R'.autoc = R.autoc := by
    apply ext_getD (0 : ℝ) (by rw [(c30_autoc h hD).1, (c30_autoc h' hsc).1, hl])
    intro i hi
    rw [(c30_autoc h' hsc).1] at hi
    rw [(c30_autoc h hD).2 i (by omega), (c30_autoc h' hsc).2 i hi,
      autocorr_scale c (by simp) (fun i _ => hDD i) i,
      autocorr_scale c (by simp) (fun i _ => hDD i) 0, mul_div_mul_left _ _ (pow_ne_zero 2 hc)]
  have hpick : R'.r = R.r ∧ R'.tlag = R.tlag := by
    obtain ⟨_, _, he⟩ := returned_eq h
    obtain ⟨_, _, he'⟩ := returned_eq h'
    have ha1 : R.autoc = acOf (detrend (R.rf.map (fun x => x - npMean R.rf))) :=
      congrArg FltResults.autoc he
    have ha2 : R'.autoc = acOf (detrend (R'.rf.map (fun x => x - npMean R'.rf))) :=
      congrArg FltResults.autoc he'
    have e := ha2.symm.trans (hac.trans ha1)
    rw [he, he', hdt]
    simp only [resRec, e, and_self]
  refine ⟨hac, hpick.1, hpick.2, ?_⟩
  obtain ⟨L, h1, h2, h3, h4⟩ := c29_delayed_copy h hD
  obtain ⟨L', h1', h2', h3', h4'⟩ := c29_delayed_copy h' hsc
  have hLL : L' = L := by
    rw [hpick.2, h1, hdt] at h1'
    exact_mod_cast (mul_right_cancel₀ (returned_eq h).2.1 h1').symm
  subst hLL
  apply ext_getD (0 : ℝ) (by simp [h3, h3', hl])
  intro i hi
  rw [h3', hl] at hi
  rw [h4' i (by omega), getD_map_zero (fun v => c * v) (by simp) R.filteredrf, h4 i hi, hpick.1,
    hDD]
  have hp : periodic (D.map (fun v => c * v)) ((i : ℤ) - L') = c * periodic D ((i : ℤ) - L') := by
    unfold periodic; rw [List.length_map, hDD]
  rw [hp]; ring

/-! ## A concrete record -/

/-- `[1,-1,-1,1]` sampled at 0.5 s has its trough at lag 2 with strength 1/2. -/
theorem sample_resonance : ∃ R, SynthAnalysis.ResonanceFilt [1, -1, -1, 1] [0, 1/2, 1, 3/2] = .ok R ∧
    Returned R ∧ NotLinear R.rf ∧ IsDetrended R.rf [1, -1, -1, 1] ∧ FirstTrough R.autoc 2 2 ∧
    R.r = 1 / 2 ∧ R.tlag.val = 1 ∧
    (R.filteredrf.getD 0 0 = 1/2 ∧ R.filteredrf.getD 1 0 = -1/2 ∧
      R.filteredrf.getD 2 0 = -1/2 ∧ R.filteredrf.getD 3 0 = 1/2) := by
  obtain ⟨R, hR, hrf, ht, hdel⟩ := c28_succeeds_synth [1, -1, -1, 1] [0, 1/2, 1, 3/2]
    (by simp) (by simp)
  have hd : R.delta = 1 / 2 := by rw [hdel]; norm_num
  have hret : Returned R := Or.inr ⟨_, _, hR, by rw [hd]; norm_num⟩
  have hD : IsDetrended R.rf [1, -1, -1, 1] := by
    rw [hrf]
    refine ⟨rfl, ⟨0, 0, fun i _ => by ring⟩, ?_, ?_⟩
    · simp [Finset.sum_range_succ]
    · simp [Finset.sum_range_succ]; norm_num
  have hlen : R.rf.length = 4 := by rw [hrf]; rfl
  have hnl : NotLinear R.rf := by
    rw [hrf]
    rintro ⟨a, b, h⟩
    have h0 := h 0 (by simp); have h1 := h 1 (by simp)
    have h2 := h 2 (by simp)
    norm_num at h0 h1 h2
    linarith
  have hac : ∀ k < 4, R.autoc.getD k 0 = autocorr [1, -1, -1, 1] k / autocorr [1, -1, -1, 1] 0 := by
    intro k hk; exact (c30_autoc hret hD).2 k (by omega)
  have a0 := hac 0 (by omega); have a1 := hac 1 (by omega)
  have a2 := hac 2 (by omega); have a3 := hac 3 (by omega)
  simp [autocorr, Finset.sum_range_succ] at a0 a1 a2 a3
  norm_num at a0 a1 a2 a3
  have hal : R.autoc.length = 4 := by rw [(c30_autoc hret hD).1, hlen]
  have hft : FirstTrough R.autoc 2 2 := by
    refine ⟨⟨by omega, le_refl _, by omega, ?_, ?_, ?_⟩, ?_⟩
    · intro j h1 h2; have : j = 2 := by omega
      rw [this]
    · simp [a1, a2]; norm_num
    · simp [a2, a3]; norm_num
    · intro s' e' ht
      by_contra hc
      have h1 := ht.1
      have h2 := ht.2.1
      have h3 := ht.2.2.1
      have hs : s' = 1 := by omega
      subst hs
      rcases Nat.eq_or_lt_of_le h2 with he | he
      · subst he
        have := ht.2.2.2.2.2
        simp [a1, a2] at this
        norm_num at this
      · have := ht.2.2.2.1 2 (by omega) (by omega)
        simp [a1, a2] at this
  obtain ⟨t1, t2⟩ := c35_first_trough hret hft
  have hr : R.r = 1 / 2 := by rw [t2]; simp [a2]
  have htl : R.tlag.val = 1 := by rw [t1, hd]; norm_num
  obtain ⟨L, w1, w2, w3⟩ := c29_wraps_around hret hD
  have hL : L = 2 := by
    rw [htl, hd] at w1
    have : (L : ℝ) = 2 := by linarith
    exact_mod_cast this
  subst hL
  refine ⟨R, hR, hret, hnl, hD, hft, hr, htl, ?_, ?_, ?_, ?_⟩
  · rw [w3 0 (by omega) (by omega), hr, hlen]; simp; norm_num
  · rw [w3 1 (by omega) (by omega), hr, hlen]; simp; norm_num
  · rw [w2 2 (by omega) (by omega), hr]; simp; norm_num
  · rw [w2 3 (by omega) (by omega), hr]; simp; norm_num

/-- A stream for which `ReverbFilter.ResonanceFilt` returns (hypotheses of `c28_succeeds` and
`c34_versions_agree` are met). -/
example : ∃ (env : Env ℝ) (st : List (Trace ℝ)) (R : FltResults),
    ReverbFilter.ResonanceFilt env st 10 = .ok R ∧ 2 ≤ R.time.length ∧ NotLinear R.rf := by
  let tr : Trace ℝ := { station := "A", channel := "RRF", data := [1, -1, -1, 1], delta := 1/2,
                        starttime := 0, onset := none, slowness := none, backAzimuth := none,
                        distance := none }
  let env : Env ℝ := { km2deg1 := 1, stack := fun s => .ok (s.map Trace.data),
                       draw := fun _ => .ok () }
  obtain ⟨R, h1, h2, h3, _, h5⟩ := c28_succeeds env [tr] 10 tr [] [1, -1, -1, 1] [] rfl rfl
    (by norm_num [tr]) (by simp)
  refine ⟨env, [tr], R, h1, by rw [h5]; simp [tr], ?_⟩
  rw [h2]
  rintro ⟨a, b, h⟩
  have h0 := h 0 (by simp); have h1 := h 1 (by simp)
  have h2 := h 2 (by simp)
  norm_num at h0 h1 h2
  linarith

/-- C32 is not vacuous: the output of any run is such a signal. -/
example {R : FltResults} (h : Returned R) {D : List ℝ} (hD : IsDetrended R.rf D) :
    ∃ S L, S.length = R.rf.length ∧ R.tlag.val = (L : Nat) * R.delta ∧
      ∀ m < R.rf.length, D.getD m 0 = List.getD S m 0 - R.r * periodic D ((m : ℤ) - L) := by
  obtain ⟨L, h1, h2, h3, h4⟩ := c29_delayed_copy h hD
  exact ⟨R.filteredrf, L, h3, h1, fun m hm => by rw [h4 m hm]; ring⟩

end Rfsed.Props
