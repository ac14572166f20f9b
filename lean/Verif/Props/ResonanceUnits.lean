import Verif.Props.Units
import Verif.Props.ResonancePlot

/-!
# Properties C97 and C98: what the reverberation estimate depends on
-/

namespace Rfsed.Props
open Rfsed Rfsed.Spec Finset

/-! ## C97: the unit of time -/

/-- the result of a resonance filter in another unit of time -/
noncomputable def filterIn (b : ℝ) (R : FltResults) : FltResults :=
  { R with time := allIn b R.time, tlag := timeIn b R.tlag, delta := b * R.delta }

theorem resRec_scale {b : ℝ} (hb : 0 < b) (data : List ℝ) (dt : ℝ) (time : List ℝ) (sta : String) :
    resRec data (b * dt) (allIn b time) sta = filterIn b (resRec data dt time sta) := by
  unfold resRec filterIn timeIn
  have key : ∀ (r0 : ℂ) (n k loc : ℝ),
      1 + r0 * Complex.exp (-1 * Complex.I * ((2 * Real.pi * (1 / (2 * (b * dt)) / (n / 2)) * k : ℝ) : ℂ) *
        ((loc * (b * dt) : ℝ) : ℂ)) =
      1 + r0 * Complex.exp (-1 * Complex.I * ((2 * Real.pi * (1 / (2 * dt) / (n / 2)) * k : ℝ) : ℂ) *
        ((loc * dt : ℝ) : ℂ)) := by
    intro r0 n k loc
    have : (2 * Real.pi * (1 / (2 * (b * dt)) / (n / 2)) * k) * (loc * (b * dt)) =
        (2 * Real.pi * (1 / (2 * dt) / (n / 2)) * k) * (loc * dt) := by
      by_cases hdt : dt = 0
      · simp [hdt]
      · field_simp
    rw [mul_assoc, mul_assoc (-1 * Complex.I), ← Complex.ofReal_mul, ← Complex.ofReal_mul, this]
  simp only
  cases findPeaks ((acOf (detrend (data.map (fun x => x - npMean data)))).map (fun x => -x)) with
  | nil => simp
  | cons loc locs =>
    simp only [key]
    congr 2
    ring

/-- **C97** Measuring time in another unit (sampling interval and pre-onset time multiplied by `b`): the same
filtered receiver function, filter, autocorrelation and strength; the lag in the new unit. -/
theorem c97_time_unit {env env' : Env ℝ} {b : ℝ} (hb : 0 < b) {st : List (Trace ℝ)} {pre : ℝ} {R : FltResults}
    (hstack : env'.stack (st.map (traceIn 1 b)) = env.stack st)
    (h : ReverbFilter.ResonanceFilt env st pre = .ok R) :
    ReverbFilter.ResonanceFilt env' (st.map (traceIn 1 b)) (b * pre) = .ok (filterIn b R) := by
  obtain ⟨tr0, S, data, h0, hS, hd, hdt, hn, rfl⟩ := resRev_of h
  have h0' : (st.map (traceIn 1 b))[0]? = some (traceIn 1 b tr0) := by rw [List.getElem?_map, h0]; rfl
  rw [resRev_eq h0' (hstack.trans hS) hd (mul_ne_zero hb.ne' hdt) hn, ← resRec_scale hb, ← HkZhu.timeAxis_scale]
  rfl

/-- **C97** the version for synthetic data. -/
theorem c97_time_unit_synth {b : ℝ} (hb : 0 < b) {rf time : List ℝ} {R : FltResults}
    (h : SynthAnalysis.ResonanceFilt rf time = .ok R) :
    SynthAnalysis.ResonanceFilt rf (allIn b time) = .ok (filterIn b R) := by
  obtain ⟨t0, t1, h0, h1, hn, rfl⟩ := resSyn_of h
  have h0' : (allIn b time)[0]? = some (b * t0) := by unfold allIn; rw [List.getElem?_map, h0]; rfl
  have h1' : (allIn b time)[1]? = some (b * t1) := by unfold allIn; rw [List.getElem?_map, h1]; rfl
  rw [resSyn_eq h0' h1' hn, ← resRec_scale hb, mul_sub]

/-- **C97** Filtering followed by the modified H-k stacking, in other units of length and time: the same table, best
model and thicknesses. -/
theorem c97_pipeline {env env' : Env ℝ} {a b : ℝ} (ha : 0 < a) (hb : 0 < b) {st : List (Trace ℝ)} {pre : ℝ}
    {R : FltResults} (hstack : env'.stack (st.map (traceIn 1 b)) = env.stack st)
    (hR : ReverbFilter.ResonanceFilt env st pre = .ok R)
    {rp VpMoho VpSed VsSed : Scalar ℝ} {H K : List ℝ} {w1 w2 w3 : ℝ} {r : HkYu.YuResult ℝ}
    (h : HkYu.hkYu env R.toYu rp H K (some VpMoho) (some VpSed) (some VsSed) (some w1) (some w2) (some w3) = .ok r)
    (hdraw : env'.draw (tableIn a r.stackvaluesSubSed) = .ok ()) :
    ∃ R' r', ReverbFilter.ResonanceFilt env' (st.map (traceIn 1 b)) (b * pre) = .ok R' ∧
      HkYu.hkYu env' R'.toYu (slownessIn a b rp) (allIn a H) K (some (velocityIn a b VpMoho))
        (some (velocityIn a b VpSed)) (some (velocityIn a b VsSed)) (some w1) (some w2) (some w3) = .ok r' ∧
      r'.stackvaluesSubSed = tableIn a r.stackvaluesSubSed ∧ r'.bestIdx = r.bestIdx ∧
      r'.SedThick = a * r.SedThick ∧ r'.SubSedThick = a * r.SubSedThick ∧ r'.SubSedVpVs = r.SubSedVpVs := by
  obtain ⟨r', h', e1, e2, e3, _, e5, e6⟩ := c96_hkYu ha hb h hdraw
  exact ⟨_, r', c97_time_unit hb hstack hR, h', e1, e2, e3, e5, e6⟩

/-! ## C98: only the autocorrelation matters -/

/-- The strength and the lag are functions of the autocorrelation and the sampling interval. -/
theorem pick_of_autoc {R R' : FltResults} (h : Returned R) (h' : Returned R') (hac : R'.autoc = R.autoc)
    (hdt : R'.delta = R.delta) : R'.r = R.r ∧ R'.tlag = R.tlag := by
  obtain ⟨_, _, e⟩ := returned_eq h
  obtain ⟨_, _, e'⟩ := returned_eq h'
  have p : ∀ {Q : FltResults}, Q = resRec Q.rf Q.delta Q.time Q.staname →
      Q.r = (match findPeaks (Q.autoc.map (fun x => -x)) with
        | [] => ((0 : ℝ), (⟨.py, 0⟩ : Scalar ℝ))
        | loc :: _ => (|(Q.autoc.map (fun x => -x)).getD loc 0|, ⟨.np, (loc : ℝ) * Q.delta⟩)).1 ∧
      Q.tlag = (match findPeaks (Q.autoc.map (fun x => -x)) with
        | [] => ((0 : ℝ), (⟨.py, 0⟩ : Scalar ℝ))
        | loc :: _ => (|(Q.autoc.map (fun x => -x)).getD loc 0|, ⟨.np, (loc : ℝ) * Q.delta⟩)).2 := by
    intro Q hQ
    generalize Q.rf = d, Q.delta = dt, Q.time = t, Q.staname = s at hQ
    subst hQ
    exact ⟨rfl, rfl⟩
  obtain ⟨a1, a2⟩ := p e
  obtain ⟨b1, b2⟩ := p e'
  rw [a1, a2, b1, b2, hac, hdt]
  exact ⟨rfl, rfl⟩

theorem getD_of_lt {x : List ℝ} {i : Nat} (h : i < x.length) : x.getD i 0 = x[i] := by
  rw [List.getD, List.getElem?_eq_getElem h]; rfl

/-- **C98** Two records of equal length and sampling interval whose detrended data have proportional autocorrelations
get the same strength and lag. -/
theorem c98_only_autocorrelation {R R' : FltResults} (h : Returned R) (h' : Returned R')
    (hlen : R'.rf.length = R.rf.length) (hdt : R'.delta = R.delta) {D D' : List ℝ} (hD : IsDetrended R.rf D)
    (hD' : IsDetrended R'.rf D') {c : ℝ} (hc : c ≠ 0) (hac : ∀ k < R.rf.length, autocorr D' k = c * autocorr D k) :
    R'.autoc = R.autoc ∧ R'.r = R.r ∧ R'.tlag = R.tlag := by
  obtain ⟨l, v⟩ := c30_autoc h hD
  obtain ⟨l', v'⟩ := c30_autoc h' hD'
  have hn := (returned_eq h).1
  have : R'.autoc = R.autoc := by
    apply List.ext_getElem (by omega)
    intro k h1 h2
    have e1 := v k (by omega)
    have e2 := v' k (by omega)
    rw [getD_of_lt h2] at e1
    rw [getD_of_lt h1] at e2
    rw [e1, e2, hac k (by omega), hac 0 hn, mul_div_mul_left _ _ hc]
  exact ⟨this, pick_of_autoc h h' this hdt⟩

theorem getD_reverse (D : List ℝ) {i : Nat} (hi : i < D.length) : D.reverse.getD i 0 = D.getD (D.length - 1 - i) 0 := by
  rw [getD_of_lt (by simpa using hi), getD_of_lt (by omega), List.getElem_reverse]

theorem detrended_reverse {x D : List ℝ} (h : IsDetrended x D) : IsDetrended x.reverse D.reverse := by
  obtain ⟨hl, ⟨a, b, hab⟩, h0, h1⟩ := h
  have s0 : ∑ i ∈ range x.length, D.reverse.getD i 0 = ∑ i ∈ range x.length, D.getD i 0 := by
    rw [← Finset.sum_range_reflect (fun i => D.getD i 0)]
    refine Finset.sum_congr rfl ?_
    intro i hi
    rw [getD_reverse D (by rw [hl]; exact Finset.mem_range.1 hi), hl]
  refine ⟨by simp [hl], ⟨a + b * (x.length - 1), -b, ?_⟩, ?_, ?_⟩
  · intro i hi
    rw [List.length_reverse] at hi
    rw [getD_reverse D (by omega), getD_reverse x hi, hl, hab _ (by omega)]
    have : ((x.length - 1 - i : Nat) : ℝ) = (x.length : ℝ) - 1 - i := by
      rw [Nat.cast_sub (by omega), Nat.cast_sub (by omega)]; simp
    rw [this]; ring
  · rw [List.length_reverse, s0, h0]
  · rw [List.length_reverse]
    have : ∑ i ∈ range x.length, (i : ℝ) * D.reverse.getD i 0 =
        ∑ i ∈ range x.length, ((x.length : ℝ) - 1 - i) * D.getD i 0 := by
      rw [← Finset.sum_range_reflect (fun i => ((x.length : ℝ) - 1 - i) * D.getD i 0)]
      refine Finset.sum_congr rfl ?_
      intro i hi
      have hi := Finset.mem_range.1 hi
      rw [getD_reverse D (by omega), hl]
      have : ((x.length - 1 - i : Nat) : ℝ) = (x.length : ℝ) - 1 - i := by
        rw [Nat.cast_sub (by omega), Nat.cast_sub (by omega)]; simp
      rw [this]; ring
    rw [this]
    simp only [sub_mul, Finset.sum_sub_distrib, ← Finset.mul_sum, h0, h1]
    ring

theorem autocorr_reverse (D : List ℝ) (k : Nat) : autocorr D.reverse k = autocorr D k := by
  unfold autocorr
  rw [List.length_reverse, ← Finset.sum_range_reflect (fun m => D.getD (m + k) 0 * D.getD m 0)]
  refine Finset.sum_congr rfl ?_
  intro i hi
  have hi := Finset.mem_range.1 hi
  rw [getD_reverse D (by omega), getD_reverse D (by omega), mul_comm]
  congr 2 <;> omega

/-- **C98** Playing the record backwards does not change autocorrelation, strength and lag. -/
theorem c98_reversed {R R' : FltResults} (h : Returned R) (h' : Returned R') (hrf : R'.rf = R.rf.reverse)
    (hdt : R'.delta = R.delta) : R'.autoc = R.autoc ∧ R'.r = R.r ∧ R'.tlag = R.tlag := by
  obtain ⟨D, hD⟩ := exists_detrended R.rf
  refine c98_only_autocorrelation h h' (by rw [hrf]; simp) hdt hD (D' := D.reverse) ?_ (c := 1) one_ne_zero ?_
  · rw [hrf]; exact detrended_reverse hD
  · intro k _
    rw [autocorr_reverse, one_mul]

/-! ## Concrete cases -/

/-- half-second samples or 500-millisecond samples: strength 1/2 both times, lag 1 s or 1000 ms -/
example : ∃ R, SynthAnalysis.ResonanceFilt [1, -1, -1, 1] (allIn 1000 [0, 1/2, 1, 3/2]) = .ok R ∧
    R.r = 1 / 2 ∧ R.tlag.val = 1000 := by
  obtain ⟨R, h, _, _, _, _, hr, ht, _⟩ := sample_resonance
  refine ⟨_, c97_time_unit_synth (b := 1000) (by norm_num) h, hr, ?_⟩
  show 1000 * R.tlag.val = 1000
  rw [ht]; norm_num

/-- a stream in seconds and in milliseconds, through both steps -/
example : ∃ R' r', ReverbFilter.ResonanceFilt Sample.env (Sample.stream.map (traceIn 1 1000)) (1000 * 1) = .ok R' ∧
    HkYu.hkYu Sample.env R'.toYu (slownessIn 1 1000 ⟨.py, 6 / 100⟩) (allIn 1 [30, 35]) [17 / 10, 18 / 10]
      (some (velocityIn 1 1000 ⟨.py, 65 / 10⟩)) (some (velocityIn 1 1000 ⟨.py, 25 / 10⟩))
      (some (velocityIn 1 1000 ⟨.py, 1⟩)) (some (6 / 10)) (some (3 / 10)) (some (1 / 10)) = .ok r' := by
  obtain ⟨R, hR, e1, _, _, e4⟩ := c28_succeeds Sample.env Sample.stream 1 (Sample.trace [0, 1, 3, 2, 0] 6)
    [Sample.trace [1, 1, 2, 0, -1] 7] _ [] rfl rfl (by simp [Sample.trace])
    (by simp [Sample.trace])
  obtain ⟨r, hr⟩ := c68_pipeline_runs (env := Sample.env) (rp := ⟨.py, 6 / 100⟩) (H := [30, 35])
    (K := [17 / 10, 18 / 10]) (VpMoho := ⟨.py, 65 / 10⟩) (VpSed := ⟨.py, 25 / 10⟩) (VsSed := ⟨.py, 1⟩)
    (w1 := 6 / 10) (w2 := 3 / 10) (w3 := 1 / 10) (Or.inl ⟨_, _, _, hR⟩)
    (by rw [e1, e4]; simp [Sample.trace]) (by norm_num) (by norm_num) (by norm_num) (by simp) (by simp) (fun _ => rfl)
  obtain ⟨R', r', h1, h2, _⟩ := c97_pipeline (env' := Sample.env) (a := 1) (b := 1000) (by norm_num) (by norm_num)
    (by simp [Sample.env, Sample.meanStack, Sample.stream, Sample.trace, traceIn]) hR hr rfl
  exact ⟨R', r', h1, h2⟩

/-- a record and its mirror image -/
example : ∃ R R', SynthAnalysis.ResonanceFilt [1, -1, -1, 1, 0] [0, 1/2, 1, 3/2, 2] = .ok R ∧
    SynthAnalysis.ResonanceFilt [0, 1, -1, -1, 1] [0, 1/2, 1, 3/2, 2] = .ok R' ∧ R'.tlag = R.tlag := by
  obtain ⟨R, h, e1, _, e3⟩ := c28_succeeds_synth [1, -1, -1, 1, 0] [0, 1/2, 1, 3/2, 2] (by simp) (by simp)
  obtain ⟨R', h', e1', _, e3'⟩ := c28_succeeds_synth [0, 1, -1, -1, 1] [0, 1/2, 1, 3/2, 2] (by simp) (by simp)
  refine ⟨R, R', h, h', (c98_reversed (Or.inr ⟨_, _, h, ?_⟩) (Or.inr ⟨_, _, h', ?_⟩) ?_ (e3'.trans e3.symm)).2.2⟩
  · rw [e3]; norm_num
  · rw [e3']; norm_num
  · rw [e1, e1']; rfl

end Rfsed.Props
