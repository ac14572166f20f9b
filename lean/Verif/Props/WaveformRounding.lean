import Verif.Proofs.Rounded4
import Verif.Props.WaveformFloat
import Verif.Props.WaveformNoise

/-!
# C126: rounding errors in the waveform fit

The criteria are computed with rounded numbers: how far they are from their exact values, and when the reported models
are the ones exact arithmetic would report.
-/

namespace Rfsed.Props
open PyFloat Rfsed.Spec Rfsed.Proofs Rfsed.Waveform

section
variable {R : Rounding} {p : ℕ} {env : WEnv (FL R)} {rfs : List (Trace (FL R))} {tr0 : Trace (FL R)}
  {preonset HSed VpSed VpCrust rayp gaussian wc wr wp : FL R} {KMoho HMoho : List (FL R)}
  {S : List (List (FL R))} {sd : List (FL R)} {f N : ℕ} {res : WResult (FL R)}

/-- the samples between 0 s and 25 s behind the onset, `f` samples per second and `N` seconds before the onset -/
def fitted (N f : ℕ) (x : List (FL R)) : List ℝ := ((x.drop (N * f)).take (25 * f)).map FL.val

/-- the synthetic receiver function of the model with Moho depth `h` and crustal Vp/Vs ratio `k` (empty if the forward
modelling fails) -/
noncomputable def syntheticOf (env : WEnv (FL R)) (HSed VpSed VpCrust rayp delta preonset gaussian : FL R) (n : ℕ) (h k : FL R) :
    List (FL R) :=
  match env.synthRF {
    depth := [HSed, h, dec 775 1]
    vp := [VpSed, VpCrust, dec 8045 3]
    vs := [vsOf VpSed, VpCrust / k, dec 449 2]
    rho := [rhoOf VpSed, rhoOf VpCrust, dec 3299 3]
    rayp := rayp, dt := delta, npts := n, preonset := preonset, gaussian := gaussian } with
  | .ok rf => rf
  | .error _ => []

/-- the criteria of `s` that the code computes, `rf` being its synthetic -/
def FloatCriteria (env : WEnv (FL R)) (delta : FL R) (N f : ℕ) (sd rf : List (FL R)) (s : Sol (FL R)) : Prop :=
  corrcoef01 ((sd.drop (N * f)).take (25 * f)) ((rf.drop (N * f)).take (25 * f)) = .ok s.corr ∧
  (∃ mse, meanSquaredError ((sd.drop (N * f)).take (25 * f)) ((rf.drop (N * f)).take (25 * f)) = .ok mse ∧
    s.rmse = powHalf mse) ∧
  env.pg (signs ((sd.drop (N * f)).take (25 * f))) (signs ((rf.drop (N * f)).take (25 * f))) delta = .ok s.pg

/-- every row of the result has the criteria of the synthetic of its model -/
theorem judged_fun (hR : Nearest R p) (h0 : rfs[0]? = some tr0)
    (hf : SamplesPerSecond p tr0.delta.val f) (hN : preonset.val = N) (hlen : tr0.data.length ≤ 2 ^ p)
    (hbig : (N + 25) * f < 2 ^ (p + 1)) (hin : N * f < tr0.data.length) (hS : env.stackR rfs = .ok S)
    (hsd : S[0]? = some sd)
    (h : WaveformFitting env rfs preonset HSed VpSed VpCrust rayp KMoho HMoho gaussian wc wr wp = .ok res) :
    ∀ s ∈ res.WaveformSolutions, FloatCriteria env tr0.delta N f sd
      (syntheticOf env HSed VpSed VpCrust rayp tr0.delta preonset gaussian sd.length s.h s.k) s := by
  obtain ⟨P, all, sols, best, hP, ha, hs, hb, rfl⟩ := WaveformFitting_ok h
  obtain ⟨P', hP', e1, e2, e3⟩ := c122_window (HSed := HSed) (VpSed := VpSed) (VpCrust := VpCrust) (rayp := rayp)
    (KMoho := KMoho) (HMoho := HMoho) (gaussian := gaussian) hR h0 hf hN hlen hbig hin hS hsd
  rw [WaveformPara_eq, hP] at hP'
  cases hP'
  obtain ⟨mc, mr, mp, _, _, _, rfl⟩ := normalise_ok hs
  obtain ⟨tr0', _, sd', _, _, h0', hS', hsd', _, _, _, _, hPe⟩ := prepare_ok hP
  cases (show some tr0 = some tr0' from h0.symm.trans h0')
  rw [hS] at hS'
  cases hS'
  rw [hsd] at hsd'
  cases hsd'
  intro s hs
  obtain ⟨c, hc, rfl⟩ := List.mem_map.1 hs
  obtain ⟨q, hq, hqc⟩ := mapM_ok_mem_out ha hc
  unfold gridPoint at hqc
  obtain ⟨rf, hrf, hqc⟩ := bind_eq_ok.1 hqc
  have sl : ∀ x : List (FL R), pySlice x P.tstart P.tend = (x.drop (N * f)).take (25 * f) := by
    intro x
    rw [e1, e2, pySlice]
    simp only [Nat.cast_nonneg, if_true, Int.toNat_natCast]
    rw [List.drop_take]
    congr 1
    rw [add_mul]
    omega
  unfold criteria at hqc
  simp only [sl, e3] at hqc
  obtain ⟨cc, i1, hqc⟩ := bind_eq_ok.1 hqc
  obtain ⟨mse, i2, hqc⟩ := bind_eq_ok.1 hqc
  obtain ⟨pg, i3, hqc⟩ := bind_eq_ok.1 hqc
  cases hqc
  have hpre : PyFloat.abs (tr0.delta * ofNat 0 - preonset) = preonset := by
    refine FL.ext' ?_
    have hNlt : N < 2 ^ (p + 1) := by
      have := hf.1
      nlinarith
    have hz : (ofNat 0 : FL R).val = 0 := by
      show R.fl (((0 : ℕ) : ℝ) / 10 ^ 0) = 0
      rw [Nat.cast_zero, zero_div, R.fl_zero]
    rw [FL.val_abs, FL.val_sub, FL.val_mul, hz, mul_zero, R.fl_zero, zero_sub, hN]
    have : R.fl (-(N : ℝ)) = -N := by
      refine Nearest.exact hR ⟨-(N : ℤ), 0, ?_, by simp⟩
      rw [abs_neg, Nat.abs_cast]
      exact_mod_cast hNlt
    rw [this, abs_neg, Nat.abs_cast]
  have hsy : syntheticOf env HSed VpSed VpCrust rayp tr0.delta preonset gaussian sd.length q.1 q.2 = rf := by
    rw [hPe] at hrf
    simp only [hpre] at hrf
    unfold syntheticOf
    unfold synthArgs at hrf
    rw [hrf]
  have hdel : P.delta = tr0.delta := by rw [hPe]
  rw [hdel] at i3
  show FloatCriteria env tr0.delta N f sd
    (syntheticOf env HSed VpSed VpCrust rayp tr0.delta preonset gaussian sd.length q.1 q.2) _
  rw [hsy]
  exact ⟨i1, ⟨mse, i2, rfl⟩, i3⟩

/-- the two windows have the same length -/
theorem fitted_length {delta : FL R} {rf : List (FL R)} {s : Sol (FL R)} (h : FloatCriteria env delta N f sd rf s) :
    ((sd.drop (N * f)).take (25 * f)).length = ((rf.drop (N * f)).take (25 * f)).length := by
  obtain ⟨h1, -⟩ := h
  unfold corrcoef01 at h1
  split_ifs at h1 with hl
  push Not at hl
  exact hl

theorem fitted_le (x : List (FL R)) : ((x.drop (N * f)).take (25 * f)).length ≤ 25 * f := by
  rw [List.length_take]; exact min_le_left _ _

/-- **C126** the misfit -/
theorem rmse_row (hu : R.u ≤ 1 / 1000) {delta : FL R} {rf : List (FL R)} {s : Sol (FL R)} (h : FloatCriteria env delta N f sd rf s) :
    |s.rmse.val - rms (fitted N f sd) (fitted N f rf)| ≤
      accumulated R.u (25 * f + 8) * rms (fitted N f sd) (fitted N f rf) := by
  have hl := fitted_length h
  obtain ⟨-, ⟨mse, h2, h3⟩, -⟩ := h
  unfold meanSquaredError at h2
  split_ifs at h2 with g1 g2
  have h2 := (Except.ok.inj h2).symm
  rw [h3, h2]
  refine (rms_approx hu hl).trans (mul_le_mul_of_nonneg_right ?_ (Real.sqrt_nonneg _))
  exact accumulated_mono (by have := fitted_le (N := N) (f := f) sd; omega)

/-- **C126** the correlation -/
theorem corr_row (hu : R.u ≤ 1 / 1000) {delta : FL R} {rf : List (FL R)} {s : Sol (FL R)} (h : FloatCriteria env delta N f sd rf s) {κ : ℝ}
    (hx : ¬ Constant (fitted N f sd)) (hy : ¬ Constant (fitted N f rf))
    (hkx : relativeSize (fitted N f sd) ≤ κ) (hky : relativeSize (fitted N f rf) ≤ κ)
    (hs : accumulated R.u (25 * f + 5) * κ < 1) (hs' : accumulated R.u (25 * f + 5) ≤ 1 / 100) :
    |s.corr.val - pearson (fitted N f sd) (fitted N f rf)| ≤ accumulated R.u (25 * f + 5) * (4 + 4 * κ) ∧
      |s.corr.val| ≤ 1 := by
  have hn := fitted_le (N := N) (f := f) sd
  have m5 : accumulated R.u (((sd.drop (N * f)).take (25 * f)).length + 5) ≤ accumulated R.u (25 * f + 5) :=
    accumulated_mono (by omega)
  have m3 : accumulated R.u (((sd.drop (N * f)).take (25 * f)).length + 3) ≤ accumulated R.u (25 * f + 5) :=
    accumulated_mono (by omega)
  have a0 := accumulated_nonneg (R := R) (((sd.drop (N * f)).take (25 * f)).length + 5)
  have a1 := accumulated_nonneg (R := R) (25 * f + 5)
  have r0 : ∀ x : List ℝ, 0 ≤ relativeSize x := fun x => div_nonneg (Real.sqrt_nonneg _) (Real.sqrt_nonneg _)
  obtain ⟨k1, k2⟩ := corr_approx hu h.1 hx hy (m3.trans hs')
    (lt_of_le_of_lt (mul_le_mul m5 hkx (r0 _) a1) hs) (lt_of_le_of_lt (mul_le_mul m5 hky (r0 _) a1) hs)
  refine ⟨k1.trans ?_, k2⟩
  have := r0 (fitted N f sd)
  have := r0 (fitted N f rf)
  refine mul_le_mul m5 ?_ ?_ a1
  · show 4 + 2 * relativeSize (fitted N f sd) + 2 * relativeSize (fitted N f rf) ≤ _
    linarith
  · show 0 ≤ 4 + 2 * relativeSize (fitted N f sd) + 2 * relativeSize (fitted N f rf)
    linarith

/-- signs are computed exactly -/
theorem signs_exact (hR : Nearest R p) (x : List (FL R)) :
    (signs x).map FL.val = (x.map FL.val).map (fun a : ℝ => (SignType.sign a : ℝ)) := by
  rw [signs, List.map_map, List.map_map]
  refine List.map_congr_left (fun a _ => ?_)
  simp only [Function.comp]
  by_cases h : a.val = 0
  · have e : eq (PyFloat.abs a) zero = true := by
      simp [PyFloat.eq, h]
    rw [if_pos e, FL.val_abs, h]
    simp
  · have e : ¬ (eq (PyFloat.abs a) zero = true) := by
      simp [PyFloat.eq, h]
    rw [if_neg e, FL.val_div, FL.val_abs]
    rcases lt_or_gt_of_ne h with h1 | h1
    · rw [abs_of_neg h1, div_neg, div_self h, sign_neg h1]
      have : R.fl (-1) = -1 := by
        refine Nearest.exact hR ⟨-1, 0, ?_, by simp⟩
        rw [abs_neg, abs_one]
        exact one_lt_pow₀ (by norm_num) (by omega)
      rw [this]; simp
    · rw [abs_of_pos h1, div_self h, R.fl_one, sign_pos h1]; simp

/-- **C126** The criteria of every model: the misfit has a relative error of at most `a = (1 + u)^(25 f + 8) - 1`; the
correlation an absolute error of at most `((1 + u)^(25 f + 5) - 1) (4 + 4 κ)` if the samples of the data and of the
synthetic are at most `κ` times as large as their standard deviation; the phase criterion is the value obspy's `pg`
returns for the exact signs.  The model reported as having the smallest misfit has one that is smallest up to the factor
`(1 + a) / (1 - a)`. -/
theorem c126_criteria (hR : Nearest R p) (hu : R.u ≤ 1 / 1000) (h0 : rfs[0]? = some tr0)
    (hf : SamplesPerSecond p tr0.delta.val f) (hN : preonset.val = N) (hlen : tr0.data.length ≤ 2 ^ p)
    (hbig : (N + 25) * f < 2 ^ (p + 1)) (hin : N * f < tr0.data.length) (hS : env.stackR rfs = .ok S)
    (hsd : S[0]? = some sd)
    (h : WaveformFitting env rfs preonset HSed VpSed VpCrust rayp KMoho HMoho gaussian wc wr wp = .ok res) :
    let syn := syntheticOf env HSed VpSed VpCrust rayp tr0.delta preonset gaussian sd.length
    let a := accumulated R.u (25 * f + 8)
    let best := res.printed.rmse
    ∀ s ∈ res.WaveformSolutions,
      |s.rmse.val - rms (fitted N f sd) (fitted N f (syn s.h s.k))| ≤ a * rms (fitted N f sd) (fitted N f (syn s.h s.k)) ∧
      (∀ κ : ℝ, ¬ Constant (fitted N f sd) → ¬ Constant (fitted N f (syn s.h s.k)) →
        relativeSize (fitted N f sd) ≤ κ → relativeSize (fitted N f (syn s.h s.k)) ≤ κ →
        accumulated R.u (25 * f + 5) * κ < 1 → accumulated R.u (25 * f + 5) ≤ 1 / 100 →
        |s.corr.val - pearson (fitted N f sd) (fitted N f (syn s.h s.k))| ≤
          accumulated R.u (25 * f + 5) * (4 + 4 * κ)) ∧
      (∃ x y, env.pg x y tr0.delta = .ok s.pg ∧
        x.map FL.val = (fitted N f sd).map (fun v : ℝ => (SignType.sign v : ℝ)) ∧
        y.map FL.val = (fitted N f (syn s.h s.k)).map (fun v : ℝ => (SignType.sign v : ℝ))) ∧
      (1 - a) * rms (fitted N f sd) (fitted N f (syn best.h best.k)) ≤
        (1 + a) * rms (fitted N f sd) (fitted N f (syn s.h s.k)) := by
  intro syn a b s hs'
  have hsyn := judged_fun hR h0 hf hN hlen hbig hin hS hsd h
  obtain ⟨P, all, sols, best, hP, ha, hs, hb, rfl⟩ := WaveformFitting_ok h
  refine ⟨rmse_row hu (hsyn s hs'), fun κ g1 g2 g3 g4 g5 g6 => (corr_row hu (hsyn s hs') g1 g2 g3 g4 g5 g6).1,
    ⟨_, _, (hsyn s hs').2.2, signs_exact hR _, signs_exact hR _⟩, ?_⟩
  obtain ⟨i, j, k, l, hi, hci, hj, hrj, hk, hpk, hl, hgl⟩ := bestModels_ok hb
  have hbm : best.rmse ∈ sols := List.mem_of_getElem? hrj
  have hle : best.rmse.rmse.val ≤ s.rmse.val := by
    obtain ⟨m, hm, hall, -⟩ := argmin_firstMin (fun _ _ => rfl) hj
    rw [List.getElem?_map, hrj] at hm
    cases hm
    obtain ⟨q, hq⟩ := List.mem_iff_getElem?.1 (List.mem_map_of_mem (f := Sol.rmse) hs')
    exact (FL.le_iff _ _).1 (hall q _ hq)
  have h1 := (abs_le.1 (rmse_row hu (hsyn _ hbm))).1
  have h2 := (abs_le.1 (rmse_row hu (hsyn s hs'))).2
  show (1 - a) * rms (fitted N f sd) (fitted N f (syn best.rmse.h best.rmse.k)) ≤ _
  linarith

/-! ## the goodness of fit -/

theorem pyMax_fl {xs : List (FL R)} {m : FL R} (h : pyMax xs = .ok m) : IsMaxVal (xs.map FL.val) m.val := by
  refine pyMax_real ?_
  cases xs with
  | nil => cases h
  | cons x xs =>
    replace h := (Except.ok.inj h).symm
    rw [h]
    show Except.ok _ = Except.ok _
    congr 1
    clear h
    induction xs generalizing x with
    | nil => rfl
    | cons y xs ih =>
      rw [List.map_cons, List.foldl_cons, List.foldl_cons]
      have e : (if lt x.val y.val then y.val else x.val) = (if lt x y then y else x).val := by
        by_cases hlt : lt x y = true
        · rw [if_pos hlt, if_pos ((real_lt _ _).2 ((FL.lt_iff _ _).1 hlt))]
        · rw [if_neg hlt, if_neg (fun h => hlt ((FL.lt_iff _ _).2 ((real_lt _ _).1 h)))]
      rw [e]
      exact ih _

/-- the weighted sum of three normalised criteria, each operation rounded -/
theorem gof_approx (wc wr wp c mc r mr q mp : FL R) :
    |(wc * (c / mc) + wr * (one - r / mr) + wp * (q / mp)).val -
      (wc.val * (c.val / mc.val) + wr.val * (1 - r.val / mr.val) + wp.val * (q.val / mp.val))| ≤
    accumulated R.u 5 * (|wc.val * (c.val / mc.val)| + |wr.val| * (1 + |r.val / mr.val|) + |wp.val * (q.val / mp.val)|) := by
  have hu0 := R.u_nonneg
  have acc1 : ∀ x : ℝ, |R.fl x - x| ≤ accumulated R.u 1 * |x| := by
    intro x
    have := R.err x
    unfold accumulated
    rwa [show (1 + R.u) ^ 1 - 1 = R.u by ring]
  have term : ∀ w a b : FL R, |(w * (a / b)).val - w.val * (a.val / b.val)| ≤
      accumulated R.u 2 * |w.val * (a.val / b.val)| := by
    intro w a b
    rw [FL.val_mul, FL.val_div]
    refine accumulated_fl (n := 1) ?_ le_rfl
    rw [← mul_sub, abs_mul, abs_mul, mul_left_comm]
    exact mul_le_mul_of_nonneg_left (acc1 _) (abs_nonneg _)
  have t1 := term wc c mc
  have t3 := term wp q mp
  have t2 : |(wr * (one - r / mr)).val - wr.val * (1 - r.val / mr.val)| ≤
      accumulated R.u 3 * (|wr.val| * (1 + |r.val / mr.val|)) := by
    have hb : |1 - r.val / mr.val| ≤ 1 + |r.val / mr.val| := by
      refine (abs_sub _ _).trans ?_
      rw [abs_one]
    have h1 : |(one - r / mr : FL R).val - (1 - r.val / mr.val)| ≤ accumulated R.u 2 * (1 + |r.val / mr.val|) := by
      rw [FL.val_sub, FL.val_one, FL.val_div]
      refine accumulated_fl (n := 1) ?_ hb
      have e : 1 - R.fl (r.val / mr.val) - (1 - r.val / mr.val) = -(R.fl (r.val / mr.val) - r.val / mr.val) := by ring
      rw [e, abs_neg]
      refine (acc1 _).trans (mul_le_mul_of_nonneg_left (by linarith) (accumulated_nonneg _))
    rw [FL.val_mul]
    refine accumulated_fl (n := 2) ?_ ?_
    · rw [← mul_sub, abs_mul, mul_left_comm]
      exact mul_le_mul_of_nonneg_left h1 (abs_nonneg _)
    · rw [abs_mul]
      exact mul_le_mul_of_nonneg_left hb (abs_nonneg _)
  set T1 := |wc.val * (c.val / mc.val)|
  set T2 := |wr.val| * (1 + |r.val / mr.val|)
  set T3 := |wp.val * (q.val / mp.val)|
  have p1 : 0 ≤ T1 := abs_nonneg _
  have p2 : 0 ≤ T2 := mul_nonneg (abs_nonneg _) (by positivity)
  have p3 : 0 ≤ T3 := abs_nonneg _
  have m23 : accumulated R.u 2 ≤ accumulated R.u 3 := accumulated_mono (by norm_num)
  have m24 : accumulated R.u 2 ≤ accumulated R.u 4 := accumulated_mono (by norm_num)
  have b2 : |wr.val * (1 - r.val / mr.val)| ≤ T2 := by
    rw [abs_mul]
    refine mul_le_mul_of_nonneg_left ?_ (abs_nonneg _)
    refine (abs_sub _ _).trans ?_
    rw [abs_one]
  have s1 : |(wc * (c / mc) + wr * (one - r / mr)).val -
      (wc.val * (c.val / mc.val) + wr.val * (1 - r.val / mr.val))| ≤ accumulated R.u 4 * (T1 + T2) := by
    rw [FL.val_add]
    refine accumulated_fl (n := 3) ?_ ((abs_add_le _ _).trans (add_le_add le_rfl b2))
    rw [add_sub_add_comm, mul_add]
    exact (abs_add_le _ _).trans (add_le_add (t1.trans (mul_le_mul_of_nonneg_right m23 p1)) t2)
  rw [FL.val_add]
  refine accumulated_fl (n := 4) ?_ ((abs_add_le _ _).trans (add_le_add ((abs_add_le _ _).trans
    (add_le_add le_rfl b2)) le_rfl))
  rw [add_sub_add_comm, mul_add]
  exact (abs_add_le _ _).trans (add_le_add s1 (t3.trans (mul_le_mul_of_nonneg_right m24 p3)))

theorem near_maxOf {α : Type} {l : List α} {g g' : α → ℝ} {m m' ε : ℝ} (hm : IsMaxVal (l.map g) m)
    (hm' : IsMaxVal (l.map g') m') (h : ∀ s ∈ l, |g' s - g s| ≤ ε) : |m' - m| ≤ ε := by
  obtain ⟨b, hb, rfl⟩ := List.mem_map.1 hm.1
  obtain ⟨b', hb', rfl⟩ := List.mem_map.1 hm'.1
  have h1 := abs_le.1 (h b hb)
  have h2 := abs_le.1 (h b' hb')
  have h3 := hm.2 _ (List.mem_map_of_mem (f := g) hb')
  have h4 := hm'.2 _ (List.mem_map_of_mem (f := g') hb)
  rw [abs_le]
  constructor <;> linarith

/-- **C126** The goodness of fit of every model is within `τ` of the exact one (computed without rounding from the same
samples), the reported best model is, exactly, within `2 τ` of the best, and it is the exact best model if that one is
better than all others by more than `2 τ`.  Here `C` and `M` are the largest exact correlation and misfit, and `α` is the
error of a correlation. -/
theorem c126_gof (hR : Nearest R p) (hu : R.u ≤ 1 / 1000) (h0 : rfs[0]? = some tr0)
    (hf : SamplesPerSecond p tr0.delta.val f) (hN : preonset.val = N) (hlen : tr0.data.length ≤ 2 ^ p)
    (hbig : (N + 25) * f < 2 ^ (p + 1)) (hin : N * f < tr0.data.length) (hS : env.stackR rfs = .ok S)
    (hsd : S[0]? = some sd)
    (h : WaveformFitting env rfs preonset HSed VpSed VpCrust rayp KMoho HMoho gaussian wc wr wp = .ok res)
    (hwc : 0 ≤ wc.val) (hwr : 0 ≤ wr.val) (hwp : 0 ≤ wp.val) (hpg : ∀ s ∈ res.WaveformSolutions, 0 ≤ s.pg.val)
    {synth : FL R → FL R → List (FL R)}
    (hsynth : synth = syntheticOf env HSed VpSed VpCrust rayp tr0.delta preonset gaussian sd.length)
    {κ α C M Q : ℝ} (hα : α = accumulated R.u (25 * f + 5) * (4 + 4 * κ))
    (hx : ¬ Constant (fitted N f sd)) (hkx : relativeSize (fitted N f sd) ≤ κ)
    (hy : ∀ s ∈ res.WaveformSolutions, ¬ Constant (fitted N f (synth s.h s.k)) ∧
      relativeSize (fitted N f (synth s.h s.k)) ≤ κ)
    (hs1 : accumulated R.u (25 * f + 5) * κ < 1) (hs2 : accumulated R.u (25 * f + 5) ≤ 1 / 100)
    (hC : IsMaxVal (res.WaveformSolutions.map (fun s => pearson (fitted N f sd) (fitted N f (synth s.h s.k)))) C)
    (hM : IsMaxVal (res.WaveformSolutions.map (fun s => rms (fitted N f sd) (fitted N f (synth s.h s.k)))) M)
    (hQ : IsMaxVal (res.WaveformSolutions.map (fun s => s.pg.val)) Q) (hαC : α < C) (hM0 : 0 < M) :
    let exact := fun s : Sol (FL R) =>
      wc.val * (pearson (fitted N f sd) (fitted N f (synth s.h s.k)) / C) +
      wr.val * (1 - rms (fitted N f sd) (fitted N f (synth s.h s.k)) / M) + wp.val * (s.pg.val / Q)
    let τ := accumulated R.u 5 * (wc.val / (C - α) + 2 * wr.val + wp.val) +
      wc.val * (α / C * (1 + 1 / (C - α))) + wr.val * (2 * accumulated R.u (25 * f + 8))
    (∀ s ∈ res.WaveformSolutions, |s.gof.val - exact s| ≤ τ) ∧
    (∀ s ∈ res.WaveformSolutions, exact s ≤ exact res.printed.gof + 2 * τ) ∧
    (∀ b ∈ res.WaveformSolutions,
      (∀ s ∈ res.WaveformSolutions, ¬ (s.h = b.h ∧ s.k = b.k) → exact s + 2 * τ < exact b) →
      res.printed.gof.h = b.h ∧ res.printed.gof.k = b.k) := by
  intro exact τ
  have hsyn := judged_fun hR h0 hf hN hlen hbig hin hS hsd h
  rw [← hsynth] at hsyn
  obtain ⟨P, all, sols, best, hP, ha, hs, hb, rfl⟩ := WaveformFitting_ok h
  obtain ⟨mc, mr, mp, h1, h2, h3, hsol⟩ := normalise_ok hs
  have col : ∀ (g : Crit (FL R) → FL R) (g' : Sol (FL R) → FL R), (∀ (c : Crit (FL R)) (v : FL R),
      g' ⟨c.corr, c.rmse, c.pg, v, c.h, c.k⟩ = g c) → (all.map g).map FL.val = sols.map (fun s => (g' s).val) := by
    intro g g' hg
    rw [hsol, List.map_map, List.map_map]
    refine List.map_congr_left (fun c _ => ?_)
    simp only [Function.comp, hg]
  have M1 : IsMaxVal (sols.map (fun s => s.corr.val)) mc.val := by
    rw [← col Crit.corr Sol.corr (fun _ _ => rfl)]; exact pyMax_fl h1
  have M2 : IsMaxVal (sols.map (fun s => s.rmse.val)) mr.val := by
    rw [← col Crit.rmse Sol.rmse (fun _ _ => rfl)]; exact pyMax_fl h2
  have M3 : IsMaxVal (sols.map (fun s => s.pg.val)) mp.val := by
    rw [← col Crit.pg Sol.pg (fun _ _ => rfl)]; exact pyMax_fl h3
  have eQ : mp.val = Q := le_antisymm (hQ.2 _ M3.1) (M3.2 _ hQ.1)
  have ec : ∀ s ∈ sols, |s.corr.val - pearson (fitted N f sd) (fitted N f (synth s.h s.k))| ≤ α ∧ |s.corr.val| ≤ 1 := by
    intro s hs
    rw [hα]
    exact corr_row hu (hsyn s hs) hx (hy s hs).1 hkx (hy s hs).2 hs1 hs2
  set a := accumulated R.u (25 * f + 8) with ha8
  have a0 : 0 ≤ a := accumulated_nonneg _
  have er : ∀ s ∈ sols, |s.rmse.val - rms (fitted N f sd) (fitted N f (synth s.h s.k))| ≤ a * M := by
    intro s hs
    refine (rmse_row hu (hsyn s hs)).trans (mul_le_mul_of_nonneg_left ?_ a0)
    exact hM.2 _ (List.mem_map_of_mem (f := fun s => rms (fitted N f sd) (fitted N f (synth s.h s.k))) hs)
  have dc := near_maxOf hC M1 (fun s hs => (ec s hs).1)
  have dr := near_maxOf hM M2 er
  have α0 : 0 ≤ α := by
    obtain ⟨b, hb, -⟩ := List.mem_map.1 hC.1
    exact (abs_nonneg _).trans (ec b hb).1
  have pd : 0 < C - α := sub_pos.2 hαC
  have hnear : ∀ s ∈ sols, |s.gof.val - exact s| ≤ τ := by
    intro s hs
    have rpos : 0 ≤ s.rmse.val := by
      obtain ⟨-, ⟨mse, -, e⟩, -⟩ := hsyn s hs
      rw [e, FL.val_powHalf]
      have := R.err √mse.val
      rw [abs_of_nonneg (Real.sqrt_nonneg _)] at this
      have := (abs_le.1 this).1
      nlinarith [Real.sqrt_nonneg mse.val]
    have rle : s.rmse.val ≤ mr.val := M2.2 _ (List.mem_map_of_mem (f := fun s => s.rmse.val) hs)
    have qle : s.pg.val ≤ mp.val := M3.2 _ (List.mem_map_of_mem (f := fun s => s.pg.val) hs)
    have f1 := near_corr_ratio (ec s hs).2 hαC (ec s hs).1 dc
    have f2 := near_ratio rpos hM0 rle (er s hs) dr
    have e2 : 2 * (a * M) / M = 2 * a := by field_simp
    rw [e2] at f2
    -- rounding of the combination
    have hg : s.gof = wc * (s.corr / mc) + wr * (one - s.rmse / mr) + wp * (s.pg / mp) := by
      have hs2 := hs
      rw [hsol] at hs2
      obtain ⟨c, -, rfl⟩ := List.mem_map.1 hs2
      rfl
    have g1 := gof_approx wc wr wp s.corr mc s.rmse mr s.pg mp
    rw [← hg] at g1
    have hmc : C - α ≤ mc.val := by linarith [(abs_le.1 dc).1]
    have pmc : 0 < mc.val := lt_of_lt_of_le pd hmc
    have u1 : |wc.val * (s.corr.val / mc.val)| ≤ wc.val / (C - α) := by
      rw [abs_mul, abs_of_nonneg hwc, abs_div, abs_of_pos pmc, div_eq_mul_one_div wc.val]
      exact mul_le_mul_of_nonneg_left (div_le_div₀ zero_le_one (ec s hs).2 pd hmc) hwc
    have u2 : |wr.val| * (1 + |s.rmse.val / mr.val|) ≤ 2 * wr.val := by
      have : |s.rmse.val / mr.val| ≤ 1 := by
        rw [abs_of_nonneg (div_nonneg rpos (rpos.trans rle))]
        exact div_le_one_of_le₀ rle (rpos.trans rle)
      rw [abs_of_nonneg hwr]
      nlinarith
    have u3 : |wp.val * (s.pg.val / mp.val)| ≤ wp.val := by
      have hq0 := hpg s hs
      have : |s.pg.val / mp.val| ≤ 1 := by
        rw [abs_of_nonneg (div_nonneg hq0 (hq0.trans qle))]
        exact div_le_one_of_le₀ qle (hq0.trans qle)
      rw [abs_mul, abs_of_nonneg hwp]
      nlinarith
    have g2 := g1.trans (mul_le_mul_of_nonneg_left (add_le_add (add_le_add u1 u2) u3) (accumulated_nonneg _))
    have hid : s.gof.val - exact s = (s.gof.val - (wc.val * (s.corr.val / mc.val) +
          wr.val * (1 - s.rmse.val / mr.val) + wp.val * (s.pg.val / mp.val))) +
        (wc.val * (s.corr.val / mc.val - pearson (fitted N f sd) (fitted N f (synth s.h s.k)) / C) -
          wr.val * (s.rmse.val / mr.val - rms (fitted N f sd) (fitted N f (synth s.h s.k)) / M)) := by
      show s.gof.val - (_ + _ + _) = _
      rw [eQ]; ring
    rw [hid]
    have v1 : |wc.val * (s.corr.val / mc.val - pearson (fitted N f sd) (fitted N f (synth s.h s.k)) / C)| ≤
        wc.val * (α / C * (1 + 1 / (C - α))) := by
      rw [abs_mul, abs_of_nonneg hwc]
      exact mul_le_mul_of_nonneg_left f1 hwc
    have v2 : |wr.val * (s.rmse.val / mr.val - rms (fitted N f sd) (fitted N f (synth s.h s.k)) / M)| ≤
        wr.val * (2 * a) := by
      rw [abs_mul, abs_of_nonneg hwr]
      exact mul_le_mul_of_nonneg_left f2 hwr
    refine (abs_add_le _ _).trans ((add_le_add g2 ((abs_sub _ _).trans (add_le_add v1 v2))).trans (le_of_eq ?_))
    show _ = accumulated R.u 5 * (wc.val / (C - α) + 2 * wr.val + wp.val) +
      wc.val * (α / C * (1 + 1 / (C - α))) + wr.val * (2 * a)
    ring
  obtain ⟨i, j, k, l, hi, hci, hj, hrj, hk, hpk, hl, hgl⟩ := bestModels_ok hb
  have hbm : best.gof ∈ sols := List.mem_of_getElem? hgl
  have hge : ∀ s ∈ sols, s.gof.val ≤ best.gof.gof.val := by
    intro s hs
    obtain ⟨m, hm, hall, -⟩ := argmax_firstMax (fun _ _ => rfl) hl
    rw [List.getElem?_map, hgl] at hm
    cases hm
    obtain ⟨q, hq⟩ := List.mem_iff_getElem?.1 (List.mem_map_of_mem (f := Sol.gof) hs)
    exact (FL.le_iff _ _).1 (hall q _ hq)
  have hbest : ∀ s ∈ sols, exact s ≤ exact best.gof + 2 * τ := by
    intro s hs
    have n1 := abs_le.1 (hnear s hs)
    have n2 := abs_le.1 (hnear _ hbm)
    have := hge s hs
    linarith
  refine ⟨hnear, hbest, fun b hb' hm => ?_⟩
  by_contra hne
  have h1 := hm _ hbm hne
  have h2 := hbest b hb'
  show False
  exact absurd h2 (not_le.2 h1)

end

/-! ## the order of summation -/

/-- a way to add up numbers -/
inductive SumTree (R : Rounding) where
  | leaf (x : FL R)
  | node (a b : SumTree R)

/-- the numbers -/
def SumTree.leaves {R : Rounding} : SumTree R → List ℝ
  | .leaf x => [x.val]
  | .node a b => a.leaves ++ b.leaves

/-- the rounded sum -/
noncomputable def SumTree.eval {R : Rounding} : SumTree R → FL R
  | .leaf x => x
  | .node a b => a.eval + b.eval

/-- **C126** numpy adds the samples pairwise, the model from left to right; the bound `(1 + u)^n - 1` for a sum of `n`
numbers, on which the others rest, holds for every order and grouping. -/
theorem c126_any_order {R : Rounding} (t : SumTree R) :
    |t.eval.val - t.leaves.sum| ≤ accumulated R.u t.leaves.length * (t.leaves.map (fun x => |x|)).sum := by
  have habs : ∀ l : List ℝ, |l.sum| ≤ (l.map (fun x => |x|)).sum := by
    intro l
    induction l with
    | nil => simp
    | cons x l ih =>
      rw [List.map_cons, List.sum_cons, List.sum_cons]
      exact (abs_add_le _ _).trans (by linarith)
  have hpos : ∀ t : SumTree R, 0 < t.leaves.length := by
    intro t
    induction t with
    | leaf x => simp [SumTree.leaves]
    | node a b ha hb => simp only [SumTree.leaves, List.length_append]; omega
  induction t with
  | leaf x =>
    simp only [SumTree.eval, SumTree.leaves, List.sum_cons, List.sum_nil, add_zero, sub_self, abs_zero]
    refine mul_nonneg (accumulated_nonneg _) ?_
    exact (abs_nonneg _).trans (habs [x.val])
  | node a b ha hb =>
    have pa := hpos a
    have pb := hpos b
    simp only [SumTree.eval, SumTree.leaves, List.sum_append, List.length_append, List.map_append, FL.val_add]
    set m := max a.leaves.length b.leaves.length with hm
    have hma : accumulated R.u a.leaves.length ≤ accumulated R.u m := accumulated_mono (le_max_left _ _)
    have hmb : accumulated R.u b.leaves.length ≤ accumulated R.u m := accumulated_mono (le_max_right _ _)
    have A0 : 0 ≤ (a.leaves.map (fun x => |x|)).sum := (abs_nonneg _).trans (habs _)
    have B0 : 0 ≤ (b.leaves.map (fun x => |x|)).sum := (abs_nonneg _).trans (habs _)
    have h1 : |R.fl (a.eval.val + b.eval.val) - (a.leaves.sum + b.leaves.sum)| ≤ accumulated R.u (m + 1) *
        ((a.leaves.map (fun x => |x|)).sum + (b.leaves.map (fun x => |x|)).sum) := by
      refine accumulated_fl ?_ ((abs_add_le _ _).trans (add_le_add (habs _) (habs _)))
      rw [add_sub_add_comm, mul_add]
      exact (abs_add_le _ _).trans (add_le_add (ha.trans (mul_le_mul_of_nonneg_right hma A0))
        (hb.trans (mul_le_mul_of_nonneg_right hmb B0)))
    refine h1.trans (mul_le_mul_of_nonneg_right (accumulated_mono ?_) (add_nonneg A0 B0))
    rw [hm]
    rcases max_choice a.leaves.length b.leaves.length with e | e <;> omega

/-! ## A concrete case -/

/-- synthetics `0, 1, H` -/
noncomputable def roundEnv : WEnv WDbl where
  stackR := fun st => .ok (st.map Trace.data)
  synthRF := fun args => .ok [⟨0⟩, ⟨1⟩, args.depth.getD 1 ⟨0⟩]
  pg := fun _ _ _ => .ok ⟨1⟩

/-- data `0, 1, 2` -/
noncomputable def roundTrace : Trace WDbl where
  station := "STA"
  channel := "R"
  data := [⟨0⟩, ⟨1⟩, ⟨2⟩]
  delta := ⟨1⟩
  starttime := ⟨0⟩
  onset := some ⟨0⟩
  slowness := some ⟨.py, ⟨6⟩⟩
  backAzimuth := none
  distance := none

theorem pRate : SamplesPerSecond 52 roundTrace.delta.val 1 := by
  refine ⟨by norm_num, ?_, ?_⟩ <;> show _ <;> norm_num [roundTrace]

theorem pFit : ∃ res, WaveformFitting roundEnv [roundTrace] ⟨0⟩ ⟨1⟩ ⟨2⟩ ⟨6⟩ ⟨0⟩ [⟨2⟩] [⟨2⟩, ⟨3⟩] ⟨1⟩ ⟨1⟩ ⟨1⟩ ⟨1⟩ = .ok res :=
  c122_succeeds (N := 0) (f := 1) (p := 52) (tr0 := roundTrace) (sd := roundTrace.data) (S := [roundTrace.data]) _ _ _
    (binary_nearest 52) rfl pRate (by simp) (by simp [roundTrace])
    (by norm_num) (by simp [roundTrace]) rfl rfl rfl (fun _ => ⟨_, rfl, rfl⟩) (fun _ _ _ => ⟨_, rfl⟩) (by simp) (by simp)

theorem pAcc (n : ℕ) (hn : n ≤ 40) : accumulated (Rounding.binary 52).u n ≤ 1 / 10 ^ 12 := by
  refine (accumulated_mono hn).trans ?_
  show (1 + (2 : ℝ)⁻¹ ^ (52 + 1)) ^ 40 - 1 ≤ _
  norm_num

theorem pSynth (H : ℝ) : fitted 0 1 (syntheticOf roundEnv ⟨1⟩ ⟨2⟩ ⟨6⟩ ⟨0⟩ ⟨1⟩ ⟨0⟩ ⟨1⟩ 3 (⟨H⟩ : WDbl) ⟨2⟩) = [0, 1, H] := rfl

theorem pData : fitted 0 1 roundTrace.data = [0, 1, 2] := rfl

theorem pNotConst (H : ℝ) : ¬ Constant [0, 1, H] := by
  intro h
  have := h 0 (by simp) 1 (by simp)
  norm_num at this

theorem pSize2 : relativeSize [0, 1, 2] ≤ 2 := by
  have e1 : stdDev [0, 1, 2] = √(2 / 3) := by simp [stdDev, mean]; norm_num
  have e2 : (([0, 1, 2] : List ℝ).map (fun a => a ^ 2)).sum / (([0, 1, 2] : List ℝ).length : ℝ) = 5 / 3 := by
    simp; norm_num
  rw [relativeSize, e1, e2, ← Real.sqrt_div (by norm_num)]
  refine Real.sqrt_le_iff.2 ⟨by norm_num, by norm_num⟩

theorem pSize3 : relativeSize [0, 1, 3] ≤ 2 := by
  have e1 : stdDev [0, 1, 3] = √(14 / 9) := by
    rw [stdDev]
    congr 1
    simp [mean]; norm_num
  have e2 : (([0, 1, 3] : List ℝ).map (fun a => a ^ 2)).sum / (([0, 1, 3] : List ℝ).length : ℝ) = 10 / 3 := by
    simp; norm_num
  rw [relativeSize, e1, e2, ← Real.sqrt_div (by norm_num)]
  refine Real.sqrt_le_iff.2 ⟨by norm_num, by norm_num⟩

theorem pCorr2 : pearson [0, 1, 2] [0, 1, 2] = 1 := by
  have : comoment [0, 1, 2] [0, 1, 2] = 2 := by simp [comoment, mean]; norm_num
  rw [pearson, this, Real.mul_self_sqrt (by norm_num)]
  norm_num

theorem pRms2 : rms [0, 1, 2] [0, 1, 2] = 0 := by simp [rms]

theorem pRms3 : rms [0, 1, 2] [0, 1, 3] = √(1 / 3) := by
  simp [rms]; norm_num

theorem forall₂_left {α β : Type} {r : α → β → Prop} {xs : List α} {ys : List β} (h : List.Forall₂ r xs ys) {x : α}
    (hx : x ∈ xs) : ∃ y ∈ ys, r x y := by
  induction h with
  | nil => cases hx
  | @cons a b xs ys h1 _ ih =>
    rcases List.mem_cons.1 hx with rfl | hx
    · exact ⟨b, List.mem_cons_self .., h1⟩
    · obtain ⟨y, hy, hr⟩ := ih hx
      exact ⟨y, List.mem_cons_of_mem _ hy, hr⟩

/-- In doubles, data equal to the synthetic of one of two models: that model is reported as the best one overall. -/
example : ∃ res, WaveformFitting roundEnv [roundTrace] ⟨0⟩ ⟨1⟩ ⟨2⟩ ⟨6⟩ ⟨0⟩ [⟨2⟩] [⟨2⟩, ⟨3⟩] ⟨1⟩ ⟨1⟩ ⟨1⟩ ⟨1⟩ = .ok res ∧
    res.printed.gof.h = ⟨2⟩ := by
  obtain ⟨res, h⟩ := pFit
  refine ⟨res, h, ?_⟩
  obtain ⟨P, all, sols, best, hP, ha, hs, hb, rfl⟩ := WaveformFitting_ok h
  have hrows : ∀ s ∈ sols, (s.h = ⟨2⟩ ∨ s.h = ⟨3⟩) ∧ s.k = ⟨2⟩ ∧ s.pg = ⟨1⟩ := by
    obtain ⟨mc, mr, mp, _, _, _, rfl⟩ := normalise_ok hs
    intro s hs
    obtain ⟨c, hc, rfl⟩ := List.mem_map.1 hs
    obtain ⟨q, hq, hqc⟩ := mapM_ok_mem_out ha hc
    unfold gridPoint at hqc
    obtain ⟨rf, hrf, hqc⟩ := bind_eq_ok.1 hqc
    unfold criteria at hqc
    obtain ⟨cc, i1, hqc⟩ := bind_eq_ok.1 hqc
    obtain ⟨mse, i2, hqc⟩ := bind_eq_ok.1 hqc
    obtain ⟨pg, i3, hqc⟩ := bind_eq_ok.1 hqc
    cases hqc
    have hpg : pg = ⟨1⟩ := (Except.ok.inj i3).symm
    simp only [List.flatMap_cons, List.flatMap_nil, List.map_cons, List.map_nil, List.append_nil, List.mem_cons,
      List.not_mem_nil, or_false] at hq
    rcases hq with rfl | rfl
    · exact ⟨Or.inl rfl, rfl, hpg⟩
    · exact ⟨Or.inr rfl, rfl, hpg⟩
  have hboth : (∃ s ∈ sols, s.h = ⟨2⟩ ∧ s.k = ⟨2⟩) ∧ ∃ s ∈ sols, s.h = ⟨3⟩ ∧ s.k = ⟨2⟩ := by
    obtain ⟨mc, mr, mp, _, _, _, rfl⟩ := normalise_ok hs
    have key : ∀ H ∈ ([⟨2⟩, ⟨3⟩] : List WDbl), ∃ c ∈ all, c.h = H ∧ c.k = ⟨2⟩ := by
      intro H hH
      obtain ⟨c, hm, hc⟩ := forall₂_left (mapM_ok_iff.1 ha) (x := (H, ⟨2⟩)) (by simpa using hH)
      refine ⟨c, hm, ?_⟩
      unfold gridPoint at hc
      obtain ⟨rf, hrf, hqc⟩ := bind_eq_ok.1 hc
      unfold criteria at hqc
      obtain ⟨cc, i1, hqc⟩ := bind_eq_ok.1 hqc
      obtain ⟨mse, i2, hqc⟩ := bind_eq_ok.1 hqc
      obtain ⟨pg, i3, hqc⟩ := bind_eq_ok.1 hqc
      cases hqc
      exact ⟨rfl, rfl⟩
    constructor
    · obtain ⟨c, h1, h2, h3⟩ := key ⟨2⟩ (by simp)
      exact ⟨_, List.mem_map_of_mem h1, h2, h3⟩
    · obtain ⟨c, h1, h2, h3⟩ := key ⟨3⟩ (by simp)
      exact ⟨_, List.mem_map_of_mem h1, h2, h3⟩
  obtain ⟨⟨s2, hs2, e2, k2⟩, s3, hs3, e3, k3⟩ := hboth
  set synth := syntheticOf roundEnv ⟨1⟩ ⟨2⟩ ⟨6⟩ ⟨0⟩ roundTrace.delta ⟨0⟩ ⟨1⟩ roundTrace.data.length with hsy
  have w2 : ∀ s ∈ sols, s.h = ⟨2⟩ → fitted 0 1 (synth s.h s.k) = [0, 1, 2] := by
    intro s hs e
    rw [e, (hrows s hs).2.1]; rfl
  have w3 : ∀ s ∈ sols, s.h = ⟨3⟩ → fitted 0 1 (synth s.h s.k) = [0, 1, 3] := by
    intro s hs e
    rw [e, (hrows s hs).2.1]; rfl
  have c3 : pearson [0, 1, 2] [0, 1, 3] ≤ 1 := (abs_le.1 (abs_pearson_le [0, 1, 2] [0, 1, 3] rfl)).2
  have pM : 0 < √(1 / 3 : ℝ) := Real.sqrt_pos.2 (by norm_num)
  set α := accumulated (Rounding.binary 52).u (25 * 1 + 5) * (4 + 4 * 2) with hα
  have hα1 : α ≤ 12 / 10 ^ 12 := by
    have := pAcc (25 * 1 + 5) (by norm_num)
    rw [hα]; linarith
  have hα0 : 0 ≤ α := mul_nonneg (accumulated_nonneg _) (by norm_num)
  have main := c126_gof (p := 52) (N := 0) (f := 1) (tr0 := roundTrace) (sd := roundTrace.data) (S := [roundTrace.data])
    (synth := synth) (κ := 2) (α := α) (C := 1) (M := √(1 / 3)) (Q := 1) (binary_nearest 52)
    (by show (2 : ℝ)⁻¹ ^ (52 + 1) ≤ _; norm_num) rfl pRate (by simp) (by simp [roundTrace]) (by norm_num) (by simp [roundTrace])
    rfl rfl h (by norm_num) (by norm_num) (by norm_num)
    (fun s hs => by rw [(hrows s hs).2.2]; norm_num) hsy rfl (pNotConst 2) pSize2
    (fun s hs => by
      rcases (hrows s hs).1 with e | e
      · rw [w2 s hs e]; exact ⟨pNotConst 2, pSize2⟩
      · rw [w3 s hs e]; exact ⟨pNotConst 3, pSize3⟩)
    (by have := pAcc (25 * 1 + 5) (by norm_num); linarith) ((pAcc (25 * 1 + 5) (by norm_num)).trans (by norm_num))
    ⟨List.mem_map.2 ⟨s2, hs2, by rw [w2 s2 hs2 e2]; exact pCorr2⟩, by
      intro x hx
      obtain ⟨s, hs, rfl⟩ := List.mem_map.1 hx
      rcases (hrows s hs).1 with e | e
      · rw [w2 s hs e]; exact pCorr2.le
      · rw [w3 s hs e]; exact c3⟩
    ⟨List.mem_map.2 ⟨s3, hs3, by rw [w3 s3 hs3 e3]; exact pRms3⟩, by
      intro x hx
      obtain ⟨s, hs, rfl⟩ := List.mem_map.1 hx
      rcases (hrows s hs).1 with e | e
      · rw [w2 s hs e]; exact pRms2.trans_le pM.le
      · rw [w3 s hs e]; exact pRms3.le⟩
    ⟨List.mem_map.2 ⟨s2, hs2, by rw [(hrows s2 hs2).2.2]⟩, by
      intro x hx
      obtain ⟨s, hs, rfl⟩ := List.mem_map.1 hx
      rw [(hrows s hs).2.2]⟩
    (by linarith) pM
  obtain ⟨-, -, m3⟩ := main
  refine ((m3 s2 hs2 ?_).1).trans e2
  intro s hs hne
  have e : s.h = ⟨3⟩ := by
    rcases (hrows s hs).1 with e | e
    · exact absurd ⟨e.trans e2.symm, (hrows s hs).2.1.trans k2.symm⟩ hne
    · exact e
  simp only [w3 s hs e, w2 s2 hs2 e2, (hrows s hs).2.2, (hrows s2 hs2).2.2, pData, pCorr2, pRms2, pRms3]
  have a5 := pAcc 5 (by norm_num)
  have a8 := pAcc (25 * 1 + 8) (by norm_num)
  have a50 := accumulated_nonneg (R := Rounding.binary 52) 5
  have hinv : 1 / (1 - α) ≤ 2 := by
    rw [div_le_iff₀ (by linarith)]
    linarith
  rw [div_self pM.ne', zero_div, one_mul, one_mul, one_mul, one_mul, div_one, div_one]
  have t1 : accumulated (Rounding.binary 52).u 5 * (1 / (1 - α) + 2 * 1 + 1) ≤ 1 / 10 ^ 12 * 5 :=
    mul_le_mul a5 (by linarith) (by have : 0 ≤ 1 / (1 - α) := div_nonneg (by norm_num) (by linarith)
                                    linarith) (by norm_num)
  have t2 : α / 1 * (1 + 1 / (1 - α)) ≤ 12 / 10 ^ 12 * 3 := by
    rw [div_one]
    exact mul_le_mul hα1 (by linarith) (by have : 0 ≤ 1 / (1 - α) := div_nonneg (by norm_num) (by linarith)
                                           linarith) (by norm_num)
  norm_num at t1 t2 a8 ⊢
  linarith

end Rfsed.Props
