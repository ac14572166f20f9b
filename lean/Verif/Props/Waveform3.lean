import Verif.Props.Waveform2

/-!
# Waveform fitting: number of results (C42), signs (C43), misfit and correlation (C44), NaN (C69),
plotted synthetic (C70)
-/

namespace Rfsed.Props
open Rfsed PyFloat Spec Waveform

/-! ## C42 -/

section generic
variable {F : Type} [PyFloat F]

theorem critOf_normalise {all : List (Crit F)} {sols : List (Sol F)} {wc wr wp : F}
    (h : normalise all wc wr wp = .ok sols) : sols.map critOf = all := by
  obtain ⟨mc, mr, mp, _, _, _, rfl⟩ := normalise_ok h
  rw [List.map_map]
  conv_rhs => rw [← List.map_id all]
  exact List.map_congr_left (fun c _ => rfl)

/-- **C42**: given as many results as grid points, `plotbestmodel` works on exactly these. -/
theorem c42_exact {env : WEnv F} {res : List (List (Crit F))} {P : Para F}
    {wc wr wp : Option F} {savepath format : String} {sols : List (Sol F)} {best : Best F}
    {figs : List (Fig F)} (hlen : res.flatten.length = P.HMoho.length * P.KMoho.length)
    (h : plotbestmodel env res P wc wr wp savepath format = .ok (sols, best, figs)) :
    sols.map critOf = res.flatten := by
  obtain ⟨all, h1, h2, _⟩ := plotbestmodel_ok h
  rw [← hlen, fillRows_self] at h1
  cases Except.ok.inj h1
  exact critOf_normalise h2

/-- **C42**: given more results than grid points, `plotbestmodel` raises `IndexError`. -/
theorem c42_too_many (env : WEnv F) {res : List (List (Crit F))} {P : Para F}
    (wc wr wp : Option F) (savepath format : String)
    (hlen : P.HMoho.length * P.KMoho.length < res.flatten.length) :
    plotbestmodel env res P wc wr wp savepath format = .error .indexError := by
  unfold plotbestmodel
  rw [tabulate_eq, fillRows_eq, if_neg (by omega)]
  rfl

/-- **C42**: given fewer results than grid points, all-zero solutions (Moho depth 0, Vp/Vs 0) are
appended, one per missing grid point. -/
theorem c42_too_few {env : WEnv F} {res : List (List (Crit F))} {P : Para F}
    {wc wr wp : Option F} {savepath format : String} {sols : List (Sol F)} {best : Best F}
    {figs : List (Fig F)} (hlen : res.flatten.length ≤ P.HMoho.length * P.KMoho.length)
    (h : plotbestmodel env res P wc wr wp savepath format = .ok (sols, best, figs)) :
    sols.map critOf = res.flatten ++ List.replicate
      (P.HMoho.length * P.KMoho.length - res.flatten.length) ⟨zero, zero, zero, zero, zero⟩ := by
  obtain ⟨all, h1, h2, _⟩ := plotbestmodel_ok h
  rw [fillRows_eq, if_pos hlen] at h1
  cases Except.ok.inj h1
  exact critOf_normalise h2

/-- **C42**: an empty grid without results raises `ValueError` (maximum of nothing). -/
theorem c42_empty (env : WEnv F) {res : List (List (Crit F))} {P : Para F}
    (wc wr wp : Option F) (savepath format : String) (hres : res.flatten = [])
    (hlen : P.HMoho.length * P.KMoho.length = 0) :
    plotbestmodel env res P wc wr wp savepath format = .error .valueError := by
  unfold plotbestmodel
  rw [tabulate_eq, hres, hlen, fillRows_eq, if_pos (by simp)]
  rfl

end generic

/-- **C42**: the spurious solutions take part: if fewer results than grid points are given and all
given misfits are positive, the model reported as best by misfit is the spurious one, with Moho
depth 0 and Vp/Vs 0. -/
theorem c42_spurious_best {env : WEnv ℝ} {res : List (List (Crit ℝ))} {P : Para ℝ}
    {wc wr wp : Option ℝ} {savepath format : String} {sols : List (Sol ℝ)} {best : Best ℝ}
    {figs : List (Fig ℝ)} (hlen : res.flatten.length < P.HMoho.length * P.KMoho.length)
    (hpos : ∀ c ∈ res.flatten, 0 < c.rmse)
    (h : plotbestmodel env res P wc wr wp savepath format = .ok (sols, best, figs)) :
    best.rmse.rmse = 0 ∧ best.rmse.h = 0 ∧ best.rmse.k = 0 := by
  have hm := c42_too_few hlen.le h
  obtain ⟨all, h1, h2, h3⟩ := plotbestmodel_ok h
  obtain ⟨i, j, k, l, a1, a2, a3, a4, a5, a6, a7, a8⟩ := bestModels_ok h3
  obtain ⟨b1, b2⟩ := argmin_real a3 a4
  have hz : (⟨zero, zero, zero, zero, zero⟩ : Crit ℝ) ∈ sols.map critOf := by
    rw [hm]
    exact List.mem_append_right _ (List.mem_replicate.2 ⟨by omega, rfl⟩)
  obtain ⟨s0, hs0, he0⟩ := List.mem_map.1 hz
  have hle := b2 s0 hs0
  have e0 : s0.rmse = 0 := by
    have := congrArg Crit.rmse he0
    simpa [critOf] using this
  have hb : critOf best.rmse ∈ sols.map critOf := List.mem_map_of_mem b1
  rw [hm] at hb
  rcases List.mem_append.1 hb with hb | hb
  · have := hpos _ hb
    simp only [critOf] at this
    linarith
  · have := (List.mem_replicate.1 hb).2
    have h1 := congrArg Crit.rmse this
    have h2 := congrArg Crit.h this
    have h3 := congrArg Crit.k this
    simp only [critOf, real_zero] at h1 h2 h3
    exact ⟨h1, h2, h3⟩

/-! ## C43 -/

theorem signOf_window (delta preonset : ℝ) (x : List ℝ) :
    signOf (window delta preonset x) = window delta preonset (signOf x) := by
  simp only [signOf, window, List.zipIdx_map, List.filter_map, List.map_map]
  rfl

theorem signOf_rescaled {x y : List ℝ} (h : PosRescaled x y) : signOf x = signOf y := by
  induction h with
  | nil => rfl
  | @cons a b l1 l2 h1 h2 ih =>
    obtain ⟨c, hc, rfl⟩ := h1
    have ih' : l1.map (fun a : ℝ => (SignType.sign a : ℝ)) = l2.map (fun a : ℝ => (SignType.sign a : ℝ)) := ih
    simp only [signOf, List.map_cons, ih']
    congr 2
    rcases lt_trichotomy a 0 with h | h | h
    · rw [sign_neg h, sign_neg (mul_neg_of_pos_of_neg hc h)]
    · rw [h]; simp
    · rw [sign_pos h, sign_pos (mul_pos hc h)]

/-- **C43**: the entries given to the phase criterion are -1, 0 or 1. -/
theorem c43_values (x : List ℝ) : ∀ a ∈ signOf x, a = -1 ∨ a = 0 ∨ a = 1 := by
  intro a ha
  obtain ⟨b, _, rfl⟩ := List.mem_map.1 ha
  rcases lt_trichotomy b 0 with h | h | h
  · left; rw [sign_neg h]; rfl
  · right; left; rw [h]; simp
  · right; right; rw [sign_pos h]; rfl

/-- **C43**: replace the stacked data and the synthetic receiver functions by arbitrarily, even
time-dependently, positively rescaled ones: the phase criterion of every grid point is unchanged. -/
theorem c43_rescaling {env env' : WEnv ℝ} {rfs rfs' : List (Trace ℝ)} {tr0 tr0' : Trace ℝ}
    {preonset HSed VpSed VpCrust rayp gaussian wc wr wp wc' wr' wp' : ℝ} {KMoho HMoho : List ℝ}
    {R R' : WResult ℝ} {S S' : List (List ℝ)} {sd sd' : List ℝ}
    (h0 : rfs[0]? = some tr0) (h0' : rfs'[0]? = some tr0') (hd : 0 < tr0.delta)
    (hdd : tr0'.delta = tr0.delta)
    (hS : env.stackR rfs = .ok S) (hS' : env'.stackR rfs' = .ok S') (hsd : S[0]? = some sd)
    (hsd' : S'[0]? = some sd') (hresc : PosRescaled sd sd')
    (hsyn : ∀ m x x', env.synthRF m = .ok x → env'.synthRF m = .ok x' → PosRescaled x x')
    (hpg : env'.pg = env.pg)
    (h : WaveformFitting env rfs preonset HSed VpSed VpCrust rayp KMoho HMoho gaussian wc wr wp
      = .ok R)
    (h' : WaveformFitting env' rfs' preonset HSed VpSed VpCrust rayp KMoho HMoho gaussian wc' wr'
      wp' = .ok R') :
    R.WaveformSolutions.map (fun s => (s.h, s.k, s.pg)) =
      R'.WaveformSolutions.map (fun s => (s.h, s.k, s.pg)) := by
  obtain ⟨S1, sd1, e1, e2, hcrit⟩ := c36_serial_window h0 hd h
  obtain ⟨S1', sd1', e1', e2', hcrit'⟩ := c36_serial_window h0' (by rw [hdd]; exact hd) h'
  rw [hS] at e1; cases Except.ok.inj e1
  rw [hS'] at e1'; cases Except.ok.inj e1'
  rw [hsd] at e2; cases e2
  rw [hsd'] at e2'; cases e2'
  obtain ⟨g1, g2⟩ := c71_grid h
  obtain ⟨g1', g2'⟩ := c71_grid h'
  refine List.ext_getElem? (fun n => ?_)
  by_cases hn : n < KMoho.length * HMoho.length
  · have hH : 0 < HMoho.length := by
      rcases Nat.eq_zero_or_pos HMoho.length with h | h
      · rw [h] at hn; omega
      · exact h
    have hi : n / HMoho.length < KMoho.length := Nat.div_lt_of_lt_mul (by rw [Nat.mul_comm]; exact hn)
    have hj : n % HMoho.length < HMoho.length := Nat.mod_lt _ hH
    obtain ⟨s, hs, sh, sk⟩ := g2 _ _ _ _ (List.getElem?_eq_getElem hi) (List.getElem?_eq_getElem hj)
    obtain ⟨s', hs', sh', sk'⟩ :=
      g2' _ _ _ _ (List.getElem?_eq_getElem hi) (List.getElem?_eq_getElem hj)
    have hnn : n / HMoho.length * HMoho.length + n % HMoho.length = n := by
      rw [Nat.mul_comm]; exact Nat.div_add_mod n _
    rw [hnn] at hs hs'
    rw [List.getElem?_map, List.getElem?_map, hs, hs']
    obtain ⟨syn, hm, _, _, _, _, _, _, hp⟩ := hcrit s (List.mem_of_getElem? hs)
    obtain ⟨syn', hm', _, _, _, _, _, _, hp'⟩ := hcrit' s' (List.mem_of_getElem? hs')
    have hlen : sd'.length = sd.length := hresc.length_eq.symm
    rw [hlen, hdd, sh', sk', ← sh, ← sk] at hm'
    have hr := hsyn _ _ _ hm hm'
    rw [hpg, hdd, signOf_window, signOf_window, ← signOf_rescaled hr, ← signOf_rescaled hresc,
      ← signOf_window, ← signOf_window, hp] at hp'
    have := Except.ok.inj hp'
    simp [sh, sk, sh', sk', this]
  · rw [List.getElem?_eq_none (by simp; omega), List.getElem?_eq_none (by simp; omega)]

/-! ## C44 -/

theorem rms_nonneg (x y : List ℝ) : 0 ≤ rms x y := Real.sqrt_nonneg _

theorem rms_sum (x y : List ℝ) (h : x.length = y.length) :
    rms x y = Real.sqrt ((∑ i : Fin x.length, (x.get i - y.get (i.cast h)) ^ 2) / x.length) := by
  rw [rms, zipWith_sum _ _ _ h]

/-- **C44**: the misfit vanishes exactly when the two windows coincide. -/
theorem c44_rms_zero {x y : List ℝ} (h : x.length = y.length) : rms x y = 0 ↔ x = y := by
  by_cases hx : x = []
  · subst hx
    have : y = [] := List.length_eq_zero_iff.1 (by simpa using h.symm)
    subst this
    simp [rms]
  · have hl : (0 : ℝ) < x.length := by exact_mod_cast List.length_pos_of_ne_nil hx
    rw [rms_sum x y h, Real.sqrt_eq_zero (div_nonneg (Finset.sum_nonneg (fun i _ => sq_nonneg _))
      hl.le), div_eq_zero_iff, or_iff_left hl.ne',
      Finset.sum_eq_zero_iff_of_nonneg (fun i _ => sq_nonneg _)]
    constructor
    · intro hz
      refine List.ext_get h (fun n h1 h2 => ?_)
      have := pow_eq_zero_iff (two_ne_zero) |>.1 (hz ⟨n, h1⟩ (Finset.mem_univ _))
      simpa using sub_eq_zero.1 this
    · rintro rfl i _
      simp

/-- **C44**: the misfit is symmetric. -/
theorem c44_rms_symm {x y : List ℝ} (h : x.length = y.length) : rms x y = rms y x := by
  have : (fun b a : ℝ => (a - b) ^ 2) = fun a b : ℝ => (a - b) ^ 2 := by
    funext a b; ring
  rw [rms, rms, ← h, List.zipWith_comm, this]

/-- **C44**: triangle inequality. -/
theorem c44_rms_triangle {x y z : List ℝ} (h : x.length = y.length) (h' : y.length = z.length) :
    rms x z ≤ rms x y + rms y z := by
  have hy : rms y z = Real.sqrt ((∑ i : Fin x.length,
      (y.get (i.cast h) - z.get (i.cast (h.trans h'))) ^ 2) / x.length) := by
    have hl : (y.length : ℝ) = x.length := by rw [h]
    have hsum : ∑ i : Fin y.length, (y.get i - z.get (i.cast h')) ^ 2 = ∑ i : Fin x.length,
        (y.get (i.cast h) - z.get (i.cast (h.trans h'))) ^ 2 :=
      (Fintype.sum_equiv (finCongr h) _ _ (fun i => rfl)).symm
    rw [rms_sum y z h', hsum, hl]
  rw [rms_sum x y h, rms_sum x z (h.trans h'), hy]
  set A := ∑ i : Fin x.length, (x.get i - y.get (i.cast h)) ^ 2 with hA
  set B := ∑ i : Fin x.length, (y.get (i.cast h) - z.get (i.cast (h.trans h'))) ^ 2 with hB
  have hA0 : 0 ≤ A := Finset.sum_nonneg (fun i _ => sq_nonneg _)
  have hB0 : 0 ≤ B := Finset.sum_nonneg (fun i _ => sq_nonneg _)
  have hn0 : (0 : ℝ) ≤ x.length := by positivity
  rw [Real.sqrt_div' _ hn0, Real.sqrt_div' _ hn0, Real.sqrt_div' _ hn0, ← add_div]
  refine div_le_div_of_nonneg_right ?_ (Real.sqrt_nonneg _)
  rw [Real.sqrt_le_left (add_nonneg (Real.sqrt_nonneg _) (Real.sqrt_nonneg _)), add_sq,
    Real.sq_sqrt hA0, Real.sq_sqrt hB0]
  have cs : ∑ i : Fin x.length, (x.get i - y.get (i.cast h)) *
      (y.get (i.cast h) - z.get (i.cast (h.trans h'))) ≤ √A * √B := by
    rw [← Real.sqrt_mul hA0]
    refine (le_abs_self _).trans (Real.abs_le_sqrt ?_)
    exact Finset.sum_mul_sq_le_sq_mul_sq _ _ _
  have e : ∑ i : Fin x.length, (x.get i - z.get (i.cast (h.trans h'))) ^ 2 =
      A + 2 * ∑ i : Fin x.length, (x.get i - y.get (i.cast h)) *
        (y.get (i.cast h) - z.get (i.cast (h.trans h'))) + B := by
    rw [hA, hB, Finset.mul_sum, ← Finset.sum_add_distrib, ← Finset.sum_add_distrib]
    exact Finset.sum_congr rfl (fun i _ => by ring)
  rw [e]
  linarith

theorem mean_affine {x : List ℝ} (hx : x ≠ []) (a b : ℝ) :
    mean (x.map (fun t => a * t + b)) = a * mean x + b := by
  have hl : (x.length : ℝ) ≠ 0 := by
    have := List.length_pos_of_ne_nil hx
    positivity
  have : (x.map (fun t => a * t + b)).sum = a * x.sum + x.length * b := by
    clear hl hx
    induction x with
    | nil => simp
    | cons c x ih =>
      rw [List.map_cons, List.sum_cons, ih, List.sum_cons, List.length_cons]
      push_cast; ring
  rw [mean, this, mean, List.length_map]
  field_simp

theorem comoment_affine {x y : List ℝ} (h : x.length = y.length) (hx : x ≠ []) (a b c d : ℝ) :
    comoment (x.map (fun t => a * t + b)) (y.map (fun t => c * t + d)) = a * c * comoment x y := by
  have hy : y ≠ [] := by
    rintro rfl
    exact hx (List.length_eq_zero_iff.1 h)
  rw [comoment, mean_affine hx, mean_affine hy, List.zipWith_map, comoment, zipWith_sum _ _ _ h,
    zipWith_sum _ _ _ h, Finset.mul_sum]
  exact Finset.sum_congr rfl (fun i _ => by ring)

/-- **C44**: the correlation is unchanged when either trace is multiplied by a positive number or
shifted by a constant, and lies between -1 and 1. -/
theorem c44_corr_affine {x y : List ℝ} (h : x.length = y.length) (hx : x ≠ []) {a c : ℝ}
    (ha : 0 < a) (hc : 0 < c) (b d : ℝ) :
    pearson (x.map (fun t => a * t + b)) (y.map (fun t => c * t + d)) = pearson x y ∧
    -1 ≤ pearson x y ∧ pearson x y ≤ 1 := by
  have hy : y ≠ [] := by
    rintro rfl
    exact hx (List.length_eq_zero_iff.1 h)
  refine ⟨?_, abs_le.1 (abs_pearson_le x y h)⟩
  rw [pearson, comoment_affine h hx, comoment_affine rfl hx, comoment_affine rfl hy, pearson,
    Real.sqrt_mul (mul_self_nonneg a) (comoment x x),
    Real.sqrt_mul (mul_self_nonneg c) (comoment y y), Real.sqrt_mul_self ha.le,
    Real.sqrt_mul_self hc.le]
  have : a * √(comoment x x) * (c * √(comoment y y)) =
      (a * c) * (√(comoment x x) * √(comoment y y)) := by ring
  rw [this, mul_div_mul_left _ _ (by positivity)]

/-- **C44**: what this means for the solutions returned by `WaveformFitting`. -/
theorem c44_rows {env : WEnv ℝ} {rfs : List (Trace ℝ)} {tr0 : Trace ℝ}
    {preonset HSed VpSed VpCrust rayp gaussian wc wr wp : ℝ} {KMoho HMoho : List ℝ}
    {R : WResult ℝ} (h0 : rfs[0]? = some tr0) (hd : 0 < tr0.delta)
    (h : WaveformFitting env rfs preonset HSed VpSed VpCrust rayp KMoho HMoho gaussian wc wr wp
      = .ok R) :
    ∃ S sd, env.stackR rfs = .ok S ∧ S[0]? = some sd ∧ ∀ s ∈ R.WaveformSolutions,
      0 ≤ s.rmse ∧ -1 ≤ s.corr ∧ s.corr ≤ 1 ∧
      ∃ syn, env.synthRF (modelOf HSed VpSed VpCrust rayp tr0.delta preonset gaussian sd.length
          s.h s.k) = .ok syn ∧
        (s.rmse = 0 ↔ window tr0.delta preonset sd = window tr0.delta preonset syn) := by
  obtain ⟨S, sd, e1, e2, hcrit⟩ := c36_serial_window h0 hd h
  refine ⟨S, sd, e1, e2, fun s hs => ?_⟩
  obtain ⟨syn, hm, hl, hne, hr, hc1, hc2, _, hp⟩ := hcrit s hs
  exact ⟨hr ▸ rms_nonneg _ _, hc1, hc2, syn, hm, hr ▸ c44_rms_zero hl⟩

end Rfsed.Props
