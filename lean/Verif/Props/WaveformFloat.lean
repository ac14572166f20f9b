import Verif.Proofs.Nearest
import Verif.Props.Waveform

/-!
# C122: the window of the waveform fit in floating-point arithmetic

`WaveformFitting` and `WaveformPara` look for the sample with `delta * i - preonset == 0`, an equality of floating-point
numbers, and end the window at `int(25 / delta)` samples behind it.  Numbers are rounded to nearest with `p + 1` binary
digits.
-/

namespace Rfsed.Props
open PyFloat Rfsed.Spec Rfsed.Proofs Rfsed.Waveform

variable {R : Rounding} {p : ℕ}

/-! ## Rounded products and quotients -/

theorem pow_facts (p : ℕ) : (4 : ℝ) ≤ 2 ^ (p + 2) ∧ (0 : ℝ) < 1 / 2 ^ (p + 2) ∧ (1 : ℝ) / 2 ^ (p + 2) ≤ 1 / 4 := by
  have h1 : (1 : ℝ) ≤ 2 ^ p := one_le_pow₀ (by norm_num)
  have h4 : (4 : ℝ) ≤ 2 ^ (p + 2) := by rw [pow_add]; linarith
  exact ⟨h4, by positivity, one_div_le_one_div_of_le (by norm_num) h4⟩

theorem samples_pos {delta : ℝ} {f : ℕ} (h : SamplesPerSecond p delta f) : 0 < delta := by
  obtain ⟨h0, h1, h2⟩ := h
  obtain ⟨-, -, q⟩ := pow_facts p
  have hf : (0 : ℝ) < f := by exact_mod_cast h0
  have : 0 < delta * f := by linarith
  exact (pos_iff_pos_of_mul_pos this).2 hf

/-- **C122** `N` whole seconds are `N * f` samples: the rounded product is exactly `N` -/
theorem c122_product {delta : ℝ} {f N : ℕ} (hR : Nearest R p) (h : SamplesPerSecond p delta f) (hN : N < 2 ^ (p + 1)) :
    R.fl (delta * ((N * f : ℕ) : ℝ)) = N := by
  rcases Nat.eq_zero_or_pos N with rfl | h0
  · simp [R.fl_zero]
  · obtain ⟨-, h1, h2⟩ := h
    obtain ⟨q1, q2, q3⟩ := pow_facts p
    have hN0 : (0 : ℝ) < N := by exact_mod_cast h0
    have e : delta * ((N * f : ℕ) : ℝ) = N * (delta * f) := by push_cast; ring
    refine Nearest.eq_of_close hR (representable_nat hN) hN0 ?_ ?_
    · rw [e, div_eq_mul_one_div]
      nlinarith
    · have h3 : (1 : ℝ) / 2 ^ (p + 2) < 1 / (2 ^ (p + 2) - 2) :=
        one_div_lt_one_div_of_lt (by linarith) (by linarith)
      rw [e, div_eq_mul_one_div]
      nlinarith

/-- **C122** no other sample has that time -/
theorem c122_only {delta : ℝ} {f N k : ℕ} (hR : Nearest R p) (h : SamplesPerSecond p delta f) (hk : k < 2 ^ p)
    (e : R.fl (delta * (k : ℝ)) = N) : k = N * f := by
  obtain ⟨h0, h1, h2⟩ := h
  obtain ⟨q1, q2, q3⟩ := pow_facts p
  have hf : (0 : ℝ) < f := by exact_mod_cast h0
  have hk0 : (0 : ℝ) ≤ k := Nat.cast_nonneg k
  have he := Nearest.err hR (delta * (k : ℝ))
  rw [e, inv_pow, ← one_div, show (1 : ℝ) / 2 ^ (p + 1) = 2 * (1 / 2 ^ (p + 2)) by
    rw [pow_succ 2 (p + 1)]; field_simp] at he
  have hd : delta * f = 1 + (delta * f - 1) := by ring
  set E := delta * f - 1 with hE
  set w : ℝ := 1 / 2 ^ (p + 2) with hw
  have hdp : 0 < delta := by
    have : 0 < delta * f := by linarith
    exact (pos_iff_pos_of_mul_pos this).2 hf
  rw [abs_of_nonneg (show 0 ≤ delta * (k : ℝ) by positivity)] at he
  -- multiply by f
  have hm : |(N * f : ℝ) - k| ≤ 4 * w * k := by
    have i1 : |(N : ℝ) * f - delta * k * f| ≤ 2 * w * (delta * k) * f := by
      rw [← sub_mul, abs_mul, abs_of_pos hf]
      gcongr
    have i2 : delta * k * f = k * (1 + E) := by rw [← hd]; ring
    have i3 : 2 * w * (delta * k) * f = 2 * w * (k * (1 + E)) := by rw [← i2]; ring
    rw [i2, i3] at i1
    have i4 : |(k : ℝ) * E| ≤ k * w := by
      rw [abs_mul, abs_of_nonneg hk0]
      gcongr
      rw [abs_le]
      exact ⟨by linarith, h2⟩
    have i5 : |(N * f : ℝ) - k| ≤ |(N : ℝ) * f - k * (1 + E)| + |(k : ℝ) * E| := by
      have := abs_add_le ((N : ℝ) * f - k * (1 + E)) (k * E)
      rwa [show (N : ℝ) * f - k * (1 + E) + k * E = N * f - k by ring] at this
    have i6 : 2 * w * (k * (1 + E)) ≤ 2 * w * (k * (1 + 1 / 4)) := by gcongr; linarith
    nlinarith [mul_nonneg q2.le hk0]
  have hlt : |(N * f : ℝ) - k| < 1 := by
    refine hm.trans_lt ?_
    have hk' : (k : ℝ) < 2 ^ p := by exact_mod_cast hk
    have : w = 1 / (4 * 2 ^ p) := by rw [hw, pow_add]; congr 1; ring
    rw [this]
    have : (0 : ℝ) < 2 ^ p := by positivity
    rw [show 4 * (1 / (4 * (2 : ℝ) ^ p)) * k = k / 2 ^ p by field_simp]
    rwa [div_lt_one this]
  have : |((N * f : ℕ) : ℤ) - (k : ℤ)| < 1 := by
    have : |(((N * f : ℕ) : ℤ) - (k : ℤ) : ℝ)| < 1 := by push_cast; exact hlt
    exact_mod_cast this
  rw [Int.abs_lt_one_iff] at this
  omega

/-- **C122** `int(M / delta)` for whole seconds `M` is `M * f`: no sample is lost to truncation -/
theorem c122_quotient {delta : FL R} {f M : ℕ} (hR : Nearest R p) (h : SamplesPerSecond p delta.val f)
    (hM : M * f < 2 ^ (p + 1)) (a : FL R) (ha : a.val = M) : PyTrunc.trunc (a / delta) = .ok ((M * f : ℕ) : ℤ) := by
  have hd := samples_pos h
  obtain ⟨h0, h1, h2⟩ := h
  obtain ⟨q1, q2, q3⟩ := pow_facts p
  have hf : (0 : ℝ) < f := by exact_mod_cast h0
  have key : R.fl ((M : ℝ) / delta.val) = ((M * f : ℕ) : ℝ) := by
    rcases Nat.eq_zero_or_pos M with rfl | hM0
    · simp [R.fl_zero]
    · have hp : (0 : ℝ) < ((M * f : ℕ) : ℝ) := by exact_mod_cast Nat.mul_pos hM0 h0
      have e : (M : ℝ) / delta.val = ((M * f : ℕ) : ℝ) / (delta.val * f) := by push_cast; field_simp
      have hdf : 0 < delta.val * f := by positivity
      refine Nearest.eq_of_close hR (representable_nat hM) hp ?_ ?_
      · rw [e, sub_lt_iff_lt_add, ← sub_lt_iff_lt_add', lt_div_iff₀ hdf, div_eq_mul_one_div]
        have : (1 - 1 / 2 ^ (p + 2)) * (delta.val * f) < 1 := by nlinarith
        nlinarith
      · rw [e, sub_lt_iff_lt_add, div_lt_iff₀ hdf, div_eq_mul_one_div _ ((2 : ℝ) ^ (p + 2) - 2)]
        have hP : (0 : ℝ) < 2 ^ (p + 2) - 2 := by linarith
        have : 1 < (1 / (2 ^ (p + 2) - 2) + 1) * (delta.val * f) := by
          have h3 : 1 - 1 / 2 ^ (p + 2) < delta.val * f := by linarith
          have h4 : (1 : ℝ) ≤ (1 / (2 ^ (p + 2) - 2) + 1) * (1 - 1 / 2 ^ (p + 2)) := by
            have : (2 : ℝ) ^ (p + 2) ≠ 0 := by positivity
            rw [show (1 / ((2 : ℝ) ^ (p + 2) - 2) + 1) * (1 - 1 / 2 ^ (p + 2))
              = ((2 ^ (p + 2) - 1) * (2 ^ (p + 2) - 1)) / ((2 ^ (p + 2) - 2) * 2 ^ (p + 2)) by field_simp; ring,
              le_div_iff₀ (by positivity)]
            nlinarith
          have h5 : (0 : ℝ) < 1 / (2 ^ (p + 2) - 2) + 1 := by positivity
          nlinarith
        nlinarith
  show Except.ok (truncR (R.fl (a.val / delta.val))) = _
  rw [ha, key, truncR, if_pos (Nat.cast_nonneg _), Int.floor_natCast]

/-! ## The waveform fit -/

theorem fl_eq_zero (hR : Nearest R p) {x : ℝ} : R.fl x = 0 ↔ x = 0 := by
  constructor
  · intro h
    have := Nearest.err hR x
    rw [h, zero_sub, abs_neg, inv_pow, ← one_div] at this
    have h1 : (1 : ℝ) ≤ 2 ^ p := one_le_pow₀ (by norm_num)
    have h2 : (1 : ℝ) / 2 ^ (p + 1) ≤ 1 / 2 := one_div_le_one_div_of_le (by norm_num) (by rw [pow_succ]; linarith)
    by_contra hx
    nlinarith [abs_pos.2 hx]
  · rintro rfl
    exact R.fl_zero

theorem val_ofNat (hR : Nearest R p) {k : ℕ} (hk : k < 2 ^ (p + 1)) : (PyFloat.ofNat k : FL R).val = k := by
  show R.fl ((k : ℝ) / 10 ^ 0) = k
  rw [pow_zero, div_one]
  exact Nearest.exact hR (representable_nat hk)

theorem mem_onset (hR : Nearest R p) {delta preonset : FL R} {l z : ℕ} (hl : l ≤ 2 ^ (p + 1)) :
    z ∈ whereEq (timeAxis delta preonset l) zero ↔ z < l ∧ R.fl (delta.val * (z : ℝ)) = preonset.val := by
  rw [whereEq, List.mem_filter]
  simp only [timeAxis, List.length_map, List.length_range, List.mem_range]
  refine and_congr_right (fun hz => ?_)
  rw [List.getElem?_map, List.getElem?_range hz]
  simp only [Option.map_some, PyFloat.eq, Bool.and_eq_true, FL.le_iff, FL.val_zero, FL.val_sub, FL.val_mul,
    val_ofNat hR (hz.trans_le hl)]
  rw [← le_antisymm_iff, fl_eq_zero hR, sub_eq_zero]

variable {env : WEnv (FL R)} {rfs : List (Trace (FL R))} {tr0 : Trace (FL R)} {S : List (List (FL R))}
  {sd : List (FL R)} {preonset HSed VpSed VpCrust rayp gaussian : FL R} {KMoho HMoho : List (FL R)}

theorem prepare_cases (h0 : rfs[0]? = some tr0) (hd : tr0.delta.val ≠ 0) (hl : tr0.data ≠ [])
    (hS : env.stackR rfs = .ok S) (hsd : S[0]? = some sd) :
    (whereEq (timeAxis tr0.delta preonset tr0.data.length) zero = [] →
      prepare env rfs preonset HSed VpSed VpCrust rayp KMoho HMoho gaussian = .error .indexError) ∧
    (whereEq (timeAxis tr0.delta preonset tr0.data.length) zero ≠ [] →
      ∃ P, prepare env rfs preonset HSed VpSed VpCrust rayp KMoho HMoho gaussian = .ok P) := by
  have hlen : 0 < tr0.data.length := List.length_pos_of_ne_nil hl
  obtain ⟨t0, ht0⟩ : ∃ t0, item (timeAxis tr0.delta preonset tr0.data.length) 0 = .ok t0 :=
    ⟨_, item_lt (by simpa [timeAxis] using hlen)⟩
  unfold prepare
  rw [item_ok.2 h0, except_ok_bind, hS, except_ok_bind, item_ok.2 hsd, except_ok_bind, ht0, except_ok_bind]
  constructor
  · intro h
    rw [h]
    rfl
  · intro h
    obtain ⟨z, zs, hz⟩ := List.exists_cons_of_ne_nil h
    have hne : ¬ eq tr0.delta zero = true := by
      simp only [PyFloat.eq, Bool.and_eq_true, FL.le_iff, FL.val_zero]
      rw [← le_antisymm_iff]
      exact hd
    rw [hz, show item (z :: zs) 0 = .ok z from rfl, except_ok_bind, if_neg hne]
    exact ⟨_, rfl⟩

/-- **C122** Both variants get past the search for the onset exactly if some sample satisfies
`delta * i == preonset` in floating-point arithmetic; otherwise they raise `IndexError`. -/
theorem c122_onset (wc wr wp : FL R) (hR : Nearest R p) (h0 : rfs[0]? = some tr0) (hd : tr0.delta.val ≠ 0)
    (hl : tr0.data ≠ []) (hlen : tr0.data.length ≤ 2 ^ (p + 1)) (hS : env.stackR rfs = .ok S)
    (hsd : S[0]? = some sd) :
    ((∃ i < tr0.data.length, R.fl (tr0.delta.val * (i : ℝ)) = preonset.val) →
      ∃ P, WaveformPara env rfs preonset HSed VpSed VpCrust rayp KMoho HMoho gaussian = .ok P) ∧
    ((¬ ∃ i < tr0.data.length, R.fl (tr0.delta.val * (i : ℝ)) = preonset.val) →
      WaveformPara env rfs preonset HSed VpSed VpCrust rayp KMoho HMoho gaussian = .error .indexError ∧
      WaveformFitting env rfs preonset HSed VpSed VpCrust rayp KMoho HMoho gaussian wc wr wp
        = .error .indexError) := by
  obtain ⟨c1, c2⟩ := prepare_cases (HSed := HSed) (VpSed := VpSed) (VpCrust := VpCrust) (rayp := rayp) (KMoho := KMoho)
    (HMoho := HMoho) (gaussian := gaussian) (preonset := preonset) h0 hd hl hS hsd
  constructor
  · rintro ⟨i, hi⟩
    rw [WaveformPara_eq]
    exact c2 (List.ne_nil_of_mem ((mem_onset hR hlen).2 hi))
  · intro h
    have hp := c1 (List.eq_nil_iff_forall_not_mem.2 (fun i hi => h ⟨i, (mem_onset hR hlen).1 hi⟩))
    rw [WaveformPara_eq]
    refine ⟨hp, ?_⟩
    unfold WaveformFitting
    rw [hp]
    rfl

/-- **C122** With a usual sampling rate and a whole number of seconds before the onset, rounding does no harm: the
window of `WaveformPara` consists of the samples `N * f` up to, not including, `(N + 25) * f`. -/
theorem c122_window {f N : ℕ} (hR : Nearest R p) (h0 : rfs[0]? = some tr0)
    (hf : SamplesPerSecond p tr0.delta.val f) (hN : preonset.val = N) (hlen : tr0.data.length ≤ 2 ^ p)
    (hbig : (N + 25) * f < 2 ^ (p + 1)) (hin : N * f < tr0.data.length) (hS : env.stackR rfs = .ok S)
    (hsd : S[0]? = some sd) :
    ∃ P, WaveformPara env rfs preonset HSed VpSed VpCrust rayp KMoho HMoho gaussian = .ok P ∧
      P.tstart = N * f ∧ P.tend = (((N + 25) * f : ℕ) : ℤ) ∧ P.StackedData = sd := by
  have hf0 := hf.1
  have hNf : N ≤ N * f := Nat.le_mul_of_pos_right N hf0
  have hN1 : N < 2 ^ (p + 1) := by nlinarith
  have hlen' : tr0.data.length ≤ 2 ^ (p + 1) := hlen.trans (Nat.pow_le_pow_right (by norm_num) (by omega))
  have hmem : N * f ∈ whereEq (timeAxis tr0.delta preonset tr0.data.length) zero :=
    (mem_onset hR hlen').2 ⟨hin, by rw [hN]; exact c122_product hR hf hN1⟩
  obtain ⟨P, hP⟩ := (prepare_cases (HSed := HSed) (VpSed := VpSed) (VpCrust := VpCrust) (rayp := rayp) (KMoho := KMoho)
    (HMoho := HMoho) (gaussian := gaussian) (preonset := preonset) h0 (samples_pos hf).ne'
    (List.ne_nil_of_length_pos (by omega)) hS hsd).2 (List.ne_nil_of_mem hmem)
  refine ⟨P, by rw [WaveformPara_eq]; exact hP, ?_⟩
  obtain ⟨tr0', S', sd', z, e, h0', hS', hsd', -, hz, -, he, rfl⟩ := prepare_ok hP
  cases (show some tr0 = some tr0' from h0.symm.trans h0')
  rw [hS] at hS'
  cases hS'
  rw [hsd] at hsd'
  cases hsd'
  obtain ⟨hzl, hze⟩ := (mem_onset hR hlen').1 (List.mem_of_getElem? hz)
  rw [hN] at hze
  have hzz : z = N * f := c122_only hR hf (hzl.trans_le hlen) hze
  have h25 : (25 : ℕ) < 2 ^ (p + 1) := by nlinarith
  rw [c122_quotient (M := 25) hR hf (by nlinarith) _ (val_ofNat hR h25)] at he
  refine ⟨hzz, ?_, rfl⟩
  have he := Except.ok.inj he
  show (z : ℤ) + e = _
  rw [hzz, ← he]
  push_cast
  ring

/-- **C122** Both variants judge every grid point on these samples. -/
theorem c122_judged {f N : ℕ} {wc wr wp : FL R} {res : WResult (FL R)} (hR : Nearest R p) (h0 : rfs[0]? = some tr0)
    (hf : SamplesPerSecond p tr0.delta.val f) (hN : preonset.val = N) (hlen : tr0.data.length ≤ 2 ^ p)
    (hbig : (N + 25) * f < 2 ^ (p + 1)) (hin : N * f < tr0.data.length) (hS : env.stackR rfs = .ok S)
    (hsd : S[0]? = some sd)
    (h : WaveformFitting env rfs preonset HSed VpSed VpCrust rayp KMoho HMoho gaussian wc wr wp = .ok res) :
    ∀ s ∈ res.WaveformSolutions, ∃ args rf, env.synthRF args = .ok rf ∧
      args.depth = [HSed, s.h, dec 775 1] ∧ args.vs = [vsOf VpSed, VpCrust / s.k, dec 449 2] ∧
      corrcoef01 ((sd.drop (N * f)).take (25 * f)) ((rf.drop (N * f)).take (25 * f)) = .ok s.corr ∧
      (∃ mse, meanSquaredError ((sd.drop (N * f)).take (25 * f)) ((rf.drop (N * f)).take (25 * f)) = .ok mse ∧
        s.rmse = powHalf mse) ∧
      env.pg (signs ((sd.drop (N * f)).take (25 * f))) (signs ((rf.drop (N * f)).take (25 * f))) tr0.delta
        = .ok s.pg := by
  obtain ⟨P, all, sols, best, hP, ha, hs, hb, rfl⟩ := WaveformFitting_ok h
  obtain ⟨P', hP', e1, e2, e3⟩ := c122_window (HSed := HSed) (VpSed := VpSed) (VpCrust := VpCrust) (rayp := rayp)
    (KMoho := KMoho) (HMoho := HMoho) (gaussian := gaussian) hR h0 hf hN hlen hbig hin hS hsd
  rw [WaveformPara_eq, hP] at hP'
  cases hP'
  obtain ⟨mc, mr, mp, _, _, _, rfl⟩ := normalise_ok hs
  intro s hs
  obtain ⟨c, hc, rfl⟩ := List.mem_map.1 hs
  obtain ⟨q, hq, hqc⟩ := mapM_ok_mem_out ha hc
  unfold gridPoint at hqc
  obtain ⟨rf, hrf, hqc⟩ := bind_eq_ok.1 hqc
  have sl : ∀ x : List (FL R), pySlice x P.tstart P.tend = (x.drop (N * f)).take (25 * f) := by
    intro x
    rw [e1, e2, pySlice]
    simp only [Nat.cast_nonneg, if_true, Int.toNat_natCast]
    rw [List.drop_take]
    congr 1
    rw [add_mul]
    omega
  unfold criteria at hqc
  simp only [sl, e3] at hqc
  obtain ⟨cc, i1, hqc⟩ := bind_eq_ok.1 hqc
  obtain ⟨mse, i2, hqc⟩ := bind_eq_ok.1 hqc
  obtain ⟨pg, i3, hqc⟩ := bind_eq_ok.1 hqc
  cases hqc
  obtain ⟨tr0', _, _, _, _, h0', _, _, _, _, _, _, rfl⟩ := prepare_ok hP
  cases (show some tr0 = some tr0' from h0.symm.trans h0')
  exact ⟨_, rf, hrf, rfl, rfl, i1, ⟨mse, i2, rfl⟩, i3⟩

/-- **C122** If the synthetics have the length of the stacked receiver function and obspy's `pg` succeeds, the fit
succeeds: neither the search for the onset nor the criteria fail. -/
theorem c122_succeeds {f N : ℕ} (wc wr wp : FL R) (hR : Nearest R p) (h0 : rfs[0]? = some tr0)
    (hf : SamplesPerSecond p tr0.delta.val f) (hN : preonset.val = N) (hlen : tr0.data.length ≤ 2 ^ p)
    (hbig : (N + 25) * f < 2 ^ (p + 1)) (hin : N * f < tr0.data.length) (hS : env.stackR rfs = .ok S)
    (hsd : S[0]? = some sd) (hsl : sd.length = tr0.data.length)
    (hsyn : ∀ args, ∃ rf, env.synthRF args = .ok rf ∧ rf.length = sd.length)
    (hpg : ∀ a b d, ∃ v, env.pg a b d = .ok v) (hK : KMoho ≠ []) (hH : HMoho ≠ []) :
    ∃ res, WaveformFitting env rfs preonset HSed VpSed VpCrust rayp KMoho HMoho gaussian wc wr wp = .ok res := by
  obtain ⟨P, hP, e1, e2, e3⟩ := c122_window (HSed := HSed) (VpSed := VpSed) (VpCrust := VpCrust) (rayp := rayp)
    (KMoho := KMoho) (HMoho := HMoho) (gaussian := gaussian) hR h0 hf hN hlen hbig hin hS hsd
  rw [WaveformPara_eq] at hP
  have fin : ∀ x : List (FL R), x.all isFinite = true := by
    intro x
    rw [List.all_eq_true]
    intro a _
    simp only [isFinite, PyFloat.eq, Bool.and_eq_true, FL.le_iff, FL.val_zero, FL.val_sub, sub_self, R.fl_zero]
    exact ⟨le_rfl, le_rfl⟩
  have hf0 := hf.1
  have hg : ∀ h k, ∃ c, gridPoint env P h k = .ok c := by
    intro h k
    obtain ⟨rf, hrf, hrl⟩ := hsyn (synthArgs P.HSed P.VpSed P.VsSed P.SedDen P.VpCrust P.CrustDen
      P.rayp P.delta P.preonset P.gaussian P.n h k)
    have l1 : (pySlice P.StackedData P.tstart P.tend).length = (pySlice rf P.tstart P.tend).length := by
      simp only [pySlice, e3, hrl, List.length_drop, List.length_take]
    have l2 : (pySlice P.StackedData P.tstart P.tend).length ≠ 0 := by
      rw [e1, e2, e3, pySlice]
      simp only [Nat.cast_nonneg, if_true, Int.toNat_natCast, List.length_drop, List.length_take, hsl]
      rw [add_mul]
      omega
    obtain ⟨v, hv⟩ := hpg (signs (pySlice P.StackedData P.tstart P.tend)) (signs (pySlice rf P.tstart P.tend)) P.delta
    unfold gridPoint criteria
    rw [hrf, except_ok_bind]
    simp only [corrcoef01, meanSquaredError]
    rw [if_neg (by simp [l1]), except_ok_bind, if_neg (by
      rintro (h | h)
      · exact h l1
      · exact l2 h), if_neg (by rw [fin, fin]; simp), except_ok_bind, hv, except_ok_bind]
    exact ⟨_, rfl⟩
  obtain ⟨all, ha⟩ := mapM_ok_of_forall (xs := KMoho.flatMap (fun k => HMoho.map (fun h => (h, k))))
    (f := fun q : FL R × FL R => gridPoint env P q.1 q.2) (fun q _ => hg q.1 q.2)
  have hne : all ≠ [] := by
    obtain ⟨k, K, rfl⟩ := List.exists_cons_of_ne_nil hK
    obtain ⟨h, H, rfl⟩ := List.exists_cons_of_ne_nil hH
    have := mapM_length ha
    rintro rfl
    simp at this
  obtain ⟨sols, hs⟩ := normalise_total wc wr wp hne
  have hsn : sols ≠ [] := by
    obtain ⟨_, _, _, _, _, _, rfl⟩ := normalise_ok hs
    simpa using hne
  obtain ⟨best, hb⟩ := bestModels_total hsn
  exact ⟨_, WaveformFitting_of hP ha hs hb⟩

/-! ## Sampling rates -/

theorem representable_frac {m e : ℕ} (h : m < 2 ^ (p + 1)) : Representable p ((m : ℝ) / 2 ^ e) :=
  ⟨m, -(e : ℤ), by rw [Nat.abs_cast]; exact_mod_cast h, by rw [zpow_neg, zpow_natCast]; rfl⟩

/-- the reciprocal of `f`, rounded -/
theorem fl_recip {m e f : ℕ} (hR : Nearest R p) (hm : m < 2 ^ (p + 1)) (hm0 : 0 < m) (hf : 0 < f)
    (lo : ((f : ℝ) * m - 2 ^ e) * 2 ^ (p + 2) < f * m)
    (hi : ((2 : ℝ) ^ e - f * m) * (2 ^ (p + 2) - 2) < f * m) : R.fl (1 / f) = (m : ℝ) / 2 ^ e := by
  have hf' : (0 : ℝ) < f := by exact_mod_cast hf
  have hm' : (0 : ℝ) < m := by exact_mod_cast hm0
  have hP : (0 : ℝ) < 2 ^ (p + 2) - 2 := by linarith [(pow_facts p).1]
  have he : (0 : ℝ) < 2 ^ e := by positivity
  refine Nearest.eq_of_close hR (representable_frac hm) (by positivity) ?_ ?_
  · rw [show (m : ℝ) / 2 ^ e - 1 / f = (f * m - 2 ^ e) / (2 ^ e * f) by field_simp, div_div,
      div_lt_div_iff₀ (by positivity) (by positivity)]
    have := mul_lt_mul_of_pos_right lo he
    linarith
  · rw [show 1 / (f : ℝ) - (m : ℝ) / 2 ^ e = (2 ^ e - f * m) / (2 ^ e * f) by field_simp, div_div,
      div_lt_div_iff₀ (by positivity) (by positivity)]
    have := mul_lt_mul_of_pos_right hi he
    linarith

theorem samples_of {m e f : ℕ} (hR : Nearest R p) (hm : m < 2 ^ (p + 1)) (hm0 : 0 < m) (hf : 0 < f)
    (lo : ((f : ℝ) * m - 2 ^ e) * 2 ^ (p + 2) ≤ 2 ^ e) (hi : ((2 : ℝ) ^ e - f * m) * 2 ^ (p + 2) < 2 ^ e) :
    SamplesPerSecond p (R.fl (1 / (f : ℝ))) f := by
  obtain ⟨q1, q2, q3⟩ := pow_facts p
  have hf' : (0 : ℝ) < f := by exact_mod_cast hf
  have hm' : (0 : ℝ) < m := by exact_mod_cast hm0
  have he : (0 : ℝ) < 2 ^ e := by positivity
  have hfm : (0 : ℝ) < f * m := by positivity
  rw [fl_recip hR hm hm0 hf (by
      rcases le_or_gt ((f : ℝ) * m) (2 ^ e) with h | h
      · nlinarith
      · linarith) (by
      rcases le_or_gt ((2 : ℝ) ^ e) (f * m) with h | h
      · nlinarith
      · nlinarith)]
  have e1 : (m : ℝ) / 2 ^ e * f - 1 = (f * m - 2 ^ e) / 2 ^ e := by field_simp
  refine ⟨hf, ?_, ?_⟩
  · rw [e1, ← neg_div, div_lt_div_iff₀ (by positivity) he]
    linarith
  · rw [e1, div_le_div_iff₀ he (by positivity)]
    linarith

/-- **C122** In double precision the intervals `1/f` of 10, 20, 25, 40, 50, 100, 125 and 200 samples per second satisfy the
condition. -/
theorem c122_usual_rates (hR : Nearest R 52) :
    ∀ f ∈ [10, 20, 25, 40, 50, 100, 125, 200], SamplesPerSecond 52 (R.fl (1 / ((f : ℕ) : ℝ))) f := by
  intro f hf
  simp only [List.mem_cons, List.not_mem_nil, or_false] at hf
  rcases hf with rfl | rfl | rfl | rfl | rfl | rfl | rfl | rfl
  · exact samples_of (m := 3602879701896397) (e := 55) hR (by norm_num) (by norm_num) (by norm_num) (by norm_num) (by norm_num)
  · exact samples_of (m := 3602879701896397) (e := 56) hR (by norm_num) (by norm_num) (by norm_num) (by norm_num) (by norm_num)
  · exact samples_of (m := 5764607523034235) (e := 57) hR (by norm_num) (by norm_num) (by norm_num) (by norm_num) (by norm_num)
  · exact samples_of (m := 3602879701896397) (e := 57) hR (by norm_num) (by norm_num) (by norm_num) (by norm_num) (by norm_num)
  · exact samples_of (m := 5764607523034235) (e := 58) hR (by norm_num) (by norm_num) (by norm_num) (by norm_num) (by norm_num)
  · exact samples_of (m := 5764607523034235) (e := 59) hR (by norm_num) (by norm_num) (by norm_num) (by norm_num) (by norm_num)
  · exact samples_of (m := 1152921504606847) (e := 57) hR (by norm_num) (by norm_num) (by norm_num) (by norm_num) (by norm_num)
  · exact samples_of (m := 5764607523034235) (e := 60) hR (by norm_num) (by norm_num) (by norm_num) (by norm_num) (by norm_num)

/-! ## Where rounding does harm -/

/-- 49 samples per second: 49 times the rounded interval is not 1 -/
theorem forty_nine (hR : Nearest R 52) (k : ℕ) : R.fl (R.fl (1 / 49) * (k : ℝ)) ≠ 1 := by
  have hd : R.fl (1 / 49) = ((5882252574524729 : ℤ) : ℝ) * 2 ^ (-58 : ℤ) :=
    Nearest.eq_of_half hR (by norm_num) (by norm_num) (by
      rw [abs_lt]
      constructor <;> norm_num)
  rw [hd]
  intro h
  rcases lt_trichotomy k 49 with hk | rfl | hk
  · have he := Nearest.err hR (((5882252574524729 : ℤ) : ℝ) * 2 ^ (-58 : ℤ) * (k : ℝ))
    have hk' : (k : ℝ) ≤ 48 := by exact_mod_cast Nat.le_of_lt_succ hk
    rw [h, abs_le, abs_of_nonneg (by positivity)] at he
    norm_num at he
    linarith [he.1, he.2]
  · have e : R.fl (((5882252574524729 : ℤ) : ℝ) * 2 ^ (-58 : ℤ) * ((49 : ℕ) : ℝ))
        = ((9007199254740991 : ℤ) : ℝ) * 2 ^ (-53 : ℤ) :=
      Nearest.eq_of_half hR (by norm_num) (by norm_num) (by
        rw [abs_lt]
        constructor <;> norm_num)
    rw [e] at h
    norm_num at h
  · have he := Nearest.err hR (((5882252574524729 : ℤ) : ℝ) * 2 ^ (-58 : ℤ) * (k : ℝ))
    have hk' : (50 : ℝ) ≤ k := by exact_mod_cast hk
    rw [h, abs_le, abs_of_nonneg (by positivity)] at he
    norm_num at he
    linarith [he.1, he.2]

/-- 7 samples of 0.1 s are not 0.7 s -/
theorem seven_tenths (hR : Nearest R 52) (k : ℕ) : R.fl (R.fl (1 / 10) * (k : ℝ)) ≠ R.fl (7 / 10) := by
  have hd : R.fl (1 / 10) = ((7205759403792794 : ℤ) : ℝ) * 2 ^ (-56 : ℤ) :=
    Nearest.eq_of_half hR (by norm_num) (by norm_num) (by
      rw [abs_lt]
      constructor <;> norm_num)
  have h7 : R.fl (7 / 10) = ((6305039478318694 : ℤ) : ℝ) * 2 ^ (-53 : ℤ) :=
    Nearest.eq_of_half hR (by norm_num) (by norm_num) (by
      rw [abs_lt]
      constructor <;> norm_num)
  rw [hd, h7]
  intro h
  rcases lt_trichotomy k 7 with hk | rfl | hk
  · have he := Nearest.err hR (((7205759403792794 : ℤ) : ℝ) * 2 ^ (-56 : ℤ) * (k : ℝ))
    have hk' : (k : ℝ) ≤ 6 := by exact_mod_cast Nat.le_of_lt_succ hk
    rw [h, abs_le, abs_of_nonneg (by positivity)] at he
    norm_num at he
    linarith [he.1, he.2]
  · have e : R.fl (((7205759403792794 : ℤ) : ℝ) * 2 ^ (-56 : ℤ) * ((7 : ℕ) : ℝ))
        = ((6305039478318695 : ℤ) : ℝ) * 2 ^ (-53 : ℤ) :=
      Nearest.eq_of_half hR (by norm_num) (by norm_num) (by
        rw [abs_lt]
        constructor <;> norm_num)
    rw [e] at h
    norm_num at h
  · have he := Nearest.err hR (((7205759403792794 : ℤ) : ℝ) * 2 ^ (-56 : ℤ) * (k : ℝ))
    have hk' : (8 : ℝ) ≤ k := by exact_mod_cast hk
    rw [h, abs_le, abs_of_nonneg (by positivity)] at he
    norm_num at he
    linarith [he.1, he.2]

/-- **C122** In double precision `int(0.7 / 0.1)`, with which the deconvolutions compute the shift for an onset at 0.7 s
and 10 samples per second (synrf.py:106), is 6, one sample less than intended. -/
theorem c122_shift_unlucky (hR : Nearest R 52) (a dt : FL R) (ha : a.val = R.fl (7 / 10)) (hdt : dt.val = R.fl (1 / 10)) :
    PyTrunc.trunc (a / dt) = .ok 6 := by
  have hd : R.fl (1 / 10) = ((7205759403792794 : ℤ) : ℝ) * 2 ^ (-56 : ℤ) :=
    Nearest.eq_of_half hR (by norm_num) (by norm_num) (by
      rw [abs_lt]
      constructor <;> norm_num)
  have h7 : R.fl (7 / 10) = ((6305039478318694 : ℤ) : ℝ) * 2 ^ (-53 : ℤ) :=
    Nearest.eq_of_half hR (by norm_num) (by norm_num) (by
      rw [abs_lt]
      constructor <;> norm_num)
  have e : R.fl (((6305039478318694 : ℤ) : ℝ) * 2 ^ (-53 : ℤ) / (((7205759403792794 : ℤ) : ℝ) * 2 ^ (-56 : ℤ)))
      = ((7881299347898367 : ℤ) : ℝ) * 2 ^ (-50 : ℤ) :=
    Nearest.eq_of_half hR (by norm_num) (by norm_num) (by
      rw [abs_lt]
      constructor <;> norm_num)
  show Except.ok (truncR (R.fl (a.val / dt.val))) = _
  rw [ha, hdt, hd, h7, e, truncR, if_pos (by positivity)]
  congr 1
  rw [Int.floor_eq_iff]
  constructor <;> norm_num

example : PyTrunc.trunc ((⟨(Rounding.binary 52).fl (7 / 10)⟩ : FL (Rounding.binary 52)) / ⟨(Rounding.binary 52).fl (1 / 10)⟩)
    = .ok 6 := c122_shift_unlucky (binary_nearest 52) _ _ rfl rfl

/-- **C122** In double precision both variants raise `IndexError` for data with 49 samples per second and one second before
the onset, and for data with 10 samples per second and 0.7 s before the onset, although in both cases a sample lies at
the onset. -/
theorem c122_unlucky (wc wr wp : FL R) (hR : Nearest R 52) (h0 : rfs[0]? = some tr0)
    (hbad : (tr0.delta.val = R.fl (1 / 49) ∧ preonset.val = 1) ∨
      (tr0.delta.val = R.fl (1 / 10) ∧ preonset.val = R.fl (7 / 10)))
    (hl : tr0.data ≠ []) (hlen : tr0.data.length ≤ 2 ^ 53) (hS : env.stackR rfs = .ok S) (hsd : S[0]? = some sd) :
    WaveformPara env rfs preonset HSed VpSed VpCrust rayp KMoho HMoho gaussian = .error .indexError ∧
    WaveformFitting env rfs preonset HSed VpSed VpCrust rayp KMoho HMoho gaussian wc wr wp = .error .indexError := by
  refine (c122_onset wc wr wp hR h0 ?_ hl hlen hS hsd).2 ?_
  · rcases hbad with ⟨h, -⟩ | ⟨h, -⟩ <;> rw [h, Ne, fl_eq_zero hR] <;> norm_num
  · rintro ⟨i, -, hi⟩
    rcases hbad with ⟨h, h'⟩ | ⟨h, h'⟩ <;> rw [h, h'] at hi
    · exact forty_nine hR i hi
    · exact seven_tenths hR i hi

/-! ## Concrete cases -/

/-- doubles with unlimited exponent -/
noncomputable abbrev WDbl := FL (Rounding.binary 52)

/-- an environment whose synthetics are constant -/
noncomputable def fEnv (n : ℕ) : WEnv WDbl where
  stackR := fun st => .ok (st.map Trace.data)
  synthRF := fun _ => .ok (List.replicate n ⟨1⟩)
  pg := fun _ _ _ => .ok ⟨1⟩

/-- a trace of `n` samples -/
noncomputable def fTrace (n : ℕ) (delta : ℝ) : Trace WDbl where
  station := "STA"
  channel := "R"
  data := List.replicate n ⟨1⟩
  delta := ⟨delta⟩
  starttime := ⟨0⟩
  onset := some ⟨10⟩
  slowness := some ⟨.py, ⟨6⟩⟩
  backAzimuth := none
  distance := none

theorem fTrace_len (n : ℕ) (d : ℝ) : (fTrace n d).data.length = n := by
  unfold fTrace
  exact List.length_replicate

/-- 40 s of data with 10 samples per second, 10 s before the onset: the fit succeeds, on samples 100 to 349 -/
example : (∃ res, WaveformFitting (fEnv 400) [fTrace 400 ((Rounding.binary 52).fl (1 / 10))] ⟨10⟩ ⟨1⟩ ⟨2⟩ ⟨6⟩ ⟨0⟩
      [⟨2⟩] [⟨30⟩, ⟨40⟩] ⟨1⟩ ⟨1⟩ ⟨1⟩ ⟨1⟩ = .ok res) ∧
    ∃ P, WaveformPara (fEnv 400) [fTrace 400 ((Rounding.binary 52).fl (1 / 10))] ⟨10⟩ ⟨1⟩ ⟨2⟩ ⟨6⟩ ⟨0⟩ [⟨2⟩]
      [⟨30⟩, ⟨40⟩] ⟨1⟩ = .ok P ∧ P.tstart = 100 ∧ P.tend = 350 := by
  have hf : SamplesPerSecond 52 (fTrace 400 ((Rounding.binary 52).fl (1 / 10))).delta.val 10 :=
    c122_usual_rates (binary_nearest 52) 10 (by simp)
  constructor
  · exact c122_succeeds (N := 10) (p := 52) _ _ _ (binary_nearest 52) rfl hf (by norm_num) (by rw [fTrace_len]; norm_num)
      (by norm_num) (by rw [fTrace_len]; norm_num) rfl rfl rfl
      (fun _ => ⟨_, rfl, List.length_replicate.trans (fTrace_len 400 _).symm⟩)
      (fun _ _ _ => ⟨_, rfl⟩) (by simp) (by simp)
  · obtain ⟨P, h1, h2, h3, -⟩ := c122_window (N := 10) (p := 52) (HSed := ⟨1⟩) (VpSed := ⟨2⟩) (VpCrust := ⟨6⟩)
      (rayp := ⟨0⟩) (KMoho := [⟨2⟩]) (HMoho := [⟨30⟩, ⟨40⟩]) (gaussian := ⟨1⟩) (env := fEnv 400)
      (rfs := [fTrace 400 ((Rounding.binary 52).fl (1 / 10))]) (preonset := ⟨10⟩) (binary_nearest 52) rfl hf
      (by norm_num) (by rw [fTrace_len]; norm_num) (by norm_num) (by rw [fTrace_len]; norm_num) rfl rfl
    exact ⟨P, h1, h2, h3⟩

/-- 40 s of data with 49 samples per second, 1 s before the onset: `IndexError` -/
example : WaveformFitting (fEnv 1960) [fTrace 1960 ((Rounding.binary 52).fl (1 / 49))] ⟨1⟩ ⟨1⟩ ⟨2⟩ ⟨6⟩ ⟨0⟩
      [⟨2⟩] [⟨30⟩, ⟨40⟩] ⟨1⟩ ⟨1⟩ ⟨1⟩ ⟨1⟩ = .error .indexError :=
  (c122_unlucky _ _ _ (binary_nearest 52) rfl (Or.inl ⟨rfl, rfl⟩)
    (List.ne_nil_of_length_pos (by rw [fTrace_len]; norm_num)) (by rw [fTrace_len]; norm_num) rfl rfl).2

end Rfsed.Props
