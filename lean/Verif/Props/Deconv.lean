import Verif.Proofs.Deconv6

/-!
# C53–C57, C59: iterative deconvolution, phase shift, Gaussian filter

`n = nextPow2 (length)` is the FFT length.  `lowpass n dt a x` is the trace `x` convolved
(circularly, on `n` samples) with the Gaussian pulse of width parameter `a`.
-/

namespace Rfsed.Props
open Rfsed Synrf Spec Finset

section
variable {uin win : List ℝ} {dt : ℝ} {nt : Option Nat} {preonset a : ℝ} {itmax : Nat}
  {minderr : ℝ} {phase : String} {R : IterResult}

/-- the FFT length is the least power of two that is at least the number of samples -/
theorem c53_fft_length {k : Nat} (hk : 1 ≤ k) :
    ∃ e, nextPow2 k = 2 ^ e ∧ k ≤ 2 ^ e ∧ ∀ e', k ≤ 2 ^ e' → 2 ^ e ≤ 2 ^ e' := by
  refine ⟨Nat.clog 2 k, nextPow2_pos (by omega), Nat.le_pow_clog (by norm_num) k, ?_⟩
  intro e' h
  exact Nat.pow_le_pow_right (by norm_num) (Nat.clog_le_of_le_pow h)

/-- **C53** traces of different lengths are refused with the module's own `ValueError` class. -/
theorem c53_length_mismatch (h : uin.length ≠ win.length) :
    deconv_iterative uin win dt nt preonset a itmax minderr phase = .error .synrfValueError := by
  unfold deconv_iterative
  rw [if_pos h]

/-- **C53** a sample count `nt` other than the length of the traces raises numpy's `ValueError`
(broadcasting) unless the traces have one sample. -/
theorem c53_wrong_nt {k : Nat} (h : uin.length = win.length) (hk : k ≠ uin.length)
    (h1 : uin.length ≠ 1) :
    deconv_iterative uin win dt (some k) preonset a itmax minderr phase = .error .valueError := by
  unfold deconv_iterative
  rw [if_neg (by simpa using h)]
  have : iterInit uin win dt k a itmax minderr phase = .error .valueError := by
    unfold iterInit
    have hs : setSlice (List.replicate (nextPow2 k) (0 : ℝ)) 0 k uin = .error .valueError := by
      unfold setSlice
      have hle := le_nextPow2 k
      simp only [List.length_replicate, Nat.min_eq_left hle, Nat.zero_min, Nat.sub_zero]
      rw [if_neg (fun e => hk e.symm)]
      split
      · simp at h1
      · rfl
    simp only [hs]
    rfl
  simp only [Option.getD_some, this]
  rfl

/-- **C53** with `dt = 0` or empty traces the Gaussian filter divides by zero; one sample gives an
odd FFT length, for which the Gaussian filter cannot be built. -/
theorem c53_degenerate (h : uin.length = win.length) :
    ((dt = 0 ∨ uin = []) →
      deconv_iterative uin win dt none preonset a itmax minderr phase = .error .zeroDivisionError) ∧
    (dt ≠ 0 → uin.length = 1 →
      deconv_iterative uin win dt none preonset a itmax minderr phase = .error .valueError) := by
  have hinit : ∀ e, gaussFilter dt (nextPow2 uin.length) a = .error e →
      deconv_iterative uin win dt none preonset a itmax minderr phase = .error e := by
    intro e he
    unfold deconv_iterative
    rw [if_neg (by simpa using h)]
    have : iterInit uin win dt uin.length a itmax minderr phase = .error e := by
      unfold iterInit
      have hle := le_nextPow2 uin.length
      simp only
      rw [setSlice_eq _ (by omega) (by simpa using hle) (by omega),
        setSlice_eq _ (by omega) (by simpa using hle) (by omega)]
      simp only [he]
      rfl
    simp only [Option.getD_none, this]
    rfl
  constructor
  · intro h0
    apply hinit
    apply gaussFilter_zeroDiv
    rcases h0 with h0 | h0
    · rw [h0, mul_zero]
    · simp [h0, nextPow2]
  · intro hdt h1
    apply hinit
    rw [h1, nextPow2_one]
    exact gaussFilter_odd (k := 0) a hdt

/-- **C53** every pair of traces with at least three samples is deconvolved. -/
theorem c53_total (h : uin.length = win.length) (h3 : 3 ≤ uin.length) (hdt : dt ≠ 0) :
    ∃ R, deconv_iterative uin win dt none preonset a itmax minderr phase = .ok R := by
  have hle := le_nextPow2 uin.length
  obtain ⟨k, hk, hk2⟩ := nextPow2_even (n := uin.length) (by omega)
  have hinit : ∃ c s0, iterInit uin win dt uin.length a itmax minderr phase = .ok (c, s0) := by
    unfold iterInit
    simp only
    rw [setSlice_eq _ (by omega) (by simpa using hle) (by omega),
      setSlice_eq _ (by omega) (by simpa using hle) (by omega), hk2,
      gaussFilter_even a hdt hk]
    exact ⟨_, _, rfl⟩
  obtain ⟨c, s0, hi⟩ := hinit
  obtain ⟨hco, hh, _, _, e2, _⟩ := iterInit_ok hi
  obtain ⟨s, hs⟩ := iterLoop_total hco (fun _ => by rw [e2]; omega) _ _ _ rfl hh
  unfold deconv_iterative
  rw [if_neg (by simpa using h)]
  simp only [Option.getD_none, hi]
  simp only [ok_bind', hs]
  exact ⟨_, rfl⟩

/-- **C53** at most `itmax` iterations; one misfit per iteration except the last; as many samples
as the traces. -/
theorem c53_work (h : deconv_iterative uin win dt nt preonset a itmax minderr phase = .ok R)
    (hnt : nt = none ∨ nt = some uin.length) :
    R.it ≤ itmax ∧ (1 ≤ R.it → R.rms.length = R.it - 1) ∧
    (R.it = 0 → R.rms = List.replicate (itmax - 1) 0) ∧
    (∀ rf, R.rf = some rf → rf.length = uin.length) := by
  have hnt' : nt.getD uin.length = uin.length := by rcases hnt with rfl | rfl <;> rfl
  obtain ⟨_, _, h1, ⟨P, rf, _, h3, h4, h5, h6, _⟩ | ⟨h2, h3, h4, _⟩⟩ := deconv_master h hnt'
  · refine ⟨h1, fun hi => by rw [h5, if_neg (by omega)], fun h0 => ?_, ?_⟩
    · rw [if_pos h0] at h5
      exact List.eq_replicate_iff.2 ⟨h5, h6 h0⟩
    · intro rf' hrf
      rw [h3] at hrf
      rw [← Option.some.inj hrf, h4]
  · exact ⟨h1, fun _ => by rw [h2, h3]; rfl, fun h0 => by omega, h4⟩

/-- **C53** every misfit returned is more than `minderr` per cent below the one before it (the
first: below 1), … -/
theorem c53_progress (h : deconv_iterative uin win dt nt preonset a itmax minderr phase = .ok R)
    (hnt : nt = none ∨ nt = some uin.length) (hit : 1 ≤ R.it) {j : Nat} {r : ℝ}
    (hr : R.rms[j]? = some r) :
    minderr / 100 < (if j = 0 then 1 else R.rms.getD (j - 1) 0) - r := by
  have hnt' : nt.getD uin.length = uin.length := by rcases hnt with rfl | rfl <;> rfl
  obtain ⟨_, _, h1, ⟨P, rf, hg, h3, h4, h5, h6, h7, h8, _⟩ | ⟨h2, h3, h4, _⟩⟩ := deconv_master h hnt'
  · rw [if_neg (by omega)] at h5
    have hj : j < R.rms.length := (List.getElem?_eq_some_iff.1 hr).1
    have hr' := h8 j (by omega)
    rw [hr] at hr'
    have hr' := Option.some.inj hr'
    have hgo := hg.go j (by omega)
    have hprev : (if j = 0 then 1 else R.rms.getD (j - 1) 0)
        = misfit (nextPow2 uin.length) dt (lowpass (nextPow2 uin.length) dt a uin)
          (lowpass (nextPow2 uin.length) dt a win) (smp (P j)) := by
      split
      · rename_i h0
        rw [h0, hg.start, misfit_start (h7 (by omega)).2]
      · rename_i h0
        rw [List.getD_eq_getElem?_getD, h8 (j - 1) (by omega), show j - 1 + 1 = j by omega]
        rfl
    rw [hprev, hr']
    linarith
  · rw [h3] at hr
    simp at hr

/-- … hence for `minderr > 0` there are fewer than `100 / minderr + 1` iterations, whatever
`itmax` is. -/
theorem c53_iteration_bound
    (h : deconv_iterative uin win dt nt preonset a itmax minderr phase = .ok R)
    (hnt : nt = none ∨ nt = some uin.length) (hm : 0 < minderr) :
    (R.it : ℝ) < 100 / minderr + 1 := by
  have hnt' : nt.getD uin.length = uin.length := by rcases hnt with rfl | rfl <;> rfl
  have hq : 0 < 100 / minderr := by positivity
  obtain ⟨_, _, h1, ⟨P, rf, hg, h3, h4, h5, h6, h7, h8, _⟩ | ⟨h2, h3, h4, _⟩⟩ := deconv_master h hnt'
  · rcases Nat.lt_or_ge R.it 2 with h2 | h2
    · have : (R.it : ℝ) ≤ 1 := by exact_mod_cast (by omega : R.it ≤ 1)
      linarith
    · set mf := fun j => misfit (nextPow2 uin.length) dt (lowpass (nextPow2 uin.length) dt a uin)
          (lowpass (nextPow2 uin.length) dt a win) (smp (P j)) with hmf
      have key : ∀ j : Nat, j < R.it → (j : ℝ) * (minderr / 100) ≤ 1 - mf j := by
        intro j
        induction j with
        | zero =>
          intro _
          have : mf 0 = 1 := by
            rw [hmf]; simp only; rw [hg.start, misfit_start (h7 (by omega)).2]
          rw [this]; simp
        | succ j ih =>
          intro hj
          have h9 := ih (by omega)
          have h10 := hg.go j hj
          have h11 : minderr < 100 * (mf j - mf (j + 1)) := h10
          push_cast
          linarith
      have hlast := key (R.it - 1) (by omega)
      have hgo0 : minderr < 100 * (mf 0 - mf 1) := hg.go 0 (by omega)
      have hnn : 0 ≤ mf (R.it - 1) := misfit_nonneg ..
      have hcast : ((R.it - 1 : ℕ) : ℝ) = (R.it : ℝ) - 1 := by
        rw [Nat.cast_sub (by omega)]; norm_num
      rw [hcast] at hlast
      have hstrict : ((R.it : ℝ) - 1) * (minderr / 100) < 1 := by
        rcases lt_or_eq_of_le (le_trans hlast (by linarith : 1 - mf (R.it - 1) ≤ 1)) with h | h
        · exact h
        · exfalso
          have key2 : ∀ j : Nat, 1 ≤ j → j < R.it → (j : ℝ) * (minderr / 100) < 1 - mf j := by
            intro j hj1 hj
            obtain ⟨i, rfl⟩ : ∃ i, j = i + 1 := ⟨j - 1, by omega⟩
            have h9 := key i (by omega)
            have h11 : minderr < 100 * (mf i - mf (i + 1)) := hg.go i hj
            push_cast
            linarith
          have := key2 (R.it - 1) (by omega) (by omega)
          rw [hcast] at this
          linarith
      have : ((R.it : ℝ) - 1) < 100 / minderr := by
        rw [lt_div_iff₀ hm]; linarith
      linarith
  · rw [h2]
    push_cast
    linarith

/-- **C53** the numerator: no iteration is made iff none is allowed or the numerator is dead. -/
theorem c53_dead_numerator
    (h : deconv_iterative uin win dt nt preonset a itmax minderr phase = .ok R)
    (hnt : nt = none ∨ nt = some uin.length) (hm : 0 ≤ minderr) :
    R.it = 0 ↔ itmax = 0 ∨ ∀ x ∈ uin, x = 0 := by
  have hnt' : nt.getD uin.length = uin.length := by rcases hnt with rfl | rfl <;> rfl
  have hle := le_nextPow2 uin.length
  obtain ⟨_, hn, h1, ⟨P, rf, hg, h3, h4, h5, h6, h7, h8, _⟩ | ⟨h2, h3, h4, h5, h6, h7⟩⟩ :=
    deconv_master h hnt'
  · constructor
    · intro h0
      rcases hg.stop with h | h | ⟨j, h, _⟩
      · left; omega
      · right
        exact (cconv_smp_inj (by omega) hle).1 h.2
      · omega
    · rintro (h0 | h0)
      · omega
      · by_contra hne
        exact (h7 (by omega)).2 ((cconv_smp_inj (by omega) hle).2 h0)
  · constructor
    · intro h0; omega
    · rintro (h0 | h0)
      · omega
      · have : energy (nextPow2 uin.length) (lowpass (nextPow2 uin.length) dt a uin) = 0 :=
          (cconv_smp_inj (by omega) hle).2 h0
        rw [this, mul_zero, zero_add, abs_of_nonneg hm] at h5
        exact absurd h5 (lt_irrefl _)

/-- **C53** the denominator: the receiver function is NaN iff an iteration is made with a dead
denominator trace. -/
theorem c53_dead_denominator
    (h : deconv_iterative uin win dt nt preonset a itmax minderr phase = .ok R)
    (hnt : nt = none ∨ nt = some uin.length) (hm : 0 ≤ minderr) :
    R.rf = none ↔ itmax ≠ 0 ∧ (∃ x ∈ uin, x ≠ 0) ∧ ∀ x ∈ win, x = 0 := by
  have hnt' : nt.getD uin.length = uin.length := by rcases hnt with rfl | rfl <;> rfl
  have hle := le_nextPow2 uin.length
  have hlen := (deconv_inv h).1
  have h0 := c53_dead_numerator h hnt hm
  have hu : (∃ x ∈ uin, x ≠ 0) ↔ ¬ ∀ x ∈ uin, x = 0 := by push Not; rfl
  obtain ⟨_, hn, h1, ⟨P, rf, hg, h3, h4, h5, h6, h7, h8, _⟩ | ⟨h2, h3, h4, h5, h6, h7⟩⟩ :=
    deconv_master h hnt'
  · rw [h3, hu]
    constructor
    · intro h; cases h
    · rintro ⟨a1, a2, a3⟩
      have hne : R.it ≠ 0 := fun e => by
        rcases h0.1 e with h | h
        · exact a1 h
        · exact a2 h
      exact absurd ((cconv_smp_inj (by omega) (by omega)).2 a3) (h7 (by omega)).1
  · rw [h6, hu]
    have hne : R.it ≠ 0 := by omega
    constructor
    · intro hw
      refine ⟨by omega, fun hz => hne (h0.2 (Or.inr hz)), ?_⟩
      exact (cconv_smp_inj (by omega) (by omega)).1 hw
    · rintro ⟨_, _, a3⟩
      exact (cconv_smp_inj (by omega) (by omega)).2 a3

/-- **C54, C55** What the algorithm does: unless the receiver function is NaN it is, iteration by
iteration, the best single-spike improvement at the first best admissible lag (for phase `'P'`:
lags `0 … n/2-2`); the misfits returned are those of the successive spike trains; the receiver
function is the last spike train convolved with the Gaussian pulse and delayed circularly by
`int(preonset/dt)` samples. -/
theorem c54_greedy (h : deconv_iterative uin win dt nt preonset a itmax minderr phase = .ok R)
    (hnt : nt = none ∨ nt = some uin.length) (hm : 0 ≤ minderr) {rf : List ℝ} (hrf : R.rf = some rf) :
    let n := nextPow2 uin.length
    let u := lowpass n dt a uin
    let w := lowpass n dt a win
    ∃ P, GreedyRun n dt u w phase minderr itmax R.it P ∧
      (∀ j, j + 1 < R.it → R.rms[j]? = some (misfit n dt u w (smp (P (j + 1))))) ∧
      (Real.cos (2 * Real.pi * (pyInt (preonset / dt) : ℝ) / n) ≠ 0 → ∀ m < uin.length,
          smp rf m = cconv n (smp (P R.it)) (gaussPulse dt n a)
            (cyc n ((m : ℤ) - pyInt (preonset / dt)))) := by
  have hnt' : nt.getD uin.length = uin.length := by rcases hnt with rfl | rfl <;> rfl
  obtain ⟨_, hn, h1, ⟨P, rf', hg, h3, h4, h5, h6, h7, h8, h9⟩ | ⟨h2, h3, h4, h5, h6, h7⟩⟩ :=
    deconv_master h hnt'
  · rw [h3] at hrf
    rw [← Option.some.inj hrf]
    exact ⟨P, hg, h8, h9⟩
  · exfalso
    rcases h7 with h7 | h7
    · rw [h6.2 h7] at hrf; cases hrf
    · rw [h7, mul_zero, zero_add, abs_of_nonneg hm] at h5
      exact absurd h5 (lt_irrefl _)

/-- **C54** the misfits returned never increase and lie between 0 and 1 (for `minderr ≥ 0` they
even decrease strictly, by `c53_progress`). -/
theorem c54_misfit_decreases
    (h : deconv_iterative uin win dt nt preonset a itmax minderr phase = .ok R)
    (hnt : nt = none ∨ nt = some uin.length) (hit : 1 ≤ R.it) :
    List.Pairwise (fun r r' => r' ≤ r) R.rms ∧ ∀ r ∈ R.rms, 0 ≤ r ∧ r ≤ 1 := by
  have hnt' : nt.getD uin.length = uin.length := by rcases hnt with rfl | rfl <;> rfl
  obtain ⟨_, hn, h1, ⟨P, rf', hg, h3, h4, h5, h6, h7, h8, h9⟩ | ⟨h2, h3, h4, h5, h6, h7⟩⟩ :=
    deconv_master h hnt'
  · rw [if_neg (by omega)] at h5
    set mf := fun j => misfit (nextPow2 uin.length) dt (lowpass (nextPow2 uin.length) dt a uin)
          (lowpass (nextPow2 uin.length) dt a win) (smp (P j)) with hmf
    have hstep : ∀ j, j < R.it → mf (j + 1) ≤ mf j := fun j hj =>
      bestSpike_le (greedyRun_length hg j (by omega)) (hg.spike j hj)
    have hanti : ∀ d i, i + d ≤ R.it → mf (i + d) ≤ mf i := by
      intro d
      induction d with
      | zero => intro i _; exact le_refl _
      | succ d ih =>
        intro i hi
        exact le_trans (hstep (i + d) (by omega)) (ih i (by omega))
    have hget : ∀ j (hj : j < R.rms.length), R.rms[j] = mf (j + 1) := by
      intro j hj
      have := h8 j (by omega)
      rw [List.getElem?_eq_getElem hj] at this
      exact Option.some.inj this
    constructor
    · rw [List.pairwise_iff_getElem]
      intro i j hi hj hij
      rw [hget i hi, hget j hj, show j + 1 = i + 1 + (j - i) by omega]
      exact hanti _ _ (by omega)
    · intro r hr
      obtain ⟨j, hj, rfl⟩ := List.mem_iff_getElem.1 hr
      rw [hget j hj]
      refine ⟨misfit_nonneg .., ?_⟩
      have h0 : mf 0 = 1 := by
        rw [hmf]; simp only; rw [hg.start, misfit_start (h7 (by omega)).2]
      rw [← h0, show j + 1 = 0 + (j + 1) by omega]
      exact hanti _ _ (by omega)
  · rw [h3]; simp

/-- **C54** a numerator that is a scaled copy of the denominator, delayed circularly by an
admissible lag, is explained completely: two iterations, and the one misfit returned is zero. -/
theorem c54_delayed_copy
    (h : deconv_iterative uin win dt nt preonset a itmax minderr phase = .ok R)
    (hnt : nt = none ∨ nt = some uin.length) (h0 : 0 ≤ minderr) (h1 : minderr < 100)
    (h2 : 2 ≤ itmax) {b : ℝ} {L : Nat} (hL : Lag (nextPow2 uin.length) phase L)
    (hu : ∀ m < nextPow2 uin.length,
      smp uin m = b * smp win (cyc (nextPow2 uin.length) ((m : ℤ) - L)))
    (hne : ∃ x ∈ uin, x ≠ 0) : R.it = 2 ∧ R.rms = [0] := by
  have hle := le_nextPow2 uin.length
  have hnt' : nt.getD uin.length = uin.length := by rcases hnt with rfl | rfl <;> rfl
  have hlen := (deconv_inv h).1
  obtain ⟨hdt, hn, _⟩ := deconv_master h hnt'
  have hE : energy (nextPow2 uin.length) (lowpass (nextPow2 uin.length) dt a uin) ≠ 0 := by
    intro hz
    obtain ⟨x, hx, hx0⟩ := hne
    exact hx0 ((cconv_smp_inj (by omega) hle).1 hz x hx)
  have hul : ∀ m < nextPow2 uin.length, lowpass (nextPow2 uin.length) dt a uin m
      = b * lowpass (nextPow2 uin.length) dt a win (cyc (nextPow2 uin.length) ((m : ℤ) - L)) := by
    intro m hm
    unfold lowpass
    rw [← cconv_shift (by omega)]
    exact cconv_congr (by omega) hu (fun _ _ => rfl) m
  have hwne : ¬ ∀ x ∈ win, x = 0 := by
    intro hz
    apply hE
    apply sum_eq_zero
    intro m hm
    rw [hul m (mem_range.1 hm)]
    have : energy (nextPow2 uin.length) (lowpass (nextPow2 uin.length) dt a win) = 0 :=
      (cconv_smp_inj (by omega) (by omega)).2 hz
    have h3 := (sum_eq_zero_iff_of_nonneg (fun m _ => sq_nonneg _)).1 this
      (cyc (nextPow2 uin.length) ((m : ℤ) - L)) (mem_range.2 (cyc_lt (by omega) _))
    rw [pow_eq_zero_iff (two_ne_zero) |>.1 h3]; ring
  obtain ⟨rf, hrf⟩ : ∃ rf, R.rf = some rf := by
    cases hr : R.rf with
    | some rf => exact ⟨rf, rfl⟩
    | none => exact absurd ((c53_dead_denominator h hnt h0).1 hr).2.2 hwne
  obtain ⟨P, hg, hr, _⟩ := c54_greedy h hnt h0 hrf
  obtain ⟨hk, m1, _⟩ := greedyRun_copy hdt hL hul hE h0 h1 h2 hg
  refine ⟨hk, ?_⟩
  have hl := (c53_work h hnt).2.1 (by omega)
  rw [hk] at hl
  have := hr 0 (by omega)
  rw [show (0 : ℕ) + 1 = 1 from rfl, m1] at this
  match hrms : R.rms, hl with
  | [x], _ =>
    rw [hrms] at this
    simp at this
    rw [this]

/-- **C54** deconvolving a trace by itself gives the Gaussian pulse, delayed by `int(preonset/dt)`
samples and scaled by `1/dt`. -/
theorem c54_self (h : deconv_iterative uin uin dt nt preonset a itmax minderr phase = .ok R)
    (hnt : nt = none ∨ nt = some uin.length) (h0 : 0 ≤ minderr) (h1 : minderr < 100)
    (h2 : 2 ≤ itmax) (h3 : 3 ≤ uin.length) (hne : ∃ x ∈ uin, x ≠ 0)
    (hcos : Real.cos (2 * Real.pi * (pyInt (preonset / dt) : ℝ) / nextPow2 uin.length) ≠ 0) :
    R.it = 2 ∧ R.rms = [0] ∧ ∃ rf, R.rf = some rf ∧ ∀ m < uin.length,
      smp rf m = gaussPulse dt (nextPow2 uin.length) a
        (cyc (nextPow2 uin.length) ((m : ℤ) - pyInt (preonset / dt))) / dt := by
  have hle := le_nextPow2 uin.length
  have hnt' : nt.getD uin.length = uin.length := by rcases hnt with rfl | rfl <;> rfl
  obtain ⟨hdt, hn, _⟩ := deconv_master h hnt'
  have hL : Lag (nextPow2 uin.length) phase 0 := by
    obtain ⟨k, hk, hk2⟩ := nextPow2_even (n := uin.length) (by omega)
    exact ⟨by omega, fun _ => by omega⟩
  obtain ⟨a1, a2⟩ := c54_delayed_copy h hnt h0 h1 h2 (b := 1) hL
    (fun m hm => by simp [cyc_of_lt hm]) hne
  refine ⟨a1, a2, ?_⟩
  obtain ⟨rf, hrf⟩ : ∃ rf, R.rf = some rf := by
    cases hr : R.rf with
    | some rf => exact ⟨rf, rfl⟩
    | none =>
      obtain ⟨x, hx, hx0⟩ := hne
      exact absurd (((c53_dead_denominator h hnt h0).1 hr).2.2 x hx) hx0
  refine ⟨rf, hrf, ?_⟩
  intro m hm
  obtain ⟨P, hg, _, hv⟩ := c54_greedy h hnt h0 hrf
  have hE : energy (nextPow2 uin.length) (lowpass (nextPow2 uin.length) dt a uin) ≠ 0 := by
    intro hz
    obtain ⟨x, hx, hx0⟩ := hne
    exact hx0 ((cconv_smp_inj (by omega) hle).1 hz x hx)
  have hP := greedyRun_self hdt hL (b := 1) (fun m _ => (one_mul _).symm) hE h0 h1 h2 hg
  rw [hv hcos m hm, a1, hP, cconv_single (by omega)]
  rw [Nat.cast_zero, sub_zero, cyc_of_lt (cyc_lt (by omega) _)]
  ring

/-- **C55** with phase `'P'` every sample of every spike train at lag `n/2 - 1` or beyond is zero:
the receiver function has no spikes at negative (wrapped) lags. -/
theorem c55_causal (h : deconv_iterative uin win dt nt preonset a itmax minderr "P" = .ok R)
    (hnt : nt = none ∨ nt = some uin.length) (hm : 0 ≤ minderr) {rf : List ℝ} (hrf : R.rf = some rf)
    (hcos : Real.cos (2 * Real.pi * (pyInt (preonset / dt) : ℝ) / nextPow2 uin.length) ≠ 0) :
    let n := nextPow2 uin.length
    ∃ p : List ℝ, p.length = n ∧ (∀ i, n / 2 - 1 ≤ i → smp p i = 0) ∧
      ((p.filter (· ≠ 0)).length ≤ R.it) ∧
      ∀ m < uin.length, smp rf m = cconv n (smp p) (gaussPulse dt n a)
            (cyc n ((m : ℤ) - pyInt (preonset / dt))) := by
  intro n
  obtain ⟨P, hg, _, hv⟩ := c54_greedy h hnt hm hrf
  refine ⟨P R.it, greedyRun_length hg _ (le_refl _), ?_, ?_, hv hcos⟩
  · have : ∀ j ≤ R.it, ∀ i, n / 2 - 1 ≤ i → smp (P j) i = 0 := by
      intro j
      induction j with
      | zero =>
        intro _ i _
        rw [hg.start]
        unfold smp
        simp only [List.getD_eq_getElem?_getD, List.getElem?_replicate]
        split <;> rfl
      | succ j ih =>
        intro hj i hi
        obtain ⟨l, v, hl, e, _⟩ := hg.spike j (by omega)
        have := hl.2 rfl
        rw [e, smp_set (by rw [greedyRun_length hg j (by omega)]; exact hl.1), if_neg (by omega)]
        exact ih (by omega) i hi
    exact this _ (le_refl _)
  · have : ∀ j ≤ R.it, ((P j).filter (· ≠ 0)).length ≤ j := by
      intro j
      induction j with
      | zero =>
        intro _
        rw [hg.start]
        simp
      | succ j ih =>
        intro hj
        obtain ⟨l, v, hl, e, _⟩ := hg.spike j (by omega)
        have := ih (by omega)
        rw [e]
        have gen : ∀ (x : List ℝ) (l : Nat) (v : ℝ),
            ((x.set l v).filter (· ≠ 0)).length ≤ (x.filter (· ≠ 0)).length + 1 := by
          intro x
          induction x with
          | nil => intro l v; simp
          | cons y ys ihy =>
            intro l v
            cases l with
            | zero =>
              simp only [List.set_cons_zero, List.filter_cons]
              split <;> split <;> (try simp only [List.length_cons]) <;> omega
            | succ l =>
              have := ihy l v
              simp only [List.set_cons_succ, List.filter_cons]
              split
              · simp only [List.length_cons]; omega
              · exact this
        exact le_trans (gen _ _ _) (by omega)
    exact this _ (le_refl _)

end

/-- the hypotheses of C53–C55 are met by three-sample traces with the default parameters -/
example : ∃ R, deconv_iterative [1, 2, 0] [1, 0, 0] (1/10) none 10 2 400 (1/1000) "P" = .ok R ∧
    R.it ≤ 400 ∧ 1 ≤ R.it := by
  obtain ⟨R, hR⟩ := c53_total (uin := [1, 2, 0]) (win := [1, 0, 0]) (dt := 1/10) (preonset := 10)
    (a := 2) (itmax := 400) (minderr := 1/1000) (phase := "P") rfl (by simp) (by norm_num)
  refine ⟨R, hR, (c53_work hR (Or.inl rfl)).1, ?_⟩
  by_contra h0
  rcases (c53_dead_numerator hR (Or.inl rfl) (by norm_num)).1 (by omega) with h | h
  · omega
  · have := h 1 (by simp)
    norm_num at this

/-- `c54_self` applies: a trace of four samples deconvolved by itself, one sample of preonset -/
example : ∃ R, deconv_iterative [1, 2, 0] [1, 2, 0] (1/2) none 1 2 400 (1/1000) "P" = .ok R ∧
    R.it = 2 ∧ R.rms = [0] := by
  obtain ⟨R, hR⟩ := c53_total (uin := [1, 2, 0]) (win := [1, 2, 0]) (dt := 1/2) (preonset := 1)
    (a := 2) (itmax := 400) (minderr := 1/1000) (phase := "P") rfl (by simp) (by norm_num)
  have h2 : nextPow2 3 = 4 := by decide
  have := c54_self hR (Or.inl rfl) (by norm_num) (by norm_num) (by norm_num) (by simp)
    ⟨1, by simp, by norm_num⟩ (by
      show Real.cos (2 * Real.pi * ((pyInt (1 / (1/2)) : ℤ) : ℝ) / ((nextPow2 3 : ℕ) : ℝ)) ≠ 0
      have : pyInt (1 / (1/2)) = 2 := by unfold pyInt; norm_num
      rw [this, h2]
      rw [show 2 * Real.pi * ((2 : ℤ) : ℝ) / ((4 : ℕ) : ℝ) = Real.pi by push_cast; ring, Real.cos_pi]
      norm_num)
  exact ⟨R, hR, this.1, this.2.1⟩

end Rfsed.Props
