import Verif.Proofs.DeconvShift
import Verif.Props.Deconv2
import Verif.Props.DeconvScale

/-!
# Property C103: receiver functions do not depend on where in the window the signal is

`zeros k ++ x` is the trace `x` arriving `k` samples later; `x ++ zeros k` is the same trace, undelayed, in a
window of the same length.  All equalities include failures: both calls raise, and the same exception, or both
succeed.
-/

namespace Rfsed.Props
open Synrf Spec PyFloat Finset

/-- `k` silent samples -/
noncomputable def silence (k : Nat) : List ℝ := List.replicate k 0

/-- **C103** `deconv_iterative`: delaying both components by the same number of samples changes neither the
receiver function nor the misfits nor the number of iterations. -/
theorem c103_iterative (k : Nat) (u w : List ℝ) (dt : ℝ) (nt : Option Nat) (pre g : ℝ) (itmax : Nat)
    (minderr : ℝ) (phase : String) :
    deconv_iterative (silence k ++ u) (silence k ++ w) dt nt pre g itmax minderr phase =
      deconv_iterative (u ++ silence k) (w ++ silence k) dt nt pre g itmax minderr phase :=
  deconv_iterative_rot k u w dt nt pre g itmax minderr phase

/-- **C103** `deconv_waterlevel`: delaying both components by the same number of samples does not change the
receiver function. -/
theorem c103_waterlevel (k : Nat) (u w : List ℝ) (dt pre wlevel g : ℝ) (normalize : Bool) :
    (deconv_waterlevel (silence k ++ u) (silence k ++ w) dt pre wlevel g normalize).map Prod.fst =
      (deconv_waterlevel (u ++ silence k) (w ++ silence k) dt pre wlevel g normalize).map Prod.fst :=
  deconv_waterlevel_rot k u w dt pre wlevel g normalize

/-- **C103** `deconv_waterlevel`: the misfit, which is taken over the window and not over the padded trace, is
also the same if the window length is a power of two. -/
theorem c103_waterlevel_misfit (k j : Nat) (u w : List ℝ) (dt pre wlevel g : ℝ) (normalize : Bool)
    (hp : k + u.length = 2 ^ j) :
    deconv_waterlevel (silence k ++ u) (silence k ++ w) dt pre wlevel g normalize =
      deconv_waterlevel (u ++ silence k) (w ++ silence k) dt pre wlevel g normalize := by
  refine deconv_waterlevel_rot_full k u w dt pre wlevel g normalize ?_
  rw [hp, nextPow2_pos (by positivity), Nat.clog_pow 2 j (by norm_num)]

/-- spectrum of a delayed trace -/
theorem traceSpectrum_delay (k : Nat) (u : List ℝ) {n : Nat} (h : u.length + k ≤ n) {j : Nat} (hj : j < n) :
    traceSpectrum n (silence k ++ u) j = traceSpectrum n (u ++ silence k) j * W n (-(k * j)) := by
  have hf := congrArg (fun x : List ℂ => x.getD j 0) (fft_delay k u h)
  rw [vmul_getD (by rw [fft_length, ph_length]), fft_getD _ hj, fft_getD _ hj, ph_getD _ hj] at hf
  have e : ∀ x : List ℝ, traceSpectrum n x j = dft n (fun i => (toC x).getD i 0) j := by
    intro x
    unfold traceSpectrum
    apply dft_congr
    intro i _
    rw [toC_getD]
    rfl
  rw [e, e]
  exact hf

theorem exp_omega {n : Nat} (hn : 0 < n) {dt : ℝ} (hdt : dt ≠ 0) (s : ℤ) (j : Nat) :
    Complex.exp (-Complex.I * (omega dt n j * (s * dt) : ℝ)) = W n (-(s * j)) := by
  have hnR : (n : ℝ) ≠ 0 := by exact_mod_cast hn.ne'
  have hnC : (n : ℂ) ≠ 0 := by exact_mod_cast hn.ne'
  have hdtC : (dt : ℂ) ≠ 0 := by exact_mod_cast hdt
  unfold omega
  split
  · unfold W
    congr 1
    push_cast
    field_simp
  · have : W n (-(s * j)) = W n (((j : ℤ) - n) * (-s)) := by
      rw [show ((j : ℤ) - n) * (-s) = -(s * j) + n * s by ring, W_add, W_mul_period hn, mul_one]
    rw [this]
    unfold W
    congr 1
    push_cast
    field_simp

/-- **C103** `deconv_waterlevel`: delaying only the numerator by `k` samples is the same as asking for a
`preonset` longer by `k` samples: what the receiver function shows is the delay of the numerator relative to the
denominator. -/
theorem c103_waterlevel_delay (k : Nat) (u w : List ℝ) (dt pre wlevel g : ℝ) (normalize : Bool) :
    (deconv_waterlevel (silence k ++ u) w dt pre wlevel g normalize).map Prod.fst =
      (deconv_waterlevel (u ++ silence k) w dt (pre + k * dt) wlevel g normalize).map Prod.fst := by
  have l1 : (silence k ++ u).length = k + u.length := by simp [silence]
  have l2 : (u ++ silence k).length = k + u.length := by simp [silence]; omega
  by_cases hl : k + u.length = w.length
  swap
  · rw [c58_errors.1 (by rwa [l1]), c58_errors.1 (by rwa [l2])]
  by_cases h0 : dt = 0 ∨ k + u.length = 0
  · have e1 : dt = 0 ∨ silence k ++ u = [] := h0.imp id (fun h => by rw [← List.length_eq_zero_iff, l1, h])
    have e2 : dt = 0 ∨ u ++ silence k = [] := h0.imp id (fun h => by rw [← List.length_eq_zero_iff, l2, h])
    rw [c58_errors.2.1 (by rw [l1, hl]) e1, c58_errors.2.1 (by rw [l2, hl]) e2]
  push Not at h0
  by_cases h1 : k + u.length = 1
  · rw [c58_errors.2.2 (by rw [l1, hl]) h0.1 (by rw [l1, h1]), c58_errors.2.2 (by rw [l2, hl]) h0.1 (by rw [l2, h1])]
  obtain ⟨⟨r, m⟩, hr⟩ := c58_total (uin := silence k ++ u) (win := w) (preonset := pre) (wlevel := wlevel) (a := g)
    (normalize := normalize) (by rw [l1, hl]) (by omega) h0.1
  obtain ⟨⟨r', m'⟩, hr'⟩ := c58_total (uin := u ++ silence k) (win := w) (preonset := pre + k * dt) (wlevel := wlevel)
    (a := g) (normalize := normalize) (by rw [l2, hl]) (by omega) h0.1
  rw [hr, hr']
  show Except.ok r = Except.ok r'
  congr 1
  obtain ⟨d, hd, hlr, hfr⟩ := c58_formula hr
  obtain ⟨d', hd', hlr', hfr'⟩ := c58_formula hr'
  rw [l1] at hd hlr hfr
  rw [l2] at hd' hlr' hfr'
  have hdd : d = d' := by
    obtain ⟨⟨i, hi, e⟩, hm⟩ := hd
    obtain ⟨⟨i', hi', e'⟩, hm'⟩ := hd'
    apply le_antisymm
    · rw [e]; exact hm' i hi
    · rw [e']; exact hm i' hi'
  subst hdd
  apply ext_getD (0 : ℝ) (by rw [hlr, hlr'])
  intro i hi
  rw [hlr] at hi
  have h2 := hfr i hi
  have h3 := hfr' i hi
  unfold smp at h2 h3
  rw [h2, h3]
  congr 2
  apply idft_congr
  intro j hj
  have hn : 0 < nextPow2 (k + u.length) := by omega
  have hN := le_nextPow2 (k + u.length)
  rw [traceSpectrum_delay k u (by omega) hj]
  have e : Complex.exp (-Complex.I * (omega dt (nextPow2 (k + u.length)) j * (pre + k * dt) : ℝ)) =
      Complex.exp (-Complex.I * (omega dt (nextPow2 (k + u.length)) j * pre : ℝ)) *
        W (nextPow2 (k + u.length)) (-(k * j)) := by
    have := exp_omega hn h0.1 (k : ℤ) j
    rw [← this, ← Complex.exp_add]
    congr 1
    push_cast
    ring
  rw [e]
  ring

theorem callIter_delay (k : Nat) (u w : List ℝ) (dt : ℝ) (kw : KwArgs) :
    callIter (silence k ++ u) (silence k ++ w) dt kw = callIter (u ++ silence k) (w ++ silence k) dt kw := by
  unfold callIter
  simp only [c103_iterative]

theorem callWater_delay (k : Nat) (u w : List ℝ) (dt : ℝ) (kw : KwArgs) :
    (callWater (silence k ++ u) (silence k ++ w) dt kw).map Prod.fst =
      (callWater (u ++ silence k) (w ++ silence k) dt kw).map Prod.fst := by
  unfold callWater
  split_ifs
  · rfl
  · exact c103_waterlevel k u w dt _ _ _ _

/-- **C103** the receiver-function trace, for every method name and all keyword arguments: data, sampling
interval and keyword arguments do not depend on a delay common to both components. -/
theorem c103_trace (k : Nat) (u w : Tr) (method : Option String) (kw : KwArgs) :
    (RFTrace_deconvolve { u with data := silence k ++ u.data } { w with data := silence k ++ w.data } method kw).map
        (fun R => (R.data, R.delta, R.kwargs, R.iter)) =
      (RFTrace_deconvolve { u with data := u.data ++ silence k } { w with data := w.data ++ silence k } method kw).map
        (fun R => (R.data, R.delta, R.kwargs, R.iter)) := by
  unfold RFTrace_deconvolve
  simp only [callIter_delay]
  split_ifs
  · rfl
  · have := callWater_delay k u.data w.data u.delta kw
    cases h1 : callWater (silence k ++ u.data) (silence k ++ w.data) u.delta kw with
    | error e =>
      cases h2 : callWater (u.data ++ silence k) (w.data ++ silence k) u.delta kw with
      | error e' => rw [h1, h2] at this; injection this with this; rw [this]
      | ok r => rw [h1, h2] at this; cases this
    | ok r =>
      cases h2 : callWater (u.data ++ silence k) (w.data ++ silence k) u.delta kw with
      | error e' => rw [h1, h2] at this; cases this
      | ok r' =>
        rw [h1, h2] at this
        have e : r.1 = r'.1 := by injection this
        show Except.ok _ = Except.ok _
        rw [e]
  · rfl

/-- the theorems apply to calls that succeed with at least one iteration -/
example : ∃ R, deconv_iterative [0, 0, 1, 2, 0] [0, 0, 1, 0, 0] (1/10) none 10 2 400 (1/1000) "P" = .ok R ∧ 1 ≤ R.it ∧
    deconv_iterative [1, 2, 0, 0, 0] [1, 0, 0, 0, 0] (1/10) none 10 2 400 (1/1000) "P" = .ok R := by
  obtain ⟨R, hR⟩ := c53_total (uin := [0, 0, 1, 2, 0]) (win := [0, 0, 1, 0, 0]) (dt := 1/10) (preonset := 10)
    (a := 2) (itmax := 400) (minderr := 1/1000) (phase := "P") rfl (by simp) (by norm_num)
  refine ⟨R, hR, ?_, ?_⟩
  · by_contra h0
    rcases (c53_dead_numerator hR (Or.inl rfl) (by norm_num)).1 (by omega) with h | h
    · omega
    · have := h 1 (by simp)
      norm_num at this
  · rw [← hR]
    exact (c103_iterative 2 [1, 2, 0] [1, 0, 0] (1/10) none 10 2 400 (1/1000) "P").symm

/-- the same for the water level: three samples delayed by one, in a window of four -/
example : ∃ r, deconv_waterlevel [0, 1, 2, 0] [0, 1, 0, 0] (1/10) 10 (1/20) 2 true = .ok r ∧
    deconv_waterlevel [1, 2, 0, 0] [1, 0, 0, 0] (1/10) 10 (1/20) 2 true = .ok r := by
  obtain ⟨r, h⟩ := c58_total (uin := [0, 1, 2, 0]) (win := [0, 1, 0, 0]) (dt := 1/10)
    (preonset := 10) (wlevel := 1/20) (a := 2) (normalize := true) rfl (by simp) (by norm_num)
  refine ⟨r, h, ?_⟩
  rw [← h]
  exact (c103_waterlevel_misfit 1 2 [1, 2, 0] [1, 0, 0] (1/10) 10 (1/20) 2 true rfl).symm

/-- delaying the numerator alone by one sample of 0.1 s is `preonset` 10.1 s instead of 10 s -/
example : ∃ r r', deconv_waterlevel [0, 1, 2, 0] [1, 0, 0, 0] (1/10) 10 (1/20) 2 true = .ok r ∧
    deconv_waterlevel [1, 2, 0, 0] [1, 0, 0, 0] (1/10) (101/10) (1/20) 2 true = .ok r' ∧ r.1 = r'.1 := by
  obtain ⟨r, h⟩ := c58_total (uin := [0, 1, 2, 0]) (win := [1, 0, 0, 0]) (dt := 1/10)
    (preonset := 10) (wlevel := 1/20) (a := 2) (normalize := true) rfl (by simp) (by norm_num)
  obtain ⟨r', h'⟩ := c58_total (uin := [1, 2, 0, 0]) (win := [1, 0, 0, 0]) (dt := 1/10)
    (preonset := 101/10) (wlevel := 1/20) (a := 2) (normalize := true) rfl (by simp) (by norm_num)
  refine ⟨r, r', h, h', ?_⟩
  have := c103_waterlevel_delay 1 [1, 2, 0] [1, 0, 0, 0] (1/10) 10 (1/20) 2 true
  rw [show silence 1 ++ [1, 2, 0] = [0, 1, 2, 0] from rfl, show [1, 2, 0] ++ silence 1 = [1, 2, 0, 0] from rfl, h,
    show (10 : ℝ) + ((1 : ℕ) : ℝ) * (1/10) = 101/10 by norm_num, h'] at this
  injection this

end Rfsed.Props
