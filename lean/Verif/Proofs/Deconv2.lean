import Verif.Proofs.Deconv
import Verif.Spec.Deconv

/-! gaussFilter, gfilter, correl, phaseshift in closed form. -/

namespace Rfsed.Synrf
open Finset Spec

theorem scalarDiv_py {a b : ℝ} (h : b ≠ 0) : scalarDiv (F := ℝ) ⟨.py, a⟩ ⟨.py, b⟩ = .ok ⟨.py, a / b⟩ := by
  unfold scalarDiv
  simp only [Kind.join]
  rw [if_neg]
  simpa using h

theorem scalarDiv_py_zero {a b : ℝ} (h : b = 0) :
    scalarDiv (F := ℝ) ⟨.py, a⟩ ⟨.py, b⟩ = .error .zeroDivisionError := by
  unfold scalarDiv
  simp only [Kind.join]
  rw [if_pos]
  simpa using h

theorem gauss_alg (dt : ℝ) (n : ℝ) (a x : ℝ) :
    -0.25 * (2 * Real.pi * (1 / (n * dt) * x) / a) ^ 2 = -(2 * Real.pi * x / (n * dt) / (2 * a)) ^ 2 := by
  ring

theorem gaussFilter_even {dt : ℝ} {k : Nat} (a : ℝ) (hdt : dt ≠ 0) (hk : 1 ≤ k) :
    gaussFilter dt (2 * k) a
      = .ok ((List.range (2 * k)).map (fun i : Nat => gaussResponse dt (2 * k) a i / dt)) := by
  have hk' : (k : ℝ) ≠ 0 := by exact_mod_cast (by omega : k ≠ 0)
  have e1 : (2 * k + 3) / 2 = k + 1 := by omega
  have e2 : 2 * k / 2 + 1 = k + 1 := by omega
  unfold gaussFilter
  rw [scalarDiv_py (by push_cast; exact mul_ne_zero (mul_ne_zero two_ne_zero hk') hdt)]
  simp only [except_ok_bind, e1, e2]
  rw [setSlice_eq _ (by omega) (by simp; omega) (by simp)]
  simp only [except_ok_bind, List.take_zero, List.nil_append]
  rw [setSlice_eq _ (by omega) (by simp; omega) (by simp [slice]; omega)]
  congr 1
  apply ext_getD (0 : ℝ)
  · simp [slice]; omega
  · intro i hi
    simp [slice] at hi
    rw [getD_map_range _ _ _ (by omega)]
    rw [List.append_assoc]
    by_cases h1 : i < k + 1
    · rw [getD_append_lt _ _ _ (by simp; omega)]
      rw [List.take_append_of_le_length (by simp), List.take_of_length_le (by simp)]
      simp only [List.map_map]
      rw [getD_map_range _ _ _ h1]
      simp only [Function.comp, gaussResponse]
      rw [show min i (2 * k - i) = i by omega, gauss_alg]
    · rw [getD_append_ge _ _ _ (by simp; omega)]
      rw [getD_append_lt _ _ _ (by simp [slice]; omega)]
      simp only [List.length_take, List.length_append, List.length_map, List.length_range,
        List.length_drop, List.length_replicate]
      rw [show min (k + 1) (k + 1 + (2 * k - (k + 1))) = k + 1 by omega]
      rw [List.getD_eq_getElem?_getD, List.getElem?_reverse (by simp [slice]; omega)]
      simp only [slice, List.getElem?_take, List.getElem?_drop, List.length_take, List.length_drop,
        List.length_append, List.length_map, List.length_range, List.length_replicate]
      rw [if_pos (by omega), List.getElem?_append_left (by simp; omega)]
      simp only [List.map_map]
      rw [← List.getD_eq_getElem?_getD, getD_map_range _ _ _ (by omega)]
      simp only [Function.comp, gaussResponse]
      rw [show 1 + (min (k + 1 - 1 - 1) (k + 1 + (2 * k - (k + 1)) - 1) - 1 - (i - (k + 1)))
        = min i (2 * k - i) by omega, gauss_alg]

theorem gaussFilter_odd {dt : ℝ} {k : Nat} (a : ℝ) (hdt : dt ≠ 0) :
    gaussFilter dt (2 * k + 1) a = .error .valueError := by
  have hk' : ((2 * k + 1 : Nat) : ℝ) ≠ 0 := by exact_mod_cast (by omega : 2 * k + 1 ≠ 0)
  unfold gaussFilter
  rw [scalarDiv_py (mul_ne_zero hk' hdt)]
  simp only [except_ok_bind]
  have : setSlice (List.replicate (2 * k + 1) (0 : ℝ)) 0 ((2 * k + 1) / 2 + 1)
      (((List.range ((2 * k + 1 + 3) / 2)).map (fun i : Nat => 1 / (((2 * k + 1 : Nat) : ℝ) * dt) * (i : ℝ))).map
        (fun x : ℝ => 2 * Real.pi * x) |>.map (fun x : ℝ => Real.exp (-0.25 * (x / a) ^ 2) / dt))
      = .error .valueError := by
    unfold setSlice
    rw [show (2 * k + 1 + 3) / 2 = k + 2 by omega, show (2 * k + 1) / 2 + 1 = k + 1 by omega]
    simp only [List.length_map, List.length_range, List.length_replicate]
    rw [if_neg (by omega)]
    split
    · rename_i x hx
      have := congrArg List.length hx
      simp at this
    · rfl
  rw [this]
  rfl

theorem gaussFilter_zeroDiv {dt : ℝ} {n : Nat} (a : ℝ) (h : (n : ℝ) * dt = 0) :
    gaussFilter dt n a = .error .zeroDivisionError := by
  unfold gaussFilter
  rw [scalarDiv_py_zero h]; rfl

/-- the three outcomes of `gaussFilter` -/
theorem gaussFilter_ok {dt : ℝ} {n : Nat} {a : ℝ} {g : List ℝ} (h : gaussFilter dt n a = .ok g) :
    dt ≠ 0 ∧ ∃ k, 1 ≤ k ∧ n = 2 * k ∧
      g = (List.range n).map (fun i : Nat => gaussResponse dt n a i / dt) := by
  by_cases h0 : (n : ℝ) * dt = 0
  · rw [gaussFilter_zeroDiv a h0] at h; cases h
  · have hdt : dt ≠ 0 := right_ne_zero_of_mul h0
    rcases Nat.even_or_odd' n with ⟨k, rfl | rfl⟩
    · have hk : 1 ≤ k := by
        rcases Nat.eq_zero_or_pos k with rfl | h; · simp at h0
        · exact h
      rw [gaussFilter_even a hdt hk] at h
      exact ⟨hdt, k, hk, rfl, (Except.ok.inj h).symm⟩
    · rw [gaussFilter_odd a hdt] at h; cases h

/-! ## real filters -/

/-- spectrum of a real signal -/
noncomputable abbrev rdft (n : Nat) (x : Nat → ℝ) (k : Nat) : ℂ := dft n (fun j => (x j : ℂ)) k

theorem smp_map_range (f : Nat → ℝ) {n i : Nat} (h : i < n) : smp ((List.range n).map f) i = f i :=
  getD_map_range f n 0 h

theorem idft_conv_real {n : Nat} (hn : 0 < n) (x y : Nat → ℝ) (m : Nat) :
    idft n (fun k => rdft n x k * rdft n y k) m = ((cconv n x y m : ℝ) : ℂ) := by
  rw [idft_mul hn]
  unfold cconv
  push_cast
  rfl

/-- Filtering with the spectrum of a real signal is circular convolution with it. -/
theorem gfilter_conv {n : Nat} (hn : 0 < n) (x : List ℝ) (g : List ℂ) (dt : ℝ) (y : Nat → ℝ)
    (hl : g.length = n) (hg : ∀ k < n, g.getD k 0 * (dt : ℂ) = rdft n y k) {m : Nat} (hm : m < n) :
    smp (gfilter x n g dt) m = cconv n (smp x) y m := by
  unfold smp gfilter
  simp only
  rw [toRe_getD, ifft_getD _ hm]
  have h : ∀ k < n, ((vmul (fft (toC x) n) g).map (fun z : ℂ => z * (dt : ℂ))).getD k 0
      = rdft n (smp x) k * rdft n y k := by
    intro k hk
    have e : ((vmul (fft (toC x) n) g).map (fun z : ℂ => z * (dt : ℂ))).getD k 0
        = (vmul (fft (toC x) n) g).getD k 0 * (dt : ℂ) := by
      simp only [List.getD_eq_getElem?_getD, List.getElem?_map]
      cases (vmul (fft (toC x) n) g)[k]? <;> simp
    rw [e, vmul_getD (by rw [fft_length, hl]), fft_getD _ hk, mul_assoc, hg k hk]
    congr 1
    unfold dft
    apply sum_congr rfl
    intro j _
    rw [toC_getD]; rfl
  rw [idft_congr h, idft_conv_real hn]
  simp only [Complex.ofReal_re]
  rfl

theorem gfilter_length (x : List ℝ) (n : Nat) (g : List ℂ) (dt : ℝ) :
    (gfilter x n g dt).length = n := by
  unfold gfilter; simp [toRe_length, ifft_length]

theorem gaussResponse_even {dt a : ℝ} {n : Nat} (hn : 0 < n) (k : Nat) (hk : k < n) :
    gaussResponse dt n a (cyc n (-(k : ℤ))) = gaussResponse dt n a k := by
  have : cyc n (-(k : ℤ)) = if k = 0 then 0 else n - k := by
    split
    · rename_i h; subst h; simp [cyc]
    · rename_i h
      have := cyc_add_mul (n := n) (-(k : ℤ)) 1
      rw [← this, show -(k : ℤ) + n * 1 = ((n - k : Nat) : ℤ) by push_cast [Nat.cast_sub hk.le]; ring]
      exact cyc_of_lt (by omega)
  rw [this]
  split
  · rename_i h; subst h; rfl
  · unfold gaussResponse
    rw [show min (n - k) (n - (n - k)) = min k (n - k) by omega]

theorem gaussPulse_eq {dt a : ℝ} {n : Nat} (hn : 0 < n) (m : Nat) :
    idft n (fun k => (gaussResponse dt n a k : ℂ)) m = ((gaussPulse dt n a m : ℝ) : ℂ) := by
  rw [idft_real_even hn _ (gaussResponse_even hn)]
  congr 1
  unfold idft gaussPulse
  rw [Complex.div_natCast_re, Complex.re_sum]
  congr 1
  apply sum_congr rfl
  intro k _
  rw [Complex.re_ofReal_mul]
  congr 1
  unfold W
  have : 2 * Real.pi * Complex.I * (((m : ℤ) * (k : ℤ) : ℤ) : ℂ) / n
      = ((2 * Real.pi * (m * k) / n : ℝ) : ℂ) * Complex.I := by
    push_cast; ring
  rw [this, Complex.exp_ofReal_mul_I_re]

theorem rdft_gaussPulse {dt a : ℝ} {n : Nat} (hn : 0 < n) {k : Nat} (hk : k < n) :
    rdft n (gaussPulse dt n a) k = (gaussResponse dt n a k : ℂ) := by
  have : rdft n (gaussPulse dt n a) k
      = dft n (idft n (fun k => (gaussResponse dt n a k : ℂ))) k :=
    dft_congr (fun m _ => (gaussPulse_eq hn m).symm) k
  rw [this, dft_idft _ hk]

/-- Filtering with `gaussFilter` is circular convolution with the Gaussian pulse. -/
theorem gfilter_gauss {n : Nat} {dt a : ℝ} {g : List ℝ} (hg : gaussFilter dt n a = .ok g)
    (x : List ℝ) {m : Nat} (hm : m < n) :
    smp (gfilter x n (toC g) dt) m = cconv n (smp x) (gaussPulse dt n a) m := by
  obtain ⟨hdt, k, hk, hn, rfl⟩ := gaussFilter_ok hg
  have hn' : 0 < n := by omega
  apply gfilter_conv hn' _ _ _ _ _ _ hm
  · simp [toC_length]
  · intro k hk
    rw [toC_getD, getD_map_range _ _ _ hk, rdft_gaussPulse hn' hk]
    push_cast
    exact div_mul_cancel₀ _ (by exact_mod_cast hdt)

/-- Filtering with the spectrum of `w` is `dt` times the convolution with `w`. -/
theorem gfilter_fft {n : Nat} (hn : 0 < n) (x w : List ℝ) (dt : ℝ) {m : Nat} (hm : m < n) :
    smp (gfilter x n (fft (toC w) n) dt) m = dt * cconv n (smp x) (smp w) m := by
  rw [gfilter_conv hn x _ dt (fun j => dt * smp w j) (fft_length _ _) _ hm]
  · unfold cconv
    rw [mul_sum]
    apply sum_congr rfl
    intro j _
    ring
  · intro k hk
    rw [fft_getD _ hk]
    unfold rdft dft
    rw [sum_mul]
    apply sum_congr rfl
    intro j _
    rw [toC_getD]
    unfold smp
    push_cast
    ring

theorem correl_eq {n : Nat} (hn : 0 < n) (R W : List ℝ) {m : Nat} (hm : m < n) :
    smp (correl R W n) m = ∑ j ∈ range n, smp W j * smp R (cyc n (m + j)) := by
  unfold correl
  show (toRe _).getD m 0 = _
  rw [toRe_getD, ifft_getD _ hm]
  have h : ∀ k < n, (vmul (fft (toC R) n) ((fft (toC W) n).map (starRingEnd ℂ))).getD k 0
      = dft n (fun j => (smp R j : ℂ)) k * (starRingEnd ℂ) (dft n (fun j => (smp W j : ℂ)) k) := by
    intro k hk
    rw [vmul_getD (by simp [fft_length]), fft_getD _ hk]
    have e : ((fft (toC W) n).map (starRingEnd ℂ)).getD k 0
        = (starRingEnd ℂ) ((fft (toC W) n).getD k 0) := by
      simp only [List.getD_eq_getElem?_getD, List.getElem?_map]
      cases (fft (toC W) n)[k]? <;> simp
    rw [e, fft_getD _ hk]
    congr 2
    · funext j; rw [toC_getD]; rfl
    · congr 1; funext j; rw [toC_getD]; rfl
  rw [idft_congr h, idft_mul_conj hn]
  rw [Complex.re_sum]
  apply sum_congr rfl
  intro j _
  rw [Complex.conj_ofReal, ← Complex.ofReal_mul, Complex.ofReal_re]

theorem correl_length (R W : List ℝ) (n : Nat) : (correl R W n).length = n := by
  unfold correl; simp [toRe_length, ifft_length]

theorem phaseshift_length (x : List ℝ) (n : Nat) (dt p : ℝ) : (phaseshift x n dt p).length = n := by
  unfold phaseshift; simp [toRe_length, ifft_length]

theorem phase_W (n : Nat) (i : Nat) (s : ℤ) :
    (⟨Real.cos (2 * Real.pi * ((i : ℝ) + 1) * (s : ℝ) / (n : ℝ)),
      -Real.sin (2 * Real.pi * ((i : ℝ) + 1) * (s : ℝ) / (n : ℝ))⟩ : ℂ)
      = W n (-s) * W n (i * (-s)) := by
  rw [← W_add]
  have : W n (-s + i * (-s)) = Complex.exp (((-(2 * Real.pi * ((i : ℝ) + 1) * (s : ℝ) / (n : ℝ)) : ℝ) : ℂ) * Complex.I) := by
    unfold W
    congr 1
    push_cast
    ring
  rw [this]
  apply Complex.ext
  · rw [Complex.exp_ofReal_mul_I_re, Real.cos_neg]
  · rw [Complex.exp_ofReal_mul_I_im, Real.sin_neg]

/-- `phaseshift` shifts circularly (the 1-based phase ramp is compensated by the cosine). -/
theorem phaseshift_eq {n : Nat} (hn : 0 < n) (x : List ℝ) (dt preonset : ℝ)
    (hc : Real.cos (2 * Real.pi * ((pyInt (preonset / dt) : ℤ) : ℝ) / n) ≠ 0) {m : Nat} (hm : m < n) :
    smp (phaseshift x n dt preonset) m = smp x (cyc n ((m : ℤ) - pyInt (preonset / dt))) := by
  set s := pyInt (preonset / dt) with hs
  unfold smp phaseshift
  simp only [← hs]
  rw [toRe_getD]
  set c := Real.cos (2 * Real.pi * (s : ℝ) / n) with hcd
  have e : ∀ (L : List ℂ), (L.map (fun z : ℂ => z / (c : ℂ))).getD m 0 = L.getD m 0 / (c : ℂ) := by
    intro L
    simp only [List.getD_eq_getElem?_getD, List.getElem?_map]
    cases L[m]? <;> simp
  rw [e, ifft_getD _ hm]
  have h : ∀ k < n, (vmul (fft (toC x) n) (((List.range n).map (fun i : Nat =>
      2 * Real.pi * ((i : ℝ) + 1) * (s : ℝ) / (n : ℝ))).map
      (fun a : ℝ => (⟨Real.cos a, -Real.sin a⟩ : ℂ)))).getD k 0
      = W n (-s) * (rdft n (smp x) k * W n (k * (-s))) := by
    intro k hk
    rw [vmul_getD (by simp [fft_length]), fft_getD _ hk, List.map_map, getD_map_range _ _ _ hk]
    simp only [Function.comp]
    rw [phase_W]
    have : dft n (fun j => (toC x).getD j 0) k = rdft n (smp x) k := by
      congr 1; funext j; rw [toC_getD]; rfl
    rw [this]; ring
  rw [idft_congr h, idft_smul, idft_dft_shift hn]
  rw [show (m : ℤ) + -s = m - s by ring]
  have hW : (W n (-s)).re = c := by
    have := phase_W n 0 s
    simp only [Nat.cast_zero, zero_mul, W_zero, mul_one, zero_add] at this
    rw [← this, hcd]
  rw [Complex.div_ofReal_re, mul_comm, Complex.re_ofReal_mul, hW]
  rw [mul_div_assoc, div_self hc, mul_one]
  rfl

end Rfsed.Synrf
