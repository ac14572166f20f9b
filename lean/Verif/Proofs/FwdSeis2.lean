import Verif.Proofs.FwdSeis

namespace Rfsed.Synrf
open Matrix Complex Rfsed.Spec

variable {dt : ℝ} {ipha : ℤ}

theorem binFreq_ne {n : Nat} {i : Nat} (hdt : dt ≠ 0) (hi : 1 ≤ i) (hn : 0 < n) : binFreq n dt i ≠ 0 := by
  unfold binFreq
  have h1 : (i : ℝ) ≠ 0 := by exact_mod_cast (by omega : i ≠ 0)
  have h2 : (n : ℝ) ≠ 0 := by exact_mod_cast (by omega : n ≠ 0)
  have := Real.pi_ne_zero
  positivity

theorem W_rev {n j : Nat} (hdt : dt ≠ 0) (hj : j < n) (i : Nat) :
    W n (((n - 1 - j : Nat) : ℤ) * i) =
      exp (-I * ((2 * Real.pi * i / (n * dt) : ℝ) * (((j : ℝ) + 1) * dt : ℝ))) := by
  have hn : 0 < n := by omega
  have e : (((n - 1 - j : Nat) : ℤ) * i) = (n : ℤ) * i + (-((j : ℤ) + 1) * i) := by
    have : ((n - 1 - j : Nat) : ℤ) = n - 1 - j := by omega
    rw [this]; ring
  rw [e, W_add, W_mul_period hn, one_mul, W]
  congr 1
  have h2 : (n : ℂ) ≠ 0 := by exact_mod_cast (by omega : n ≠ 0)
  have h3 : (dt : ℂ) ≠ 0 := by exact_mod_cast hdt
  push_cast
  field_simp

theorem specSum {n j : Nat} (hdt : dt ≠ 0) (hj : j < n) (U : ℝ → ℂ) :
    ((∑ k ∈ Finset.range n, (specList n (n / 2) (fun i => U (binFreq n dt i))).getD k 0 *
      W n (((n - 1 - j : Nat) : ℤ) * k)) / n).re / n = synthSample n dt U j := by
  have hn : 0 < n := by omega
  have h1 : (∑ k ∈ Finset.range n, (specList n (n / 2) (fun i => U (binFreq n dt i))).getD k 0 *
      W n (((n - 1 - j : Nat) : ℤ) * k)) = ∑ i ∈ Finset.Icc 1 (n / 2),
      U (2 * Real.pi * i / (n * dt)) *
        exp (-I * ((2 * Real.pi * i / (n * dt) : ℝ) * (((j : ℝ) + 1) * dt : ℝ))) := by
    symm
    apply Finset.sum_subset_zero_on_sdiff
    · intro i hi
      rw [Finset.mem_Icc] at hi
      rw [Finset.mem_range]; omega
    · intro k hk
      rw [Finset.mem_sdiff, Finset.mem_range, Finset.mem_Icc] at hk
      rw [specList, getD_map_range _ _ _ hk.1, if_neg hk.2, zero_mul]
    · intro i hi
      rw [Finset.mem_Icc] at hi
      rw [specList, getD_map_range _ _ _ (by omega), if_pos hi, W_rev hdt hj, binFreq]
  rw [h1, synthSample, ← Complex.re_sum, ← Complex.ofReal_natCast, Complex.div_ofReal_re, div_div, pow_two]

theorem revSeis {n npts : Nat} (hnp : npts ≤ n) (hdt : dt ≠ 0) (U : ℝ → ℂ) :
    ((toRe (ifft (specList n (n / 2) (fun i => U (binFreq n dt i))) n)).reverse.map (fun x : ℝ => x / n)).take npts =
      (List.range npts).map (fun j => synthSample n dt U j) := by
  apply List.ext_getElem
  · simp [toRe, ifft]; omega
  · intro j h1 h2
    have hj : j < npts := by simpa using h2
    rw [List.getElem_take, List.getElem_map, List.getElem_reverse, List.getElem_map, List.getElem_range,
      ← specSum hdt (by omega) U]
    simp only [toRe, ifft, List.getElem_map, List.getElem_range, List.length_map, List.length_range]

theorem negRevSeis {n npts : Nat} (hnp : npts ≤ n) (hdt : dt ≠ 0) (U : ℝ → ℂ) :
    (((toRe (ifft (specList n (n / 2) (fun i => U (binFreq n dt i))) n)).map (fun x : ℝ => -x)).reverse.map
      (fun x : ℝ => x / n)).take npts =
      (List.range npts).map (fun j => -synthSample n dt U j) := by
  have : ((toRe (ifft (specList n (n / 2) (fun i => U (binFreq n dt i))) n)).map (fun x : ℝ => -x)).reverse.map
      (fun x : ℝ => x / n) = ((toRe (ifft (specList n (n / 2) (fun i => U (binFreq n dt i))) n)).reverse.map
      (fun x : ℝ => x / n)).map (fun x => -x) := by
    rw [← List.map_reverse, List.map_map, List.map_map]
    congr 1
    funext x
    simp [neg_div]
  rw [this, ← List.map_take, revSeis hnp hdt, List.map_map]
  rfl

/-- closed form of `fwd_seis` when no bin is NaN -/
theorem fwd_seis_some {rayp : ℝ} {npts : Nat} {a b r h : List ℝ} (hnp : 0 < npts) (hdt : dt ≠ 0)
    (U V : ℝ → ℂ) (hU : ∀ ω, ω ≠ 0 → haskell ω rayp h.length ipha a b r h = .ok (some (U ω, V ω))) :
    fwd_seis rayp dt npts ipha a b r h =
      .ok (.num ((List.range npts).map (fun j => synthSample (nextPow2 npts) dt U j)),
           .num ((List.range npts).map (fun j => -synthSample (nextPow2 npts) dt V j))) := by
  have hle := le_nextPow2 npts
  set n := nextPow2 npts with hn
  have hn0 : 0 < n := by omega
  have hnd : (n : ℝ) * dt ≠ 0 := mul_ne_zero (by exact_mod_cast (by omega : n ≠ 0)) hdt
  have hspec : fwdSpectra rayp dt n ipha a b r h =
      .ok (some (specList n (n / 2) (fun i => U (binFreq n dt i)), specList n (n / 2) (fun i => V (binFreq n dt i)))) := by
    unfold fwdSpectra
    have := fwdFold_some (ipha := ipha) hnd rayp h.length a b r h (fun i => U (binFreq n dt i))
      (fun i => V (binFreq n dt i)) (n / 2) le_rfl (fun i h1 _ => hU _ (binFreq_ne hdt h1 hn0))
    exact this
  unfold fwd_seis
  simp only [← hn]
  rw [hspec, okBind, if_neg (by omega)]
  simp only [Samples.take, pure, Except.pure]
  rw [revSeis hle hdt, negRevSeis hle hdt]

/-- a bin with NaN makes both seismograms NaN -/
theorem fwd_seis_none {rayp : ℝ} {npts : Nat} {a b r h : List ℝ} (hnp : 2 ≤ npts) (hdt : dt ≠ 0)
    (hU : ∀ ω, ω ≠ 0 → haskell ω rayp h.length ipha a b r h = .ok none) :
    fwd_seis rayp dt npts ipha a b r h = .ok (.nan npts, .nan npts) := by
  have hle := le_nextPow2 npts
  set n := nextPow2 npts with hn
  have hn0 : 0 < n := by omega
  have hnd : (n : ℝ) * dt ≠ 0 := mul_ne_zero (by exact_mod_cast (by omega : n ≠ 0)) hdt
  have hspec : fwdSpectra rayp dt n ipha a b r h = .ok none := by
    unfold fwdSpectra
    obtain ⟨m, hm⟩ : ∃ m, n / 2 + 1 - 1 = m + 1 := ⟨n / 2 - 1, by omega⟩
    simp only [hm]
    rw [List.range'_succ]
    have e : (scalarDiv ⟨.py, 2 * Real.pi * ((1 : Nat) : ℝ)⟩ ⟨.py, (n : ℝ) * dt⟩ : Except PyErr (Scalar ℝ)) =
        .ok ⟨.py, binFreq n dt 1⟩ := scalarDiv_py hnd
    rw [List.foldlM_cons, e, okBind]
    simp only []
    rw [hU _ (binFreq_ne hdt le_rfl hn0), okBind]
    exact fwdFold_none n rayp h.length a b r h _ hnd (fun i hi => ⟨none, by
      rw [List.mem_range'_1] at hi
      exact hU _ (binFreq_ne hdt (by omega) hn0)⟩)
  unfold fwd_seis
  simp only [← hn]
  rw [hspec, okBind, if_neg (by omega)]
  simp only [Samples.take, pure, Except.pure, min_eq_left hle]

end Rfsed.Synrf
