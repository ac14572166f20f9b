import Verif.Proofs.Deconv6

/-! `deconv_waterlevel` in closed form. -/

namespace Rfsed.Synrf
open Finset Spec

theorem foldl_max_spec : ∀ (xs : List ℝ) (x : ℝ),
    (xs.foldl max x = x ∨ xs.foldl max x ∈ xs) ∧ x ≤ xs.foldl max x ∧ ∀ y ∈ xs, y ≤ xs.foldl max x := by
  intro xs
  induction xs with
  | nil => intro x; simp
  | cons z zs ih =>
    intro x
    obtain ⟨h1, h2, h3⟩ := ih (max x z)
    refine ⟨?_, ?_, ?_⟩
    · rcases h1 with h1 | h1
      · rcases max_choice x z with h | h
        · left; rw [List.foldl_cons, h1, h]
        · right; rw [List.foldl_cons, h1, h]; exact List.mem_cons_self ..
      · right; exact List.mem_cons_of_mem _ h1
    · exact le_trans (le_max_left _ _) h2
    · intro y hy
      rcases List.mem_cons.1 hy with rfl | hy
      · exact le_trans (le_max_right _ _) h2
      · exact h3 y hy

theorem getD_mapC (L : List ℂ) (f : ℂ → ℂ) (hf : f 0 = 0) (k : Nat) :
    (L.map f).getD k 0 = f (L.getD k 0) := by
  simp only [List.getD_eq_getElem?_getD, List.getElem?_map]
  cases L[k]? <;> simp [hf]

theorem getD_mapC' {α : Type} (L : List α) (f : α → ℂ) (d : α) {k : Nat} (hk : k < L.length) :
    (L.map f).getD k 0 = f (L.getD k d) := by
  simp [List.getD_eq_getElem?_getD, hk]

theorem getD_zipDiv {x y : List ℂ} (h : x.length = y.length) (k : Nat) :
    (List.zipWith (· / ·) x y).getD k 0 = x.getD k 0 / y.getD k 0 := by
  simp only [List.getD_eq_getElem?_getD, List.getElem?_zipWith]
  by_cases hk : k < x.length
  · rw [List.getElem?_eq_getElem hk, List.getElem?_eq_getElem (by omega)]; rfl
  · rw [List.getElem?_eq_none (by omega), List.getElem?_eq_none (by omega)]; simp

theorem fft_spectrum (x : List ℝ) {n k : Nat} (hk : k < n) :
    (fft (toC x) n).getD k 0 = traceSpectrum n x k := by
  rw [fft_getD _ hk]
  unfold traceSpectrum
  congr 1; funext j; rw [toC_getD]; rfl

theorem mul_conj_norm (z : ℂ) : z * (starRingEnd ℂ) z = ((‖z‖ ^ 2 : ℝ) : ℂ) := by
  rw [Complex.mul_conj, Complex.normSq_eq_norm_sq]

/-- the frequency axis of line 268 -/
theorem freq_axis {dt : ℝ} {k : Nat} (hk : 1 ≤ k) {i : Nat} (hi : i < 2 * k) :
    let w := (((List.range ((2 * k + 3) / 2)).map (fun i : Nat => 1 / (2 * dt) / (0.5 * ((2 * k : ℕ) : ℝ)) * (i : ℝ))).map
      (fun x : ℝ => 2 * Real.pi * x))
    let w' := w ++ (slice w 1 (w.length - 1)).reverse.map (fun x : ℝ => -x)
    w'.length = 2 * k ∧ w'.getD i 0 = omega dt (2 * k) i := by
  intro w w'
  have hwl : w.length = k + 1 := by simp [w]; omega
  have hwg : ∀ j, j ≤ k → w[j]? = some (2 * Real.pi * (j : ℝ) / (((2 * k : ℕ) : ℝ) * dt)) := by
    intro j hj
    have h1 : j < (2 * k + 3) / 2 := by omega
    simp only [w, List.map_map, List.getElem?_map, List.getElem?_range h1, Option.map_some,
      Function.comp]
    congr 1
    have : ((2 * k : ℕ) : ℝ) ≠ 0 := by
      have : 2 * k ≠ 0 := by omega
      exact_mod_cast this
    by_cases hdt : dt = 0
    · subst hdt; simp
    · field_simp; norm_num
  have hsl : (slice w 1 (w.length - 1)).length = k - 1 := by
    unfold slice; rw [List.length_take, List.length_drop, hwl]; omega
  rw [hwl] at hsl
  refine ⟨by simp only [w', List.length_append, List.length_map, List.length_reverse, hsl, hwl]; omega, ?_⟩
  simp only [w', hwl]
  rw [List.getD_eq_getElem?_getD]
  unfold omega
  by_cases hik : i ≤ k
  · rw [List.getElem?_append_left (by omega), hwg i hik, if_pos (by omega)]
    rfl
  · rw [List.getElem?_append_right (by omega), hwl, List.getElem?_map,
      List.getElem?_reverse (by rw [hsl]; omega), hsl]
    unfold slice
    rw [List.getElem?_take_of_lt (by omega), List.getElem?_drop,
      hwg _ (by omega), if_neg (by omega)]
    simp only [Option.map_some, Option.getD_some]
    have : 1 + (k - 1 - 1 - (i - (k + 1))) = 2 * k - i := by omega
    rw [this, Nat.cast_sub (by omega)]
    push_cast
    ring

theorem take_toRe_smp (X : List ℂ) {n nt m : Nat} (hm : m < nt) (hmn : m < n) :
    smp (toRe ((ifft X n).take nt)) m = (idft n (fun k => X.getD k 0) m).re := by
  unfold smp
  rw [toRe_getD, List.getD_eq_getElem?_getD, List.getElem?_take_of_lt hm,
    ← List.getD_eq_getElem?_getD, ifft_getD _ hmn]

theorem toRe_take (X : List ℂ) (k : Nat) : (toRe X).take k = toRe (X.take k) := by
  simp [toRe, List.map_take]

theorem sumSq_sum (x : List ℝ) : sumSq x = ∑ m ∈ range x.length, smp x m ^ 2 :=
  sumSq_energy rfl

theorem waterFit_eq {uf wf df : List ℂ} {g : List ℝ} {dt a φ preonset : ℝ} {n k nt : Nat}
    {U V : Nat → ℂ} {normalize : Bool} (hk : 1 ≤ k) (hn : n = 2 * k) (hdt : dt ≠ 0) (hle : nt ≤ n)
    (hu : ∀ j < n, uf.getD j 0 = U j) (hw : ∀ j < n, wf.getD j 0 = V j) (hul : uf.length = n)
    (hwl : wf.length = n) (hd : ∀ j < n, df.getD j 0 = ((‖V j‖ ^ 2 : ℝ) : ℂ)) (hdl : df.length = n)
    (hg : g = (List.range n).map (fun i : Nat => gaussResponse dt n a i / dt)) :
    let r := waterFit uf wf df g
      (((List.range ((n + 3) / 2)).map (fun i : Nat => 1 / (2 * dt) / (0.5 * (n : ℝ)) * (i : ℝ))).map
        (fun x : ℝ => 2 * Real.pi * x)) φ (1 / (2 * dt) / (0.5 * (n : ℝ))) dt preonset nt n normalize
    r.1.length = nt ∧
    (∀ m < nt, smp r.1 m
        = (idft n (fun k => ((gaussResponse dt n a k / dt : ℝ) : ℂ) * waterQuot φ (U k) (V k)
            * Complex.exp (-Complex.I * (omega dt n k * preonset : ℝ))) m).re
          / (if normalize then gaussPulse dt n a 0 / dt else 1)) ∧
    r.2 = (∑ m ∈ range nt,
          ((idft n (fun k => ((gaussResponse dt n a k / dt : ℝ) : ℂ)
            * (waterQuot φ (U k) (V k) * V k)) m).re
           - (idft n (fun k => ((gaussResponse dt n a k / dt : ℝ) : ℂ) * U k) m).re) ^ 2)
        / ∑ m ∈ range nt, (idft n (fun k => ((gaussResponse dt n a k / dt : ℝ) : ℂ) * U k) m).re ^ 2 := by
  intro r
  have hn0 : 0 < n := by omega
  have hgl : g.length = n := by rw [hg]; simp
  have hgg : ∀ j < n, (toC g).getD j 0 = ((gaussResponse dt n a j / dt : ℝ) : ℂ) := by
    intro j hj
    rw [toC_getD, hg, getD_map_range _ _ _ hj]
  set df' := df.map (fun z : ℂ => @ite ℂ (z.re < φ) (Classical.propDecidable _) (φ : ℂ) z) with hdf'
  have hdf : ∀ j < n, df'.getD j 0 = ((max (‖V j‖ ^ 2) φ : ℝ) : ℂ) := by
    intro j hj
    rw [hdf', getD_mapC' _ _ 0 (by omega), hd j hj]
    rw [Complex.ofReal_re]
    by_cases h : ‖V j‖ ^ 2 < φ
    · rw [if_pos h, max_eq_right h.le]
    · rw [if_neg h, max_eq_left (not_lt.1 h)]
  set rff := List.zipWith (· / ·) (vmul (vmul (toC g) uf) (wf.map (starRingEnd ℂ))) df' with hrff
  have hrl : rff.length = n := by
    simp [hrff, vmul, toC_length, hgl, hul, hwl, hdf', hdl]
  have hrf : ∀ j < n, rff.getD j 0 = ((gaussResponse dt n a j / dt : ℝ) : ℂ) * waterQuot φ (U j) (V j) := by
    intro j hj
    rw [hrff, getD_zipDiv (by simp [vmul, toC_length, hgl, hul, hwl, hdf', hdl]),
      vmul_getD (by simp [vmul, toC_length, hgl, hul, hwl]),
      vmul_getD (by simp [toC_length, hgl, hul]), getD_mapC _ _ (by simp), hgg j hj, hu j hj, hw j hj,
      hdf j hj]
    unfold waterQuot
    ring
  have hut : ∀ m < nt, smp (toRe ((ifft (vmul (toC g) uf) n).take nt)) m
      = (idft n (fun k => ((gaussResponse dt n a k / dt : ℝ) : ℂ) * U k) m).re := by
    intro m hm
    rw [take_toRe_smp _ hm (by omega)]
    congr 1
    apply idft_congr
    intro j hj
    rw [vmul_getD (by simp [toC_length, hgl, hul]), hgg j hj, hu j hj]
  have hupt : ∀ m < nt, smp (toRe ((ifft (vmul rff wf) n).take nt)) m
      = (idft n (fun k => ((gaussResponse dt n a k / dt : ℝ) : ℂ)
            * (waterQuot φ (U k) (V k) * V k)) m).re := by
    intro m hm
    rw [take_toRe_smp _ hm (by omega)]
    congr 1
    apply idft_congr
    intro j hj
    rw [vmul_getD (by rw [hrl, hwl]), hrf j hj, hw j hj]
    ring
  have hlt : ∀ X : List ℂ, (toRe ((ifft X n).take nt)).length = nt := by
    intro X
    rw [toRe_length, List.length_take, ifft_length]; omega
  have hr1 : r = waterFit uf wf df g
      (((List.range ((n + 3) / 2)).map (fun i : Nat => 1 / (2 * dt) / (0.5 * (n : ℝ)) * (i : ℝ))).map
        (fun x : ℝ => 2 * Real.pi * x)) φ (1 / (2 * dt) / (0.5 * (n : ℝ))) dt preonset nt n normalize := rfl
  unfold waterFit at hr1
  simp only at hr1
  rw [← hdf', ← hrff] at hr1
  subst hn
  have hax := fun i hi => freq_axis (dt := dt) hk (i := i) hi
  simp only at hax
  set w := ((List.range ((2 * k + 3) / 2)).map (fun i : Nat => 1 / (2 * dt) / (0.5 * ((2 * k : ℕ) : ℝ)) * (i : ℝ))).map
      (fun x : ℝ => 2 * Real.pi * x) with hwdef
  set w' := w ++ (slice w 1 (w.length - 1)).reverse.map (fun x : ℝ => -x) with hw'
  have hw'l : w'.length = 2 * k := (hax 0 (by omega)).1
  have hrt : ∀ m < nt, smp (toRe ((ifft (vmul rff (w'.map (fun x : ℝ =>
        Complex.exp (-1 * Complex.I * (x : ℂ) * (preonset : ℂ))))) (2 * k)).take nt)) m
      = (idft (2 * k) (fun j => ((gaussResponse dt (2 * k) a j / dt : ℝ) : ℂ) * waterQuot φ (U j) (V j)
            * Complex.exp (-Complex.I * (omega dt (2 * k) j * preonset : ℝ))) m).re := by
    intro m hm
    rw [take_toRe_smp _ hm (by omega)]
    congr 1
    apply idft_congr
    intro j hj
    rw [vmul_getD (by rw [hrl, List.length_map, hw'l]), hrf j hj,
      getD_mapC' _ _ 0 (by rw [hw'l]; exact hj), (hax j hj).2]
    congr 2
    push_cast
    ring
  have hgs : g.sum * (1 / (2 * dt) / (0.5 * ((2 * k : ℕ) : ℝ))) * dt = gaussPulse dt (2 * k) a 0 / dt := by
    have h1 : g.sum = (∑ j ∈ range (2 * k), gaussResponse dt (2 * k) a j) / dt := by
      rw [sum_ofFn_range, hgl, Finset.sum_div]
      apply sum_congr rfl
      intro j hj
      rw [hg]
      exact getD_map_range _ _ _ (mem_range.1 hj)
    rw [h1]
    unfold gaussPulse
    have : ((2 * k : ℕ) : ℝ) ≠ 0 := by exact_mod_cast hn0.ne'
    simp only [Nat.cast_zero, zero_mul, mul_zero, zero_div, Real.cos_zero, mul_one]
    generalize ((2 * k : ℕ) : ℝ) = N at this ⊢
    generalize (∑ j ∈ range (2 * k), gaussResponse dt (2 * k) a j) = S
    rw [show (0.5 : ℝ) = 1 / 2 by norm_num]
    field_simp
  have hsm : ∀ x : List ℝ, x.length = nt → ∀ f : Nat → ℝ, (∀ m < nt, smp x m = f m) →
      sumSq x = ∑ m ∈ range nt, f m ^ 2 := by
    intro x hx f hf
    rw [sumSq_sum, hx]
    exact sum_congr rfl (fun m hm => by rw [hf m (mem_range.1 hm)])
  have h2 : r.2 = _ := congrArg Prod.snd hr1
  have h1 : r.1 = _ := congrArg Prod.fst hr1
  simp only at h1 h2
  refine ⟨?_, ?_, ?_⟩
  · rw [h1]
    split
    · rw [List.length_map, hlt]
    · rw [hlt]
  · intro m hm
    rw [h1]
    cases normalize with
    | false =>
      simp only [Bool.false_eq_true, if_false, div_one]
      exact hrt m hm
    | true =>
      simp only [if_true]
      rw [hgs, ← hrt m hm]
      unfold smp
      simp only [List.getD_eq_getElem?_getD, List.getElem?_map]
      cases (toRe _)[m]? <;> simp
  · rw [h2]
    simp only [toRe_take]
    rw [hsm _ (hlt _) _ hut]
    congr 1
    apply hsm
    · exact arrSub_length (hlt _) (hlt _)
    · intro m hm
      rw [arrSub_smp (hlt _) (hlt _), hut m hm, hupt m hm]

theorem lowpass_idft {dt a : ℝ} {n : Nat} (hn : 0 < n) (x : List ℝ) (m : Nat) :
    (idft n (fun k => ((gaussResponse dt n a k / dt : ℝ) : ℂ) * traceSpectrum n x k) m).re
      = lowpass n dt a x m / dt := by
  have h := idft_conv_real hn (smp x) (gaussPulse dt n a) m
  have e : ∀ k < n, ((gaussResponse dt n a k / dt : ℝ) : ℂ) * traceSpectrum n x k
      = ((1 / dt : ℝ) : ℂ) * (rdft n (smp x) k * rdft n (gaussPulse dt n a) k) := by
    intro k hk
    rw [rdft_gaussPulse hn hk]
    unfold traceSpectrum
    push_cast
    ring
  rw [idft_congr e, idft_smul, h, ← Complex.ofReal_mul, Complex.ofReal_re]
  unfold lowpass
  ring

/-- closed form of a successful run -/
theorem water_master {uin win : List ℝ} {dt preonset wlevel a : ℝ} {normalize : Bool}
    {rft : List ℝ} {rms : ℝ}
    (h : deconv_waterlevel uin win dt preonset wlevel a normalize = .ok (rft, rms)) :
    let n := nextPow2 uin.length
    let U := traceSpectrum n uin
    let W := traceSpectrum n win
    uin.length = win.length ∧ dt ≠ 0 ∧ (∃ k, 1 ≤ k ∧ n = 2 * k) ∧
    ∃ d, IsMaxPower n W d ∧ rft.length = uin.length ∧
      (∀ m < uin.length, smp rft m
        = (idft n (fun k => ((gaussResponse dt n a k / dt : ℝ) : ℂ) * waterQuot (wlevel * d) (U k) (W k)
            * Complex.exp (-Complex.I * (omega dt n k * preonset : ℝ))) m).re
          / (if normalize then gaussPulse dt n a 0 / dt else 1)) ∧
      rms = (∑ m ∈ range uin.length,
          ((idft n (fun k => ((gaussResponse dt n a k / dt : ℝ) : ℂ)
            * (waterQuot (wlevel * d) (U k) (W k) * W k)) m).re
           - lowpass n dt a uin m / dt) ^ 2)
        / ∑ m ∈ range uin.length, (lowpass n dt a uin m / dt) ^ 2 := by
  intro n U W
  unfold deconv_waterlevel at h
  split at h
  · cases h
  rename_i hlen
  have hlen : uin.length = win.length := by simpa using hlen
  obtain ⟨fny, hfny, h⟩ := bind_eq_ok.1 h
  obtain ⟨delf, hdelf, h⟩ := bind_eq_ok.1 h
  obtain ⟨dmax, hdmax, h⟩ := bind_eq_ok.1 h
  obtain ⟨g, hg, h⟩ := bind_eq_ok.1 h
  obtain ⟨hdt, k, hk, hn, hge⟩ := gaussFilter_ok hg
  change n = 2 * k at hn
  have hn0 : 0 < n := by omega
  have hnR : (n : ℝ) ≠ 0 := by exact_mod_cast hn0.ne'
  have hle : uin.length ≤ n := le_nextPow2 _
  rw [scalarDiv_py (by simpa using hdt)] at hfny
  have hfny := (Except.ok.inj hfny).symm
  subst hfny
  have h05 : (0.5 : ℝ) * (n : ℝ) ≠ 0 := by positivity
  rw [scalarDiv_py h05] at hdelf
  have hdelf := (Except.ok.inj hdelf).symm
  subst hdelf
  -- the maximum power
  have hpow : ∀ j < n, (vmul (fft (toC win) n) ((fft (toC win) n).map (starRingEnd ℂ))).getD j 0
      = ((‖W j‖ ^ 2 : ℝ) : ℂ) := by
    intro j hj
    rw [vmul_getD (by simp), getD_mapC _ _ (by simp), fft_spectrum _ hj, mul_conj_norm]
  have hpl : (vmul (fft (toC win) n) ((fft (toC win) n).map (starRingEnd ℂ))).length = n := by
    simp [vmul, fft_length]
  have hmaxp : IsMaxPower n W dmax := by
    have hre : toRe (vmul (fft (toC win) n) ((fft (toC win) n).map (starRingEnd ℂ)))
        = (List.range n).map (fun j : Nat => ‖W j‖ ^ 2) := by
      apply List.ext_getElem
      · simp [toRe, hpl]
      · intro j h1 h2
        have hj : j < n := by simpa using h2
        have := congrArg Complex.re (hpow j hj)
        rw [List.getD_eq_getElem?_getD, List.getElem?_eq_getElem (by rw [hpl]; exact hj)] at this
        simp only [toRe, List.getElem_map, List.getElem_range]
        rw [Complex.ofReal_re] at this
        exact this
    change pyMax (toRe (vmul (fft (toC win) n) ((fft (toC win) n).map (starRingEnd ℂ)))) = Except.ok dmax
      at hdmax
    rw [hre] at hdmax
    have hmem : ∀ y, y ∈ (List.range n).map (fun j : Nat => ‖W j‖ ^ 2) ↔ ∃ j < n, ‖W j‖ ^ 2 = y := by
      intro y; simp
    generalize (List.range n).map (fun j : Nat => ‖W j‖ ^ 2) = L at hdmax hmem
    cases L with
    | nil => cases hdmax
    | cons x xs =>
      have hd := Except.ok.inj hdmax
      obtain ⟨h1, h2, h3⟩ := foldl_max_spec xs x
      rw [hd] at h1 h2 h3
      constructor
      · have : dmax ∈ x :: xs := by
          rcases h1 with h1 | h1
          · rw [h1]; exact List.mem_cons_self ..
          · exact List.mem_cons_of_mem _ h1
        obtain ⟨j, hj, e⟩ := (hmem _).1 this
        exact ⟨j, hj, e.symm⟩
      · intro j hj
        have := (hmem (‖W j‖ ^ 2)).2 ⟨j, hj, rfl⟩
        rcases List.mem_cons.1 this with e | e
        · rw [e]; exact h2
        · exact h3 _ e
  have h := Except.ok.inj h
  refine ⟨hlen, hdt, ⟨k, hk, hn⟩, dmax, hmaxp, ?_⟩
  have hfit := waterFit_eq (U := U) (V := W) (a := a) (preonset := preonset) (φ := wlevel * dmax)
    (normalize := normalize) hk hn hdt hle (fun j hj => fft_spectrum uin hj)
    (fun j hj => fft_spectrum win hj) (fft_length _ _) (fft_length _ _) hpow hpl hge
  have hr : waterFit (fft (toC uin) n) (fft (toC win) n)
      (vmul (fft (toC win) n) ((fft (toC win) n).map (starRingEnd ℂ))) g
      (((List.range ((n + 3) / 2)).map (fun i : Nat => 1 / (2 * dt) / (0.5 * (n : ℝ)) * (i : ℝ))).map
        (fun x : ℝ => 2 * Real.pi * x)) (wlevel * dmax) (1 / (2 * dt) / (0.5 * (n : ℝ))) dt preonset
      uin.length n normalize = (rft, rms) := h
  simp only at hfit
  rw [hr] at hfit
  obtain ⟨h1, h2, h3⟩ := hfit
  refine ⟨h1, h2, ?_⟩
  simp only at h3
  rw [h3]
  simp only [U, lowpass_idft hn0]

end Rfsed.Synrf
