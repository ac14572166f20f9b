import Verif.Proofs.ResonanceRounded

/-!
# C133: rounding errors of the resonance filter
-/

namespace Rfsed.Props
open Rfsed Spec Finset ReverbFilter Synrf

section
variable {R : FltResults} {D : List ℝ} {ε : ℝ} {ac out : List ℝ} {r tlag : ℝ}

/-- the returned record in the frequency domain -/
theorem filtered_idft (h : Returned R) (hD : IsDetrended R.rf D) {L : Nat} (hL : R.tlag.val = (L : ℝ) * R.delta)
    {m : Nat} (hm : m < R.rf.length) :
    R.filteredrf.getD m 0 = (idft R.rf.length (fun k => dft R.rf.length (fun j => ((D.getD j 0 : ℝ) : ℂ)) k *
      (1 + (R.r : ℂ) * Complex.exp (-Complex.I * (2 * Real.pi * fftFreq R.rf.length R.delta k * (L * R.delta) : ℝ)))) m).re := by
  obtain ⟨M, h1, -, -, h4⟩ := c29_delayed_copy h hD
  have hdel := (returned_eq h).2.1
  have hn := (returned_eq h).1
  have eM : M = L := by
    rw [hL] at h1
    exact_mod_cast (mul_right_cancel₀ hdel h1).symm
  subst eM
  have hW : ∀ k < R.rf.length, Complex.exp (-Complex.I * (2 * Real.pi * fftFreq R.rf.length R.delta k * (M * R.delta) : ℝ)) =
      W R.rf.length ((k : ℤ) * -(M : ℤ)) := by
    intro k hk
    have hn' : (R.rf.length : ℂ) ≠ 0 := by exact_mod_cast hn.ne'
    have hd' : (R.delta : ℂ) ≠ 0 := by exact_mod_cast hdel
    unfold fftFreq
    split
    · unfold W
      congr 1
      push_cast
      field_simp
    · have : (k : ℤ) * -(M : ℤ) = ((k : ℤ) - R.rf.length) * -(M : ℤ) + R.rf.length * -(M : ℤ) := by ring
      rw [this, W_add, W_mul_period hn, mul_one]
      unfold W
      congr 1
      push_cast
      field_simp
  rw [h4 m hm]
  have e : idft R.rf.length (fun k => dft R.rf.length (fun j => ((D.getD j 0 : ℝ) : ℂ)) k *
      (1 + (R.r : ℂ) * Complex.exp (-Complex.I * (2 * Real.pi * fftFreq R.rf.length R.delta k * (M * R.delta) : ℝ)))) m =
      idft R.rf.length (fun k => dft R.rf.length (fun j => ((D.getD j 0 : ℝ) : ℂ)) k +
        (R.r : ℂ) * (dft R.rf.length (fun j => ((D.getD j 0 : ℝ) : ℂ)) k * W R.rf.length ((k : ℤ) * -(M : ℤ)))) m := by
    apply idft_congr
    intro k hk
    rw [hW k hk]
    ring
  rw [e, idft_add, idft_dft _ hm, idft_smul, idft_dft_shift hn]
  simp only [Complex.add_re, Complex.ofReal_re, Complex.re_ofReal_mul]
  rw [periodic, hD.1]
  rfl

/-- **C133** a filtered record off by at most `ε` times the size of the detrended record is a run of tolerance `ε` -/
theorem c133_inexact_run (h : Returned R) (hε : 0 ≤ ε) (hD : IsDetrended R.rf D) (hol : out.length = R.rf.length)
    (ho : size R.rf.length (fun m => out.getD m 0 - R.filteredrf.getD m 0) ≤ ε * size R.rf.length (smp D)) :
    Nonempty (ResonanceRun ε R.rf R.delta R.autoc R.r R.tlag.val out) := by
  obtain ⟨hn, hdt, hac, L, h2, h3, h4, h5⟩ := returned_facts h hD
  obtain ⟨r0, -, -⟩ := c30_ranges h
  obtain ⟨hal, hav⟩ := c30_autoc h hD
  have hk0 : ∀ k, autocorr D k = ∑ m ∈ range (R.rf.length - k), D.getD (m + k) 0 * D.getD m 0 := by
    intro k; unfold autocorr; rw [hD.1]
  have hs : ∀ x : Nat → ℝ, 0 ≤ size R.rf.length x := fun x => size_nonneg _ x
  refine ⟨{
    D := fun m => D.getD m 0
    acr := fun k => autocorr D k.natAbs
    acmax := autocorr D 0
    w := fun k => 2 * Real.pi * fftFreq R.rf.length R.delta k
    flt := fun k => 1 + (R.r : ℂ) * Complex.exp (-Complex.I * (2 * Real.pi * fftFreq R.rf.length R.delta k * R.tlag.val : ℝ))
    D_near := ?_
    acr_near := ?_
    acmax_max := ?_
    ac_length := hal
    ac_near := ?_
    pick := ?_
    w_near := ?_
    flt_near := ?_
    out_length := hol
    out_near := ?_ }⟩
  · intro d hd
    have : d = D := isDetrended_unique hd hD rfl ⟨0, 0, fun i _ => by ring⟩
    subst this
    have : size R.rf.length (fun m => d.getD m 0 - d.getD m 0) = 0 := by simp [size, energy]
    rw [this]
    exact mul_nonneg hε (hs _)
  · intro k _
    rw [hk0, sub_self, abs_zero]
    exact mul_nonneg hε (energy_nonneg _ _)
  · refine ⟨⟨0, by simpa using hn, by simp⟩, fun k _ => ?_⟩
    exact (le_abs_self _).trans (autocorr_le D _)
  · intro k hk
    rw [hav k hk]
    simp only [Int.natAbs_natCast, sub_self, abs_zero]
    positivity
  · rcases h3 with ⟨a, b, c, d⟩ | ⟨s, e, a, b, c, d⟩
    · exact Or.inl ⟨d, a, by rw [c]⟩
    · refine Or.inr ⟨s, e, L, a, b, d, ?_⟩
      rw [h2, sub_self, abs_zero]; positivity
  · intro k _
    simp only [sub_self, abs_zero]; positivity
  · intro k _
    simp only [sub_self, norm_zero]; positivity
  · intro C hC
    have : ∀ m < R.rf.length, out.getD m 0 - (idft R.rf.length (fun k => dft R.rf.length (fun j => ((D.getD j 0 : ℝ) : ℂ)) k *
      (1 + (R.r : ℂ) * Complex.exp (-Complex.I * (2 * Real.pi * fftFreq R.rf.length R.delta k * R.tlag.val : ℝ)))) m).re =
        out.getD m 0 - R.filteredrf.getD m 0 := by
      intro m hm
      rw [filtered_idft h hD h2 hm, h2]
    rw [size_congr this]
    have hC1 : 1 ≤ C := by
      have := hC 0 hn
      have e0 : fftFreq R.rf.length R.delta 0 = 0 := by simp [fftFreq]
      rw [e0, mul_zero, zero_mul, Complex.ofReal_zero, mul_zero, Complex.exp_zero, mul_one,
        show (1 : ℂ) + (R.r : ℂ) = ((1 + R.r : ℝ) : ℂ) by push_cast; rfl, Complex.norm_real, Real.norm_eq_abs,
        abs_of_nonneg (by linarith)] at this
      linarith
    refine ho.trans (mul_le_mul_of_nonneg_left ?_ hε)
    have := mul_le_mul_of_nonneg_right hC1 (hs (smp D))
    rwa [one_mul] at this

/-- **C133** the exact filter is a run of every tolerance -/
theorem c133_exact (h : Returned R) (hε : 0 ≤ ε) :
    Nonempty (ResonanceRun ε R.rf R.delta R.autoc R.r R.tlag.val R.filteredrf) := by
  obtain ⟨D, hD⟩ := exists_detrended R.rf
  refine c133_inexact_run h hε hD (filteredrf_length h) ?_
  have : size R.rf.length (fun m => R.filteredrf.getD m 0 - R.filteredrf.getD m 0) = 0 := by simp [size, energy]
  rw [this]
  exact mul_nonneg hε (size_nonneg _ _)

/-- the computed autocorrelation: near the exact one, and at most about one -/
theorem autoc_run (h : Returned R) (u : ResonanceRun ε R.rf R.delta ac r tlag out) (hD : IsDetrended R.rf D)
    (hε : 0 ≤ ε) (hε1 : ε ≤ 1 / 100)
    (hs : ε * size R.rf.length (smp R.rf) < size R.rf.length (smp D)) :
    ∀ k < R.rf.length, |ac.getD k 0 - R.autoc.getD k 0| ≤
      8 * ε * (size R.rf.length (smp R.rf) / size R.rf.length (smp D)) ∧ |ac.getD k 0| ≤ 1.04 := by
  have hn := (returned_eq h).1
  set n := R.rf.length with hnd
  have hS0 := size_nonneg n (smp R.rf)
  have hd0 : 0 < size n (smp D) := lt_of_le_of_lt (mul_nonneg hε hS0) hs
  have hnear := u.D_near D hD
  have hdS : size n (smp D) ≤ size n (smp R.rf) := size_detrended hD
  have hD' : 0 < size n u.D := by
    have h1 := size_le n (smp D) u.D
    rw [size_sub_comm] at h1
    have h2 : size n (fun m => u.D m - smp D m) ≤ ε * size n (smp R.rf) := hnear
    linarith
  have pE : 0 < energy n u.D := by rw [← size_sq]; positivity
  have pE0 : 0 < energy n (smp D) := by rw [← size_sq]; positivity
  intro k hk
  have hlag : ∀ j : Nat, |lagSum n j u.D u.D| ≤ energy n u.D := by
    intro j
    have := abs_lagSum_le n j u.D u.D
    rwa [← pow_two, Real.sq_sqrt pE.le] at this
  obtain ⟨⟨kM, hkM, eM⟩, hM⟩ := u.acmax_max
  have hM1 : (1 - ε) * energy n u.D ≤ u.acmax := by
    have h0 := hM 0 (by simpa using hn)
    have h1 := u.acr_near 0 (by simpa using hn)
    have e0 : ∑ m ∈ range (R.rf.length - (0 : ℤ).natAbs), u.D (m + (0 : ℤ).natAbs) * u.D m = energy n u.D := lagSum_zero n u.D
    rw [e0] at h1
    have := (abs_le.1 h1).1
    rw [← hnd] at this
    linarith
  have hM2 : u.acmax ≤ (1 + ε) * energy n u.D := by
    have h1 := u.acr_near kM hkM
    have h2 := (abs_le.1 (hlag kM.natAbs)).2
    have h3 := (abs_le.1 h1).2
    rw [eM]
    have e1 : ∑ m ∈ range (R.rf.length - kM.natAbs), u.D (m + kM.natAbs) * u.D m = lagSum n kM.natAbs u.D u.D := rfl
    rw [e1, ← hnd] at h3
    linarith
  have hc : |u.acr k - lagSum n k u.D u.D| ≤ ε * energy n u.D := by
    have := u.acr_near k (by simpa using hk)
    rw [Int.natAbs_natCast] at this
    exact this
  obtain ⟨b1, b2⟩ := norm_near hε hε1 pE (hlag k) hc hM1 hM2 (u.ac_near k hk)
  refine ⟨?_, b2⟩
  have b3 := autoc_near (n := n) (k := k) (x := smp D) (y := u.D) pE0 pE hnear
  have ex : R.autoc.getD k 0 = lagSum n k (smp D) (smp D) / energy n (smp D) := by
    rw [(c30_autoc h hD).2 k hk, autocorr_lagSum hD.1, autocorr_lagSum hD.1, lagSum_zero]
    rfl
  rw [ex]
  refine (abs_sub_le _ (lagSum n k u.D u.D / energy n u.D) _).trans ?_
  have h1 : 1 ≤ size n (smp R.rf) / size n (smp D) := by rw [le_div_iff₀ hd0]; linarith
  have h2 : ε * 1 ≤ ε * (size n (smp R.rf) / size n (smp D)) := mul_le_mul_of_nonneg_left h1 hε
  have h3 : 4 * (ε * size n (smp R.rf)) / √(energy n (smp D)) = 4 * (ε * (size n (smp R.rf) / size n (smp D))) := by
    unfold size; ring
  rw [h3] at b3
  linarith

/-- **C133** Every value of the autocorrelation computed with rounding errors is within `8 ε` times the ratio of the
size of the record to the size of the record without its trend of the exact one. -/
theorem c133_autoc (h : Returned R) (u : ResonanceRun ε R.rf R.delta ac r tlag out) (hD : IsDetrended R.rf D)
    (hε : 0 ≤ ε) (hε1 : ε ≤ 1 / 100)
    (hs : ε * size R.rf.length (smp R.rf) < size R.rf.length (smp D)) :
    ac.length = R.autoc.length ∧ ∀ k < R.rf.length, |ac.getD k 0 - R.autoc.getD k 0| ≤
      8 * ε * (size R.rf.length (smp R.rf) / size R.rf.length (smp D)) :=
  ⟨by rw [u.ac_length, (c30_autoc h hD).1], fun k hk => (autoc_run h u hD hε hε1 hs k hk).1⟩

/-- **C133** When the first trough of the exact autocorrelation is clear (steps larger than twice the bound of
`c133_autoc`), rounding does not change the lag that is picked: the reported `tlag` is the exact one up to its own
rounding, the strength is within that bound, and the filtered record is within `ε (16 + 10 L)` times the size of the
record of the exact one, `L` being the lag in samples. -/
theorem c133_filter (h : Returned R) (u : ResonanceRun ε R.rf R.delta ac r tlag out) (hD : IsDetrended R.rf D)
    (hx : NotLinear R.rf) (hε : 0 ≤ ε) (hεn : ε * R.rf.length ≤ 1 / 100) {L : Nat}
    (hc : ClearTrough (2 * (8 * ε * (size R.rf.length (smp R.rf) / size R.rf.length (smp D)))) R.autoc L) :
    R.tlag.val = (L : ℝ) * R.delta ∧ |tlag - R.tlag.val| ≤ ε * |R.tlag.val| ∧
    |r - R.r| ≤ 8 * ε * (size R.rf.length (smp R.rf) / size R.rf.length (smp D)) ∧
    out.length = R.filteredrf.length ∧
    size R.rf.length (fun m => smp out m - smp R.filteredrf m) ≤ ε * (16 + 10 * L) * size R.rf.length (smp R.rf) := by
  obtain ⟨hn, hdel, -⟩ := returned_eq h
  have hal : R.autoc.length = R.rf.length := (c30_autoc h hD).1
  obtain ⟨c1, c2, c3, c4⟩ := hc
  obtain ⟨q0, q1⟩ := c30_autoc_bounds h hx
  have pE := energy_pos hD hx
  rw [autocorr_lagSum hD.1, lagSum_zero] at pE
  set n := R.rf.length with hnd
  have hn1 : (1 : ℝ) ≤ n := by exact_mod_cast hn
  have hε1 : ε ≤ 1 / 100 := by nlinarith
  have hd0 : 0 < size n (smp D) := Real.sqrt_pos.2 pE
  have hS0 := size_nonneg n (smp R.rf)
  set S := size n (smp R.rf) with hS
  set η := 8 * ε * (S / size n (smp D)) with hη
  have hη1 : η < 1 := by
    have h1 : R.autoc.getD 1 0 + 2 * η < R.autoc.getD 0 0 := c3 0 (by omega)
    have h2 := (abs_lt.1 (q1 1 le_rfl (by omega))).1
    rw [q0] at h1
    linarith
  have hs : ε * S < size n (smp D) := by
    have e : η * size n (smp D) = 8 * (ε * S) := by rw [hη]; field_simp
    have h1 : η * size n (smp D) < 1 * size n (smp D) := mul_lt_mul_of_pos_right hη1 hd0
    have h2 : 0 ≤ ε * S := mul_nonneg hε hS0
    linarith
  have hnear := autoc_run h u hD hε hε1 hs
  have f1 : FirstTrough R.autoc L L := by
    have hη0 : 0 ≤ η := by positivity
    exact firstTrough_of c1 c2 (fun k hk => by have := c3 k hk; linarith) (by linarith)
  have f2 : FirstTrough ac L L := by
    have hl := u.ac_length
    refine firstTrough_of c1 (by omega) (fun k hk => ?_) ?_
    · have n1 := abs_le.1 (hnear k (by omega)).1
      have n2 := abs_le.1 (hnear (k + 1) (by omega)).1
      have := c3 k hk
      linarith
    · have n1 := abs_le.1 (hnear L (by omega)).1
      have n2 := abs_le.1 (hnear (L + 1) (by omega)).1
      linarith
  obtain ⟨t1, r1⟩ := tlag_of_trough h f1
  have hLt : R.tlag.val = (L : ℝ) * R.delta := by rw [t1]
  obtain ⟨hr, ht⟩ : r = |ac.getD L 0| ∧ |tlag - L * R.delta| ≤ ε * |L * R.delta| := by
    rcases u.pick with ⟨hno, -, -⟩ | ⟨s, e, M, hf, hM, hr, ht⟩
    · exact absurd f2.1 (hno L L)
    · have es : s = L := le_antisymm (hf.2 L L f2.1) (f2.2 s e hf.1)
      have ee : e = L := by
        have a := hf.1
        rcases Nat.eq_or_lt_of_le a.2.1 with e' | e'
        · omega
        · have b1 := a.2.2.2.1 (s + 1) (by omega) (by omega)
          have b2 := f2.1.2.2.2.2.2
          rw [es] at b1
          linarith
      have : M = L := by omega
      rw [this] at hr ht
      exact ⟨hr, ht⟩
  have hrη : |r - R.r| ≤ η := by
    rw [hr, r1]
    exact (abs_abs_sub_abs_le _ _).trans (hnear L (by omega)).1
  refine ⟨hLt, by rw [hLt]; exact ht, hrη, by rw [u.out_length, filteredrf_length h], ?_⟩
  obtain ⟨R0, R1, -⟩ := c30_ranges h
  have hr0 : 0 ≤ r := by rw [hr]; exact abs_nonneg _
  have hr1 : r ≤ 1.04 := by rw [hr]; exact (hnear L (by omega)).2
  have hLn : (L : ℝ) ≤ n := by exact_mod_cast (by omega : L ≤ n)
  have hpi := Real.pi_pos
  have hpi2 := Real.pi_lt_d2
  have hεL : ε * L ≤ 1 / 100 := (mul_le_mul_of_nonneg_left hLn hε).trans hεn
  have hL0 : (0 : ℝ) ≤ L := Nat.cast_nonneg L
  have hεL0 : 0 ≤ ε * L := mul_nonneg hε hL0
  have key := fun k (hk : k < n) => coeff_near (P := Real.pi * L) hε hε1 hr0 hr1 R0 R1.le hrη (u.w_near k hk) ht
    (by
      have hf := fftFreq_le hn hdel hk
      rw [show 2 * Real.pi * fftFreq R.rf.length R.delta k * (L * R.delta) =
        2 * Real.pi * L * (fftFreq R.rf.length R.delta k * R.delta) by ring, abs_mul, abs_mul (fftFreq _ _ _),
        abs_of_nonneg (by positivity : 0 ≤ 2 * Real.pi * (L : ℝ))]
      have := mul_le_mul_of_nonneg_left hf (by positivity : 0 ≤ 2 * Real.pi * (L : ℝ))
      linarith)
    (by
      have : ε * (Real.pi * L) = Real.pi * (ε * L) := by ring
      rw [this]
      have := mul_le_mul hpi2.le hεL hεL0 (by norm_num)
      linarith)
    (u.flt_near k hk)
  have h1 := u.out_near 2.1 (fun k hk => (key k hk).1)
  have hδ : 0 ≤ η + ε * (3 + 3.09 * (Real.pi * L)) := by positivity
  have h2 := filter_diff hn u.D (smp D) u.flt
    (fun k => 1 + (R.r : ℂ) * Complex.exp (-Complex.I * (2 * Real.pi * fftFreq n R.delta k * (L * R.delta) : ℝ)))
    (by norm_num : (0:ℝ) ≤ 2.1) hδ (fun k hk => (key k hk).1) (fun k hk => (key k hk).2)
  have h3 := size_add n (fun m => out.getD m 0 - (idft n (fun k => dft n (fun j => (u.D j : ℂ)) k * u.flt k) m).re)
    (fun m => (idft n (fun k => dft n (fun j => (u.D j : ℂ)) k * u.flt k) m).re -
      (idft n (fun k => dft n (fun j => (smp D j : ℂ)) k * (1 + (R.r : ℂ) * Complex.exp (-Complex.I * (2 * Real.pi * fftFreq n R.delta k * (L * R.delta) : ℝ)))) m).re)
  have e3 : size n (fun m => smp out m - smp R.filteredrf m) =
      size n (fun m => (out.getD m 0 - (idft n (fun k => dft n (fun j => (u.D j : ℂ)) k * u.flt k) m).re) +
        ((idft n (fun k => dft n (fun j => (u.D j : ℂ)) k * u.flt k) m).re -
      (idft n (fun k => dft n (fun j => (smp D j : ℂ)) k * (1 + (R.r : ℂ) * Complex.exp (-Complex.I * (2 * Real.pi * fftFreq n R.delta k * (L * R.delta) : ℝ)))) m).re)) := by
    apply size_congr
    intro m hm
    have : smp R.filteredrf m = _ := filtered_idft h hD hLt hm
    rw [this]
    unfold smp
    ring
  rw [e3]
  refine h3.trans ?_
  have hDn : size n (fun m => u.D m - smp D m) ≤ ε * S := u.D_near D hD
  have hdS : size n (smp D) ≤ S := size_detrended hD
  have hDs : size n u.D ≤ 1.01 * S := by
    have := size_le n u.D (smp D)
    have : ε * S ≤ 1 / 100 * S := mul_le_mul_of_nonneg_right hε1 hS0
    linarith
  have a1 : ε * (2.1 * size n u.D) ≤ ε * (2.1 * (1.01 * S)) :=
    mul_le_mul_of_nonneg_left (mul_le_mul_of_nonneg_left hDs (by norm_num)) hε
  have a2 : η * size n (smp D) = 8 * (ε * S) := by rw [hη]; field_simp
  have a3 : ε * (3 + 3.09 * (Real.pi * L)) * size n (smp D) ≤ ε * (3 + 3.09 * (3.15 * L)) * S := by
    have : Real.pi * L ≤ 3.15 * L := mul_le_mul_of_nonneg_right hpi2.le hL0
    have : ε * (3 + 3.09 * (Real.pi * L)) ≤ ε * (3 + 3.09 * (3.15 * L)) := mul_le_mul_of_nonneg_left (by linarith) hε
    exact mul_le_mul this hdS hd0.le (by positivity)
  have a4 : (η + ε * (3 + 3.09 * (Real.pi * L))) * size n (smp D) =
      η * size n (smp D) + ε * (3 + 3.09 * (Real.pi * L)) * size n (smp D) := by ring
  have a5 : 0 ≤ ε * S := mul_nonneg hε hS0
  have a6 : 0 ≤ ε * L * S := mul_nonneg hεL0 hS0
  rw [a4, a2] at h2
  have a7 : ε * (16 + 10 * L) * S = 16 * (ε * S) + 10 * (ε * L * S) := by ring
  have a8 : ε * (3 + 3.09 * (3.15 * L)) * S = 3 * (ε * S) + 9.7335 * (ε * L * S) := by ring
  rw [a7]
  rw [a8] at a3
  have a9 := h1.trans a1
  linarith

end

/-- The record `1, -1, -1, 1` sampled at 0.5 s, with a first filtered sample that is off by `ε ≤ 1/400`: a run of
tolerance `ε` that meets the hypotheses of `c133_filter` and is not the exact one. -/
example {ε : ℝ} (h0 : 0 < ε) (h1 : ε ≤ 1 / 400) : ∃ (R : FltResults) (out : List ℝ),
    SynthAnalysis.ResonanceFilt [1, -1, -1, 1] [0, 1/2, 1, 3/2] = .ok R ∧ out ≠ R.filteredrf ∧
    Nonempty (ResonanceRun ε R.rf R.delta R.autoc R.r R.tlag.val out) ∧
    ε * R.rf.length ≤ 1 / 100 ∧
    ClearTrough (2 * (8 * ε * (size R.rf.length (smp R.rf) / size R.rf.length (smp [1, -1, -1, 1])))) R.autoc 2 := by
  obtain ⟨R, hR, hret, hnl, hD, hft, hr, htl, f0, f1, f2, f3⟩ := sample_resonance
  obtain ⟨R0, hR0, hrf, -, -⟩ := c28_succeeds_synth [1, -1, -1, 1] [0, 1/2, 1, 3/2] (by simp) (by simp)
  cases Except.ok.inj (hR0.symm.trans hR)
  have hlen : R.rf.length = 4 := by rw [hrf]; rfl
  have hsz : size 4 (smp [1, -1, -1, 1]) = 2 := by
    have : energy 4 (smp [1, -1, -1, 1]) = 2 ^ 2 := by
      simp [energy, smp, Finset.sum_range_succ]; norm_num
    rw [size, this, Real.sqrt_sq (by norm_num)]
  have hal : R.autoc.length = 4 := by rw [(c30_autoc hret hD).1, hlen]
  have hac : ∀ k < 4, R.autoc.getD k 0 = autocorr [1, -1, -1, 1] k / autocorr [1, -1, -1, 1] 0 := by
    intro k hk; exact (c30_autoc hret hD).2 k (by omega)
  have a0 := hac 0 (by omega); have a1 := hac 1 (by omega)
  have a2 := hac 2 (by omega); have a3 := hac 3 (by omega)
  simp [autocorr, Finset.sum_range_succ] at a0 a1 a2 a3
  norm_num at a0 a1 a2 a3
  refine ⟨R, [1/2 + ε, -1/2, -1/2, 1/2], hR, ?_, ?_, ?_, ?_⟩
  · intro he
    rw [← he] at f0
    simp at f0
    linarith
  · refine c133_inexact_run hret h0.le hD (by rw [hlen]; rfl) ?_
    rw [hlen, hsz]
    have e : energy 4 (fun m => [1/2 + ε, -1/2, -1/2, 1/2].getD m 0 - R.filteredrf.getD m 0) = ε ^ 2 := by
      unfold energy
      simp only [Finset.sum_range_succ, Finset.sum_range_zero, f0, f1, f2, f3]
      simp
    rw [size, e, Real.sqrt_sq h0.le]
    linarith
  · rw [hlen]; push_cast; linarith
  · rw [hlen, hrf, hsz]
    refine ⟨by omega, by omega, fun k hk => ?_, ?_⟩
    · interval_cases k
      · simp [a0, a1]; linarith
      · simp [a1, a2]; linarith
    · simp [a2, a3]; linarith

end Rfsed.Props
