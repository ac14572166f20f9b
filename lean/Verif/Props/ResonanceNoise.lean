import Verif.Props.ResonanceUnits
import Verif.Props.WaveformNoise
import Verif.Props.Noise
import Verif.Proofs.DeconvNoise

/-!
# Property C115: noise in the record and the resonance filter
-/

namespace Rfsed.Props
open Rfsed PyFloat Spec Finset

/-! ## sums of squares -/

theorem sqrt_energy_add (n : Nat) (x y : Nat → ℝ) :
    √(energy n (fun m => x m + y m)) ≤ √(energy n x) + √(energy n y) :=
  Real.sqrt_le_iff.2 ⟨add_nonneg (Real.sqrt_nonneg _) (Real.sqrt_nonneg _), energy_tri n x y⟩

theorem sqrt_energy_mul (n : Nat) (c : ℝ) (x : Nat → ℝ) :
    √(energy n (fun m => c * x m)) = |c| * √(energy n x) := by
  have : energy n (fun m => c * x m) = c ^ 2 * energy n x := by
    unfold energy
    rw [mul_sum]
    exact sum_congr rfl (fun _ _ => by ring)
  rw [this, Real.sqrt_mul (sq_nonneg c), Real.sqrt_sq_eq_abs]

/-- `Σ x[m+k] y[m]` -/
noncomputable def lagSum (n k : Nat) (x y : Nat → ℝ) : ℝ := ∑ m ∈ range (n - k), x (m + k) * y m

theorem abs_lagSum_le (n k : Nat) (x y : Nat → ℝ) : |lagSum n k x y| ≤ √(energy n x) * √(energy n y) := by
  rw [← Real.sqrt_mul (show 0 ≤ energy n x from sum_nonneg (fun _ _ => sq_nonneg _))]
  refine Real.abs_le_sqrt ?_
  refine (sum_mul_sq_le_sq_mul_sq _ _ _).trans ?_
  refine mul_le_mul ?_ ?_ (sum_nonneg (fun _ _ => sq_nonneg _)) (sum_nonneg (fun _ _ => sq_nonneg _))
  · rcases Nat.le_total n k with h | h
    · rw [Nat.sub_eq_zero_of_le h, range_zero, sum_empty]
      exact sum_nonneg (fun _ _ => sq_nonneg _)
    · have e : ∑ m ∈ range (n - k), x (m + k) ^ 2 = ∑ m ∈ Ico k n, x m ^ 2 := by
        rw [sum_Ico_eq_sum_range]
        exact sum_congr rfl (fun m _ => by rw [Nat.add_comm])
      rw [e]
      exact sum_le_sum_of_subset_of_nonneg (fun m hm => mem_range.2 (mem_Ico.1 hm).2) (fun _ _ _ => sq_nonneg _)
  · exact sum_le_sum_of_subset_of_nonneg (fun m hm => mem_range.2 (by have := mem_range.1 hm; omega))
      (fun _ _ _ => sq_nonneg _)

theorem lagSum_left (n k : Nat) (a b : ℝ) (x y z : Nat → ℝ) :
    lagSum n k (fun m => a * x m + b * y m) z = a * lagSum n k x z + b * lagSum n k y z := by
  unfold lagSum
  rw [mul_sum, mul_sum, ← sum_add_distrib]
  exact sum_congr rfl (fun _ _ => by ring)

theorem lagSum_right (n k : Nat) (a b : ℝ) (x y z : Nat → ℝ) :
    lagSum n k z (fun m => a * x m + b * y m) = a * lagSum n k z x + b * lagSum n k z y := by
  unfold lagSum
  rw [mul_sum, mul_sum, ← sum_add_distrib]
  exact sum_congr rfl (fun _ _ => by ring)

theorem lagSum_zero (n : Nat) (x : Nat → ℝ) : lagSum n 0 x x = energy n x := by
  unfold lagSum energy
  exact sum_congr rfl (fun _ _ => by rw [Nat.add_zero, pow_two])

/-- how far the normalised autocorrelation moves -/
theorem autoc_near {n k : Nat} {x y : Nat → ℝ} (hx : 0 < energy n x) (hy : 0 < energy n y) {ν : ℝ}
    (hν : √(energy n (fun m => y m - x m)) ≤ ν) :
    |lagSum n k y y / energy n y - lagSum n k x x / energy n x| ≤ 4 * ν / √(energy n x) := by
  have ps := Real.sqrt_pos.2 hx
  have pt := Real.sqrt_pos.2 hy
  have es := Real.sq_sqrt hx.le
  have et := Real.sq_sqrt hy.le
  have hst : |√(energy n y) - √(energy n x)| ≤ ν := by
    have h1 := sqrt_energy_add n x (fun m => y m - x m)
    have h2 := sqrt_energy_add n y (fun m => (-1) * (y m - x m))
    rw [sqrt_energy_mul n (-1) (fun m => y m - x m)] at h2
    have e1 : (fun m => x m + (y m - x m)) = y := by funext m; ring
    have e2 : (fun m => y m + (-1) * (y m - x m)) = x := by funext m; ring
    rw [e1] at h1
    rw [e2, abs_neg, abs_one, one_mul] at h2
    rw [abs_le]
    constructor <;> linarith
  set s := √(energy n x)
  set t := √(energy n y)
  have hv : √(energy n (fun m => s * y m + (-t) * x m)) ≤ 2 * t * ν := by
    have h1 := sqrt_energy_add n (fun m => (s - t) * y m) (fun m => t * (y m - x m))
    rw [sqrt_energy_mul n (s - t) y, sqrt_energy_mul n t (fun m => y m - x m)] at h1
    have e1 : (fun m => (s - t) * y m + t * (y m - x m)) = fun m => s * y m + (-t) * x m := by
      funext m; ring
    rw [e1, abs_of_pos pt, abs_sub_comm] at h1
    have a1 := mul_le_mul_of_nonneg_right hst pt.le
    have a2 := mul_le_mul_of_nonneg_left hν pt.le
    have h1' : √(energy n (fun m => s * y m + (-t) * x m)) ≤ |t - s| * t + t * √(energy n (fun m => y m - x m)) := h1
    linarith
  have b1 := abs_lagSum_le n k (fun m => s * y m + (-t) * x m) y
  have b2 := abs_lagSum_le n k x (fun m => s * y m + (-t) * x m)
  rw [lagSum_left] at b1
  rw [lagSum_right] at b2
  have hid : lagSum n k y y / energy n y - lagSum n k x x / energy n x =
      (s * lagSum n k y y + (-t) * lagSum n k x y) / (s * t ^ 2) +
      (s * lagSum n k x y + (-t) * lagSum n k x x) / (s ^ 2 * t) := by
    rw [← es, ← et]
    field_simp
    ring
  have c1 : |(s * lagSum n k y y + (-t) * lagSum n k x y) / (s * t ^ 2)| ≤ 2 * ν / s := by
    rw [abs_div, abs_of_pos (by positivity : 0 < s * t ^ 2), div_le_div_iff₀ (by positivity) ps]
    have : |s * lagSum n k y y + (-t) * lagSum n k x y| ≤ 2 * t * ν * t :=
      b1.trans (mul_le_mul_of_nonneg_right hv pt.le)
    nlinarith
  have c2 : |(s * lagSum n k x y + (-t) * lagSum n k x x) / (s ^ 2 * t)| ≤ 2 * ν / s := by
    rw [abs_div, abs_of_pos (by positivity : 0 < s ^ 2 * t), div_le_div_iff₀ (by positivity) ps]
    have : |s * lagSum n k x y + (-t) * lagSum n k x x| ≤ s * (2 * t * ν) :=
      b2.trans (mul_le_mul_of_nonneg_left hv ps.le)
    nlinarith
  rw [hid]
  refine (abs_add_le _ _).trans ((add_le_add c1 c2).trans (le_of_eq ?_))
  ring

/-- removing the trend does not increase the size of the noise -/
theorem detrend_noise {x x' d d' : List ℝ} (hl : x'.length = x.length) (hd : IsDetrended x d)
    (hd' : IsDetrended x' d') :
    energy x.length (fun m => d'.getD m 0 - d.getD m 0) ≤ energy x.length (fun m => x'.getD m 0 - x.getD m 0) := by
  obtain ⟨-, ⟨a1, b1, h1⟩, d0, dd1⟩ := hd
  obtain ⟨-, ⟨a2, b2, h2⟩, e0, ee1⟩ := hd'
  rw [hl] at h2 e0 ee1
  have key : energy x.length (fun m => x'.getD m 0 - x.getD m 0) =
      energy x.length (fun m => d'.getD m 0 - d.getD m 0) +
      (2 * (a2 - a1) * ∑ i ∈ range x.length, (d'.getD i 0 - d.getD i 0) +
       2 * (b2 - b1) * ∑ i ∈ range x.length, ((i : ℝ) * d'.getD i 0 - (i : ℝ) * d.getD i 0)) +
      energy x.length (fun m => (a2 - a1) + (b2 - b1) * (m : ℝ)) := by
    unfold energy
    rw [mul_sum, mul_sum, ← sum_add_distrib, ← sum_add_distrib, ← sum_add_distrib]
    refine sum_congr rfl (fun i hi => ?_)
    have hi := mem_range.1 hi
    have e1 := h1 i hi
    have e2 := h2 i hi
    have : x'.getD i 0 - x.getD i 0 = d'.getD i 0 - d.getD i 0 + ((a2 - a1) + (b2 - b1) * i) := by linarith
    simp only
    rw [this]
    ring
  rw [key, sum_sub_distrib, sum_sub_distrib, d0, e0, dd1, ee1]
  have : 0 ≤ energy x.length (fun m => (a2 - a1) + (b2 - b1) * (m : ℝ)) := sum_nonneg (fun _ _ => sq_nonneg _)
  linarith

theorem autocorr_lagSum {n : Nat} {D : List ℝ} (h : D.length = n) (k : Nat) :
    autocorr D k = lagSum n k (fun m => D.getD m 0) (fun m => D.getD m 0) := by
  subst h; rfl

theorem rms_energy {x y : List ℝ} (h : y.length = x.length) :
    √(energy x.length (fun m => y.getD m 0 - x.getD m 0)) = √(x.length) * rms x y := by
  by_cases hx : x = []
  · subst hx; simp [energy]
  have hl : (x.length : ℝ) ≠ 0 := by
    have := List.length_pos_of_ne_nil hx
    positivity
  rw [rms_sum x y h.symm, ← Real.sqrt_mul (Nat.cast_nonneg _), mul_div_cancel₀ _ hl]
  congr 1
  unfold energy
  rw [Finset.sum_range]
  refine Finset.sum_congr rfl (fun i _ => ?_)
  have e1 : x.getD i 0 = x.get i := by simp
  have e2 : y.getD i 0 = y.get (i.cast h.symm) := by
    rw [List.getD, List.getElem?_eq_getElem (by rw [h]; exact i.2)]
    rfl
  simp only
  rw [e1, e2]
  ring

theorem std_detrended {x D : List ℝ} (hD : IsDetrended x D) :
    √(energy x.length (fun m => D.getD m 0)) = √(x.length) * stdDev D := by
  have hm : mean D = 0 := by
    rw [mean, list_sum_getD, hD.1, hD.2.2.1, zero_div]
  have hs : (D.map (fun a => (a - mean D) ^ 2)).sum = energy x.length (fun m => D.getD m 0) := by
    rw [hm, list_sum_getD, List.length_map, hD.1]
    refine sum_congr rfl (fun i _ => ?_)
    rw [getD_map_zero (fun a : ℝ => (a - 0) ^ 2) (by simp)]
    simp
  by_cases hx : x.length = 0
  · rw [hx]; simp [energy]
  have hl : (x.length : ℝ) ≠ 0 := by exact_mod_cast hx
  rw [stdDev, hs, hD.1, ← Real.sqrt_mul (Nat.cast_nonneg _), mul_div_cancel₀ _ hl]

/-! ## C115 -/

section
variable {R R' : FltResults} {D : List ℝ} {L : Nat}

/-- **C115** Every value of the normalised autocorrelation moves by at most four times the root mean square noise
divided by the standard deviation of the detrended record. -/
theorem c115_autoc (h : Returned R) (h' : Returned R') (hl : R'.rf.length = R.rf.length)
    (hD : IsDetrended R.rf D) (hx : NotLinear R.rf) (hx' : NotLinear R'.rf) :
    ∀ k < R.rf.length, |R'.autoc.getD k 0 - R.autoc.getD k 0| ≤ 4 * rms R.rf R'.rf / stdDev D := by
  obtain ⟨D', hD'⟩ := exists_detrended R'.rf
  have hn := (returned_eq h).1
  have hnr : 0 < √(R.rf.length : ℝ) := Real.sqrt_pos.2 (by exact_mod_cast hn)
  intro k hk
  rw [(c30_autoc h hD).2 k hk, (c30_autoc h' hD').2 k (by omega)]
  have hl' : D'.length = R.rf.length := hD'.1.trans hl
  have p1 := energy_pos hD hx
  have p2 := energy_pos hD' hx'
  rw [autocorr_lagSum hD.1, lagSum_zero] at p1
  rw [autocorr_lagSum hl', lagSum_zero] at p2
  rw [autocorr_lagSum hD.1, autocorr_lagSum hD.1, autocorr_lagSum hl', autocorr_lagSum hl', lagSum_zero,
    lagSum_zero]
  have hν := Real.sqrt_le_sqrt (detrend_noise hl hD hD')
  rw [rms_energy hl] at hν
  refine (autoc_near p1 p2 hν).trans (le_of_eq ?_)
  rw [std_detrended hD]
  have ps : 0 < stdDev D := by
    have := Real.sqrt_pos.2 p1
    rw [std_detrended hD] at this
    exact pos_of_mul_pos_right this hnr.le
  field_simp

/-- a descent to sample `L` followed by a rise makes `L` the first trough -/
theorem firstTrough_of {a : List ℝ} (h1 : 1 ≤ L) (h2 : L + 1 < a.length)
    (hdown : ∀ k < L, a.getD (k + 1) 0 < a.getD k 0) (hup : a.getD L 0 < a.getD (L + 1) 0) :
    FirstTrough a L L := by
  refine ⟨⟨h1, le_rfl, h2, fun j a1 a2 => by rw [le_antisymm a2 a1], ?_, hup⟩, fun s' e' ht => ?_⟩
  · have := hdown (L - 1) (by omega)
    rwa [Nat.sub_add_cancel h1] at this
  · by_contra hlt
    push Not at hlt
    have hd := hdown s' hlt
    rcases Nat.eq_or_lt_of_le ht.2.1 with e | e
    · have := ht.2.2.2.2.2
      rw [← e] at this
      linarith
    · have := ht.2.2.2.1 (s' + 1) (by omega) (by omega)
      linarith

theorem tlag_of_trough (h : Returned R) (hf : FirstTrough R.autoc L L) :
    R.tlag = ⟨.np, (L : ℝ) * R.delta⟩ ∧ R.r = |R.autoc.getD L 0| := by
  obtain ⟨D, hD⟩ := exists_detrended R.rf
  obtain ⟨e1, e2⟩ := c35_first_trough h hf
  obtain ⟨-, -, -, _, -, h3, -⟩ := returned_facts h hD
  have hk : R.tlag.kind = .np := by
    rcases h3 with ⟨_, _, _, hno⟩ | ⟨s, e, -, -, hk, -⟩
    · exact absurd hf.1 (hno L L)
    · exact hk
  refine ⟨?_, e2⟩
  rw [show (L + L) / 2 = L by omega] at e1
  cases ht : R.tlag with
  | mk kd v =>
    rw [ht] at e1 hk
    simp only at e1 hk
    rw [e1, hk]

/-- **C115** When the first trough is clear (steps larger than twice the bound of `c115_autoc`), noise leaves the
reported lag as it is, moves the strength by at most that bound, and moves the filtered receiver function by at most
six times the noise (root mean square). -/
theorem c115_filter (h : Returned R) (h' : Returned R') (hl : R'.rf.length = R.rf.length)
    (hdt : R'.delta = R.delta) (hD : IsDetrended R.rf D) (hx : NotLinear R.rf) (hx' : NotLinear R'.rf)
    (hc : ClearTrough (2 * (4 * rms R.rf R'.rf / stdDev D)) R.autoc L) :
    R'.tlag = R.tlag ∧ R.tlag.val = (L : ℝ) * R.delta ∧ |R'.r - R.r| ≤ 4 * rms R.rf R'.rf / stdDev D ∧
    rms R.filteredrf R'.filteredrf ≤ 6 * rms R.rf R'.rf := by
  have hnear := c115_autoc h h' hl hD hx hx'
  set η := 4 * rms R.rf R'.rf / stdDev D with hη
  have hn := (returned_eq h).1
  have hnr : 0 < √(R.rf.length : ℝ) := Real.sqrt_pos.2 (by exact_mod_cast hn)
  have hη0 : 0 ≤ η := (abs_nonneg _).trans (hnear 0 hn)
  obtain ⟨c1, c2, c3, c4⟩ := hc
  have hal : R.autoc.length = R.rf.length := (c30_autoc h hD).1
  obtain ⟨D', hD'⟩ := exists_detrended R'.rf
  have hal' : R'.autoc.length = R.rf.length := (c30_autoc h' hD').1.trans hl
  have f1 : FirstTrough R.autoc L L := firstTrough_of c1 c2 (fun k hk => by have := c3 k hk; linarith) (by linarith)
  have f2 : FirstTrough R'.autoc L L := by
    refine firstTrough_of c1 (by omega) (fun k hk => ?_) ?_
    · have n1 := abs_le.1 (hnear k (by omega))
      have n2 := abs_le.1 (hnear (k + 1) (by omega))
      have := c3 k hk
      linarith
    · have n1 := abs_le.1 (hnear L (by omega))
      have n2 := abs_le.1 (hnear (L + 1) (by omega))
      linarith
  obtain ⟨t1, r1⟩ := tlag_of_trough h f1
  obtain ⟨t2, r2⟩ := tlag_of_trough h' f2
  have hr : |R'.r - R.r| ≤ η := by
    rw [r1, r2]
    exact (abs_abs_sub_abs_le _ _).trans (hnear L (by omega))
  refine ⟨by rw [t1, t2, hdt], by rw [t1], hr, ?_⟩
  -- the filtered record
  obtain ⟨M, m1, -, m3, m4⟩ := c29_delayed_copy h hD
  obtain ⟨M', m1', -, m3', m4'⟩ := c29_delayed_copy h' hD'
  have hdel := (returned_eq h).2.1
  have eM : M = L := by
    rw [t1] at m1
    exact_mod_cast (mul_right_cancel₀ hdel m1).symm
  have eM' : M' = L := by
    rw [t2, hdt] at m1'
    exact_mod_cast (mul_right_cancel₀ hdel m1').symm
  rw [eM] at m4
  rw [eM'] at m4'
  set n := R.rf.length with hndef
  have hl' : D'.length = n := hD'.1.trans hl
  have hfl : R'.filteredrf.length = R.filteredrf.length := by rw [m3, m3', hl]
  -- noise of the detrended record
  let E : List ℝ := (List.range n).map (fun i : Nat => D'.getD i 0 - D.getD i 0)
  have hEl : E.length = n := by simp [E]
  have hEg : ∀ i, E.getD i 0 = D'.getD i 0 - D.getD i 0 := by
    intro i
    by_cases hi : i < n
    · simp [E, List.getD, hi]
    · have q1 : D'[i]? = none := List.getElem?_eq_none (by omega)
      have q2 : D[i]? = none := List.getElem?_eq_none (by have := hD.1; omega)
      simp [E, List.getD, hi, q1, q2]
  have hEp : ∀ j, periodic E j = periodic D' j - periodic D j := by
    intro j
    unfold periodic
    rw [hEl, hl', hD.1, hEg]
  have sE := sum_periodic E (by rw [hEl]; exact hn) L (fun v => v ^ 2)
  rw [hEl] at sE
  have sD := sum_periodic D (by rw [hD.1]; exact hn) L (fun v => v ^ 2)
  rw [hD.1] at sD
  have hν := Real.sqrt_le_sqrt (detrend_noise hl hD hD')
  rw [rms_energy hl] at hν
  set ν := √(n : ℝ) * rms R.rf R'.rf with hνdef
  have e1 : √(energy n (fun m => E.getD m 0)) ≤ ν := by
    have : (fun m => E.getD m 0) = fun m => D'.getD m 0 - D.getD m 0 := funext hEg
    rw [this]; exact hν
  have e2 : √(energy n (fun m => periodic E ((m : ℤ) - L))) ≤ ν := by
    have : energy n (fun m => periodic E ((m : ℤ) - L)) = energy n (fun m => E.getD m 0) := sE
    rw [this]; exact e1
  have e3 : √(energy n (fun m => periodic D ((m : ℤ) - L))) = √(n : ℝ) * stdDev D := by
    have : energy n (fun m => periodic D ((m : ℤ) - L)) = energy n (fun m => D.getD m 0) := sD
    rw [this, std_detrended hD]
  have hsplit : energy n (fun m => R'.filteredrf.getD m 0 - R.filteredrf.getD m 0) =
      energy n (fun m => (E.getD m 0 + R'.r * periodic E ((m : ℤ) - L)) +
        (R'.r - R.r) * periodic D ((m : ℤ) - L)) := by
    unfold energy
    refine sum_congr rfl (fun m hm => ?_)
    have hm := mem_range.1 hm
    simp only
    rw [m4 m hm, m4' m (by omega), hEg, hEp]
    ring
  have hbig : √(energy n (fun m => R'.filteredrf.getD m 0 - R.filteredrf.getD m 0)) ≤ 6 * ν := by
    rw [hsplit]
    have a1 := sqrt_energy_add n (fun m => E.getD m 0 + R'.r * periodic E ((m : ℤ) - L))
      (fun m => (R'.r - R.r) * periodic D ((m : ℤ) - L))
    have a2 := sqrt_energy_add n (fun m => E.getD m 0) (fun m => R'.r * periodic E ((m : ℤ) - L))
    rw [sqrt_energy_mul n _ (fun m => periodic D ((m : ℤ) - L)), e3] at a1
    rw [sqrt_energy_mul n _ (fun m => periodic E ((m : ℤ) - L))] at a2
    obtain ⟨r0, r1', -⟩ := c30_ranges h'
    rw [abs_of_nonneg r0] at a2
    have ps : 0 < stdDev D := by
      have p1 := energy_pos hD hx
      rw [autocorr_lagSum hD.1, lagSum_zero] at p1
      have := Real.sqrt_pos.2 p1
      rw [std_detrended hD] at this
      exact pos_of_mul_pos_right this hnr.le
    have a3 : |R'.r - R.r| * (√(n : ℝ) * stdDev D) ≤ 4 * ν := by
      refine (mul_le_mul_of_nonneg_right hr (by positivity)).trans (le_of_eq ?_)
      rw [hη, hνdef]
      field_simp
    have a4 : R'.r * √(energy n (fun m => periodic E ((m : ℤ) - L))) ≤ ν := by
      have := mul_le_mul r1'.le e2 (Real.sqrt_nonneg _) zero_le_one
      linarith
    linarith
  have hfin := rms_energy hfl
  rw [m3] at hfin
  rw [hfin, hνdef] at hbig
  have : √(n : ℝ) * rms R.filteredrf R'.filteredrf ≤ √(n : ℝ) * (6 * rms R.rf R'.rf) := by linarith
  exact le_of_mul_le_mul_left this hnr

/-- a sample differs by at most the square root of the number of samples times the root mean square -/
theorem near_of_rms {x y : List ℝ} (h : y.length = x.length) : Near (√(x.length) * rms x y) x y := by
  refine List.forall₂_iff_get.2 ⟨h.symm, fun i h1 h2 => ?_⟩
  rw [← rms_energy h]
  refine Real.abs_le_sqrt ?_
  have e1 : x.getD i 0 = x[i] := getD_of_lt h1
  have e2 : y.getD i 0 = y[i] := getD_of_lt h2
  have := single_le_sum (f := fun m => (y.getD m 0 - x.getD m 0) ^ 2) (fun m _ => sq_nonneg _)
    (mem_range.2 h1)
  simp only [e1, e2] at this
  rw [List.get_eq_getElem, List.get_eq_getElem]
  calc (x[i] - y[i]) ^ 2 = (y[i] - x[i]) ^ 2 := by ring
    _ ≤ _ := this

/-- **C115** Filtering followed by the modified H-k stacking: noise in the record leaves the sediment thickness as
it is when the trough is clear, every stack value moves by at most `(|w1| + |w2| + |w3|) · 6 √n` times the root mean
square noise, and the best model is the same if it leads by more than twice that. -/
theorem c115_pipeline (h : Returned R) (h' : Returned R') (hl : R'.rf.length = R.rf.length)
    (hdt : R'.delta = R.delta) (ht : R'.time = R.time) (hD : IsDetrended R.rf D) (hx : NotLinear R.rf)
    (hx' : NotLinear R'.rf) (hc : ClearTrough (2 * (4 * rms R.rf R'.rf / stdDev D)) R.autoc L)
    {env env' : Env ℝ} {rp : Scalar ℝ} {H K : List ℝ} {VpMoho VpSed VsSed : Option (Scalar ℝ)}
    {w1 w2 w3 e : ℝ} {r r' : HkYu.YuResult ℝ} (he : e = √(R.rf.length) * (6 * rms R.rf R'.rf))
    (hr : HkYu.hkYu env R.toYu rp H K VpMoho VpSed VsSed (some w1) (some w2) (some w3) = .ok r)
    (hr' : HkYu.hkYu env' R'.toYu rp H K VpMoho VpSed VsSed (some w1) (some w2) (some w3) = .ok r') :
    r'.SedThick = r.SedThick ∧
    NearTable ((|w1| + |w2| + |w3|) * e) r.stackvaluesSubSed r'.stackvaluesSubSed ∧
    (Margin (2 * ((|w1| + |w2| + |w3|) * e)) r.stackvaluesSubSed r.bestIdx → r'.bestIdx = r.bestIdx) := by
  obtain ⟨t1, -, -, t4⟩ := c115_filter h h' hl hdt hD hx hx' hc
  have hf : R.filteredrf.length = R.rf.length := filteredrf_length h
  have hn : Near e R.filteredrf R'.filteredrf := by
    have := near_of_rms (x := R.filteredrf) (y := R'.filteredrf) (by rw [hf, filteredrf_length h', hl])
    rw [hf] at this
    refine this.imp (fun a b hab => hab.trans ?_)
    rw [he]
    exact mul_le_mul_of_nonneg_left t4 (Real.sqrt_nonneg _)
  refine ⟨?_, c95_hkYu (flt := R.toYu) (flt' := R'.toYu) hn ht t1 hr hr'⟩
  obtain ⟨vs, a, b, bmod, f⟩ := hkYu_inv hr
  obtain ⟨vs', a', b', bmod', f'⟩ := hkYu_inv hr'
  have e0 : vs' = vs := Option.some.inj (f'.hvs.symm.trans f.hvs)
  have e1 : R'.toYu.tlag = R.toYu.tlag := t1
  rw [f'.hSed, f.hSed, e0, e1]

end

/-! ## a concrete case -/

/-- The record `1, -1, -1, 1` and the same with the last sample raised by `1/100`: the trough at lag 2 is clear
enough, both give a lag of 1 s and filtered records that differ by at most `6/200` (root mean square). -/
example : ∃ R R', SynthAnalysis.ResonanceFilt [1, -1, -1, 1] [0, 1/2, 1, 3/2] = .ok R ∧
    SynthAnalysis.ResonanceFilt [1, -1, -1, 101/100] [0, 1/2, 1, 3/2] = .ok R' ∧
    R'.tlag.val = 1 ∧ |R'.r - 1/2| ≤ 1/50 ∧ rms R.filteredrf R'.filteredrf ≤ 3/100 := by
  obtain ⟨R, hR, hret, hnl, hD, hft, hr, htl, -⟩ := sample_resonance
  obtain ⟨R', hR', hrf', ht', hdel'⟩ := c28_succeeds_synth [1, -1, -1, 101/100] [0, 1/2, 1, 3/2] (by simp) (by simp)
  obtain ⟨R0, hR0, hrf, ht, hdel⟩ := c28_succeeds_synth [1, -1, -1, 1] [0, 1/2, 1, 3/2] (by simp) (by simp)
  cases Except.ok.inj (hR0.symm.trans hR)
  have hd' : R'.delta = 1 / 2 := by rw [hdel']; norm_num
  have hret' : Returned R' := Or.inr ⟨_, _, hR', by rw [hd']; norm_num⟩
  have hnl' : NotLinear R'.rf := by
    rw [hrf']
    rintro ⟨a, b, h⟩
    have h0 := h 0 (by simp); have h1 := h 1 (by simp)
    have h2 := h 2 (by simp)
    norm_num at h0 h1 h2
    linarith
  have hε : rms R.rf R'.rf = 1/200 := by
    rw [hrf, hrf', rms]
    have : (List.zipWith (fun a b : ℝ => (a - b) ^ 2) [1, -1, -1, 1] [1, -1, -1, 101/100]).sum /
        (([1, -1, -1, 1] : List ℝ).length : ℝ) = (1/200) ^ 2 := by norm_num
    rw [this, Real.sqrt_sq (by norm_num)]
  have hσ : stdDev [1, -1, -1, 1] = 1 := by
    rw [stdDev]
    simp [mean]
    norm_num
  have hlen : R.rf.length = 4 := by rw [hrf]; rfl
  have hac : ∀ k < 4, R.autoc.getD k 0 = autocorr [1, -1, -1, 1] k / autocorr [1, -1, -1, 1] 0 := by
    intro k hk; exact (c30_autoc hret hD).2 k (by omega)
  have a0 := hac 0 (by omega); have a1 := hac 1 (by omega)
  have a2 := hac 2 (by omega); have a3 := hac 3 (by omega)
  simp [autocorr, Finset.sum_range_succ] at a0 a1 a2 a3
  norm_num at a0 a1 a2 a3
  obtain ⟨t1, -, t3, t4⟩ := c115_filter (L := 2) hret hret' (by rw [hrf, hrf']; rfl) (by rw [hd', hdel]; norm_num)
    hD hnl hnl' (by
      rw [hε, hσ]
      refine ⟨by omega, by rw [(c30_autoc hret hD).1]; omega, fun k hk => ?_, ?_⟩
      · have : k = 0 ∨ k = 1 := by omega
        rcases this with rfl | rfl <;> simp only [List.getD_eq_getElem?_getD, Nat.zero_add, Nat.reduceAdd] at * <;>
          simp only [a0, a1, a2] <;> norm_num
      · simp only [List.getD_eq_getElem?_getD, Nat.reduceAdd] at *
        simp only [a2, a3]; norm_num)
  rw [hε, hσ] at t3
  rw [hε] at t4
  refine ⟨R, R', hR, hR', by rw [t1, htl], ?_, by linarith⟩
  rw [hr] at t3
  linarith

end Rfsed.Props
