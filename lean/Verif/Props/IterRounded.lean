import Verif.Proofs.IterRounded2
import Verif.Props.Deconv

/-!
# C132: rounding errors of the iterative deconvolution
-/

namespace Rfsed.Props
open Rfsed Synrf Spec Finset

section
variable {ε : ℝ} {uin win : List ℝ} {dt a : ℝ} {itmax : Nat} {minderr : ℝ} {phase : String} {n k : Nat}
  {P : Nat → List ℝ} {rms : Nat → ℝ}

theorem filterLoss_eq (n : Nat) (dt a : ℝ) (x : List ℝ) :
    filterLoss n dt a x = size n (smp x) ^ 2 / energy n (lowpass n dt a x) := by
  rw [size_sq]; rfl

theorem filterLoss_ge (hn : 0 < n) {x : List ℝ} (h : 0 < energy n (lowpass n dt a x)) : 1 ≤ filterLoss n dt a x := by
  unfold filterLoss
  rw [le_div_iff₀ h, one_mul]
  exact gauss_energy hn dt a (smp x)

theorem train_length (r : IterRun ε uin win dt a itmax minderr phase n k P rms) : ∀ j ≤ k, (P j).length = n := by
  intro j
  induction j with
  | zero => intro _; rw [r.p_start, List.length_replicate]
  | succ j ih => intro h; rw [r.spike j (by omega), List.length_set]; exact ih (by omega)

/-- the computed residual of pass `j` is that of the spike train, up to rounding -/
theorem residual_run (r : IterRun ε uin win dt a itmax minderr phase n k P rms) (hn : 0 < n) (hε : 0 ≤ ε)
    (hε1 : ε ≤ 1 / 100) {j : Nat} (hj : j ≤ k) :
    size n (fun m => r.r j m - (lowpass n dt a uin m - dt * cconv n (smp (P j)) (lowpass n dt a win) m)) ≤
        2.1 * ε * magnitude n uin win dt (P j) ∧
      size n (fun m => lowpass n dt a uin m - dt * cconv n (smp (P j)) (lowpass n dt a win) m) ≤
        magnitude n uin win dt (P j) := by
  have hu := size_lowpass hn dt a uin
  have hq : ∀ p : List ℝ, size n (fun m => dt * cconv n (smp p) (lowpass n dt a win) m) ≤
      |dt| * (∑ m ∈ range n, |smp win m|) * size n (smp p) := by
    intro p
    rw [size_mul, mul_assoc]
    exact mul_le_mul_of_nonneg_left (size_predicted hn dt a win (smp p)) (abs_nonneg _)
  cases j with
  | zero =>
    have hz : ∀ m, cconv n (smp (P 0)) (lowpass n dt a win) m = 0 := by
      intro m
      rw [r.p_start]
      unfold cconv
      apply sum_eq_zero
      intro i _
      simp [smp, List.getElem?_replicate]
      left; split <;> rfl
    have hm : 0 ≤ |dt| * (∑ m ∈ range n, |smp win m|) * size n (smp (P 0)) :=
      mul_nonneg (mul_nonneg (abs_nonneg _) (sum_nonneg fun _ _ => abs_nonneg _)) (size_nonneg _ _)
    simp only [hz, mul_zero, sub_zero]
    unfold magnitude
    constructor
    · rw [size_congr (y := fun m => r.u_flt m - lowpass n dt a uin m) (fun m hm => by rw [r.r_start m hm])]
      refine r.u_near.trans ?_
      have h1 := size_nonneg n (smp uin)
      have h2 : 0 ≤ ε * size n (smp uin) := mul_nonneg hε h1
      have h3 := mul_nonneg hε hm
      nlinarith
    · linarith
  | succ j =>
    exact residual_near hε hε1 hu (hq _) r.u_near (r.p_near j (by omega)) (r.r_near j (by omega))

/-- **C132** the misfits that are returned are those of the spike train, up to rounding: the errors of the passes do not
add up -/
theorem c132_misfits (r : IterRun ε uin win dt a itmax minderr phase n k P rms) (hn : 0 < n) (hε : 0 ≤ ε)
    (hε1 : ε ≤ 1 / 100) (hU : 0 < energy n (lowpass n dt a uin)) (hκ : ε * filterLoss n dt a uin ≤ 1 / 400)
    {j : Nat} (hj : j < k) :
    |rms j - misfit n dt (lowpass n dt a uin) (lowpass n dt a win) (smp (P (j + 1)))| ≤
        9 * ε * filterLoss n dt a uin * magnitude n uin win dt (P (j + 1)) ^ 2 / energy n (lowpass n dt a uin) ∧
      0 ≤ rms j := by
  obtain ⟨h1, h2⟩ := residual_run r hn hε hε1 (j := j + 1) hj
  obtain ⟨h3, _⟩ := power_near hε hε1 (size_lowpass hn dt a uin) r.u_near r.powerU_near
  set K := magnitude n uin win dt (P (j + 1)) with hK
  set ρ := fun m => lowpass n dt a uin m - dt * cconv n (smp (P (j + 1))) (lowpass n dt a win) m with hρ
  have hK0 : 0 ≤ K := (size_nonneg n ρ).trans h2
  have hrb : size n (r.r (j + 1)) ≤ 1.03 * K := by
    have := size_le n (r.r (j + 1)) ρ
    nlinarith
  have hd : |energy n (r.r (j + 1)) - energy n ρ| ≤ 4.3 * ε * K ^ 2 := by
    refine (energy_diff n _ _).trans ?_
    have a1 : size n (fun m => r.r (j + 1) m - ρ m) * (size n (r.r (j + 1)) + size n ρ) ≤ 2.1 * ε * K * (2.03 * K) :=
      mul_le_mul h1 (by linarith) (add_nonneg (size_nonneg _ _) (size_nonneg _ _)) (by positivity)
    have : 0 ≤ ε * K ^ 2 := by positivity
    nlinarith
  have he : energy n ρ ≤ K ^ 2 := by
    rw [← size_sq]; exact pow_le_pow_left₀ (size_nonneg _ _) h2 2
  have hα : size n (smp uin) ^ 2 = filterLoss n dt a uin * energy n (lowpass n dt a uin) := by
    rw [filterLoss_eq]; field_simp
  rw [hα] at h3
  have := quotient_near hε hε1 hU (energy_nonneg n ρ) (energy_nonneg n _) he hd (filterLoss_ge hn hU) hκ
    (by rw [mul_assoc (3.1 * ε)]; exact h3) (r.rms_near j hj)
  exact ⟨this.1, this.2.2⟩

set_option maxHeartbeats 1000000 in
/-- energies around a pass -/
theorem pass_run (r : IterRun ε uin win dt a itmax minderr phase n k P rms) (hn : 0 < n) (hε : 0 ≤ ε)
    (hε1 : ε ≤ 1 / 100) (hdt : dt ≠ 0) (hW : 0 < energy n (lowpass n dt a win)) (hκ : ε * filterLoss n dt a win ≤ 1 / 400)
    {j : Nat} (hj : j < k) :
    let E := fun p : List ℝ => energy n (fun m => lowpass n dt a uin m - dt * cconv n (smp p) (lowpass n dt a win) m)
    let K := magnitude n uin win dt (P j)
    let κ := filterLoss n dt a win
    E (P (j + 1)) ≤ E (P j) + 100 * ε ^ 2 * κ ^ 3 * K ^ 2 ∧
      ∀ i v, Lag n phase i → E (P (j + 1)) ≤ E ((P j).set i v) + 41 * ε * κ ^ 2 * K ^ 2 := by
  intro E K κ
  obtain ⟨h1, h2⟩ := residual_run r hn hε hε1 (j := j) hj.le
  obtain ⟨h3, h4⟩ := power_near hε hε1 (size_lowpass hn dt a win) r.w_near r.powerW_near
  set w := lowpass n dt a win with hw
  set S := energy n w with hS
  set β := size n (smp win) with hβ
  set ρ := fun m => lowpass n dt a uin m - dt * cconv n (smp (P j)) w m with hρ
  have hK0 : 0 ≤ K := (size_nonneg n ρ).trans h2
  have hβ0 : 0 ≤ β := size_nonneg _ _
  have hκe : κ = β ^ 2 / S := filterLoss_eq n dt a win
  have hκ1 : 1 ≤ κ := filterLoss_ge hn hW
  have hβS : β ^ 2 = κ * S := by rw [hκe]; field_simp
  have hlen := train_length r j hj.le
  set c := fun i : Nat => (∑ m ∈ range n, w m * ρ (cyc n (i + m))) / S with hc
  have hcorr : ∀ i < n, |r.rw j i - c i| ≤ 7.4 * ε * κ * (K * β / S) ∧ |c i| ≤ K * β / S := by
    intro i hi
    rw [hκe]
    exact corr_near hn hε hε1 hS hW (size_lowpass hn dt a win) r.w_near h4 h2 h1 h3 (by rw [← hκe]; exact hκ)
      (r.rw_near j hj i hi)
  have hcT : ∀ i : Nat, |c i| ≤ K / √S := by
    intro i
    have a1 := corr_size hn ρ w i
    have a2 : size n ρ * size n w ≤ K * √S := mul_le_mul_of_nonneg_right h2 (Real.sqrt_nonneg _)
    show |_ / S| ≤ _
    rw [abs_div, abs_of_pos hW, div_le_div_iff₀ hW (Real.sqrt_pos.2 hW)]
    calc _ ≤ K * √S * √S := mul_le_mul_of_nonneg_right (a1.trans a2) (Real.sqrt_nonneg _)
      _ = K * S := by rw [mul_assoc, Real.mul_self_sqrt hW.le]
  have hE : ∀ i t : ℝ, ∀ l : Nat, l < n → i = smp (P j) l + t → E ((P j).set l i) =
      energy n ρ - c l ^ 2 * S + (dt * t - c l) ^ 2 * S := by
    intro i t l hl hi
    rw [← spike_energy hn ρ w l (dt * t) hW.ne']
    apply energy_congr
    intro m hm
    rw [hi, cconv_spike hl hlen t w m]
    simp only [hρ]
    ring
  have hE0 : E (P j) = energy n ρ := rfl
  obtain ⟨hlag, hmax⟩ := r.i1_max j hj
  set l := r.i1 j with hl
  set T := K * β / S with hT
  have hT0 : 0 ≤ T := by positivity
  have hεκ : ε ≤ ε * κ := le_mul_of_one_le_right hε hκ1
  obtain ⟨hx1, hx2⟩ := hcorr l hlag.1
  -- the amplitude that was added
  set t := r.v j - smp (P j) l with ht
  have hPl : |dt| * |smp (P j) l| ≤ T := by
    set B := ∑ m ∈ range n, |smp win m| with hB
    have hβB : β ≤ B := size_le_sum n (smp win)
    have hSβ : S ≤ β ^ 2 := by rw [hβS]; exact le_mul_of_one_le_left hW.le hκ1
    have hβp : 0 < β := by
      rcases hβ0.lt_or_eq with h | h
      · exact h
      · rw [← h] at hSβ; norm_num at hSβ; linarith
    have a1 : |smp (P j) l| ≤ size n (smp (P j)) := abs_le_size _ hlag.1
    have a2 : |dt| * B * size n (smp (P j)) ≤ K := by
      show _ ≤ size n (smp uin) + |dt| * B * size n (smp (P j))
      linarith [size_nonneg n (smp uin)]
    have a3 : |dt| * |smp (P j) l| * β ≤ K := by
      have : |dt| * |smp (P j) l| * β ≤ |dt| * B * size n (smp (P j)) := by
        calc |dt| * |smp (P j) l| * β ≤ |dt| * size n (smp (P j)) * B := by
              apply mul_le_mul (mul_le_mul_of_nonneg_left a1 (abs_nonneg _)) hβB hβ0
              exact mul_nonneg (abs_nonneg _) (size_nonneg _ _)
          _ = _ := by ring
      linarith
    rw [hT, le_div_iff₀ hW]
    calc |dt| * |smp (P j) l| * S ≤ |dt| * |smp (P j) l| * β ^ 2 :=
          mul_le_mul_of_nonneg_left hSβ (by positivity)
      _ = |dt| * |smp (P j) l| * β * β := by ring
      _ ≤ K * β := mul_le_mul_of_nonneg_right a3 hβ0
  have hxb : |r.rw j l| ≤ 1.02 * T := by
    have b1 := abs_sub_abs_le_abs_sub (r.rw j l) (c l)
    have b2 : 7.4 * ε * κ * T ≤ 7.4 * (1 / 400) * T := by
      apply mul_le_mul_of_nonneg_right _ hT0
      have : ε * κ ≤ 1 / 400 := hκ
      linarith
    linarith
  have htx : |dt * t - r.rw j l| ≤ 2.02 * (ε * T) := by
    have b1 := r.v_near j hj
    have b2 : dt * t - r.rw j l = dt * (r.v j - (smp (P j) l + r.rw j l / dt)) := by
      rw [ht]; field_simp; ring
    rw [b2, abs_mul]
    calc |dt| * |r.v j - (smp (P j) l + r.rw j l / dt)| ≤ |dt| * (ε * (|smp (P j) l| + |r.rw j l / dt|)) :=
          mul_le_mul_of_nonneg_left b1 (abs_nonneg _)
      _ = ε * (|dt| * |smp (P j) l| + |r.rw j l|) := by
          have : |dt| ≠ 0 := abs_ne_zero.2 hdt
          rw [abs_div]; field_simp
      _ ≤ ε * (T + 1.02 * T) := mul_le_mul_of_nonneg_left (by linarith) hε
      _ = _ := by ring
  have htc : |dt * t - c l| ≤ 10 * (ε * κ * T) := by
    have b1 := abs_sub_le (dt * t) (r.rw j l) (c l)
    have b2 : ε * T ≤ ε * κ * T := mul_le_mul_of_nonneg_right hεκ hT0
    have b3 : 0 ≤ ε * T := by positivity
    linarith
  have hEn : E (P (j + 1)) = energy n ρ - c l ^ 2 * S + (dt * t - c l) ^ 2 * S := by
    rw [r.spike j hj]
    exact hE _ t l hlag.1 (by rw [ht]; ring)
  have hδS : (10 * (ε * κ * T)) ^ 2 * S = 100 * ε ^ 2 * κ ^ 3 * K ^ 2 := by
    rw [hT]
    have : (10 * (ε * κ * (K * β / S))) ^ 2 * S = 100 * ε ^ 2 * κ ^ 2 * K ^ 2 * (β ^ 2 / S) := by field_simp; ring
    rw [this, ← hκe]; ring
  have hδ0 : 0 ≤ 10 * (ε * κ * T) := by positivity
  constructor
  · have := (pass_energy (E := energy n ρ) (c := c l) (xc := r.rw j l) hW hx1 hx1 le_rfl htc hδ0 (hcT l)).1
    rw [hδS] at this
    rw [hEn, hE0]
    exact this
  · intro i v hi
    obtain ⟨hy1, _⟩ := hcorr i hi.1
    have := (pass_energy (E := energy n ρ) hW hy1 hx1 (hmax i hi) htc hδ0 (hcT i)).2
    rw [hE v (v - smp (P j) i) i hi.1 (by ring), hEn]
    refine this.trans ?_
    rw [add_mul, hδS]
    have e1 : 0 ≤ (dt * (v - smp (P j) i) - c i) ^ 2 * S := by positivity
    have e2 : 4 * (7.4 * ε * κ * T) * (K / √S) * S ≤ 29.6 * (ε * κ ^ 2 * K ^ 2) := by
      have f1 : β ≤ κ * √S := by
        have : β ^ 2 ≤ (κ * √S) ^ 2 := by
          rw [mul_pow, Real.sq_sqrt hW.le, hβS]
          have : 0 ≤ κ * S := by positivity
          nlinarith
        exact (sq_le_sq₀ hβ0 (by positivity)).1 this
      have f2 : 4 * (7.4 * ε * κ * T) * (K / √S) * S = 29.6 * (ε * κ * K ^ 2) * (β / √S) := by
        rw [hT]; field_simp; ring
      rw [f2]
      have f3 : β / √S ≤ κ := by rw [div_le_iff₀ (Real.sqrt_pos.2 hW)]; exact f1
      calc 29.6 * (ε * κ * K ^ 2) * (β / √S) ≤ 29.6 * (ε * κ * K ^ 2) * κ :=
            mul_le_mul_of_nonneg_left f3 (by positivity)
        _ = _ := by ring
    have e3 : 100 * ε ^ 2 * κ ^ 3 * K ^ 2 ≤ 0.25 * (ε * κ ^ 2 * K ^ 2) := by
      have g1 : 100 * ε ^ 2 * κ ^ 3 * K ^ 2 = 100 * (ε * κ) * (ε * κ ^ 2 * K ^ 2) := by ring
      rw [g1]
      apply mul_le_mul_of_nonneg_right _ (by positivity)
      have : ε * κ ≤ 1 / 400 := hκ
      linarith
    have e4 : 41 * ε * κ ^ 2 * K ^ 2 = 41 * (ε * κ ^ 2 * K ^ 2) := by ring
    rw [e4]
    have e5 : 0 ≤ ε * κ ^ 2 * K ^ 2 := by positivity
    linarith only [e1, e2, e3, e5]

/-- **C132** a pass makes the misfit worse by at most a term of second order in `ε` … -/
theorem c132_no_worse (r : IterRun ε uin win dt a itmax minderr phase n k P rms) (hn : 0 < n) (hε : 0 ≤ ε)
    (hε1 : ε ≤ 1 / 100) (hdt : dt ≠ 0) (hU : 0 < energy n (lowpass n dt a uin)) (hW : 0 < energy n (lowpass n dt a win))
    (hκ : ε * filterLoss n dt a win ≤ 1 / 400) {j : Nat} (hj : j < k) :
    misfit n dt (lowpass n dt a uin) (lowpass n dt a win) (smp (P (j + 1))) ≤
      misfit n dt (lowpass n dt a uin) (lowpass n dt a win) (smp (P j)) +
        100 * ε ^ 2 * filterLoss n dt a win ^ 3 * magnitude n uin win dt (P j) ^ 2 / energy n (lowpass n dt a uin) := by
  have h := (pass_run r hn hε hε1 hdt hW hκ hj).1
  unfold misfit
  rw [← add_div]
  exact div_le_div_of_nonneg_right h hU.le

/-- **C132** … and adds the best single spike up to a term of first order -/
theorem c132_best_spike (r : IterRun ε uin win dt a itmax minderr phase n k P rms) (hn : 0 < n) (hε : 0 ≤ ε)
    (hε1 : ε ≤ 1 / 100) (hdt : dt ≠ 0) (hU : 0 < energy n (lowpass n dt a uin)) (hW : 0 < energy n (lowpass n dt a win))
    (hκ : ε * filterLoss n dt a win ≤ 1 / 400) {j : Nat} (hj : j < k) {i : Nat} (hi : Lag n phase i) (v : ℝ) :
    misfit n dt (lowpass n dt a uin) (lowpass n dt a win) (smp (P (j + 1))) ≤
      misfit n dt (lowpass n dt a uin) (lowpass n dt a win) (smp ((P j).set i v)) +
        41 * ε * filterLoss n dt a win ^ 2 * magnitude n uin win dt (P j) ^ 2 / energy n (lowpass n dt a uin) := by
  have h := (pass_run r hn hε hε1 hdt hW hκ hj).2 i v hi
  unfold misfit
  rw [← add_div]
  exact div_le_div_of_nonneg_right h hU.le

theorem misfit_first (r : IterRun ε uin win dt a itmax minderr phase n k P rms)
    (hU : 0 < energy n (lowpass n dt a uin)) :
    misfit n dt (lowpass n dt a uin) (lowpass n dt a win) (smp (P 0)) = 1 := by
  rw [r.p_start]; exact misfit_start hU.ne'

/-- **C132** the number of passes is bounded as in exact arithmetic, when the precision is good enough for the requested
`minderr` -/
theorem c132_passes (r : IterRun ε uin win dt a itmax minderr phase n k P rms) (hn : 0 < n) (hε : 0 ≤ ε)
    (hε1 : ε ≤ 1 / 100) (hdt : dt ≠ 0) (hU : 0 < energy n (lowpass n dt a uin)) (hW : 0 < energy n (lowpass n dt a win))
    (hκu : ε * filterLoss n dt a uin ≤ 1 / 400) (hκ : ε * filterLoss n dt a win ≤ 1 / 400) (hm : 0 < minderr) {K : ℝ}
    (hK : ∀ j ≤ k, magnitude n uin win dt (P j) ≤ K)
    (hprec : (18 * ε * filterLoss n dt a uin + 100 * ε ^ 2 * filterLoss n dt a win ^ 3) * K ^ 2
      / energy n (lowpass n dt a uin) ≤ minderr / 102) :
    (k : ℝ) ≤ (1 + ε) * 100 / minderr + 1 := by
  have hmag : ∀ j, 0 ≤ magnitude n uin win dt (P j) := fun j => by
    unfold magnitude
    exact add_nonneg (size_nonneg _ _) (mul_nonneg (mul_nonneg (abs_nonneg _) (sum_nonneg fun _ _ => abs_nonneg _)) (size_nonneg _ _))
  set E := energy n (lowpass n dt a uin) with hE
  set κu := filterLoss n dt a uin with hκud
  set κ := filterLoss n dt a win with hκd
  have hκu0 : 0 ≤ κu := zero_le_one.trans (filterLoss_ge hn hU)
  have hκ0 : 0 ≤ κ := zero_le_one.trans (filterLoss_ge hn hW)
  have hsq : ∀ j ≤ k, magnitude n uin win dt (P j) ^ 2 ≤ K ^ 2 := fun j hj => pow_le_pow_left₀ (hmag j) (hK j hj) 2
  set mf := fun j => misfit n dt (lowpass n dt a uin) (lowpass n dt a win) (smp (P j)) with hmf
  set e1 := 9 * ε * κu * K ^ 2 / E with he1
  set e2 := 100 * ε ^ 2 * κ ^ 3 * K ^ 2 / E with he2
  have hprec' : 2 * e1 + e2 ≤ minderr / 102 := by
    refine le_trans (le_of_eq ?_) hprec
    rw [he1, he2]; ring
  -- the values before pass j
  set s := fun j => if j = 0 then (1 : ℝ) else rms (j - 1) with hs
  have he10 : 0 ≤ e1 := by positivity
  have hmis : ∀ j < k, |rms j - mf (j + 1)| ≤ e1 ∧ 0 ≤ rms j := by
    intro j hj
    obtain ⟨h1, h2⟩ := c132_misfits r hn hε hε1 hU hκu hj
    refine ⟨h1.trans ?_, h2⟩
    apply div_le_div_of_nonneg_right _ hU.le
    exact mul_le_mul_of_nonneg_left (hsq _ hj) (by positivity)
  have hs1 : ∀ j ≤ k, |s j - mf j| ≤ e1 ∧ 0 ≤ s j := by
    intro j hj
    cases j with
    | zero =>
      have : mf 0 = 1 := misfit_first r hU
      simp only [hs, if_true, this, sub_self, abs_zero]
      exact ⟨he10, zero_le_one⟩
    | succ j => simpa [hs] using hmis j hj
  have hstep : ∀ j < k, s (j + 1) ≤ s j + minderr / 102 := by
    intro j hj
    have a1 := (abs_le.1 (hs1 (j + 1) hj).1).2
    have a2 := (abs_le.1 (hs1 j hj.le).1).1
    have a3 := c132_no_worse r hn hε hε1 hdt hU hW hκ hj
    have a4 : 100 * ε ^ 2 * κ ^ 3 * magnitude n uin win dt (P j) ^ 2 / E ≤ e2 := by
      apply div_le_div_of_nonneg_right _ hU.le
      exact mul_le_mul_of_nonneg_left (hsq _ hj.le) (by positivity)
    have a5 : mf (j + 1) ≤ mf j + e2 := a3.trans (by linarith)
    linarith
  have hdrop : ∀ j, j + 1 < k → minderr / (100 * (1 + ε)) < s j - s (j + 1) := by
    intro j hj
    have b1 := r.go (j + 1) hj
    have b2 := r.d_near j (by omega)
    have b3 : (if j = 0 then (1 : ℝ) else rms (j - 1)) - rms j = s j - s (j + 1) := by simp [hs]
    rw [b3] at b2
    set x := s j - s (j + 1) with hx
    have b4 : |r.d_error (j + 1)| ≤ (1 + ε) * (100 * |x|) := by
      have c1 := abs_sub_abs_le_abs_sub (r.d_error (j + 1)) (100 * x)
      have c2 : |100 * x| = 100 * |x| := by rw [abs_mul]; norm_num
      rw [c2] at c1 b2
      linarith
    have b5 : minderr / (100 * (1 + ε)) < |x| := by
      rw [div_lt_iff₀ (by linarith)]
      nlinarith
    have b6 : minderr / 102 < |x| := by
      refine lt_of_le_of_lt ?_ b5
      apply div_le_div_of_nonneg_left hm.le (by linarith) (by linarith)
    have b7 := hstep j (by omega)
    have b8 : 0 ≤ x := by
      by_contra h
      push Not at h
      rw [abs_of_neg h] at b6
      linarith
    rwa [abs_of_nonneg b8] at b5
  have hall : ∀ j, j + 1 ≤ k → s j ≤ 1 - j * (minderr / (100 * (1 + ε))) := by
    intro j
    induction j with
    | zero => intro _; simp [hs]
    | succ j ih =>
      intro h
      have a1 := ih (by omega)
      have a2 := hdrop j (by omega)
      push_cast
      linarith
  rcases Nat.eq_zero_or_pos k with h0 | h0
  · rw [h0]
    have : 0 ≤ (1 + ε) * 100 / minderr := by positivity
    push_cast
    linarith
  · have a1 := hall (k - 1) (by omega)
    have a2 := (hs1 (k - 1) (by omega)).2
    have a3 : ((k - 1 : ℕ) : ℝ) = (k : ℝ) - 1 := by
      rw [Nat.cast_sub (by omega)]; simp
    rw [a3] at a1
    have a4 : ((k : ℝ) - 1) * (minderr / (100 * (1 + ε))) ≤ 1 := by linarith
    have a5 : (k : ℝ) - 1 ≤ (1 + ε) * 100 / minderr := by
      rw [le_div_iff₀ hm]
      rw [← mul_div_assoc, div_le_one (by linarith)] at a4
      linarith
    linarith

/-- the best spike is at the lag of the largest correlation, which is its amplitude -/
theorem bestSpike_corr {u w : Nat → ℝ} {p p' : List ℝ} (hn : 0 < n) (hdt : dt ≠ 0) (hU : 0 < energy n u)
    (hW : 0 < energy n w) (hp : p.length = n) (h : BestSpike n dt u w phase p p') :
    let c := fun i : Nat => (∑ m ∈ range n, w m * (u (cyc n (i + m)) - dt * cconv n (smp p) w (cyc n (i + m)))) / energy n w
    ∃ i, Lag n phase i ∧ p' = p.set i (smp p i + c i / dt) ∧ ∀ i', Lag n phase i' → |c i'| ≤ |c i| := by
  intro c
  obtain ⟨i, v, hi, rfl, hmin, _, _⟩ := h
  set ρ := fun m => u m - dt * cconv n (smp p) w m with hρ
  have hE : ∀ (l : Nat) (t : ℝ), l < n → misfit n dt u w (smp (p.set l (smp p l + t))) =
      (energy n ρ - c l ^ 2 * energy n w + (dt * t - c l) ^ 2 * energy n w) / energy n u := by
    intro l t hl
    unfold misfit
    congr 1
    rw [← spike_energy hn ρ w l (dt * t) hW.ne']
    apply energy_congr
    intro m hm
    rw [cconv_spike hl hp t w m]
    simp only [hρ]
    ring
  have hv : v = smp p i + (v - smp p i) := by ring
  have hcmp : ∀ i', Lag n phase i' → c i' ^ 2 * energy n w + (dt * (v - smp p i) - c i) ^ 2 * energy n w
      ≤ c i ^ 2 * energy n w := by
    intro i' hi'
    have h1 := hmin i' (smp p i' + c i' / dt) hi'
    rw [hv, hE i _ hi.1, hE i' _ hi'.1, div_le_div_iff_of_pos_right hU, mul_div_cancel₀ _ hdt] at h1
    linarith
  have ht : dt * (v - smp p i) = c i := by
    have h1 := hcmp i hi
    have h2 : (dt * (v - smp p i) - c i) ^ 2 * energy n w ≤ 0 := by linarith
    have h3 : (dt * (v - smp p i) - c i) ^ 2 ≤ 0 := by
      by_contra h; push Not at h
      have := mul_pos h hW
      linarith
    have h4 := pow_eq_zero_iff (two_ne_zero) |>.1 (le_antisymm h3 (sq_nonneg _))
    linarith
  refine ⟨i, hi, ?_, fun i' hi' => ?_⟩
  · congr 1
    rw [← ht]; field_simp; ring
  · have h1 := hcmp i' hi'
    have h2 : 0 ≤ (dt * (v - smp p i) - c i) ^ 2 * energy n w := by positivity
    exact sq_le_sq.1 (le_of_mul_le_mul_right (by linarith) hW)

/-- **C132** the exact run is a run of every tolerance -/
theorem c132_exact {nt : Option Nat} {preonset : ℝ} {R : IterResult}
    (h : deconv_iterative uin win dt nt preonset a itmax minderr phase = .ok R)
    (hnt : nt = none ∨ nt = some uin.length) (hn : n = nextPow2 uin.length)
    (hU : 0 < energy n (lowpass n dt a uin)) (hW : 0 < energy n (lowpass n dt a win)) (hε : 0 ≤ ε) :
    ∃ (P : Nat → List ℝ) (rms : Nat → ℝ), Nonempty (IterRun ε uin win dt a itmax minderr phase n R.it P rms) ∧
      (∀ j, j + 1 < R.it → R.rms[j]? = some (rms j)) ∧
      GreedyRun n dt (lowpass n dt a uin) (lowpass n dt a win) phase minderr itmax R.it P := by
  have hnt' : nt.getD uin.length = uin.length := by rcases hnt with rfl | rfl <;> rfl
  subst hn
  obtain ⟨hdt, hn2, hit, ⟨P, rf, hg, h3, h4, h5, h6, h7, h8, _⟩ | ⟨_, _, _, _, _, h0⟩⟩ := deconv_master h hnt'
  swap
  · rcases h0 with h0 | h0 <;> linarith
  set n := nextPow2 uin.length with hnd
  have hn0 : 0 < n := by omega
  set u := lowpass n dt a uin with hu
  set w := lowpass n dt a win with hw
  set mf := fun j => misfit n dt u w (smp (P j)) with hmf
  refine ⟨P, fun j => mf (j + 1), ?_, h8, hg⟩
  have hlen := greedyRun_length hg
  set c := fun (j i : Nat) => (∑ m ∈ range n, w m * (u (cyc n (i + m)) - dt * cconv n (smp (P j)) w (cyc n (i + m)))) / energy n w with hc
  have hbest : ∀ j, ∃ i, j < R.it → Lag n phase i ∧ P (j + 1) = (P j).set i (smp (P j) i + c j i / dt) ∧
      ∀ i', Lag n phase i' → |c j i'| ≤ |c j i| := by
    intro j
    by_cases hj : j < R.it
    · obtain ⟨i, hi⟩ := bestSpike_corr hn0 hdt hU hW (hlen j hj.le) (hg.spike j hj)
      exact ⟨i, fun _ => hi⟩
    · exact ⟨0, fun h => absurd h hj⟩
  choose i hi using hbest
  have hm0 : mf 0 = 1 := by
    show misfit n dt u w (smp (P 0)) = 1
    rw [hg.start]; exact misfit_start hU.ne'
  have hs : ∀ j, (if j = 0 then (1 : ℝ) else mf (j - 1 + 1)) = mf j := by
    intro j
    cases j with
    | zero => simp [hm0]
    | succ j => simp
  have hdec : ∀ j < R.it, mf (j + 1) ≤ mf j := fun j hj => bestSpike_le (hlen j hj.le) (hg.spike j hj)
  have hz : ∀ x : Nat → ℝ, size n (fun m => x m - x m) = 0 := by
    intro x; unfold size energy; simp
  refine ⟨{
    u_flt := u
    w_flt := w
    powerU := energy n u
    powerW := energy n w
    r := fun j m => u m - dt * cconv n (smp (P j)) w m
    rw := c
    i1 := i
    v := fun j => smp (P j) (i j) + c j (i j) / dt
    p_flt := fun j m => dt * cconv n (smp (P (j + 1))) w m
    d_error := fun j => if j = 0 then 100 * energy n u + minderr else 100 * (mf (j - 1) - mf j)
    fft_length := hnd
    u_near := ?_
    w_near := ?_
    powerU_near := ?_
    powerW_near := ?_
    p_start := hg.start
    r_start := ?_
    rw_near := ?_
    i1_max := fun j hj => ⟨(hi j hj).1, (hi j hj).2.2⟩
    spike := fun j hj => (hi j hj).2.1
    v_near := ?_
    p_near := ?_
    r_near := ?_
    rms_near := ?_
    d_start := ?_
    d_near := ?_
    go := ?_
    stop := ?_ }⟩
  · rw [hz]; exact mul_nonneg hε (size_nonneg _ _)
  · rw [hz]; exact mul_nonneg hε (size_nonneg _ _)
  · rw [sub_self, abs_zero]; positivity
  · rw [sub_self, abs_zero]; positivity
  · intro m _
    have : cconv n (smp (P 0)) w m = 0 := by
      rw [hg.start]
      unfold cconv
      apply sum_eq_zero
      intro i _
      simp [smp, List.getElem?_replicate]
      left; split <;> rfl
    simp [this]
  · intro j hj l hl
    simp only [hc, sub_self, abs_zero]
    exact mul_nonneg hε (div_nonneg (mul_nonneg (size_nonneg _ _) (size_nonneg _ _)) hW.le)
  · intro j hj
    simp only [sub_self, abs_zero]; positivity
  · intro j hj
    rw [hz]
    exact mul_nonneg hε (mul_nonneg (mul_nonneg (abs_nonneg _) (sum_nonneg fun _ _ => abs_nonneg _)) (size_nonneg _ _))
  · intro j hj m hm
    simp only [sub_self, abs_zero]; positivity
  · intro j hj
    have : mf (j + 1) = energy n (fun m => u m - dt * cconv n (smp (P (j + 1))) w m) / energy n u := rfl
    simp only [this, sub_self, abs_zero]
    exact mul_nonneg hε (div_nonneg (energy_nonneg _ _) hU.le)
  · simp only [if_true, sub_self, abs_zero]; positivity
  · intro j hj
    simp only [hs, Nat.succ_ne_zero, if_false, Nat.add_sub_cancel, sub_self, abs_zero]; positivity
  · intro j hj
    cases j with
    | zero =>
      simp only [if_true]
      rcases le_or_gt 0 minderr with hm | hm
      · rw [abs_of_pos (by linarith)]; linarith
      · exact lt_of_lt_of_le hm (abs_nonneg _)
    | succ j =>
      simp only [Nat.succ_ne_zero, if_false, Nat.add_sub_cancel]
      exact lt_of_lt_of_le (hg.go j hj) (le_abs_self _)
  · refine ⟨hit, ?_⟩
    rcases hg.stop with h | ⟨_, h⟩ | ⟨j, hj, h⟩
    · exact Or.inl h
    · linarith
    · right
      rw [hj]
      simp only [Nat.succ_ne_zero, if_false, Nat.add_sub_cancel]
      have := hdec j (by omega)
      rw [abs_of_nonneg (by linarith)]
      exact h

end

/-- energy of a low-passed unit spike on four samples -/
theorem spike_energy_bounds (dt a : ℝ) : 1 / 4 ≤ energy 4 (lowpass 4 dt a [1, 0, 0]) ∧ energy 4 (smp [1, 0, 0]) = 1 := by
  constructor
  · have hP := parseval (n := 4) (by norm_num) (lowpass 4 dt a [1, 0, 0])
    have h0 : rdft 4 (lowpass 4 dt a [1, 0, 0]) 0 = 1 := by
      unfold lowpass
      rw [rdft_cconv (by norm_num) _ _ (by norm_num), rdft_gaussPulse (by norm_num) (by norm_num)]
      have : rdft 4 (smp [1, 0, 0]) 0 = 1 := by
        unfold rdft dft
        simp [sum_range_succ, smp, W_zero]
      rw [this]
      simp [gaussResponse]
    have h1 : ‖rdft 4 (lowpass 4 dt a [1, 0, 0]) 0‖ ^ 2 ≤ ∑ k ∈ range 4, ‖rdft 4 (lowpass 4 dt a [1, 0, 0]) k‖ ^ 2 :=
      single_le_sum (f := fun k => ‖rdft 4 (lowpass 4 dt a [1, 0, 0]) k‖ ^ 2) (fun _ _ => sq_nonneg _) (by simp)
    rw [h0, hP] at h1
    norm_num at h1
    linarith
  · simp [energy, sum_range_succ, smp]

/-- a spike deconvolved by a spike in arithmetic of nine digits -/
example : ∃ (k : Nat) (P : Nat → List ℝ) (rms : Nat → ℝ), 0 < k ∧
    Nonempty (IterRun (1 / 10 ^ 9) [1, 0, 0] [1, 0, 0] (1/10) 2 5 (1/1000) "P" 4 k P rms) ∧
    |rms 0 - misfit 4 (1/10) (lowpass 4 (1/10) 2 [1, 0, 0]) (lowpass 4 (1/10) 2 [1, 0, 0]) (smp (P 1))| ≤
      9 / 10 ^ 9 * 16 * magnitude 4 [1, 0, 0] [1, 0, 0] (1/10) (P 1) ^ 2 := by
  obtain ⟨hE, hE1⟩ := spike_energy_bounds (1/10) 2
  have hE0 : 0 < energy 4 (lowpass 4 (1/10) 2 [1, 0, 0]) := by linarith
  obtain ⟨R, h⟩ := c53_total (uin := [1, 0, 0]) (win := [1, 0, 0]) (dt := 1/10) (a := 2) (preonset := 0)
    (itmax := 5) (minderr := 1/1000) (phase := "P") rfl (by simp) (by norm_num)
  obtain ⟨P, rms, ⟨r⟩, _⟩ := c132_exact (ε := 1 / 10 ^ 9) (n := 4) h (Or.inl rfl) (by decide) hE0 hE0 (by norm_num)
  have hκ : filterLoss 4 (1/10) 2 [1, 0, 0] ≤ 4 := by
    unfold filterLoss
    rw [hE1, div_le_iff₀ hE0]; linarith
  have hκ0 : 1 ≤ filterLoss 4 (1/10) 2 [1, 0, 0] := filterLoss_ge (by norm_num) hE0
  have hp := (power_near (by norm_num) (by norm_num) (size_lowpass (by norm_num) (1/10) 2 [1, 0, 0]) r.u_near r.powerU_near).1
  rw [size_sq, hE1] at hp
  have hk : 0 < R.it := by
    by_contra h0
    have h0 : R.it = 0 := by omega
    obtain ⟨_, h1 | h1⟩ := r.stop
    · omega
    · have h1 : |r.d_error 0| ≤ 1 / 1000 := by
        have e : r.d_error R.it = r.d_error 0 := congrArg r.d_error h0
        rwa [e] at h1
      have h2 := r.d_start
      have h3 := (abs_le.1 hp).1
      have h4 : (0 : ℝ) < 100 * r.powerU + 1 / 1000 := by linarith
      rw [abs_of_pos h4] at h2
      have h5 := (abs_le.1 h2).1
      have h6 := (abs_le.1 h1).2
      linarith
  refine ⟨R.it, P, rms, hk, ⟨r⟩, ?_⟩
  have := (c132_misfits r (by norm_num) (by norm_num) (by norm_num) hE0 (by linarith) hk).1
  refine this.trans ?_
  rw [div_le_iff₀ hE0]
  have hM : 0 ≤ magnitude 4 [1, 0, 0] [1, 0, 0] (1/10) (P 1) ^ 2 := sq_nonneg _
  have e1 : 9 * (1 / 10 ^ 9) * filterLoss 4 (1/10) 2 [1, 0, 0] * magnitude 4 [1, 0, 0] [1, 0, 0] (1/10) (P 1) ^ 2 ≤
      9 / 10 ^ 9 * 4 * magnitude 4 [1, 0, 0] [1, 0, 0] (1/10) (P 1) ^ 2 :=
    mul_le_mul_of_nonneg_right (by linarith) hM
  have e2 : 9 / 10 ^ 9 * 16 * magnitude 4 [1, 0, 0] [1, 0, 0] (1/10) (P 1) ^ 2 * (1 / 4) ≤
      9 / 10 ^ 9 * 16 * magnitude 4 [1, 0, 0] [1, 0, 0] (1/10) (P 1) ^ 2 * energy 4 (lowpass 4 (1/10) 2 [1, 0, 0]) :=
    mul_le_mul_of_nonneg_left hE (by positivity)
  simp only [zero_add]
  linarith

end Rfsed.Props
