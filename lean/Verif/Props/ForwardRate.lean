import Verif.Proofs.ArithRate
import Verif.Props.ForwardRounded

/-! # C134: the rounding errors of the synthetic seismograms are proportional to the precision -/

namespace Rfsed.Synrf
open Finset Rfsed.Spec Rfsed Rfsed.Props

/-- spectra evaluated in inexact arithmetic, and their samples -/
theorem samples_proportional {n npts : Nat} (hnp : npts ≤ n) (E : Nat → CE)
    (hE : ∀ i, 1 ≤ i → i ≤ n / 2 → (E i).Safe) :
    ∃ C > 0, ∃ δ > 0, ∀ ε, 0 ≤ ε → ε ≤ δ → ∀ f : Nat → Option ℂ, (∀ i, 1 ≤ i → i ≤ n / 2 → (E i).Rnd ε (f i)) →
      ∃ u : Nat → ℂ, (∀ i, 1 ≤ i → i ≤ n / 2 → f i = some (u i)) ∧
        ∀ j < npts, ε * ∑ i ∈ Icc 1 (n / 2), ‖u i‖
          + |(samplesOf n npts u).getD j 0 - (samplesOf n npts (fun i => (E i).val)).getD j 0| ≤ C * ε := by
  set m := n / 2 with hm
  set S : ℝ := ∑ i ∈ Icc 1 m, ‖(E i).val‖ with hS
  have hS0 : 0 ≤ S := sum_nonneg (fun _ _ => norm_nonneg _)
  have hm0 : (0 : ℝ) ≤ m := Nat.cast_nonneg _
  obtain ⟨C, hC, δ1, hδ1, hr⟩ := proportional_all (ι := Fin m) (R := fun i ε o => (E (i + 1)).Rnd ε o)
    (v := fun i => (E (i + 1)).val) (fun i => CE.proportional (hE _ (by omega) (by omega)))
  refine ⟨S + m + m * C + 1, by positivity, min δ1 (1 / C), lt_min hδ1 (by positivity), fun ε hε0 hε f hf => ?_⟩
  obtain ⟨z, hz⟩ := hr ε hε0 (hε.trans (min_le_left _ _)) (fun i => f (i + 1)) (fun i => hf _ (by omega) (by omega))
  have hCε : C * ε ≤ 1 := by
    have := hε.trans (min_le_right _ _)
    rw [le_div_iff₀ hC] at this
    linarith
  let u : Nat → ℂ := fun i => (f i).getD 0
  have hu : ∀ i, 1 ≤ i → i ≤ m → f i = some (u i) ∧ ‖u i - (E i).val‖ ≤ C * ε := by
    intro i h1 h2
    obtain ⟨e1, e2⟩ := hz ⟨i - 1, by omega⟩
    simp only [Nat.sub_add_cancel h1] at e1 e2
    have : u i = z ⟨i - 1, by omega⟩ := by simp only [u, e1, Option.getD_some]
    rw [this]
    exact ⟨e1, e2⟩
  have hd : ∑ i ∈ Icc 1 m, ‖u i - (E i).val‖ ≤ m * (C * ε) := by
    have h1 : ∑ i ∈ Icc 1 m, ‖u i - (E i).val‖ ≤ ∑ _i ∈ Icc 1 m, C * ε :=
      sum_le_sum (fun i hi => by rw [mem_Icc] at hi; exact (hu i hi.1 hi.2).2)
    simpa [sum_const, nsmul_eq_mul] using h1
  have hn : ∑ i ∈ Icc 1 m, ‖u i‖ ≤ S + m := by
    have h1 : ∑ i ∈ Icc 1 m, ‖u i‖ ≤ ∑ i ∈ Icc 1 m, (‖(E i).val‖ + ‖u i - (E i).val‖) :=
      sum_le_sum (fun i _ => by
        have := norm_add_le (E i).val (u i - (E i).val)
        rwa [add_sub_cancel] at this)
    rw [sum_add_distrib] at h1
    have h2 : (m : ℝ) * (C * ε) ≤ m * 1 := mul_le_mul_of_nonneg_left hCε hm0
    linarith
  refine ⟨u, fun i h1 h2 => (hu i h1 h2).1, fun j hj => ?_⟩
  have h1 := samplesOf_move hnp hj u (fun i => (E i).val)
  simp only [← hm] at h1
  have h2 : ε * ∑ i ∈ Icc 1 m, ‖u i‖ ≤ ε * (S + m) := mul_le_mul_of_nonneg_left hn hε0
  nlinarith

variable {p dt : ℝ} {npts : Nat} {ipha : ℤ} {l : Layer} {rest : List Layer}

/-- **C134** For a given model the error of the seismograms is at most a fixed multiple of the relative accuracy of the
arithmetic, once the arithmetic is accurate enough. -/
theorem c134_rate (hnp : 0 < npts) (hdt : dt ≠ 0) (h : ∀ k ∈ l :: rest, k.Propagating p) :
    ∃ r z, fwd_seis p dt npts ipha (alphas (l :: rest)) (betas (l :: rest)) (rhos (l :: rest)) (hs (l :: rest)) =
        .ok (.num r, .num z) ∧
      ∃ C > 0, ∃ δ > 0, ∀ ε, 0 < ε → ε ≤ δ → ∀ ur uz, Nonempty (FwdRun ε p dt npts ipha l rest ur uz) →
        ∃ x y, ur = some x ∧ uz = some y ∧ SamplesWithin (C * ε) r x ∧ SamplesWithin (C * ε) z y := by
  refine ⟨_, _, fwd_exact hnp hdt h, ?_⟩
  have hg : ∀ k ∈ l :: rest, Good p k := fun k hk => (h k hk).good
  have hle := le_nextPow2 npts
  set n := nextPow2 npts with hn
  have hn0 : 0 < n := by omega
  have hsafe : ∀ i, 1 ≤ i → (haskellE (omgE n dt i) p ipha l rest).1.Safe ∧ (haskellE (omgE n dt i) p ipha l rest).2.Safe :=
    fun i hi => safe_haskellE _ (omgE_safe hn0 hdt i) (by rw [omgE_val]; exact binFreq_ne hdt hi hn0) ipha rest hg
  obtain ⟨C1, hC1, δ1, hδ1, a1⟩ := samples_proportional hle (fun i => (haskellE (omgE n dt i) p ipha l rest).1)
    (fun i hi _ => (hsafe i hi).1)
  obtain ⟨C2, hC2, δ2, hδ2, a2⟩ := samples_proportional hle (fun i => (haskellE (omgE n dt i) p ipha l rest).2)
    (fun i hi _ => (hsafe i hi).2)
  refine ⟨C1 + C2, by positivity, min δ1 δ2, lt_min hδ1 hδ2, fun ε hε0 hε ur uz ⟨run⟩ => ?_⟩
  obtain ⟨u, hu, hu2⟩ := a1 ε hε0.le (hε.trans (min_le_left _ _)) run.ur_freq run.ur_freq_run
  obtain ⟨v, hv, hv2⟩ := a2 ε hε0.le (hε.trans (min_le_right _ _)) run.uz_freq run.uz_freq_run
  obtain ⟨x, hx, hxl, hxn⟩ := run.ur_near u hu
  obtain ⟨y, hy, hyl, hyn⟩ := run.uz_near v hv
  simp only [← hn] at hxn hyn
  have p1 : 0 < C1 * ε := by positivity
  have p2 : 0 < C2 * ε := by positivity
  refine ⟨x, y, hx, hy, ?_, ?_⟩
  · refine List.forall₂_iff_get.2 ⟨by rw [samplesOf_length hle, hxl], fun j hj hj' => ?_⟩
    have hj0 : j < npts := by rwa [hxl] at hj'
    have e1 := hxn j hj0
    have e2 := hu2 j hj0
    rw [getD_of_lt_length _ _ hj'] at e1
    rw [getD_of_lt_length (samplesOf n npts (fun i => (haskellE (omgE n dt i) p ipha l rest).1.val)) _ hj] at e2
    simp only [List.get_eq_getElem]
    have := abs_sub_le x[j] ((samplesOf n npts u).getD j 0)
      (samplesOf n npts (fun i => (haskellE (omgE n dt i) p ipha l rest).1.val))[j]
    linarith
  · refine List.forall₂_iff_get.2 ⟨by rw [List.length_map, samplesOf_length hle, hyl], fun j hj hj' => ?_⟩
    have hj0 : j < npts := by rwa [hyl] at hj'
    have hjs : j < (samplesOf n npts (fun i => (haskellE (omgE n dt i) p ipha l rest).2.val)).length := by
      rwa [List.length_map] at hj
    have e1 := hyn j hj0
    have e2 := hv2 j hj0
    rw [getD_of_lt_length _ _ hj'] at e1
    rw [getD_of_lt_length (samplesOf n npts (fun i => (haskellE (omgE n dt i) p ipha l rest).2.val)) _ hjs] at e2
    simp only [List.get_eq_getElem, List.getElem_map]
    rw [abs_sub_comm ((samplesOf n npts v).getD j 0)] at e2
    have e3 : (samplesOf n npts (fun i => (haskellE (omgE n dt i) p ipha l rest).2.val))[j] - (samplesOf n npts v).getD j 0 =
      -(samplesOf n npts v).getD j 0 - -(samplesOf n npts (fun i => (haskellE (omgE n dt i) p ipha l rest).2.val))[j] := by
      ring
    rw [e3] at e2
    have := abs_sub_le y[j] (-(samplesOf n npts v).getD j 0)
      (-(samplesOf n npts (fun i => (haskellE (omgE n dt i) p ipha l rest).2.val))[j])
    linarith

/-- a crust over the mantle -/
example : ∃ r z, fwd_seis 0.06 0.1 600 1 (alphas crust) (betas crust) (rhos crust) (hs crust) = .ok (.num r, .num z) ∧
    ∃ C > 0, ∃ δ > 0, ∀ ε, 0 < ε → ε ≤ δ → ∀ ur uz,
      Nonempty (FwdRun ε 0.06 0.1 600 1 ⟨6, 3.5, 2.7, 35⟩ [⟨8, 4.5, 3.3, 40⟩] ur uz) →
        ∃ x y, ur = some x ∧ uz = some y ∧ SamplesWithin (C * ε) r x ∧ SamplesWithin (C * ε) z y :=
  c134_rate (by norm_num) (by norm_num) crust_propagating

end Rfsed.Synrf
