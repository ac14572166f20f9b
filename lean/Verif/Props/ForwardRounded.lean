import Verif.Proofs.ForwardRounded
import Verif.Props.Forward
import Verif.Spec.Continuity

/-! # C134: rounding errors of the synthetic seismograms -/

namespace Rfsed.Synrf
open Finset Rfsed.Spec Rfsed Rfsed.Props

theorem getD_of_lt_length {α : Type} (x : List α) (d : α) {j : Nat} (h : j < x.length) : x.getD j d = x[j] := by
  rw [List.getD_eq_getElem?_getD, List.getElem?_eq_getElem h, Option.getD_some]

theorem samplesOf_length {n npts : Nat} (hnp : npts ≤ n) (u : Nat → ℂ) : (samplesOf n npts u).length = npts := by
  simp [samplesOf, toRe, ifft, hnp]

theorem samplesOf_get {n npts j : Nat} (hnp : npts ≤ n) (hj : j < npts) (u : Nat → ℂ) :
    (samplesOf n npts u).getD j 0 =
      ((∑ k ∈ range n, (specList n (n / 2) u).getD k 0 * W n (((n - 1 - j : Nat) : ℤ) * k)) / n).re / n := by
  have hl : j < (samplesOf n npts u).length := by rw [samplesOf_length hnp]; exact hj
  rw [getD_of_lt_length _ _ hl]
  simp only [samplesOf, List.getElem_take, List.getElem_map, List.getElem_reverse, toRe, ifft, List.getElem_range,
    List.length_map, List.length_range, specList]

/-- the samples move no further than the entries of the spectrum together -/
theorem samplesOf_move {n npts j : Nat} (hnp : npts ≤ n) (hj : j < npts) (u v : Nat → ℂ) :
    |(samplesOf n npts u).getD j 0 - (samplesOf n npts v).getD j 0| ≤ ∑ i ∈ Icc 1 (n / 2), ‖u i - v i‖ := by
  have hn1 : 1 ≤ n := by omega
  have hn : (1 : ℝ) ≤ n := by exact_mod_cast hn1
  rw [samplesOf_get hnp hj, samplesOf_get hnp hj, ← sub_div, ← Complex.sub_re, ← sub_div, ← sum_sub_distrib, abs_div,
    abs_of_nonneg (by linarith : (0 : ℝ) ≤ n)]
  have h1 : ‖∑ k ∈ range n, ((specList n (n / 2) u).getD k 0 * W n (((n - 1 - j : Nat) : ℤ) * k)
      - (specList n (n / 2) v).getD k 0 * W n (((n - 1 - j : Nat) : ℤ) * k))‖ ≤ ∑ i ∈ Icc 1 (n / 2), ‖u i - v i‖ := by
    refine (norm_sum_le _ _).trans (le_of_eq ?_)
    symm
    apply Finset.sum_subset_zero_on_sdiff
    · intro i hi
      rw [Finset.mem_Icc] at hi
      rw [Finset.mem_range]; omega
    · intro k hk
      rw [Finset.mem_sdiff, Finset.mem_range, Finset.mem_Icc] at hk
      rw [specList, specList, getD_map_range _ _ _ hk.1, getD_map_range _ _ _ hk.1, if_neg hk.2, if_neg hk.2, sub_self,
        norm_zero]
    · intro i hi
      rw [Finset.mem_Icc] at hi
      rw [specList, specList, getD_map_range _ _ _ (by omega), getD_map_range _ _ _ (by omega), if_pos hi, if_pos hi,
        ← sub_mul, norm_mul, W_norm, mul_one]
  have h0 : 0 ≤ ∑ i ∈ Icc 1 (n / 2), ‖u i - v i‖ := sum_nonneg (fun _ _ => norm_nonneg _)
  refine (div_le_self (abs_nonneg _) hn).trans ((Complex.abs_re_le_norm _).trans ?_)
  rw [norm_div, Complex.norm_natCast]
  exact (div_le_self (norm_nonneg _) hn).trans h1

/-- spectra evaluated in inexact arithmetic, and their samples -/
theorem samples_accurate {n npts : Nat} (hnp : npts ≤ n) (E : Nat → CE) (hE : ∀ i, 1 ≤ i → i ≤ n / 2 → (E i).Safe)
    {η : ℝ} (hη : 0 < η) :
    ∃ δ > 0, ∀ ε ≤ δ, ∀ f : Nat → Option ℂ, (∀ i, 1 ≤ i → i ≤ n / 2 → (E i).Rnd ε (f i)) →
      ∃ u : Nat → ℂ, (∀ i, 1 ≤ i → i ≤ n / 2 → f i = some (u i)) ∧ ε * ∑ i ∈ Icc 1 (n / 2), ‖u i‖ < η / 2 ∧
        ∀ j < npts, |(samplesOf n npts u).getD j 0 - (samplesOf n npts (fun i => (E i).val)).getD j 0| < η / 2 := by
  set m := n / 2 with hm
  set S : ℝ := ∑ i ∈ Icc 1 m, ‖(E i).val‖ with hS
  have hS0 : 0 ≤ S := sum_nonneg (fun _ _ => norm_nonneg _)
  have hm0 : (0 : ℝ) ≤ m := Nat.cast_nonneg _
  set κ : ℝ := min 1 (η / (4 * (m + 1))) with hκ
  have hκ0 : 0 < κ := lt_min one_pos (by positivity)
  have hκm : m * κ ≤ η / 4 := by
    have h1 : κ ≤ η / (4 * (m + 1)) := min_le_right _ _
    have h2 : (m : ℝ) * κ ≤ m * (η / (4 * (m + 1))) := mul_le_mul_of_nonneg_left h1 hm0
    have h3 : (m : ℝ) * (η / (4 * (m + 1))) ≤ η / 4 := by
      rw [show (m : ℝ) * (η / (4 * (m + 1))) = η / 4 * (m / (m + 1)) by field_simp]
      have : (m : ℝ) / (m + 1) ≤ 1 := by rw [div_le_one (by linarith)]; linarith
      nlinarith
    linarith
  have hκ1 : (m : ℝ) * κ ≤ m := by
    have : κ ≤ 1 := min_le_left _ _
    nlinarith
  obtain ⟨δ1, hδ1, hr⟩ := accurate_all (ι := Fin m) (R := fun i ε o => (E (i + 1)).Rnd ε o)
    (v := fun i => (E (i + 1)).val) (fun i => CE.accurate (hE _ (by omega) (by omega))) hκ0
  refine ⟨min δ1 (η / (4 * (S + m + 1))), lt_min hδ1 (by positivity), fun ε hε f hf => ?_⟩
  obtain ⟨z, hz⟩ := hr ε (hε.trans (min_le_left _ _)) (fun i => f (i + 1)) (fun i => hf _ (by omega) (by omega))
  let u : Nat → ℂ := fun i => (f i).getD 0
  have hu : ∀ i, 1 ≤ i → i ≤ m → f i = some (u i) ∧ ‖u i - (E i).val‖ < κ := by
    intro i h1 h2
    obtain ⟨e1, e2⟩ := hz ⟨i - 1, by omega⟩
    simp only [Nat.sub_add_cancel h1] at e1 e2
    have : u i = z ⟨i - 1, by omega⟩ := by simp only [u, e1, Option.getD_some]
    rw [this]
    exact ⟨e1, e2⟩
  have hd : ∑ i ∈ Icc 1 m, ‖u i - (E i).val‖ ≤ m * κ := by
    have h1 : ∑ i ∈ Icc 1 m, ‖u i - (E i).val‖ ≤ ∑ _i ∈ Icc 1 m, κ :=
      sum_le_sum (fun i hi => by rw [mem_Icc] at hi; exact (hu i hi.1 hi.2).2.le)
    simpa [sum_const, nsmul_eq_mul] using h1
  have hn : ∑ i ∈ Icc 1 m, ‖u i‖ ≤ S + m := by
    have h1 : ∑ i ∈ Icc 1 m, ‖u i‖ ≤ ∑ i ∈ Icc 1 m, (‖(E i).val‖ + ‖u i - (E i).val‖) :=
      sum_le_sum (fun i _ => by
        have := norm_add_le (E i).val (u i - (E i).val)
        rwa [add_sub_cancel] at this)
    rw [sum_add_distrib] at h1
    linarith
  have hn0 : 0 ≤ ∑ i ∈ Icc 1 m, ‖u i‖ := sum_nonneg (fun _ _ => norm_nonneg _)
  refine ⟨u, fun i h1 h2 => (hu i h1 h2).1, ?_, fun j hj => ?_⟩
  · have h1 : ε ≤ η / (4 * (S + m + 1)) := hε.trans (min_le_right _ _)
    have h2 : ε * ∑ i ∈ Icc 1 m, ‖u i‖ ≤ η / (4 * (S + m + 1)) * ∑ i ∈ Icc 1 m, ‖u i‖ :=
      mul_le_mul_of_nonneg_right h1 hn0
    have h3 : η / (4 * (S + m + 1)) * ∑ i ∈ Icc 1 m, ‖u i‖ ≤ η / (4 * (S + m + 1)) * (S + m + 1) :=
      mul_le_mul_of_nonneg_left (by linarith) (by positivity)
    have h4 : η / (4 * (S + m + 1)) * (S + m + 1) = η / 4 := by field_simp
    linarith
  · have := samplesOf_move hnp hj u (fun i => (E i).val)
    simp only [← hm] at this
    linarith

variable {p dt : ℝ} {npts : Nat} {ipha : ℤ} {l : Layer} {rest : List Layer}

/-- the exact seismograms -/
theorem fwd_exact (hnp : 0 < npts) (hdt : dt ≠ 0) (h : ∀ k ∈ l :: rest, k.Propagating p) :
    fwd_seis p dt npts ipha (alphas (l :: rest)) (betas (l :: rest)) (rhos (l :: rest)) (hs (l :: rest)) =
      .ok (.num (samplesOf (nextPow2 npts) npts
            (fun i => (haskellE (omgE (nextPow2 npts) dt i) p ipha l rest).1.val)),
          .num ((samplesOf (nextPow2 npts) npts
            (fun i => (haskellE (omgE (nextPow2 npts) dt i) p ipha l rest).2.val)).map (fun x : ℝ => -x))) := by
  have hg : ∀ k ∈ l :: rest, Good p k := fun k hk => (h k hk).good
  have hlen : (hs (l :: rest)).length = (l :: rest).length := by simp [hs]
  have hf := fwd_seis_some (ipha := ipha) (rayp := p) (a := alphas (l :: rest)) (b := betas (l :: rest))
    (r := rhos (l :: rest)) (h := hs (l :: rest)) hnp hdt
    (fun ω => (resp p (l :: rest) (by simp) ipha ω).1) (fun ω => (resp p (l :: rest) (by simp) ipha ω).2)
    (fun ω hω => by rw [hlen]; exact haskell_good hω (by simp) hg)
  have hv : ∀ i, ((haskellE (omgE (nextPow2 npts) dt i) p ipha l rest).1.val,
      (haskellE (omgE (nextPow2 npts) dt i) p ipha l rest).2.val) =
      resp p (l :: rest) (by simp) ipha (binFreq (nextPow2 npts) dt i) :=
    fun i => val_haskellE _ (omgE_val _ _ _) ipha rest
  have h1 : ∀ i, (haskellE (omgE (nextPow2 npts) dt i) p ipha l rest).1.val =
      (resp p (l :: rest) (by simp) ipha (binFreq (nextPow2 npts) dt i)).1 := fun i => congrArg Prod.fst (hv i)
  have h2 : ∀ i, (haskellE (omgE (nextPow2 npts) dt i) p ipha l rest).2.val =
      (resp p (l :: rest) (by simp) ipha (binFreq (nextPow2 npts) dt i)).2 := fun i => congrArg Prod.snd (hv i)
  rw [hf]
  have r1 := revSeis (le_nextPow2 npts) hdt (fun ω => (resp p (l :: rest) (by simp) ipha ω).1)
  have r2 := revSeis (le_nextPow2 npts) hdt (fun ω => (resp p (l :: rest) (by simp) ipha ω).2)
  rw [specList] at r1 r2
  simp only [samplesOf, h1, h2]
  rw [r1, r2, List.map_map]
  rfl

/-- **C134**: the seismograms that `fwd_seis` computes in inexact arithmetic for a model in which both waves propagate
are numbers, and they tend to the exact seismograms as the accuracy of the arithmetic increases. -/
theorem c134_rounding (hnp : 0 < npts) (hdt : dt ≠ 0) (h : ∀ k ∈ l :: rest, k.Propagating p) :
    ∃ r z, fwd_seis p dt npts ipha (alphas (l :: rest)) (betas (l :: rest)) (rhos (l :: rest)) (hs (l :: rest)) =
        .ok (.num r, .num z) ∧
      ∀ η > 0, ∃ δ > 0, ∀ ε ≤ δ, ∀ ur uz, Nonempty (FwdRun ε p dt npts ipha l rest ur uz) →
        ∃ x y, ur = some x ∧ uz = some y ∧ SamplesWithin η r x ∧ SamplesWithin η z y := by
  refine ⟨_, _, fwd_exact hnp hdt h, fun η hη => ?_⟩
  have hg : ∀ k ∈ l :: rest, Good p k := fun k hk => (h k hk).good
  have hle := le_nextPow2 npts
  set n := nextPow2 npts with hn
  have hn0 : 0 < n := by omega
  have hsafe : ∀ i, 1 ≤ i → (haskellE (omgE n dt i) p ipha l rest).1.Safe ∧ (haskellE (omgE n dt i) p ipha l rest).2.Safe :=
    fun i hi => safe_haskellE _ (omgE_safe hn0 hdt i) (by rw [omgE_val]; exact binFreq_ne hdt hi hn0) ipha rest hg
  obtain ⟨δ1, hδ1, a1⟩ := samples_accurate hle (fun i => (haskellE (omgE n dt i) p ipha l rest).1)
    (fun i hi _ => (hsafe i hi).1) hη
  obtain ⟨δ2, hδ2, a2⟩ := samples_accurate hle (fun i => (haskellE (omgE n dt i) p ipha l rest).2)
    (fun i hi _ => (hsafe i hi).2) hη
  refine ⟨min δ1 δ2, lt_min hδ1 hδ2, fun ε hε ur uz ⟨run⟩ => ?_⟩
  obtain ⟨u, hu, hu1, hu2⟩ := a1 ε (hε.trans (min_le_left _ _)) run.ur_freq run.ur_freq_run
  obtain ⟨v, hv, hv1, hv2⟩ := a2 ε (hε.trans (min_le_right _ _)) run.uz_freq run.uz_freq_run
  obtain ⟨x, hx, hxl, hxn⟩ := run.ur_near u hu
  obtain ⟨y, hy, hyl, hyn⟩ := run.uz_near v hv
  simp only [← hn] at hxn hyn
  refine ⟨x, y, hx, hy, ?_, ?_⟩
  · refine List.forall₂_iff_get.2 ⟨by rw [samplesOf_length hle, hxl], fun j hj hj' => ?_⟩
    have hj0 : j < npts := by rwa [hxl] at hj'
    have e1 := hxn j hj0
    have e2 := hu2 j hj0
    rw [getD_of_lt_length _ _ hj'] at e1
    rw [getD_of_lt_length (samplesOf n npts (fun i => (haskellE (omgE n dt i) p ipha l rest).1.val)) _ hj] at e2
    simp only [List.get_eq_getElem]
    have := abs_sub_le x[j] ((samplesOf n npts u).getD j 0)
      (samplesOf n npts (fun i => (haskellE (omgE n dt i) p ipha l rest).1.val))[j]
    linarith
  · refine List.forall₂_iff_get.2 ⟨by rw [List.length_map, samplesOf_length hle, hyl], fun j hj hj' => ?_⟩
    have hj0 : j < npts := by rwa [hyl] at hj'
    have hjs : j < (samplesOf n npts (fun i => (haskellE (omgE n dt i) p ipha l rest).2.val)).length := by
      rwa [List.length_map] at hj
    have e1 := hyn j hj0
    have e2 := hv2 j hj0
    rw [getD_of_lt_length _ _ hj'] at e1
    rw [getD_of_lt_length (samplesOf n npts (fun i => (haskellE (omgE n dt i) p ipha l rest).2.val)) _ hjs] at e2
    simp only [List.get_eq_getElem, List.getElem_map]
    rw [abs_sub_comm] at e2
    have e3 : (samplesOf n npts (fun i => (haskellE (omgE n dt i) p ipha l rest).2.val))[j] - (samplesOf n npts v).getD j 0 =
      -(samplesOf n npts v).getD j 0 - -(samplesOf n npts (fun i => (haskellE (omgE n dt i) p ipha l rest).2.val))[j] := by
      ring
    rw [e3] at e2
    have := abs_sub_le y[j] (-(samplesOf n npts v).getD j 0)
      (-(samplesOf n npts (fun i => (haskellE (omgE n dt i) p ipha l rest).2.val))[j])
    linarith

/-- **C134**: a computation without rounding errors is one of these runs, for every tolerance; another one returns the
exact vertical seismogram and a radial one all of whose samples are off by `ε` times the sum of the moduli of its
spectrum. -/
theorem c134_runs {ε : ℝ} (hε : 0 ≤ ε) (hnp : 0 < npts) (hdt : dt ≠ 0) (h : ∀ k ∈ l :: rest, k.Propagating p) :
    ∃ r z, fwd_seis p dt npts ipha (alphas (l :: rest)) (betas (l :: rest)) (rhos (l :: rest)) (hs (l :: rest)) =
        .ok (.num r, .num z) ∧ Nonempty (FwdRun ε p dt npts ipha l rest (some r) (some z)) ∧
      ∀ U : Nat → ℂ, (∀ i, 1 ≤ i → i ≤ nextPow2 npts / 2 → ∃ V,
          haskell (2 * Real.pi * i / (nextPow2 npts * dt)) p (l :: rest).length ipha (alphas (l :: rest))
            (betas (l :: rest)) (rhos (l :: rest)) (hs (l :: rest)) = .ok (some (U i, V))) →
        Nonempty (FwdRun ε p dt npts ipha l rest
          (some (r.map (fun x : ℝ => x + ε * ∑ i ∈ Icc 1 (nextPow2 npts / 2), ‖U i‖))) (some z)) := by
  have hle := le_nextPow2 npts
  refine ⟨_, _, fwd_exact hnp hdt h, ?_⟩
  set n := nextPow2 npts with hn
  set E := fun i => (haskellE (omgE n dt i) p ipha l rest).1 with hE
  set F := fun i => (haskellE (omgE n dt i) p ipha l rest).2 with hF
  have key : ∀ c : ℝ, 0 ≤ c → c ≤ ε * ∑ i ∈ Icc 1 (n / 2), ‖(E i).val‖ →
      Nonempty (FwdRun ε p dt npts ipha l rest (some ((samplesOf n npts (fun i => (E i).val)).map (fun x : ℝ => x + c)))
        (some ((samplesOf n npts (fun i => (F i).val)).map (fun x : ℝ => -x)))) := by
    intro c hc0 hc
    refine ⟨{
      ur_freq := fun i => some (E i).val
      uz_freq := fun i => some (F i).val
      ur_freq_run := fun i _ _ => CE.rnd_val hε _
      uz_freq_run := fun i _ _ => CE.rnd_val hε _
      ur_near := fun u hu => ⟨_, rfl, by rw [List.length_map, samplesOf_length hle], fun j hj => ?_⟩
      uz_near := fun u hu => ⟨_, rfl, by rw [List.length_map, samplesOf_length hle], fun j hj => ?_⟩ }⟩
    · simp only [← hn] at hu ⊢
      have hu' : ∀ i ∈ Icc 1 (n / 2), u i = (E i).val := fun i hi => by
        rw [mem_Icc] at hi
        exact (Option.some.inj (hu i hi.1 hi.2)).symm
      have hm := samplesOf_move hle hj u (fun i => (E i).val)
      rw [sum_congr rfl (fun i hi => by rw [hu' i hi, sub_self, norm_zero]), sum_const_zero, abs_nonpos_iff, sub_eq_zero] at hm
      rw [hm, sum_congr rfl (fun i hi => by rw [hu' i hi])]
      have hj1 : j < (samplesOf n npts (fun i => (E i).val)).length := by rw [samplesOf_length hle]; exact hj
      rw [getD_of_lt_length _ _ (by rwa [List.length_map]), List.getElem_map, getD_of_lt_length _ _ hj1,
        add_sub_cancel_left, abs_of_nonneg hc0]
      exact hc
    · simp only [← hn] at hu ⊢
      have hu' : ∀ i ∈ Icc 1 (n / 2), u i = (F i).val := fun i hi => by
        rw [mem_Icc] at hi
        exact (Option.some.inj (hu i hi.1 hi.2)).symm
      have hm := samplesOf_move hle hj u (fun i => (F i).val)
      rw [sum_congr rfl (fun i hi => by rw [hu' i hi, sub_self, norm_zero]), sum_const_zero, abs_nonpos_iff, sub_eq_zero] at hm
      rw [hm]
      have hj1 : j < (samplesOf n npts (fun i => (F i).val)).length := by rw [samplesOf_length hle]; exact hj
      rw [getD_of_lt_length _ _ (by rwa [List.length_map]), List.getElem_map, getD_of_lt_length _ _ hj1, sub_self,
        abs_zero]
      exact mul_nonneg hε (sum_nonneg (fun _ _ => norm_nonneg _))
  have hS0 : 0 ≤ ∑ i ∈ Icc 1 (n / 2), ‖(E i).val‖ := sum_nonneg (fun _ _ => norm_nonneg _)
  refine ⟨by simpa using key 0 le_rfl (mul_nonneg hε hS0), fun U hU => ?_⟩
  have hUE : ∀ i ∈ Icc 1 (n / 2), U i = (E i).val := by
    intro i hi
    rw [mem_Icc] at hi
    obtain ⟨V, hV⟩ := hU i hi.1 hi.2
    have hb : 2 * Real.pi * i / (n * dt) = binFreq n dt i := rfl
    rw [hb, haskell_good (binFreq_ne hdt hi.1 (by omega)) (by simp) (fun k hk => (h k hk).good)] at hV
    have hv := val_haskellE (p := p) (l := l) (omgE n dt i) (omgE_val _ _ _) ipha rest
    have := congrArg Prod.fst (hv.trans (Option.some.inj (Except.ok.inj hV)))
    exact this.symm
  rw [sum_congr rfl (fun i hi => by rw [hUE i hi])]
  exact key _ (mul_nonneg hε hS0) le_rfl

/-- a crust over the mantle -/
example : ∃ r z, fwd_seis 0.06 0.1 600 1 (alphas crust) (betas crust) (rhos crust) (hs crust) = .ok (.num r, .num z) ∧
    ∀ η > 0, ∃ δ > 0, ∀ ε ≤ δ, ∀ ur uz,
      Nonempty (FwdRun ε 0.06 0.1 600 1 ⟨6, 3.5, 2.7, 35⟩ [⟨8, 4.5, 3.3, 40⟩] ur uz) →
        ∃ x y, ur = some x ∧ uz = some y ∧ SamplesWithin η r x ∧ SamplesWithin η z y :=
  c134_rounding (by norm_num) (by norm_num) crust_propagating

end Rfsed.Synrf
