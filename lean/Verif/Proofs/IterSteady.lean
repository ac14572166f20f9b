import Verif.Proofs.IterSmooth

/-!
# The iterative deconvolution near a run whose last iteration finds nothing
-/

namespace Rfsed.Synrf
open Finset Spec Topology Filter Rfsed.Props

section
variable {n : Nat} {dt : ℝ} {u w : Nat → ℝ} {phase : String} {p : List ℝ} {i : Nat}

theorem spikes_prefix {k : Nat} {P P' : Nat → List ℝ} (h0 : P 0 = P' 0)
    (h : ∀ j < k, BestSpike n dt u w phase (P j) (P (j + 1)))
    (h' : ∀ j < k, BestSpike n dt u w phase (P' j) (P' (j + 1))) : ∀ j ≤ k, P j = P' j := by
  intro j
  induction j with
  | zero => intro _; exact h0
  | succ j ih =>
    intro a
    have e := ih (by omega)
    have h1 := h j (by omega)
    rw [e] at h1
    exact bestSpike_unique h1 (h' j (by omega))

/-- the best spike has its best value, and no admissible lag has a larger correlation -/
theorem cor_of_best (hn : 0 < n) (hdt : dt ≠ 0) (hE : energy n w ≠ 0) (hU : energy n u ≠ 0) (hp : p.length = n)
    {p' : List ℝ} (hb : BestSpike n dt u w phase p p') :
    ∃ i, Lag n phase i ∧ p' = p.set i (bestVal n dt u w p i) ∧
      ∀ i', Lag n phase i' → |cor n dt u w p i'| ≤ |cor n dt u w p i| := by
  have hE' : 0 < energy n w := lt_of_le_of_ne (energy_nonneg _ _) (Ne.symm hE)
  have hU' : 0 < energy n u := lt_of_le_of_ne (energy_nonneg _ _) (Ne.symm hU)
  obtain ⟨i0, v0, hl0, e0, hle, -, hv0⟩ := hb
  have hv : v0 = bestVal n dt u w p i0 := by
    by_contra hne
    have h1 := hv0 _ (Ne.symm hne)
    rw [e0, misfit_best hn hdt hE hp hl0.1, misfit_set hn hdt hE hp hl0.1] at h1
    rw [div_lt_div_iff_of_pos_right hU'] at h1
    have : 0 ≤ dt ^ 2 * (v0 - bestVal n dt u w p i0) ^ 2 * energy n w := by positivity
    linarith
  subst hv
  refine ⟨i0, hl0, e0, fun i' hi' => ?_⟩
  have h1 := hle i' (bestVal n dt u w p i') hi'
  rw [e0, misfit_best hn hdt hE hp hl0.1, misfit_best hn hdt hE hp hi'.1, div_le_div_iff_of_pos_right hU'] at h1
  have h2 : cor n dt u w p i' ^ 2 / energy n w ≤ cor n dt u w p i0 ^ 2 / energy n w := by linarith
  rw [div_le_div_iff_of_pos_right hE'] at h2
  exact sq_le_sq.1 h2

/-- the improvement of the best spike -/
theorem gain_best (hn : 0 < n) (hdt : dt ≠ 0) (hE : energy n w ≠ 0) (hp : p.length = n) (hi : i < n) :
    misfit n dt u w (smp p) - misfit n dt u w (smp (p.set i (bestVal n dt u w p i))) =
      cor n dt u w p i ^ 2 / energy n w / energy n u := by
  rw [misfit_best hn hdt hE hp hi]
  unfold misfit
  change energy n (res n dt u w p) / energy n u - _ = _
  ring

end

section
variable {X : Type} [NormedAddCommGroup X] [NormedSpace ℝ X] {x0 : X}
variable {n : Nat} {dt : ℝ} {u w : X → Nat → ℝ} {phase : String}

/-- the clear iterations of a run keep their lags, and keep improving, when the traces change a little -/
theorem clear_prefix_near (hn : 0 < n) (hdt : dt ≠ 0) (hu : Smooth x0 u) (hw : Smooth x0 w) (hU : energy n (u x0) ≠ 0)
    (hE : energy n (w x0) ≠ 0) {minderr : ℝ} {k : Nat} {P : Nat → List ℝ} (h0 : P 0 = List.replicate n 0)
    (hsp : ∀ j < k, BestSpike n dt (u x0) (w x0) phase (P j) (P (j + 1)))
    (hal : ∀ j < k, ∃ i v, Lag n phase i ∧ P (j + 1) = (P j).set i v ∧ ∀ i' v', Lag n phase i' → i' ≠ i →
      misfit n dt (u x0) (w x0) (smp (P (j + 1))) < misfit n dt (u x0) (w x0) (smp ((P j).set i' v')))
    (hgo : ∀ j < k, minderr < 100 * (misfit n dt (u x0) (w x0) (smp (P j)) - misfit n dt (u x0) (w x0) (smp (P (j + 1))))) :
    ∃ I : Nat → Nat, (∀ j, I j < n) ∧ (∀ j ≤ k, P j = follow n dt (u x0) (w x0) I j) ∧
      ∀ᶠ x in 𝓝 x0, energy n (u x) ≠ 0 ∧ energy n (w x) ≠ 0 ∧
        (∀ j < k, BestSpike n dt (u x) (w x) phase (follow n dt (u x) (w x) I j) (follow n dt (u x) (w x) I (j + 1))) ∧
        ∀ j < k, minderr < 100 * (misfit n dt (u x) (w x) (smp (follow n dt (u x) (w x) I j)) -
          misfit n dt (u x) (w x) (smp (follow n dt (u x) (w x) I (j + 1)))) := by
  have hlen : ∀ j ≤ k, (P j).length = n := by
    intro j
    induction j with
    | zero => intro _; rw [h0]; simp
    | succ j ih =>
      intro hj
      obtain ⟨i, v, _, h2, _⟩ := hsp j (by omega)
      rw [h2, List.length_set]; exact ih (by omega)
  have hex : ∀ j, ∃ i, i < n ∧ (j < k → Lag n phase i ∧
      P (j + 1) = (P j).set i (bestVal n dt (u x0) (w x0) (P j) i) ∧
      ∀ i', Lag n phase i' → i' ≠ i → |cor n dt (u x0) (w x0) (P j) i'| < |cor n dt (u x0) (w x0) (P j) i|) := by
    intro j
    by_cases hj : j < k
    · obtain ⟨i, v, hl, e, ha⟩ := hal j hj
      obtain ⟨a, b⟩ := cor_of_alone hn hdt hE hU (hlen j hj.le) (hsp j hj) hl e ha
      exact ⟨i, hl.1, fun _ => ⟨hl, a, b⟩⟩
    · exact ⟨0, hn, fun hj' => absurd hj' hj⟩
  choose I hI hIk using hex
  have hP : ∀ j ≤ k, P j = follow n dt (u x0) (w x0) I j := by
    intro j
    induction j with
    | zero => intro _; rw [h0]; rfl
    | succ j ih =>
      intro hj
      rw [(hIk j (by omega)).2.1, ih (by omega)]
      rfl
  refine ⟨I, hI, hP, ?_⟩
  have hS := smooth_follow (dt := dt) hu hw hE hI
  have hmis := fun j => (smooth_misfit (dt := dt) hu hw (hS j) hU).continuousAt
  have ev1 : ∀ᶠ x in 𝓝 x0, ∀ j ∈ range k, ∀ i' ∈ range n, Lag n phase i' → i' ≠ I j →
      |cor n dt (u x) (w x) (follow n dt (u x) (w x) I j) i'| < |cor n dt (u x) (w x) (follow n dt (u x) (w x) I j) (I j)| := by
    rw [Filter.eventually_all_finset]
    intro j hj
    rw [Filter.eventually_all_finset]
    intro i' _
    by_cases hl : Lag n phase i' ∧ i' ≠ I j
    · have h0 := (hIk j (mem_range.1 hj)).2.2 i' hl.1 hl.2
      rw [hP j (mem_range.1 hj).le] at h0
      have c := fun i => (smooth_cor (n := n) (dt := dt) hu hw (hS j) i).continuousAt.abs
      filter_upwards [(c i').eventually_lt (c (I j)) h0] with x hx _ _
      exact hx
    · exact .of_forall fun x h1 h2 => absurd ⟨h1, h2⟩ hl
  have ev2 : ∀ᶠ x in 𝓝 x0, ∀ j ∈ range k,
      minderr < 100 * (misfit n dt (u x) (w x) (smp (follow n dt (u x) (w x) I j)) -
        misfit n dt (u x) (w x) (smp (follow n dt (u x) (w x) I (j + 1)))) := by
    rw [Filter.eventually_all_finset]
    intro j hj
    have h0 := hgo j (mem_range.1 hj)
    rw [mem_range] at hj
    rw [hP j (by omega), hP (j + 1) (by omega)] at h0
    have c : ContinuousAt (fun x => 100 * (misfit n dt (u x) (w x) (smp (follow n dt (u x) (w x) I j)) -
      misfit n dt (u x) (w x) (smp (follow n dt (u x) (w x) I (j + 1))))) x0 :=
      continuousAt_const.mul ((hmis j).sub (hmis (j + 1)))
    filter_upwards [c.eventually (lt_mem_nhds h0)] with x hx
    exact hx
  filter_upwards [ev1, ev2, (smooth_energy (n := n) hu).continuousAt.eventually_ne hU,
    (smooth_energy (n := n) hw).continuousAt.eventually_ne hE] with x a1 a2 a4 a5
  refine ⟨a4, a5, ?_, fun j hj => a2 j (mem_range.2 hj)⟩
  intro j hj
  exact bestSpike_of_cor hn hdt a5 a4 (follow_length ..) (hIk j hj).1
    (fun i' hl hne => a1 j (mem_range.2 hj) i' (mem_range.2 hl.1) hl hne)

/-- near a run whose last iteration found nothing: the same number of iterations, and the last one changes little -/
theorem exhausted_near (hn : 0 < n) (hdt : dt ≠ 0) (hu : Smooth x0 u) (hw : Smooth x0 w) (hU : energy n (u x0) ≠ 0)
    (hE : energy n (w x0) ≠ 0) {minderr : ℝ} {itmax k : Nat} {P : Nat → List ℝ}
    (h0 : P 0 = List.replicate n 0)
    (hsp : ∀ j < k + 1, BestSpike n dt (u x0) (w x0) phase (P j) (P (j + 1)))
    (hal : ∀ j < k, ∃ i v, Lag n phase i ∧ P (j + 1) = (P j).set i v ∧ ∀ i' v', Lag n phase i' → i' ≠ i →
      misfit n dt (u x0) (w x0) (smp (P (j + 1))) < misfit n dt (u x0) (w x0) (smp ((P j).set i' v')))
    (hgo : ∀ j < k, minderr < 100 * (misfit n dt (u x0) (w x0) (smp (P j)) - misfit n dt (u x0) (w x0) (smp (P (j + 1)))))
    (hno : misfit n dt (u x0) (w x0) (smp (P (k + 1))) = misfit n dt (u x0) (w x0) (smp (P k)))
    (hhalt : k + 1 = itmax ∨ 0 < minderr) (hk : k + 1 ≤ itmax) :
    ∃ Q : X → List ℝ, (∀ x, (Q x).length = n) ∧ Smooth x0 (fun x => smp (Q x)) ∧ P (k + 1) = Q x0 ∧
      ∃ h : X → Nat → ℝ, Smooth x0 h ∧ (∀ i, Lag n phase i → h x0 i = 0) ∧
      ∀ᶠ x in 𝓝 x0, energy n (u x) ≠ 0 ∧ energy n (w x) ≠ 0 ∧
        ∀ k' P', GreedyRun n dt (u x) (w x) phase minderr itmax k' P' → k' ≤ itmax →
          k' = k + 1 ∧ P' k = Q x ∧ ∃ i, Lag n phase i ∧ P' (k + 1) = (Q x).set i (smp (Q x) i + h x i) := by
  obtain ⟨I, hI, hP, hev⟩ := clear_prefix_near hn hdt hu hw hU hE (minderr := minderr) (k := k) h0
    (fun j hj => hsp j (by omega)) hal hgo
  have hS := smooth_follow (dt := dt) hu hw hE hI k
  -- nothing is left at `x0`
  have hlenP : (P k).length = n := by rw [hP k le_rfl]; exact follow_length ..
  have hE' : 0 < energy n (w x0) := lt_of_le_of_ne (energy_nonneg _ _) (Ne.symm hE)
  have hU' : 0 < energy n (u x0) := lt_of_le_of_ne (energy_nonneg _ _) (Ne.symm hU)
  obtain ⟨i0, hl0, e0, hmax⟩ := cor_of_best hn hdt hE hU hlenP (hsp k (by omega))
  have hc0 : cor n dt (u x0) (w x0) (P k) i0 = 0 := by
    have := gain_best (u := u x0) hn hdt hE hlenP hl0.1
    rw [← e0, hno, sub_self] at this
    have h1 : cor n dt (u x0) (w x0) (P k) i0 ^ 2 = 0 := by
      by_contra hne
      have : cor n dt (u x0) (w x0) (P k) i0 ^ 2 / energy n (w x0) / energy n (u x0) ≠ 0 :=
        div_ne_zero (div_ne_zero hne hE) hU
      exact this (by linarith)
    exact pow_eq_zero_iff (two_ne_zero) |>.1 h1
  have hz : ∀ i, Lag n phase i → cor n dt (u x0) (w x0) (P k) i = 0 := by
    intro i hi
    have := hmax i hi
    rw [hc0, abs_zero] at this
    exact abs_eq_zero.1 (le_antisymm this (abs_nonneg _))
  refine ⟨fun x => follow n dt (u x) (w x) I k, fun x => follow_length .., hS, ?_,
    fun x i => cor n dt (u x) (w x) (follow n dt (u x) (w x) I k) i / energy n (w x) / dt, ?_, ?_, ?_⟩
  · show P (k + 1) = follow n dt (u x0) (w x0) I k
    rw [e0, ← hP k le_rfl]
    unfold bestVal
    rw [hc0]
    simp only [zero_div, add_zero]
    have : i0 < (P k).length := by rw [hlenP]; exact hl0.1
    rw [smp, getD_of_lt this, List.set_getElem_self]
  · intro i
    simp only [div_eq_mul_inv _ dt]
    exact (smooth_quot (smooth_cor hu hw hS i) (smooth_energy hw) hE).mul_const _
  · intro i hi
    simp only [← hP k le_rfl]
    rw [hz i hi]
    simp
  · -- the improvement of the last iteration stays below `minderr`
    have hsm : ∀ᶠ x in 𝓝 x0, k + 1 = itmax ∨ ∀ i ∈ range n, Lag n phase i →
        100 * (cor n dt (u x) (w x) (follow n dt (u x) (w x) I k) i ^ 2 / energy n (w x) / energy n (u x)) < minderr := by
      rcases hhalt with e | hm
      · exact .of_forall fun _ => Or.inl e
      · have : ∀ᶠ x in 𝓝 x0, ∀ i ∈ range n, Lag n phase i →
            100 * (cor n dt (u x) (w x) (follow n dt (u x) (w x) I k) i ^ 2 / energy n (w x) / energy n (u x)) < minderr := by
          rw [Filter.eventually_all_finset]
          intro i _
          by_cases hl : Lag n phase i
          · have c1 := (smooth_cor (n := n) (dt := dt) hu hw hS i).continuousAt
            have c : ContinuousAt (fun x => 100 * (cor n dt (u x) (w x) (follow n dt (u x) (w x) I k) i ^ 2 /
                energy n (w x) / energy n (u x))) x0 :=
              continuousAt_const.mul (((c1.pow 2).div (smooth_energy hw).continuousAt hE).div
                (smooth_energy hu).continuousAt hU)
            have hv : 100 * (cor n dt (u x0) (w x0) (follow n dt (u x0) (w x0) I k) i ^ 2 /
                energy n (w x0) / energy n (u x0)) < minderr := by
              rw [← hP k le_rfl, hz i hl]
              simpa using hm
            filter_upwards [c.eventually (gt_mem_nhds hv)] with x hx _
            exact hx
          · exact .of_forall fun x h1 => absurd h1 hl
        filter_upwards [this] with x hx
        exact Or.inr hx
    filter_upwards [hev, hsm] with x ⟨b1, b2, b3, b4⟩ hx
    refine ⟨b1, b2, fun k' P' hg hk' => ?_⟩
    -- at least `k + 1` iterations
    have hle : k + 1 ≤ k' := by
      by_contra hcon
      have hk2 : k' ≤ k := by omega
      have hpre := spikes_prefix (P := P') (P' := follow n dt (u x) (w x) I) (k := k') (by rw [hg.start]; rfl)
        hg.spike (fun j hj => b3 j (by omega))
      rcases hg.stop with e | ⟨-, e⟩ | ⟨j, rfl, e⟩
      · omega
      · exact b1 e
      · rw [hpre j (by omega), hpre (j + 1) (by omega)] at e
        have := b4 j (by omega)
        linarith
    have hpre := spikes_prefix (P := P') (P' := follow n dt (u x) (w x) I) (k := k) (by rw [hg.start]; rfl)
      (fun j hj => hg.spike j (by omega)) b3
    have hk0 : P' k = follow n dt (u x) (w x) I k := hpre k le_rfl
    obtain ⟨i, hl, e1, -⟩ := cor_of_best hn hdt b2 b1 (p := P' k) (by rw [hk0]; exact follow_length ..)
      (hg.spike k (by omega))
    refine ⟨?_, hk0, i, hl, ?_⟩
    · by_contra hne
      have hgo' := hg.go k (by omega)
      rw [e1, gain_best hn hdt b2 (by rw [hk0]; exact follow_length ..) hl.1, hk0] at hgo'
      rcases hx with e | hx
      · omega
      · have := hx i (mem_range.2 hl.1) hl
        linarith
    · rw [e1, hk0]
      rfl

end

end Rfsed.Synrf
