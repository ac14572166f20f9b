import Verif.Proofs.IterNear2

/-!
# Runs of the iterative deconvolution in inexact arithmetic near a run without ties: all passes
-/

namespace Rfsed.Synrf
open Finset Spec Topology Filter Asymptotics Rfsed.Props

namespace Family
variable {Ω : Type} {F : Filter Ω} {uin win : List ℝ} {dt a : ℝ} {itmax : Nat} {minderr : ℝ} {phase : String} {n : Nat}
variable (M : Family Ω F uin win dt a itmax minderr phase n)

/-- the same number of passes, and a spike train near the exact one after each of them -/
theorem steady (hn : 0 < n) (hdt : dt ≠ 0) (hm : 0 ≤ minderr) {k : Nat} {P : Nat → List ℝ} (hk : k ≤ itmax)
    (hP : SteadyRun n dt (lowpass n dt a uin) (lowpass n dt a win) phase minderr itmax k P) :
    (∀ j ≤ k, M.At j (P j)) ∧ ∀ᶠ ω in F, M.k ω = k := by
  set u := lowpass n dt a uin with hu
  set w := lowpass n dt a win with hw
  have hlen := greedyRun_length hP.toGreedyRun
  have hmono : ∀ j < k, misfit n dt u w (smp (P (j + 1))) ≤ misfit n dt u w (smp (P j)) := fun j hj =>
    bestSpike_le (hlen j hj.le) (hP.spike j hj)
  have hall : ∀ j, (∀ i ≤ j, i ≤ k → M.At i (P i)) := by
    intro j
    induction j with
    | zero =>
      intro i hi _
      obtain rfl : i = 0 := by omega
      refine ⟨.of_forall fun _ => Nat.zero_le _, fun m hm => ?_⟩
      refine (near_const (smp (P 0) m)).congr (.of_forall fun ω => ?_)
      simp only
      rw [(M.r ω).p_start, hP.start]
    | succ j ih =>
      intro i hi hik
      by_cases hij : i ≤ j
      · exact ih i hij hik
      obtain rfl : i = j + 1 := by omega
      have hjk : j < k := hik
      have hA := ih j le_rfl hjk.le
      obtain ⟨hU, hE⟩ := no_bestSpike hn (hP.spike j hjk)
      have hU' : 0 < energy n u := lt_of_le_of_ne (energy_nonneg _ _) (Ne.symm hU)
      -- the pass is made
      have hmade : ∀ᶠ ω in F, j < M.k ω := by
        have hd : ∀ᶠ ω in F, minderr < |(M.r ω).d_error j| := by
          cases j with
          | zero =>
            have := (hA.d_start.tendsto M.hδ).abs
            refine this.eventually (lt_mem_nhds ?_)
            rw [abs_of_nonneg (by linarith)]
            linarith
          | succ j =>
            have h1 := (ih j (by omega) (by omega)).d_near hA hU (fun h => by rw [h]; exact hP.start)
            have := (h1.tendsto M.hδ).abs
            refine this.eventually (lt_mem_nhds ?_)
            exact (hP.go j hjk).trans_le (le_abs_self _)
        filter_upwards [hd, hA.le] with ω h1 h2
        rcases h2.lt_or_eq with h3 | h3
        · exact h3
        · exfalso
          obtain ⟨h4, h5⟩ := (M.r ω).stop
          rcases h5 with h5 | h5
          · omega
          · have e : (M.r ω).d_error (M.k ω) = (M.r ω).d_error j := congrArg (M.r ω).d_error h3.symm
            rw [e] at h5
            linarith
      rcases hP.alone j hjk with ⟨i, v, hl, e, ha⟩ | ⟨-, hno⟩
      · obtain ⟨e1, e2⟩ := cor_of_alone hn hdt hE hU (hlen j hjk.le) (hP.spike j hjk) hl e ha
        rw [e1]
        exact (hA.clear hn hdt hE hmade (hlen j hjk.le) hl e2).2
      · obtain ⟨i0, hl0, e0, hmax⟩ := cor_of_best hn hdt hE hU (hlen j hjk.le) (hP.spike j hjk)
        have hc0 : cor n dt u w (P j) i0 = 0 := by
          have := gain_best (u := u) hn hdt hE (hlen j hjk.le) hl0.1
          rw [← e0, hno, sub_self] at this
          have h1 : cor n dt u w (P j) i0 ^ 2 = 0 := by
            by_contra hne
            exact (div_ne_zero (div_ne_zero hne hE) hU) this.symm
          exact pow_eq_zero_iff (two_ne_zero) |>.1 h1
        have hz : ∀ i, Lag n phase i → cor n dt u w (P j) i = 0 := by
          intro i hi
          have := hmax i hi
          rw [hc0, abs_zero] at this
          exact abs_eq_zero.1 (le_antisymm this (abs_nonneg _))
        have hsame : P (j + 1) = P j := by
          rw [e0]
          unfold bestVal
          rw [hc0]
          simp only [zero_div, add_zero]
          have : i0 < (P j).length := by rw [hlen j hjk.le]; exact hl0.1
          rw [smp, getD_of_lt this, List.set_getElem_self]
        rw [hsame]
        exact hA.nothing hn hdt hE hmade hz
  have hAt : ∀ j ≤ k, M.At j (P j) := fun j hj => hall j j le_rfl hj
  refine ⟨hAt, ?_⟩
  have hle : ∀ᶠ ω in F, M.k ω ≤ k := by
    rcases hP.halt with h | ⟨j, rfl, h⟩
    · exact .of_forall fun ω => by have := (M.r ω).stop.1; omega
    · obtain ⟨hU, -⟩ := no_bestSpike hn (hP.spike j (by omega))
      have h1 := (hAt j (by omega)).d_near (hAt (j + 1) le_rfl) hU (fun h => by rw [h]; exact hP.start)
      have h2 : ∀ᶠ ω in F, |(M.r ω).d_error (j + 1)| < minderr := by
        refine (h1.tendsto M.hδ).abs.eventually (gt_mem_nhds ?_)
        have := hmono j (by omega)
        rw [abs_of_nonneg (by linarith)]
        exact h
      filter_upwards [h2] with ω hω
      by_contra hcon
      have := (M.r ω).go (j + 1) (by omega)
      linarith
  filter_upwards [hle, (hAt k le_rfl).le] with ω h1 h2
  omega

/-- the receiver functions -/
theorem steady_out (hn : 0 < n) (hdt : dt ≠ 0) (hm : 0 ≤ minderr) {k : Nat} {P : Nat → List ℝ} (hk : k ≤ itmax)
    (hP : SteadyRun n dt (lowpass n dt a uin) (lowpass n dt a win) phase minderr itmax k P) {preonset : ℝ} {N : Nat}
    (hN : N ≤ n) (hcos : Real.cos (2 * Real.pi * (pyInt (preonset / dt) : ℝ) / n) ≠ 0)
    {p_flt : Ω → List ℝ} {out : Ω → List ℝ}
    (hflt : ∀ ω, size n (fun m => smp (p_flt ω) m - cconv n (smp (M.P ω (M.k ω))) (gaussPulse dt n a) m) ≤
      M.e ω * size n (smp (M.P ω (M.k ω))))
    (hout : ∀ ω, ∀ m < N, |smp (out ω) m - smp (phaseshift (p_flt ω) n dt preonset) m| ≤
      M.e ω * (size n (smp (p_flt ω)) / |Real.cos (2 * Real.pi * (pyInt (preonset / dt) : ℝ) / n)|)) :
    NearSig F M.δ N (fun ω => smp (out ω)) (fun m => cconv n (smp (P k)) (gaussPulse dt n a)
      (cyc n ((m : ℤ) - pyInt (preonset / dt)))) := by
  obtain ⟨hAt, hev⟩ := M.steady hn hdt hm hk hP
  have hk := hAt k le_rfl
  have hp : NearSig F M.δ n (fun ω => smp (p_flt ω)) (cconv n (smp (P k)) (gaussPulse dt n a)) := by
    refine nearSig_of_size M.he (hk.near.bounded M.hδ) (x' := fun ω => cconv n (smp (M.P ω k)) (gaussPulse dt n a)) ?_
      (fun m _ => hk.near.cconv M.hδ (nearSig_const _) m)
    filter_upwards [hev] with ω hω
    have := hflt ω
    rwa [hω] at this
  intro m hm
  refine near_of_le M.he (B := fun ω => size n (smp (p_flt ω)) / |Real.cos (2 * Real.pi * (pyInt (preonset / dt) : ℝ) / n)|)
    ?_ (.of_forall fun ω => hout ω m hm) ?_
  · simp only [div_eq_mul_inv _ |_|]
    exact bounded_mul (hp.bounded M.hδ) (isBigO_const_const _ one_ne_zero _)
  · simp only [phaseshift_eq hn _ dt preonset hcos (hm.trans_le hN)]
    exact hp _ (cyc_lt hn _)

end Family
end Rfsed.Synrf
