import Verif.Proofs.Deconv5

/-! Consequences of a greedy run: exact copies. -/

namespace Rfsed.Synrf
open Finset Spec

theorem cconv_shift {n : Nat} (hn : 0 < n) (x g : Nat → ℝ) (b : ℝ) (L : ℤ) (m : Nat) :
    cconv n (fun i => b * x (cyc n ((i : ℤ) - L))) g m = b * cconv n x g (cyc n ((m : ℤ) - L)) := by
  unfold cconv
  rw [← sum_cyc_add hn L (fun j => b * x (cyc n ((j : ℤ) - L)) * g (cyc n ((m : ℤ) - j))), mul_sum]
  apply sum_congr rfl
  intro j hj
  have h1 : cyc n ((cyc n ((j : ℤ) + L) : ℤ) - L) = j := by
    rw [sub_eq_add_neg, cyc_cyc_add hn, show (j : ℤ) + L + -L = j by ring, cyc_of_lt (mem_range.1 hj)]
  have h2 : cyc n ((m : ℤ) - (cyc n ((j : ℤ) + L) : ℤ)) = cyc n ((cyc n ((m : ℤ) - L) : ℤ) - j) := by
    apply cyc_congr
    rw [cyc_cast hn, cyc_cast hn]
    have e1 := Int.emod_add_mul_ediv ((j : ℤ) + L) n
    have e2 := Int.emod_add_mul_ediv ((m : ℤ) - L) n
    refine ⟨((j : ℤ) + L) / n + ((m : ℤ) - L) / n, ?_⟩
    linarith [mul_add (n : ℤ) (((j : ℤ) + L) / n) (((m : ℤ) - L) / n)]
  rw [h1, h2]
  ring

theorem cconv_single {n : Nat} {i : Nat} (hi : i < n) (v : ℝ) (w : Nat → ℝ) (m : Nat) :
    cconv n (smp ((List.replicate n (0 : ℝ)).set i v)) w m = v * w (cyc n ((m : ℤ) - i)) := by
  have h := cconv_spike hi (p := List.replicate n (0 : ℝ)) (by simp) v w m
  have h0 : smp (List.replicate n (0 : ℝ)) i = 0 := by
    unfold smp
    rw [getD_of_lt (by simpa using hi)]; simp
  rw [h0, zero_add, cconv_zero, zero_add] at h
  exact h

/-- A scaled, delayed copy is explained by one spike. -/
theorem misfit_copy {n : Nat} {dt : ℝ} {u w : Nat → ℝ} {b : ℝ} {L : Nat} (hdt : dt ≠ 0) (hL : L < n)
    (hu : ∀ m < n, u m = b * w (cyc n ((m : ℤ) - L))) :
    misfit n dt u w (smp ((List.replicate n (0 : ℝ)).set L (b / dt))) = 0 := by
  unfold misfit
  have : energy n (fun m => u m - dt * cconv n (smp ((List.replicate n (0 : ℝ)).set L (b / dt))) w m) = 0 := by
    apply sum_eq_zero
    intro m hm
    simp only
    rw [hu m (mem_range.1 hm), cconv_single hL]
    field_simp
    ring
  rw [this, zero_div]

/-- Two iterations suffice for a scaled, delayed copy. -/
theorem greedyRun_copy {n : Nat} {dt : ℝ} {u w : Nat → ℝ} {b : ℝ} {L : Nat} {phase : String}
    {minderr : ℝ} {itmax k : Nat} {P : Nat → List ℝ} (hdt : dt ≠ 0) (hL : Lag n phase L)
    (hu : ∀ m < n, u m = b * w (cyc n ((m : ℤ) - L))) (hE : energy n u ≠ 0) (h0 : 0 ≤ minderr)
    (h1 : minderr < 100) (h2 : 2 ≤ itmax) (h : GreedyRun n dt u w phase minderr itmax k P) :
    k = 2 ∧ misfit n dt u w (smp (P 1)) = 0 ∧ misfit n dt u w (smp (P 2)) = 0 := by
  have m0 : misfit n dt u w (smp (P 0)) = 1 := by rw [h.start]; exact misfit_start hE
  have k1 : 1 ≤ k := by
    rcases h.stop with h | h | ⟨j, h, _⟩
    · omega
    · exact absurd h.2 hE
    · omega
  have m1 : misfit n dt u w (smp (P 1)) = 0 := by
    obtain ⟨i, v, _, _, hb, _⟩ := h.spike 0 (by omega)
    have := hb L (b / dt) hL
    rw [h.start, misfit_copy hdt hL.1 hu] at this
    exact le_antisymm this (misfit_nonneg ..)
  have k2 : 2 ≤ k := by
    by_contra hk
    have hk : k = 1 := by omega
    rcases h.stop with h | h | ⟨j, hj, hs⟩
    · omega
    · omega
    · have : j = 0 := by omega
      subst this
      rw [m0] at hs
      rw [zero_add, m1] at hs
      linarith
  have m2 : misfit n dt u w (smp (P 2)) = 0 := by
    have := bestSpike_le (greedyRun_length h 1 (by omega)) (h.spike 1 (by omega))
    rw [m1] at this
    exact le_antisymm this (misfit_nonneg ..)
  refine ⟨?_, m1, m2⟩
  by_contra hk
  have := h.go 1 (by omega)
  rw [m1, show 1 + 1 = 2 from rfl, m2] at this
  linarith

/-- For an undelayed copy the spike is at lag zero. -/
theorem greedyRun_self {n : Nat} {dt : ℝ} {u w : Nat → ℝ} {b : ℝ} {phase : String}
    {minderr : ℝ} {itmax k : Nat} {P : Nat → List ℝ} (hdt : dt ≠ 0) (hL : Lag n phase 0)
    (hu : ∀ m < n, u m = b * w m) (hE : energy n u ≠ 0) (h0 : 0 ≤ minderr)
    (h1 : minderr < 100) (h2 : 2 ≤ itmax) (h : GreedyRun n dt u w phase minderr itmax k P) :
    P 2 = (List.replicate n (0 : ℝ)).set 0 (b / dt) := by
  have hu' : ∀ m < n, u m = b * w (cyc n ((m : ℤ) - (0 : ℕ))) := by
    intro m hm
    rw [hu m hm]
    simp [cyc_of_lt hm]
  obtain ⟨hk, m1, m2⟩ := greedyRun_copy hdt hL hu' hE h0 h1 h2 h
  have key : ∀ p p' : List ℝ, p.set 0 (b / dt) = (List.replicate n (0 : ℝ)).set 0 (b / dt) →
      BestSpike n dt u w phase p p' → p' = (List.replicate n (0 : ℝ)).set 0 (b / dt) := by
    intro p p' hp hb
    obtain ⟨i, v, _, e, _, hf, hv⟩ := hb
    have hz : misfit n dt u w (smp (p.set 0 (b / dt))) = 0 := by
      rw [hp]; exact misfit_copy hdt hL.1 hu'
    have hi : i = 0 := by
      by_contra hi
      have := hf 0 (b / dt) (by omega)
      rw [hz] at this
      exact absurd this (not_lt.2 (misfit_nonneg ..))
    subst hi
    have hv' : v = b / dt := by
      by_contra hne
      have := hv (b / dt) (fun h => hne h.symm)
      rw [hz] at this
      exact absurd this (not_lt.2 (misfit_nonneg ..))
    rw [e, hv', hp]
  have p1 := key (P 0) (P 1) (by rw [h.start]) (h.spike 0 (by omega))
  exact key (P 1) (P 2) (by rw [p1, List.set_set]) (h.spike 1 (by omega))

end Rfsed.Synrf
