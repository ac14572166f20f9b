import Verif.Proofs.IterSmooth
import Verif.Props.DeconvTotal

/-!
# C137: iterative receiver functions change smoothly as long as no iteration is a tie
-/

namespace Rfsed.Props
open Rfsed Synrf Spec Finset Topology Filter

section
variable {X : Type} [NormedAddCommGroup X] [NormedSpace ℝ X] {x0 : X}

theorem smooth_smp {N : Nat} {f : X → Nat → ℝ} (hf : ∀ m < N, DifferentiableAt ℝ (fun x => f x m) x0) :
    Smooth x0 (fun x => smp ((List.range N).map (f x))) := by
  intro m
  by_cases hm : m < N
  · simp only [smp_map_range _ hm]
    exact hf m hm
  · have : ∀ x, smp ((List.range N).map (f x)) m = 0 := fun x => getD_of_le (by simpa using hm)
    simp only [this]
    exact differentiableAt_const _

theorem smooth_lowpass {n : Nat} {dt a : ℝ} {l : X → List ℝ} (h : Smooth x0 (fun x => smp (l x))) :
    Smooth x0 (fun x => lowpass n dt a (l x)) := by
  unfold lowpass
  exact smooth_cconv h (fun _ => differentiableAt_const _)

/-- no spike improves the misfit if there is nothing to explain, or nothing to explain it with -/
theorem no_bestSpike {n : Nat} (hn : 0 < n) {dt : ℝ} {u w : Nat → ℝ} {phase : String} {p p' : List ℝ}
    (h : BestSpike n dt u w phase p p') : energy n u ≠ 0 ∧ energy n w ≠ 0 := by
  obtain ⟨i, v, -, -, -, -, h3⟩ := h
  have h4 := h3 (v + 1) (by simp)
  constructor
  · intro e
    unfold misfit at h4
    rw [e, div_zero, div_zero] at h4
    exact lt_irrefl _ h4
  · intro e
    have hw := energy_add_zero_iff.1 e
    have : ∀ q, misfit n dt u w q = energy n u / energy n u := by
      intro q
      unfold misfit
      congr 1
      apply energy_congr
      intro m _
      have : cconv n q w m = 0 := by
        unfold cconv
        exact sum_eq_zero fun j _ => by rw [hw _ (cyc_lt hn _), mul_zero]
      rw [this, mul_zero, sub_zero]
    rw [this, this] at h4
    exact lt_irrefl _ h4

/-- **C137** Let the samples of the two traces depend differentiably on a parameter. If for some value of it the iterative
deconvolution makes all its decisions clearly, then nearby it makes the same number of iterations, and every sample of the
receiver function and every returned misfit depends differentiably on the parameter. -/
theorem c137_differentiable {N : Nat} {f g : X → Nat → ℝ} {dt preonset a minderr : ℝ} {nt : Option Nat} {itmax : Nat}
    {phase : String} {R : IterResult}
    (hf : ∀ m < N, DifferentiableAt ℝ (fun x => f x m) x0) (hg : ∀ m < N, DifferentiableAt ℝ (fun x => g x m) x0)
    (h : deconv_iterative ((List.range N).map (f x0)) ((List.range N).map (g x0)) dt nt preonset a itmax minderr phase =
      .ok R)
    (hnt : nt = none ∨ nt = some N) (hm : 0 ≤ minderr)
    (hclear : let n := nextPow2 N
      ∃ P, ClearRun n dt (lowpass n dt a ((List.range N).map (f x0))) (lowpass n dt a ((List.range N).map (g x0))) phase
        minderr itmax R.it P)
    (hcos : Real.cos (2 * Real.pi * (pyInt (preonset / dt) : ℝ) / nextPow2 N) ≠ 0) :
    ∃ rf mis : X → Nat → ℝ,
      (∀ᶠ x in 𝓝 x0, deconv_iterative ((List.range N).map (f x)) ((List.range N).map (g x)) dt nt preonset a itmax
        minderr phase = .ok ⟨some ((List.range N).map (rf x)), (List.range (R.it - 1)).map (mis x), R.it⟩) ∧
      ∀ m, DifferentiableAt ℝ (fun x => rf x m) x0 ∧ DifferentiableAt ℝ (fun x => mis x m) x0 := by
  obtain ⟨P, hP⟩ := hclear
  have hlen : ∀ (k : X → Nat → ℝ) x, ((List.range N).map (k x)).length = N := fun k x => by simp
  have hnt0 : ∀ x, nt = none ∨ nt = some ((List.range N).map (f x)).length := fun x => by rw [hlen]; exact hnt
  have hnt' : ∀ x, nt.getD ((List.range N).map (f x)).length = ((List.range N).map (f x)).length := by
    intro x
    rw [hlen]
    rcases hnt with rfl | rfl
    · rfl
    · rfl
  have hmas := deconv_master h (hnt' x0)
  simp only [hlen] at hmas
  obtain ⟨hdt, hn2, hitmax, -⟩ := hmas
  have hn : 0 < nextPow2 N := by omega
  set n := nextPow2 N with hN
  have hu : Smooth x0 (fun x => lowpass n dt a ((List.range N).map (f x))) := smooth_lowpass (smooth_smp hf)
  have hw : Smooth x0 (fun x => lowpass n dt a ((List.range N).map (g x))) := smooth_lowpass (smooth_smp hg)
  -- the decisions near `x0`
  have hrun : ∃ Q : X → Nat → List ℝ, (∀ j, Smooth x0 (fun x => smp (Q x j))) ∧
      (0 < R.it → energy n (lowpass n dt a ((List.range N).map (f x0))) ≠ 0) ∧
      ∀ᶠ x in 𝓝 x0, (0 < R.it → energy n (lowpass n dt a ((List.range N).map (f x))) ≠ 0 ∧
        energy n (lowpass n dt a ((List.range N).map (g x))) ≠ 0) ∧ (R.it = 0 → itmax = 0) ∧
        GreedyRun n dt (lowpass n dt a ((List.range N).map (f x))) (lowpass n dt a ((List.range N).map (g x))) phase
          minderr itmax R.it (Q x) := by
    by_cases h0 : R.it = 0
    · have him : itmax = 0 := by
        rcases hP.halt with e | ⟨j, e, -⟩ <;> omega
      refine ⟨fun _ _ => List.replicate n 0, fun j m => differentiableAt_const _, fun h => absurd h0 (by omega),
        .of_forall fun x => ⟨fun h => absurd h0 (by omega), fun _ => him, rfl, ?_, ?_, Or.inl (by omega)⟩⟩
      · intro j hj; omega
      · intro j hj; omega
    · obtain ⟨hU, hE⟩ := no_bestSpike hn (hP.spike 0 (by omega))
      obtain ⟨I, hI, -, hev⟩ := clearRun_near hn hdt hu hw hU hE hP
      refine ⟨fun x => follow n dt (lowpass n dt a ((List.range N).map (f x))) (lowpass n dt a ((List.range N).map (g x))) I,
        fun j => smooth_follow hu hw hE hI j, fun _ => hU, ?_⟩
      filter_upwards [hev] with x ⟨a1, a2, a3⟩
      exact ⟨fun _ => ⟨a1, a2⟩, fun h => absurd h h0, a3⟩
  obtain ⟨Q, hQ, hU0, hev⟩ := hrun
  refine ⟨fun x m => cconv n (smp (Q x R.it)) (gaussPulse dt n a) (cyc n ((m : ℤ) - pyInt (preonset / dt))),
    fun x j => misfit n dt (lowpass n dt a ((List.range N).map (f x))) (lowpass n dt a ((List.range N).map (g x)))
      (smp (Q x (j + 1))) * (if 0 < R.it then 1 else 0), ?_, fun m => ⟨?_, ?_⟩⟩
  · filter_upwards [hev] with x ⟨hUE, him, hgr⟩
    have htot := (c112_iterative (uin := (List.range N).map (f x0)) (win := (List.range N).map (g x0)) (dt := dt)
      (nt := nt) (preonset := preonset) (a := a) (itmax := itmax) (phase := phase) hm).1 ⟨R, h⟩
    obtain ⟨R', hR'⟩ := (c112_iterative (uin := (List.range N).map (f x)) (win := (List.range N).map (g x)) (dt := dt)
      (nt := nt) (preonset := preonset) (a := a) (itmax := itmax) (phase := phase) hm).2 (by
        simp only [hlen] at htot ⊢
        obtain ⟨t1, t2, t3, t4⟩ := htot
        refine ⟨t1, t2, t3, t4.imp id (fun ⟨e, t⟩ => ⟨e, ?_⟩)⟩
        rcases t with t | t | t
        · exact Or.inl t
        · exact Or.inr (Or.inl t)
        · by_cases h0 : 0 < R.it
          · exfalso
            apply hU0 h0
            rw [energy_add_zero_iff]
            intro m _
            unfold lowpass cconv
            refine sum_eq_zero fun j _ => ?_
            have : smp ((List.range N).map (f x0)) j = 0 := by
              by_cases hj : j < N
              · rw [smp_map_range _ hj]
                exact t _ (List.mem_map.2 ⟨j, List.mem_range.2 hj, rfl⟩)
              · exact getD_of_le (by simpa using hj)
            rw [this, zero_mul]
          · exact Or.inr (Or.inl (him (by omega))))
    rw [hR']
    have hmas := deconv_master hR' (hnt' x)
    simp only [hlen, ← hN] at hmas
    obtain ⟨-, -, hit', hcase⟩ := hmas
    rcases hcase with ⟨P', rf', hg', hrf, hl, hrl, -, -, hrms, hval⟩ | ⟨e1, -, -, -, -, e2⟩
    · have heq : R'.it = R.it ∧ ∀ j ≤ R.it, P' j = Q x j := by
        by_cases h0 : 0 < R.it
        · exact greedyRun_unique hgr hg' hitmax hit' (hUE h0).1
        · have h1 : R.it = 0 := by omega
          have h2 := him h1
          have h3 : R'.it = 0 := by omega
          refine ⟨by omega, fun j hj => ?_⟩
          have : j = 0 := by omega
          subst this
          rw [hg'.start, hgr.start]
      obtain ⟨hit, hPQ⟩ := heq
      rw [hit] at hrl hrms hval
      have e1 : rf' = (List.range N).map (fun m : Nat => cconv n (smp (Q x R.it)) (gaussPulse dt n a)
          (cyc n ((m : ℤ) - pyInt (preonset / dt)))) := by
        apply List.ext_getElem
        · simp [hl]
        · intro m h1 h2
          have hm' : m < N := by simpa using h2
          have := hval hcos m hm'
          rw [hPQ _ (le_refl _)] at this
          rw [List.getElem_map, List.getElem_range, ← this, smp, getD_of_lt h1]
      have e2 : R'.rms = (List.range (R.it - 1)).map (fun j : Nat => misfit n dt (lowpass n dt a ((List.range N).map (f x)))
          (lowpass n dt a ((List.range N).map (g x))) (smp (Q x (j + 1))) * (if 0 < R.it then 1 else 0)) := by
        have hl' : R'.rms.length = R.it - 1 := by
          rw [hrl]
          split_ifs with h0
          · rw [him h0, h0]
          · rfl
        apply List.ext_getElem
        · simp [hl']
        · intro j h1 h2
          have hj : j + 1 < R.it := by omega
          have := hrms j hj
          rw [List.getElem?_eq_getElem h1] at this
          rw [List.getElem_map, List.getElem_range, ← hPQ _ (by omega), if_pos (by omega), mul_one]
          exact Option.some.inj this
      rw [Except.ok.injEq]
      cases R'
      simp only at hit hrf e2
      rw [hit, hrf, e2, e1]
    · exfalso
      by_cases h0 : 0 < R.it
      · rcases e2 with e | e
        · exact (hUE h0).2 e
        · exact (hUE h0).1 e
      · have := him (by omega)
        omega
  · exact smooth_cconv (n := n) (g := fun _ => gaussPulse dt n a) (hQ R.it) (fun _ => differentiableAt_const _) _
  · by_cases h0 : 0 < R.it
    · simp only [if_pos h0, mul_one]
      exact smooth_misfit hu hw (hQ (m + 1)) (hU0 h0)
    · simp only [if_neg h0, mul_zero]
      exact differentiableAt_const _

end

end Rfsed.Props
