import Verif.Proofs.IterSteady
import Verif.Props.Ties
import Verif.Props.ContinuityRF

/-!
# C137: small changes of the traces change an iterative receiver function in proportion, unless an iteration is a tie
-/

namespace Rfsed.Props
open Rfsed Synrf Spec Finset Topology Filter

section
variable {X : Type} [NormedAddCommGroup X] [NormedSpace ℝ X] {x0 : X}

theorem bigO_bound {F : X → ℝ} (h : DifferentiableAt ℝ F x0) :
    ∃ c > 0, ∀ᶠ x in 𝓝 x0, |F x - F x0| ≤ c * ‖x - x0‖ := by
  obtain ⟨c, hc, e⟩ := h.isBigO_sub.exists_pos
  refine ⟨c, hc, ?_⟩
  filter_upwards [e.bound] with x a
  rwa [Real.norm_eq_abs] at a

theorem bigO_bound_all {F : X → Nat → ℝ} {N : Nat} (h : ∀ m < N, DifferentiableAt ℝ (fun x => F x m) x0) :
    ∃ c > 0, ∀ᶠ x in 𝓝 x0, ∀ m < N, |F x m - F x0 m| ≤ c * ‖x - x0‖ := by
  have hb : ∀ m, ∃ c > 0, m < N → ∀ᶠ x in 𝓝 x0, |F x m - F x0 m| ≤ c * ‖x - x0‖ := by
    intro m
    by_cases hm : m < N
    · obtain ⟨c, hc, e⟩ := bigO_bound (h m hm)
      exact ⟨c, hc, fun _ => e⟩
    · exact ⟨1, one_pos, fun h => absurd h hm⟩
  choose c hc hcb using hb
  have hall : ∀ᶠ x in 𝓝 x0, ∀ m ∈ range N, |F x m - F x0 m| ≤ c m * ‖x - x0‖ := by
    rw [Filter.eventually_all_finset]
    exact fun m hm => hcb m (mem_range.1 hm)
  refine ⟨∑ m ∈ range N, c m + 1, by have := sum_nonneg (s := range N) (fun m _ => (hc m).le); linarith, ?_⟩
  filter_upwards [hall] with x hx m hm
  have h1 : c m ≤ ∑ m ∈ range N, c m := single_le_sum (fun j _ => (hc j).le) (mem_range.2 hm)
  have h2 := hx m (mem_range.2 hm)
  have h3 := norm_nonneg (x - x0)
  nlinarith

/-- one more spike on a train of spikes, after the Gaussian -/
theorem cconv_extra {n : Nat} {p : List ℝ} (hp : p.length = n) {i : Nat} (hi : i < n) (d : ℝ) (g : Nat → ℝ) (m : Nat) :
    cconv n (smp (p.set i (smp p i + d))) g m = cconv n (smp p) g m + d * g (cyc n ((m : ℤ) - i)) :=
  cconv_spike hi hp d g m

/-- the receiver functions near a steady run -/
theorem steady_bound {N : Nat} {f g : X → Nat → ℝ} {dt preonset a minderr : ℝ} {nt : Option Nat} {itmax : Nat}
    {phase : String} {R : IterResult}
    (hf : ∀ m < N, DifferentiableAt ℝ (fun x => f x m) x0) (hg : ∀ m < N, DifferentiableAt ℝ (fun x => g x m) x0)
    (h : deconv_iterative ((List.range N).map (f x0)) ((List.range N).map (g x0)) dt nt preonset a itmax minderr phase =
      .ok R)
    (hnt : nt = none ∨ nt = some N) (hm : 0 ≤ minderr)
    (hrun : let n := nextPow2 N
      ∃ P, SteadyRun n dt (lowpass n dt a ((List.range N).map (f x0))) (lowpass n dt a ((List.range N).map (g x0))) phase
        minderr itmax R.it P)
    (hcos : Real.cos (2 * Real.pi * (pyInt (preonset / dt) : ℝ) / nextPow2 N) ≠ 0) :
    ∃ rf, R.rf = some rf ∧ rf.length = N ∧ ∃ c > 0, ∀ᶠ x in 𝓝 x0, ∃ R' rf',
      deconv_iterative ((List.range N).map (f x)) ((List.range N).map (g x)) dt nt preonset a itmax minderr phase = .ok R' ∧
      R'.it = R.it ∧ R'.rf = some rf' ∧ rf'.length = N ∧ ∀ m < N, |smp rf' m - smp rf m| ≤ c * ‖x - x0‖ := by
  obtain ⟨P, hP⟩ := hrun
  by_cases hcl : ∀ j < R.it, ∃ i v, Lag (nextPow2 N) phase i ∧ P (j + 1) = (P j).set i v ∧ ∀ i' v',
      Lag (nextPow2 N) phase i' → i' ≠ i →
      misfit (nextPow2 N) dt (lowpass (nextPow2 N) dt a ((List.range N).map (f x0)))
        (lowpass (nextPow2 N) dt a ((List.range N).map (g x0))) (smp (P (j + 1))) <
      misfit (nextPow2 N) dt (lowpass (nextPow2 N) dt a ((List.range N).map (f x0)))
        (lowpass (nextPow2 N) dt a ((List.range N).map (g x0))) (smp ((P j).set i' v'))
  · obtain ⟨rf, mis, hev, hd⟩ := c137_differentiable hf hg h hnt hm ⟨P, hP.toGreedyRun, hcl, hP.halt⟩ hcos
    have h0 := hev.self_of_nhds
    rw [h, Except.ok.injEq] at h0
    obtain ⟨c, hc, hb⟩ := bigO_bound_all (F := rf) (N := N) (x0 := x0) (fun m _ => (hd m).1)
    refine ⟨(List.range N).map (rf x0), by rw [h0], by simp, c, hc, ?_⟩
    filter_upwards [hev, hb] with x h1 h2
    refine ⟨_, _, h1, rfl, rfl, by simp, fun m hm => ?_⟩
    rw [smp_map_range _ hm, smp_map_range _ hm]
    exact h2 m hm
  · push Not at hcl
    obtain ⟨j, hj, hnot⟩ := hcl
    obtain ⟨hjk, hno⟩ := (hP.alone j hj).resolve_left (by
      rintro ⟨i, v, a1, a2, a3⟩
      obtain ⟨i', v', b1, b2, b3⟩ := hnot i v a1 a2
      exact absurd (a3 i' v' b1 b2) (not_lt.2 b3))
    have hlen : ∀ (k : X → Nat → ℝ) x, ((List.range N).map (k x)).length = N := fun k x => by simp
    have hnt' : ∀ x, nt.getD ((List.range N).map (f x)).length = ((List.range N).map (f x)).length := by
      intro x
      rw [hlen]
      rcases hnt with rfl | rfl
      · rfl
      · rfl
    have hmas := deconv_master h (hnt' x0)
    simp only [hlen] at hmas
    obtain ⟨hdt, hn2, hitmax, hcase0⟩ := hmas
    have hn : 0 < nextPow2 N := by omega
    set n := nextPow2 N with hN
    have hu : Smooth x0 (fun x => lowpass n dt a ((List.range N).map (f x))) := smooth_lowpass (smooth_smp hf)
    have hw : Smooth x0 (fun x => lowpass n dt a ((List.range N).map (g x))) := smooth_lowpass (smooth_smp hg)
    obtain ⟨hU, hE⟩ := no_bestSpike hn (hP.spike j hj)
    obtain ⟨Q, hQl, hQs, hPQ, d, hds, hd0, hev⟩ := exhausted_near (phase := phase) (minderr := minderr) (itmax := itmax)
      (k := j) (P := P) hn hdt hu hw hU hE hP.start (fun i hi => hP.spike i (by omega))
      (fun i hi => (hP.alone i (by omega)).resolve_right (by omega)) (fun i hi => hP.go i (by omega)) hno
      (by
        rcases hP.halt with e | ⟨j', e, hlt⟩
        · left; omega
        · right
          have : j' = j := by omega
          subst this
          rw [hno] at hlt
          linarith) (by omega)
    obtain ⟨rf, hrf, hrl, hrv⟩ : ∃ rf, R.rf = some rf ∧ rf.length = N ∧ ∀ m < N, smp rf m =
        cconv n (smp (Q x0)) (gaussPulse dt n a) (cyc n ((m : ℤ) - pyInt (preonset / dt))) := by
      rcases hcase0 with ⟨P', rf, hg', hrf, hl, -, -, -, -, hval⟩ | ⟨-, -, -, -, -, e2⟩
      · refine ⟨rf, hrf, hl, fun m hm => ?_⟩
        rw [hval hcos m hm]
        have : P' R.it = P R.it := spikes_prefix (by rw [hg'.start, hP.start]) hg'.spike hP.spike _ le_rfl
        rw [this, ← hjk, hPQ]
      · rcases e2 with e | e
        · exact absurd e hE
        · exact absurd e hU
    obtain ⟨c1, hc1, hb1⟩ := bigO_bound_all (F := fun x m => cconv n (smp (Q x)) (gaussPulse dt n a)
        (cyc n ((m : ℤ) - pyInt (preonset / dt)))) (N := N) (x0 := x0) (fun m _ =>
      smooth_cconv (n := n) (g := fun _ => gaussPulse dt n a) hQs (fun _ => differentiableAt_const _) _)
    obtain ⟨c2, hc2, hb2⟩ := bigO_bound_all (F := d) (N := n) (x0 := x0) (fun m _ => hds m)
    set G := ∑ m ∈ range n, |gaussPulse dt n a m| with hG
    have hG0 : 0 ≤ G := sum_nonneg fun _ _ => abs_nonneg _
    have htot := (c112_iterative (uin := (List.range N).map (f x0)) (win := (List.range N).map (g x0)) (dt := dt)
      (nt := nt) (preonset := preonset) (a := a) (itmax := itmax) (phase := phase) hm).1 ⟨R, h⟩
    refine ⟨rf, hrf, hrl, c1 + c2 * G, by positivity, ?_⟩
    filter_upwards [hev, hb1, hb2] with x ⟨b1, b2, b3⟩ k1 k2
    obtain ⟨R', hR'⟩ := (c112_iterative (uin := (List.range N).map (f x)) (win := (List.range N).map (g x)) (dt := dt)
      (nt := nt) (preonset := preonset) (a := a) (itmax := itmax) (phase := phase) hm).2 (by
        simp only [hlen] at htot ⊢
        obtain ⟨t1, t2, t3, t4⟩ := htot
        refine ⟨t1, t2, t3, t4.imp id (fun ⟨e, t⟩ => ⟨e, ?_⟩)⟩
        rcases t with t | t | t
        · exact Or.inl t
        · exact Or.inr (Or.inl t)
        · exfalso
          apply hU
          rw [energy_add_zero_iff]
          intro m _
          unfold lowpass cconv
          refine sum_eq_zero fun j _ => ?_
          have : smp ((List.range N).map (f x0)) j = 0 := by
            by_cases hj : j < N
            · rw [smp_map_range _ hj]
              exact t _ (List.mem_map.2 ⟨j, List.mem_range.2 hj, rfl⟩)
            · exact getD_of_le (by simpa using hj)
          rw [this, zero_mul])
    have hmas := deconv_master hR' (hnt' x)
    simp only [hlen, ← hN] at hmas
    obtain ⟨-, -, hit', hcase⟩ := hmas
    rcases hcase with ⟨P', rf', hg', hrf', hl', -, -, -, -, hval⟩ | ⟨-, -, -, -, -, e2⟩
    · obtain ⟨e1, e2, i, hi, e3⟩ := b3 _ _ hg' hit'
      refine ⟨R', rf', hR', by omega, hrf', hl', fun m hm => ?_⟩
      have hv := hval hcos m hm
      rw [e1, e3, cconv_extra (hQl x) hi.1] at hv
      rw [hv, hrv m hm]
      have h1 := k1 m hm
      have h2 := k2 i hi.1
      rw [hd0 i hi, sub_zero] at h2
      have h3 : |gaussPulse dt n a (cyc n ((cyc n ((m : ℤ) - pyInt (preonset / dt)) : ℤ) - i))| ≤ G :=
        single_le_sum (f := fun m => |gaussPulse dt n a m|) (fun _ _ => abs_nonneg _) (mem_range.2 (cyc_lt hn _))
      have h4 : |d x i * gaussPulse dt n a (cyc n ((cyc n ((m : ℤ) - pyInt (preonset / dt)) : ℤ) - i))| ≤
          c2 * ‖x - x0‖ * G := by
        rw [abs_mul]
        exact mul_le_mul h2 h3 (abs_nonneg _) (by positivity)
      rw [add_sub_right_comm]
      refine (abs_add_le _ _).trans ?_
      linarith
    · rcases e2 with e | e
      · exact absurd e b2
      · exact absurd e b1

end

/-- **C137** If at two given traces the iterative deconvolution makes all its decisions clearly (its last iteration may find
nothing at all to explain), then changing the samples of both by at most `δ` changes the samples of the receiver function by
at most `C δ`, for every `δ` small enough, and not the number of iterations. -/
theorem c137_proportional {uin win : List ℝ} {dt preonset a minderr : ℝ} {nt : Option Nat} {itmax : Nat}
    {phase : String} {R : IterResult}
    (h : deconv_iterative uin win dt nt preonset a itmax minderr phase = .ok R)
    (hnt : nt = none ∨ nt = some uin.length) (hm : 0 ≤ minderr)
    (hrun : let n := nextPow2 uin.length
      ∃ P, SteadyRun n dt (lowpass n dt a uin) (lowpass n dt a win) phase minderr itmax R.it P)
    (hcos : Real.cos (2 * Real.pi * (pyInt (preonset / dt) : ℝ) / nextPow2 uin.length) ≠ 0) :
    ∃ rf, R.rf = some rf ∧ ∃ C > 0, ∃ δ₀ > 0, ∀ δ, 0 < δ → δ ≤ δ₀ → ∀ uin' win', SamplesWithin δ uin uin' →
      SamplesWithin δ win win' → ∃ R' rf', deconv_iterative uin' win' dt nt preonset a itmax minderr phase = .ok R' ∧
        R'.it = R.it ∧ R'.rf = some rf' ∧ SamplesWithin (C * δ) rf rf' := by
  set N := uin.length with hN
  have hlw : win.length = N := ((c112_iterative hm).1 ⟨R, h⟩).1.symm
  let f : (Fin N → ℝ) × (Fin N → ℝ) → Nat → ℝ := fun x m => if hm : m < N then x.1 ⟨m, hm⟩ else 0
  let g : (Fin N → ℝ) × (Fin N → ℝ) → Nat → ℝ := fun x m => if hm : m < N then x.2 ⟨m, hm⟩ else 0
  let pt : List ℝ → List ℝ → (Fin N → ℝ) × (Fin N → ℝ) := fun l l' => (fun i => smp l i, fun i => smp l' i)
  have ef : ∀ l l' : List ℝ, l.length = N → (List.range N).map (f (pt l l')) = l := by
    intro l l' hl
    apply List.ext_getElem
    · simp [hl]
    · intro m h1 h2
      have hm : m < N := by simpa using h1
      rw [List.getElem_map, List.getElem_range]
      simp only [f, pt, dif_pos hm]
      rw [smp, getD_of_lt h2]
  have eg : ∀ l l' : List ℝ, l'.length = N → (List.range N).map (g (pt l l')) = l' := by
    intro l l' hl
    apply List.ext_getElem
    · simp [hl]
    · intro m h1 h2
      have hm : m < N := by simpa using h1
      rw [List.getElem_map, List.getElem_range]
      simp only [g, pt, dif_pos hm]
      rw [smp, getD_of_lt h2]
  have hf : ∀ m < N, DifferentiableAt ℝ (fun x => f x m) (pt uin win) := by
    intro m hm
    simp only [f, dif_pos hm]
    fun_prop
  have hg : ∀ m < N, DifferentiableAt ℝ (fun x => g x m) (pt uin win) := by
    intro m hm
    simp only [g, dif_pos hm]
    fun_prop
  obtain ⟨rf, hrf, hrl, c, hc, hev⟩ := steady_bound (x0 := pt uin win) (f := f) (g := g) (N := N) (dt := dt) (a := a)
    (preonset := preonset) (minderr := minderr) (nt := nt) (itmax := itmax) (phase := phase) (R := R) hf hg
    (by rw [ef _ _ rfl, eg _ _ hlw]; exact h) hnt hm (by rw [ef _ _ rfl, eg _ _ hlw]; exact hrun) hcos
  obtain ⟨δ₀, hδ₀, hball⟩ := Metric.eventually_nhds_iff.1 hev
  refine ⟨rf, hrf, c, hc, δ₀, hδ₀, fun δ hδ hδδ uin' win' hu' hw' => ?_⟩
  rw [samplesWithin_iff] at hu' hw'
  have hd : dist (pt uin' win') (pt uin win) < δ := by
    rw [Prod.dist_eq, max_lt_iff, dist_pi_lt_iff hδ, dist_pi_lt_iff hδ]
    refine ⟨fun i => ?_, fun i => ?_⟩
    · rw [Real.dist_eq]; exact hu'.2 i i.2
    · rw [Real.dist_eq]; exact hw'.2 i (by rw [hlw]; exact i.2)
  obtain ⟨R', rf', h1, h2, h3, h4, h5⟩ := hball (hd.trans_le hδδ)
  rw [ef _ _ (by omega), eg _ _ (by omega)] at h1
  refine ⟨R', rf', h1, h2, h3, ?_⟩
  rw [samplesWithin_iff]
  refine ⟨by omega, fun m hm => (h5 m (by omega)).trans_lt ?_⟩
  rw [dist_eq_norm] at hd
  exact mul_lt_mul_of_pos_left hd hc

end Rfsed.Props
