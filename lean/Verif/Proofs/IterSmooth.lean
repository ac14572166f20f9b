import Verif.Spec.Ties
import Verif.Proofs.DeconvConverge
import Verif.Proofs.Deconv6
import Mathlib.Analysis.Calculus.FDeriv.Mul
import Mathlib.Analysis.Calculus.Deriv.Inv

/-!
# The iterative deconvolution as a function of its traces
-/

namespace Rfsed.Synrf
open Finset Spec Topology Filter Rfsed.Props

section
variable {n : Nat} {dt : ℝ} {u w : Nat → ℝ} {phase : String} {p : List ℝ} {i : Nat}

/-- the residual of a spike train -/
noncomputable def res (n : Nat) (dt : ℝ) (u w : Nat → ℝ) (p : List ℝ) (m : Nat) : ℝ := u m - dt * cconv n (smp p) w m

/-- the correlation of the residual with the denominator at lag `i` -/
noncomputable def cor (n : Nat) (dt : ℝ) (u w : Nat → ℝ) (p : List ℝ) (i : Nat) : ℝ := corr n (res n dt u w p) w i

/-- the best value for the spike at lag `i` -/
noncomputable def bestVal (n : Nat) (dt : ℝ) (u w : Nat → ℝ) (p : List ℝ) (i : Nat) : ℝ :=
  smp p i + cor n dt u w p i / energy n w / dt

theorem misfit_set (hn : 0 < n) (hdt : dt ≠ 0) (hE : energy n w ≠ 0) (hp : p.length = n) (hi : i < n) (v : ℝ) :
    misfit n dt u w (smp (p.set i v)) = (energy n (res n dt u w p) - cor n dt u w p i ^ 2 / energy n w +
      dt ^ 2 * (v - bestVal n dt u w p i) ^ 2 * energy n w) / energy n u := by
  unfold misfit
  congr 1
  have h3 := spike_energy hn (res n dt u w p) w i (dt * (v - smp p i)) hE
  simp only [← corr_eq hn] at h3
  have e : energy n (fun m => u m - dt * cconv n (smp (p.set i v)) w m) =
      energy n (fun m => res n dt u w p m - dt * (v - smp p i) * w (cyc n ((m : ℤ) - i))) := by
    apply energy_congr
    intro m _
    have := cconv_spike hi hp (v - smp p i) w m
    rw [show smp p i + (v - smp p i) = v by ring] at this
    rw [this]
    unfold res
    ring
  rw [e, h3]
  unfold bestVal
  change energy n (res n dt u w p) - (cor n dt u w p i / energy n w) ^ 2 * energy n w +
    (dt * (v - smp p i) - cor n dt u w p i / energy n w) ^ 2 * energy n w = _
  field_simp
  ring

theorem misfit_best (hn : 0 < n) (hdt : dt ≠ 0) (hE : energy n w ≠ 0) (hp : p.length = n) (hi : i < n) :
    misfit n dt u w (smp (p.set i (bestVal n dt u w p i))) =
      (energy n (res n dt u w p) - cor n dt u w p i ^ 2 / energy n w) / energy n u := by
  rw [misfit_set hn hdt hE hp hi]
  simp

/-- a larger correlation means a better spike -/
theorem misfit_lt_of_cor (hn : 0 < n) (hdt : dt ≠ 0) (hE : energy n w ≠ 0) (hU : energy n u ≠ 0) (hp : p.length = n)
    (hi : i < n) {i' : Nat} (hi' : i' < n) (h : |cor n dt u w p i'| < |cor n dt u w p i|) (v' : ℝ) :
    misfit n dt u w (smp (p.set i (bestVal n dt u w p i))) < misfit n dt u w (smp (p.set i' v')) := by
  have hE' : 0 < energy n w := lt_of_le_of_ne (energy_nonneg _ _) (Ne.symm hE)
  have hU' : 0 < energy n u := lt_of_le_of_ne (energy_nonneg _ _) (Ne.symm hU)
  rw [misfit_best hn hdt hE hp hi, misfit_set hn hdt hE hp hi']
  apply div_lt_div_of_pos_right _ hU'
  have h2 : cor n dt u w p i' ^ 2 < cor n dt u w p i ^ 2 := sq_lt_sq.2 h
  have h3 := div_lt_div_of_pos_right h2 hE'
  have h4 : 0 ≤ dt ^ 2 * (v' - bestVal n dt u w p i') ^ 2 * energy n w := by positivity
  linarith

theorem bestSpike_of_cor (hn : 0 < n) (hdt : dt ≠ 0) (hE : energy n w ≠ 0) (hU : energy n u ≠ 0) (hp : p.length = n)
    (hi : Lag n phase i) (h : ∀ i', Lag n phase i' → i' ≠ i → |cor n dt u w p i'| < |cor n dt u w p i|) :
    BestSpike n dt u w phase p (p.set i (bestVal n dt u w p i)) := by
  have hE' : 0 < energy n w := lt_of_le_of_ne (energy_nonneg _ _) (Ne.symm hE)
  have hU' : 0 < energy n u := lt_of_le_of_ne (energy_nonneg _ _) (Ne.symm hU)
  have hown : ∀ v', v' ≠ bestVal n dt u w p i →
      misfit n dt u w (smp (p.set i (bestVal n dt u w p i))) < misfit n dt u w (smp (p.set i v')) := by
    intro v' hv
    rw [misfit_best hn hdt hE hp hi.1, misfit_set hn hdt hE hp hi.1]
    apply div_lt_div_of_pos_right _ hU'
    have h1 : v' - bestVal n dt u w p i ≠ 0 := sub_ne_zero.2 hv
    have : 0 < dt ^ 2 * (v' - bestVal n dt u w p i) ^ 2 * energy n w := by positivity
    linarith
  refine ⟨i, _, hi, rfl, ?_, ?_, hown⟩
  · intro i' v' hi'
    by_cases e : i' = i
    · subst e
      by_cases ev : v' = bestVal n dt u w p i'
      · rw [ev]
      · exact (hown v' ev).le
    · exact (misfit_lt_of_cor hn hdt hE hU hp hi.1 hi'.1 (h i' hi' e) v').le
  · intro i' v' hlt
    have hl : Lag n phase i' := ⟨by have := hi.1; omega, fun q => by have := hi.2 q; omega⟩
    exact misfit_lt_of_cor hn hdt hE hU hp hi.1 hl.1 (h i' hl (by omega)) v'

/-- the clear winner of an iteration has the largest correlation and its best value -/
theorem cor_of_alone (hn : 0 < n) (hdt : dt ≠ 0) (hE : energy n w ≠ 0) (hU : energy n u ≠ 0) (hp : p.length = n)
    {p' : List ℝ} (hb : BestSpike n dt u w phase p p') {v : ℝ} (hi : Lag n phase i) (hp' : p' = p.set i v)
    (h : ∀ i' v', Lag n phase i' → i' ≠ i → misfit n dt u w (smp p') < misfit n dt u w (smp (p.set i' v'))) :
    p' = p.set i (bestVal n dt u w p i) ∧
      ∀ i', Lag n phase i' → i' ≠ i → |cor n dt u w p i'| < |cor n dt u w p i| := by
  have hE' : 0 < energy n w := lt_of_le_of_ne (energy_nonneg _ _) (Ne.symm hE)
  have hU' : 0 < energy n u := lt_of_le_of_ne (energy_nonneg _ _) (Ne.symm hU)
  obtain ⟨i0, v0, hl0, e0, hle, -, hv0⟩ := hb
  have hi0 : i0 = i := by
    by_contra hne
    have := h i0 v0 hl0 hne
    rw [e0] at this
    exact lt_irrefl _ this
  subst hi0
  have hv : v0 = bestVal n dt u w p i0 := by
    by_contra hne
    have h1 := hv0 _ (Ne.symm hne)
    rw [e0, misfit_best hn hdt hE hp hi.1, misfit_set hn hdt hE hp hi.1] at h1
    rw [div_lt_div_iff_of_pos_right hU'] at h1
    have : 0 ≤ dt ^ 2 * (v0 - bestVal n dt u w p i0) ^ 2 * energy n w := by positivity
    linarith
  subst hv
  refine ⟨e0, fun i' hi' hne => ?_⟩
  have h1 := h i' (bestVal n dt u w p i') hi' hne
  rw [e0, misfit_best hn hdt hE hp hi.1, misfit_best hn hdt hE hp hi'.1, div_lt_div_iff_of_pos_right hU'] at h1
  have h2 : cor n dt u w p i' ^ 2 / energy n w < cor n dt u w p i0 ^ 2 / energy n w := by linarith
  rw [div_lt_div_iff_of_pos_right hE'] at h2
  exact sq_lt_sq.1 h2

theorem bestSpike_unique {p1 p2 : List ℝ} (h1 : BestSpike n dt u w phase p p1) (h2 : BestSpike n dt u w phase p p2) :
    p1 = p2 := by
  obtain ⟨i1, v1, l1, e1, a1, b1, c1⟩ := h1
  obtain ⟨i2, v2, l2, e2, a2, b2, c2⟩ := h2
  rcases lt_trichotomy i1 i2 with h | h | h
  · have := b2 i1 v1 h
    have h' := a1 i2 v2 l2
    rw [← e1] at this
    rw [← e2] at h'
    linarith
  · subst h
    by_cases hv : v1 = v2
    · rw [e1, e2, hv]
    · have := c1 v2 (Ne.symm hv)
      have h' := a2 i1 v1 l1
      rw [← e2] at this
      rw [← e1] at h'
      linarith
  · have := b1 i2 v2 h
    have h' := a2 i1 v1 l1
    rw [← e2] at this
    rw [← e1] at h'
    linarith

theorem greedyRun_prefix {minderr : ℝ} {itmax k k' : Nat} {P P' : Nat → List ℝ}
    (h : GreedyRun n dt u w phase minderr itmax k P) (h' : GreedyRun n dt u w phase minderr itmax k' P') :
    ∀ j, j ≤ k → j ≤ k' → P j = P' j := by
  intro j
  induction j with
  | zero => intro _ _; rw [h.start, h'.start]
  | succ j ih =>
    intro a b
    have e := ih (by omega) (by omega)
    have h1 := h.spike j (by omega)
    rw [e] at h1
    exact bestSpike_unique h1 (h'.spike j (by omega))

theorem greedyRun_le {minderr : ℝ} {itmax k k' : Nat} {P P' : Nat → List ℝ}
    (h : GreedyRun n dt u w phase minderr itmax k P) (h' : GreedyRun n dt u w phase minderr itmax k' P')
    (hk' : k' ≤ itmax) (hU : energy n u ≠ 0) : k' ≤ k := by
  by_contra hcon
  have hlt : k < k' := by omega
  rcases h.stop with e | ⟨-, e⟩ | ⟨j, rfl, e⟩
  · omega
  · exact hU e
  · have := h'.go j (by omega)
    rw [greedyRun_prefix h h' j (by omega) (by omega), greedyRun_prefix h h' (j + 1) (by omega) (by omega)] at e
    linarith

theorem greedyRun_unique {minderr : ℝ} {itmax k k' : Nat} {P P' : Nat → List ℝ}
    (h : GreedyRun n dt u w phase minderr itmax k P) (h' : GreedyRun n dt u w phase minderr itmax k' P')
    (hk : k ≤ itmax) (hk' : k' ≤ itmax) (hU : energy n u ≠ 0) : k' = k ∧ ∀ j ≤ k, P' j = P j := by
  have e : k' = k := le_antisymm (greedyRun_le h h' hk' hU) (greedyRun_le h' h hk hU)
  subst e
  exact ⟨rfl, fun j hj => (greedyRun_prefix h h' j hj hj).symm⟩

end

section
variable {X : Type} [NormedAddCommGroup X] [NormedSpace ℝ X] {x0 : X}
variable {n : Nat} {dt : ℝ} {u w : X → Nat → ℝ} {phase : String}

/-- the run with the lags `I 0, I 1, …` -/
noncomputable def follow (n : Nat) (dt : ℝ) (u w : Nat → ℝ) (I : Nat → Nat) : Nat → List ℝ
  | 0 => List.replicate n 0
  | j + 1 => (follow n dt u w I j).set (I j) (bestVal n dt u w (follow n dt u w I j) (I j))

theorem follow_length (n : Nat) (dt : ℝ) (u w : Nat → ℝ) (I : Nat → Nat) (j : Nat) :
    (follow n dt u w I j).length = n := by
  induction j with
  | zero => simp [follow]
  | succ j ih => simp [follow, ih]

/-- differentiability of each sample -/
def Smooth (x0 : X) (f : X → Nat → ℝ) : Prop := ∀ m, DifferentiableAt ℝ (fun x => f x m) x0

theorem smooth_energy {f : X → Nat → ℝ} (h : Smooth x0 f) : DifferentiableAt ℝ (fun x => energy n (f x)) x0 := by
  unfold energy
  simp only [pow_two]
  exact DifferentiableAt.fun_sum fun m _ => (h m).fun_mul (h m)

theorem smooth_cconv {f g : X → Nat → ℝ} (hf : Smooth x0 f) (hg : Smooth x0 g) : Smooth x0 (fun x => cconv n (f x) (g x)) := by
  intro m
  unfold cconv
  exact DifferentiableAt.fun_sum fun j _ => (hf j).fun_mul (hg _)

theorem smooth_res {p : X → List ℝ} (hu : Smooth x0 u) (hw : Smooth x0 w) (hp : Smooth x0 (fun x => smp (p x))) :
    Smooth x0 (fun x => res n dt (u x) (w x) (p x)) := by
  intro m
  unfold res
  exact (hu m).fun_sub ((smooth_cconv hp hw m).const_mul dt)

theorem smooth_cor {p : X → List ℝ} (hu : Smooth x0 u) (hw : Smooth x0 w) (hp : Smooth x0 (fun x => smp (p x))) :
    Smooth x0 (fun x => cor n dt (u x) (w x) (p x)) := by
  intro i
  unfold cor corr
  exact DifferentiableAt.fun_sum fun m _ => (smooth_res hu hw hp m).fun_mul (hw _)

theorem smooth_quot {f g : X → ℝ} (hf : DifferentiableAt ℝ f x0) (hg : DifferentiableAt ℝ g x0) (h : g x0 ≠ 0) :
    DifferentiableAt ℝ (fun x => f x / g x) x0 := by
  simp only [div_eq_mul_inv]
  exact hf.fun_mul ((differentiableAt_inv h).comp x0 hg)

theorem smooth_bestVal {p : X → List ℝ} (hu : Smooth x0 u) (hw : Smooth x0 w) (hp : Smooth x0 (fun x => smp (p x)))
    (hE : energy n (w x0) ≠ 0) : Smooth x0 (fun x => bestVal n dt (u x) (w x) (p x)) := by
  intro i
  unfold bestVal
  refine (hp i).fun_add ?_
  simp only [div_eq_mul_inv _ dt]
  exact (smooth_quot (smooth_cor hu hw hp i) (smooth_energy hw) hE).mul_const _

theorem smooth_follow (hu : Smooth x0 u) (hw : Smooth x0 w) (hE : energy n (w x0) ≠ 0) {I : Nat → Nat}
    (hI : ∀ j, I j < n) : ∀ j, Smooth x0 (fun x => smp (follow n dt (u x) (w x) I j)) := by
  intro j
  induction j with
  | zero => intro m; simp only [follow]; exact differentiableAt_const _
  | succ j ih =>
    intro m
    simp only [follow]
    have e : (fun x => smp ((follow n dt (u x) (w x) I j).set (I j)
        (bestVal n dt (u x) (w x) (follow n dt (u x) (w x) I j) (I j))) m) =
        fun x => if m = I j then bestVal n dt (u x) (w x) (follow n dt (u x) (w x) I j) (I j)
          else smp (follow n dt (u x) (w x) I j) m := by
      funext x
      exact smp_set (by rw [follow_length]; exact hI j) _ _
    rw [e]
    split_ifs
    · exact smooth_bestVal hu hw ih hE (I j)
    · exact ih m

theorem smooth_misfit {p : X → List ℝ} (hu : Smooth x0 u) (hw : Smooth x0 w) (hp : Smooth x0 (fun x => smp (p x)))
    (hU : energy n (u x0) ≠ 0) : DifferentiableAt ℝ (fun x => misfit n dt (u x) (w x) (smp (p x))) x0 := by
  unfold misfit
  exact smooth_quot (smooth_energy (f := fun x m => u x m - dt * cconv n (smp (p x)) (w x) m) (smooth_res hu hw hp))
    (smooth_energy hu) hU

/-- a clear run stays the run, with the same lags, when the traces change a little -/
theorem clearRun_near (hn : 0 < n) (hdt : dt ≠ 0) (hu : Smooth x0 u) (hw : Smooth x0 w) (hU : energy n (u x0) ≠ 0)
    (hE : energy n (w x0) ≠ 0) {minderr : ℝ} {itmax k : Nat} {P : Nat → List ℝ}
    (h : ClearRun n dt (u x0) (w x0) phase minderr itmax k P) :
    ∃ I : Nat → Nat, (∀ j, I j < n) ∧ (∀ j ≤ k, P j = follow n dt (u x0) (w x0) I j) ∧
      ∀ᶠ x in 𝓝 x0, energy n (u x) ≠ 0 ∧ energy n (w x) ≠ 0 ∧
        GreedyRun n dt (u x) (w x) phase minderr itmax k (follow n dt (u x) (w x) I) := by
  have hex : ∀ j, ∃ i, i < n ∧ (j < k → Lag n phase i ∧
      P (j + 1) = (P j).set i (bestVal n dt (u x0) (w x0) (P j) i) ∧
      ∀ i', Lag n phase i' → i' ≠ i → |cor n dt (u x0) (w x0) (P j) i'| < |cor n dt (u x0) (w x0) (P j) i|) := by
    intro j
    by_cases hj : j < k
    · obtain ⟨i, v, hl, e, ha⟩ := h.alone j hj
      obtain ⟨a, b⟩ := cor_of_alone hn hdt hE hU (greedyRun_length h.toGreedyRun j hj.le) (h.spike j hj) hl e ha
      exact ⟨i, hl.1, fun _ => ⟨hl, a, b⟩⟩
    · exact ⟨0, hn, fun hj' => absurd hj' hj⟩
  choose I hI hIk using hex
  have hP : ∀ j ≤ k, P j = follow n dt (u x0) (w x0) I j := by
    intro j
    induction j with
    | zero => intro _; rw [h.start]; rfl
    | succ j ih =>
      intro hj
      rw [(hIk j (by omega)).2.1, ih (by omega)]
      rfl
  refine ⟨I, hI, hP, ?_⟩
  have hS := smooth_follow (dt := dt) hu hw hE hI
  have hmis := fun j => (smooth_misfit (dt := dt) hu hw (hS j) hU).continuousAt
  have ev1 : ∀ᶠ x in 𝓝 x0, ∀ j ∈ range k, ∀ i' ∈ range n, Lag n phase i' → i' ≠ I j →
      |cor n dt (u x) (w x) (follow n dt (u x) (w x) I j) i'| < |cor n dt (u x) (w x) (follow n dt (u x) (w x) I j) (I j)| := by
    rw [Filter.eventually_all_finset]
    intro j hj
    rw [Filter.eventually_all_finset]
    intro i' _
    by_cases hl : Lag n phase i' ∧ i' ≠ I j
    · have h0 := (hIk j (mem_range.1 hj)).2.2 i' hl.1 hl.2
      rw [hP j (mem_range.1 hj).le] at h0
      have c := fun i => (smooth_cor (n := n) (dt := dt) hu hw (hS j) i).continuousAt.abs
      filter_upwards [(c i').eventually_lt (c (I j)) h0] with x hx _ _
      exact hx
    · exact .of_forall fun x h1 h2 => absurd ⟨h1, h2⟩ hl
  have ev2 : ∀ᶠ x in 𝓝 x0, ∀ j ∈ range k, j + 1 < k →
      minderr < 100 * (misfit n dt (u x) (w x) (smp (follow n dt (u x) (w x) I j)) -
        misfit n dt (u x) (w x) (smp (follow n dt (u x) (w x) I (j + 1)))) := by
    rw [Filter.eventually_all_finset]
    intro j hj
    by_cases hjk : j + 1 < k
    · have h0 := h.go j hjk
      rw [hP j (by omega), hP (j + 1) (by omega)] at h0
      have c : ContinuousAt (fun x => 100 * (misfit n dt (u x) (w x) (smp (follow n dt (u x) (w x) I j)) -
        misfit n dt (u x) (w x) (smp (follow n dt (u x) (w x) I (j + 1))))) x0 :=
        continuousAt_const.mul ((hmis j).sub (hmis (j + 1)))
      filter_upwards [c.eventually (lt_mem_nhds h0)] with x hx _
      exact hx
    · exact .of_forall fun x h1 => absurd h1 hjk
  have ev3 : ∀ᶠ x in 𝓝 x0, k = itmax ∨ ∃ j, k = j + 1 ∧
      100 * (misfit n dt (u x) (w x) (smp (follow n dt (u x) (w x) I j)) -
        misfit n dt (u x) (w x) (smp (follow n dt (u x) (w x) I (j + 1)))) ≤ minderr := by
    rcases h.halt with e | ⟨j, rfl, h0⟩
    · exact .of_forall fun _ => Or.inl e
    · rw [hP j (by omega), hP (j + 1) (by omega)] at h0
      have c : ContinuousAt (fun x => 100 * (misfit n dt (u x) (w x) (smp (follow n dt (u x) (w x) I j)) -
        misfit n dt (u x) (w x) (smp (follow n dt (u x) (w x) I (j + 1))))) x0 :=
        continuousAt_const.mul ((hmis j).sub (hmis (j + 1)))
      filter_upwards [c.eventually (gt_mem_nhds h0)] with x hx
      exact Or.inr ⟨j, rfl, hx.le⟩
  filter_upwards [ev1, ev2, ev3, (smooth_energy (n := n) hu).continuousAt.eventually_ne hU,
    (smooth_energy (n := n) hw).continuousAt.eventually_ne hE] with x a1 a2 a3 a4 a5
  refine ⟨a4, a5, rfl, ?_, ?_, ?_⟩
  · intro j hj
    exact bestSpike_of_cor hn hdt a5 a4 (follow_length ..) (hIk j hj).1
      (fun i' hl hne => a1 j (mem_range.2 hj) i' (mem_range.2 hl.1) hl hne)
  · intro j hj
    exact a2 j (mem_range.2 (by omega)) hj
  · rcases a3 with e | e
    · exact Or.inl e
    · exact Or.inr (Or.inr e)

end

end Rfsed.Synrf
