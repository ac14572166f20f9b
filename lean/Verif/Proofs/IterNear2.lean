import Verif.Proofs.IterNear
import Verif.Props.Ties
import Verif.Props.IterRounded

/-!
# Runs of the iterative deconvolution in inexact arithmetic near a run without ties
-/

namespace Rfsed.Synrf
open Finset Spec Topology Filter Asymptotics Rfsed.Props

/-- the setting: a family of runs in inexact arithmetic, of ever better precision and on traces ever closer to `uin`, `win` -/
structure Family (Ω : Type) (F : Filter Ω) (uin win : List ℝ) (dt a : ℝ) (itmax : Nat) (minderr : ℝ) (phase : String)
    (n : Nat) where
  δ : Ω → ℝ
  e : Ω → ℝ
  x : Ω → List ℝ
  y : Ω → List ℝ
  k : Ω → Nat
  P : Ω → Nat → List ℝ
  rms : Ω → Nat → ℝ
  r : ∀ ω, IterRun (e ω) (x ω) (y ω) dt a itmax minderr phase n (k ω) (P ω) (rms ω)
  hδ : Tendsto δ F (𝓝 0)
  he : ∀ᶠ ω in F, 0 ≤ e ω ∧ e ω ≤ δ ω
  hx : NearSig F δ n (fun ω => smp (x ω)) (smp uin)
  hy : NearSig F δ n (fun ω => smp (y ω)) (smp win)

namespace Family
variable {Ω : Type} {F : Filter Ω} {uin win : List ℝ} {dt a : ℝ} {itmax : Nat} {minderr : ℝ} {phase : String} {n : Nat}
variable (M : Family Ω F uin win dt a itmax minderr phase n)

theorem lowpass_near {x : Ω → List ℝ} {y : List ℝ} (h : NearSig F M.δ n (fun ω => smp (x ω)) (smp y)) :
    NearSig F M.δ n (fun ω => lowpass n dt a (x ω)) (lowpass n dt a y) :=
  fun m _ => h.cconv M.hδ (nearSig_const _) m

theorem u_near : NearSig F M.δ n (fun ω => (M.r ω).u_flt) (lowpass n dt a uin) :=
  nearSig_of_size M.he (M.hx.bounded M.hδ) (.of_forall fun ω => (M.r ω).u_near) (M.lowpass_near M.hx)

theorem w_near : NearSig F M.δ n (fun ω => (M.r ω).w_flt) (lowpass n dt a win) :=
  nearSig_of_size M.he (M.hy.bounded M.hδ) (.of_forall fun ω => (M.r ω).w_near) (M.lowpass_near M.hy)

theorem powerU_near : Near F M.δ (fun ω => (M.r ω).powerU) (energy n (lowpass n dt a uin)) :=
  near_of_le M.he ((M.u_near.energy M.hδ).bounded M.hδ) (.of_forall fun ω => (M.r ω).powerU_near) (M.u_near.energy M.hδ)

theorem powerW_near : Near F M.δ (fun ω => (M.r ω).powerW) (energy n (lowpass n dt a win)) :=
  near_of_le M.he ((M.w_near.energy M.hδ).bounded M.hδ) (.of_forall fun ω => (M.r ω).powerW_near) (M.w_near.energy M.hδ)

/-- the spike trains after `j` passes are near `p` -/
structure At (j : Nat) (p : List ℝ) : Prop where
  le : ∀ᶠ ω in F, j ≤ M.k ω
  near : NearSig F M.δ n (fun ω => smp (M.P ω j)) (smp p)

variable {M}
variable {j : Nat} {p : List ℝ}

theorem At.res_near (h : M.At j p) :
    NearSig F M.δ n (fun ω => (M.r ω).r j) (res n dt (lowpass n dt a uin) (lowpass n dt a win) p) := by
  cases j with
  | zero =>
    have hz : NearSig F M.δ n (fun ω m => (M.r ω).u_flt m - dt * cconv n (smp (M.P ω 0)) (lowpass n dt a (M.y ω)) m)
        (res n dt (lowpass n dt a uin) (lowpass n dt a win) p) := fun m hm =>
      (M.u_near m hm).sub ((near_const dt).mul M.hδ (h.near.cconv M.hδ (M.lowpass_near M.hy) m))
    intro m hm
    refine (hz m hm).congr (.of_forall fun ω => ?_)
    have : cconv n (smp (M.P ω 0)) (lowpass n dt a (M.y ω)) m = 0 := by
      rw [(M.r ω).p_start]
      unfold cconv
      apply sum_eq_zero
      intro i _
      simp [smp, List.getElem?_replicate]
      left; split <;> rfl
    simp only
    rw [(M.r ω).r_start m hm, this]
    ring
  | succ j =>
    have hp : NearSig F M.δ n (fun ω => (M.r ω).p_flt j) (fun m => dt * cconv n (smp p) (lowpass n dt a win) m) := by
      refine nearSig_of_size M.he (B := fun ω => |dt| * (∑ m ∈ range n, |smp (M.y ω) m|) * size n (smp (M.P ω (j + 1)))) ?_ ?_
        (fun m _ => (near_const dt).mul M.hδ (h.near.cconv M.hδ (M.lowpass_near M.hy) m))
      · refine bounded_mul (bounded_mul (isBigO_const_const _ one_ne_zero _) ?_) (h.near.bounded M.hδ)
        exact bounded_sum fun m hm => bounded_abs ((M.hy m (mem_range.1 hm)).bounded M.hδ)
      · filter_upwards [h.le] with ω hω
        exact (M.r ω).p_near j hω
    have hq : NearSig F M.δ n (fun ω m => (M.r ω).u_flt m - (M.r ω).p_flt j m)
        (res n dt (lowpass n dt a uin) (lowpass n dt a win) p) := fun m hm => (M.u_near m hm).sub (hp m hm)
    intro m hm
    refine near_of_le M.he (bounded_abs ((hq m hm).bounded M.hδ)) ?_ (hq m hm)
    filter_upwards [h.le] with ω hω
    exact (M.r ω).r_near j hω m hm

theorem At.rw_near (h : M.At j p) (hn : 0 < n) (hE : energy n (lowpass n dt a win) ≠ 0) (hj : ∀ᶠ ω in F, j < M.k ω)
    {i : Nat} (hi : i < n) : Near F M.δ (fun ω => (M.r ω).rw j i)
      (cor n dt (lowpass n dt a uin) (lowpass n dt a win) p i / energy n (lowpass n dt a win)) := by
  have hc : Near F M.δ (fun ω => (∑ m ∈ range n, (M.r ω).w_flt m * (M.r ω).r j (cyc n (i + m))) / (M.r ω).powerW)
      (cor n dt (lowpass n dt a uin) (lowpass n dt a win) p i / energy n (lowpass n dt a win)) := by
    unfold cor
    rw [corr_eq hn]
    exact (near_sum fun m hm => (M.w_near m (mem_range.1 hm)).mul M.hδ (h.res_near _ (cyc_lt hn _))).div M.hδ
      M.powerW_near hE
  refine near_of_le M.he (B := fun ω => size n ((M.r ω).r j) * size n (M.r ω).w_flt / (M.r ω).powerW) ?_ ?_ hc
  · simp only [div_eq_mul_inv]
    exact bounded_mul (bounded_mul (h.res_near.bounded M.hδ) (M.w_near.bounded M.hδ))
      ((M.powerW_near.inv M.hδ hE).bounded M.hδ)
  · filter_upwards [hj] with ω hω
    exact (M.r ω).rw_near j hω i hi

theorem At.rms_near (h : M.At (j + 1) p) (hU : energy n (lowpass n dt a uin) ≠ 0) :
    Near F M.δ (fun ω => M.rms ω j) (misfit n dt (lowpass n dt a uin) (lowpass n dt a win) (smp p)) := by
  have hq := (h.res_near.energy M.hδ).div M.hδ M.powerU_near hU
  refine near_of_le M.he (hq.bounded M.hδ) ?_ hq
  filter_upwards [h.le] with ω hω
  exact (M.r ω).rms_near j hω

theorem At.d_start (h : M.At 0 p) :
    Near F M.δ (fun ω => (M.r ω).d_error 0) (100 * energy n (lowpass n dt a uin) + minderr) := by
  have hq := ((near_const (100 : ℝ)).mul M.hδ M.powerU_near).add (near_const (F := F) (δ := M.δ) minderr)
  exact near_of_le M.he (bounded_abs (hq.bounded M.hδ)) (.of_forall fun ω => (M.r ω).d_start) hq

theorem At.d_near {p' : List ℝ} (h' : M.At j p') (h : M.At (j + 1) p) (hU : energy n (lowpass n dt a uin) ≠ 0)
    (h0 : j = 0 → p' = List.replicate n 0) :
    Near F M.δ (fun ω => (M.r ω).d_error (j + 1))
      (100 * (misfit n dt (lowpass n dt a uin) (lowpass n dt a win) (smp p') -
        misfit n dt (lowpass n dt a uin) (lowpass n dt a win) (smp p))) := by
  have hs : Near F M.δ (fun ω => if j = 0 then (1 : ℝ) else M.rms ω (j - 1))
      (misfit n dt (lowpass n dt a uin) (lowpass n dt a win) (smp p')) := by
    cases j with
    | zero =>
      rw [h0 rfl, misfit_start hU]
      exact near_const 1
    | succ j => simpa using h'.rms_near hU
  have hq := (near_const (100 : ℝ)).mul M.hδ (hs.sub (h.rms_near hU))
  refine near_of_le M.he (bounded_abs (hq.bounded M.hδ)) ?_ hq
  filter_upwards [h.le] with ω hω
  exact (M.r ω).d_near j hω

/-- a spike at a lag that wins clearly -/
theorem At.clear (h : M.At j p) (hn : 0 < n) (hdt : dt ≠ 0) (hE : energy n (lowpass n dt a win) ≠ 0)
    (hj : ∀ᶠ ω in F, j < M.k ω) (hp : p.length = n) {i : Nat} (hi : Lag n phase i)
    (hmax : ∀ i', Lag n phase i' → i' ≠ i → |cor n dt (lowpass n dt a uin) (lowpass n dt a win) p i'| <
      |cor n dt (lowpass n dt a uin) (lowpass n dt a win) p i|) :
    (∀ᶠ ω in F, (M.r ω).i1 j = i) ∧
    M.At (j + 1) (p.set i (bestVal n dt (lowpass n dt a uin) (lowpass n dt a win) p i)) := by
  set u := lowpass n dt a uin with hu
  set w := lowpass n dt a win with hw
  have hE' : 0 < energy n w := lt_of_le_of_ne (energy_nonneg _ _) (Ne.symm hE)
  have hgap : ∀ᶠ ω in F, ∀ i' < n, Lag n phase i' → i' ≠ i → |(M.r ω).rw j i'| < |(M.r ω).rw j i| := by
    refine eventually_forall_lt fun i' hi' => ?_
    by_cases hl : Lag n phase i' ∧ i' ≠ i
    · have t1 := ((h.rw_near hn hE hj hi').tendsto M.hδ).abs
      have t2 := ((h.rw_near hn hE hj hi.1).tendsto M.hδ).abs
      have h0 : |cor n dt u w p i' / energy n w| < |cor n dt u w p i / energy n w| := by
        rw [abs_div, abs_div]
        exact div_lt_div_of_pos_right (hmax i' hl.1 hl.2) (abs_pos.2 hE)
      filter_upwards [t1.eventually_lt t2 h0] with ω hω _ _
      exact hω
    · exact .of_forall fun ω h1 h2 => absurd ⟨h1, h2⟩ hl
  have hlag : ∀ᶠ ω in F, (M.r ω).i1 j = i := by
    filter_upwards [hgap, hj] with ω hω hjω
    obtain ⟨b1, b2⟩ := (M.r ω).i1_max j hjω
    by_contra hne
    exact absurd (b2 i hi) (not_le.2 (hω _ b1.1 b1 hne))
  refine ⟨hlag, by filter_upwards [hj] with ω hω using hω, ?_⟩
  have hrw := h.rw_near hn hE hj hi.1
  have hv : Near F M.δ (fun ω => (M.r ω).v j) (bestVal n dt u w p i) := by
    have hq : Near F M.δ (fun ω => smp (M.P ω j) i + (M.r ω).rw j i / dt) (bestVal n dt u w p i) :=
      (h.near i hi.1).add (hrw.div M.hδ (near_const dt) hdt)
    refine near_of_le M.he (B := fun ω => |smp (M.P ω j) i| + |(M.r ω).rw j i / dt|) ?_ ?_ hq
    · exact (bounded_abs ((h.near i hi.1).bounded M.hδ)).add
        (bounded_abs ((hrw.div M.hδ (near_const dt) hdt).bounded M.hδ))
    · filter_upwards [hlag, hj] with ω hω hjω
      have := (M.r ω).v_near j hjω
      rwa [hω] at this
  intro m hm
  by_cases hmi : m = i
  · subst hmi
    rw [show smp (p.set m (bestVal n dt u w p m)) m = bestVal n dt u w p m by
      simp [smp, List.getD_eq_getElem?_getD, hp, hm]]
    refine hv.congr ?_
    filter_upwards [hlag, hj] with ω hω hjω
    have hl := train_length (M.r ω) j hjω.le
    rw [(M.r ω).spike j hjω, hω]
    simp [smp, List.getD_eq_getElem?_getD, List.getElem?_set, hl, hm]
  · rw [show smp (p.set i (bestVal n dt u w p i)) m = smp p m by
      simp [smp, List.getD_eq_getElem?_getD, Ne.symm hmi]]
    refine (h.near m hm).congr ?_
    filter_upwards [hlag, hj] with ω hω hjω
    rw [(M.r ω).spike j hjω, hω]
    simp [smp, List.getD_eq_getElem?_getD, Ne.symm hmi]

/-- a pass that finds nothing -/
theorem At.nothing (h : M.At j p) (hn : 0 < n) (hdt : dt ≠ 0) (hE : energy n (lowpass n dt a win) ≠ 0)
    (hj : ∀ᶠ ω in F, j < M.k ω)
    (hz : ∀ i, Lag n phase i → cor n dt (lowpass n dt a uin) (lowpass n dt a win) p i = 0) : M.At (j + 1) p := by
  classical
  refine ⟨by filter_upwards [hj] with ω hω using hω, ?_⟩
  -- the values that can be added
  have hb : ∀ i < n, Near F M.δ (fun ω => if Lag n phase i then (M.r ω).rw j i / dt else 0) 0 := by
    intro i hi
    by_cases hl : Lag n phase i
    · have := (h.rw_near hn hE hj hi).div M.hδ (near_const dt) hdt
      rw [hz i hl] at this
      simpa [hl] using this
    · simpa [hl] using near_const (F := F) (δ := M.δ) (0 : ℝ)
  set B := fun ω => ∑ i ∈ range n, |if Lag n phase i then (M.r ω).rw j i / dt else 0| with hB
  set S := fun ω => ∑ i ∈ range n, |smp (M.P ω j) i| with hS
  have hBO : B =O[F] M.δ := by
    refine (IsBigO.sum (A := fun i ω => |if Lag n phase i then (M.r ω).rw j i / dt else 0|) (s := range n)
      (g := M.δ) (fun i hi => ?_)).congr_left fun ω => by simp [hB]
    have := hb i (mem_range.1 hi)
    unfold Near at this
    simp only [sub_zero] at this
    exact this.norm_left
  have hSO : S =O[F] (fun _ => (1 : ℝ)) :=
    bounded_sum fun i hi => bounded_abs ((h.near i (mem_range.1 hi)).bounded M.hδ)
  have heO : M.e =O[F] M.δ := by
    refine IsBigO.of_bound 1 ?_
    filter_upwards [M.he] with ω hω
    rw [Real.norm_eq_abs, Real.norm_eq_abs, abs_of_nonneg hω.1, abs_of_nonneg (hω.1.trans hω.2), one_mul]
    exact hω.2
  have he1 : M.e =O[F] (fun _ => (1 : ℝ)) := heO.trans (M.hδ.isBigO_one ℝ)
  have hT : (fun ω => B ω + M.e ω * (S ω + B ω)) =O[F] M.δ := by
    refine hBO.add ?_
    have h1 : (fun ω => M.e ω * S ω) =O[F] M.δ := by simpa using heO.mul hSO
    have h2 : (fun ω => M.e ω * B ω) =O[F] M.δ := by simpa using he1.mul hBO
    exact (h1.add h2).congr_left fun ω => by ring
  intro m hm
  have hd : (fun ω => smp (M.P ω (j + 1)) m - smp (M.P ω j) m) =O[F] M.δ := by
    refine IsBigO.trans (IsBigO.of_bound 1 ?_) hT
    filter_upwards [hj, M.he] with ω hjω heω
    have hl := train_length (M.r ω) j hjω.le
    obtain ⟨b1, b2⟩ := (M.r ω).i1_max j hjω
    set l := (M.r ω).i1 j with hlδ
    have hBl : |(M.r ω).rw j l / dt| ≤ B ω := by
      have := single_le_sum (f := fun i => |if Lag n phase i then (M.r ω).rw j i / dt else 0|) (s := range n)
        (fun _ _ => abs_nonneg _) (mem_range.2 b1.1)
      simpa [b1] using this
    have hSl : |smp (M.P ω j) l| ≤ S ω :=
      single_le_sum (f := fun i => |smp (M.P ω j) i|) (s := range n) (fun _ _ => abs_nonneg _) (mem_range.2 b1.1)
    have hB0 : 0 ≤ B ω := sum_nonneg fun _ _ => abs_nonneg _
    have hS0 : 0 ≤ S ω := sum_nonneg fun _ _ => abs_nonneg _
    have hT0 : 0 ≤ B ω + M.e ω * (S ω + B ω) := by
      have := mul_nonneg heω.1 (add_nonneg hS0 hB0)
      linarith
    rw [one_mul, Real.norm_eq_abs, Real.norm_eq_abs, abs_of_nonneg hT0]
    by_cases hml : m = l
    · have e1 : smp (M.P ω (j + 1)) m = (M.r ω).v j := by
        rw [(M.r ω).spike j hjω, hml]
        simp [smp, List.getD_eq_getElem?_getD, List.getElem?_set, hl, b1.1, ← hlδ]
      rw [e1]
      have h1 := (M.r ω).v_near j hjω
      rw [← hlδ] at h1
      rw [hml]
      have h2 := abs_sub_le ((M.r ω).v j) (smp (M.P ω j) l + (M.r ω).rw j l / dt) (smp (M.P ω j) l)
      rw [add_sub_cancel_left] at h2
      have h3 : M.e ω * (|smp (M.P ω j) l| + |(M.r ω).rw j l / dt|) ≤ M.e ω * (S ω + B ω) :=
        mul_le_mul_of_nonneg_left (add_le_add hSl hBl) heω.1
      linarith
    · have e1 : smp (M.P ω (j + 1)) m = smp (M.P ω j) m := by
        rw [(M.r ω).spike j hjω]
        simp [smp, List.getD_eq_getElem?_getD, List.getElem?_set, ← hlδ, Ne.symm hml]
      rw [e1, sub_self, abs_zero]
      exact hT0
  unfold Near
  exact (hd.add (h.near m hm)).congr_left fun ω => by ring

end Family
end Rfsed.Synrf
