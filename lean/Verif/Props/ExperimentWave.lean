import Verif.Proofs.WaveLimit
import Verif.Props.WaveformParallel

/-!
# C142: the waveform fit ends with the exact best models in every sufficiently precise arithmetic
-/

namespace Rfsed.Props
open Rfsed PyFloat Spec Proofs Waveform Filter Topology

/-- The call of the waveform fit in arithmetic `R` belongs to the exact fit `E`: same grid, weights, sampling and onset; the
stack and the synthetics are within `e` of the exact ones; where `pg` is given the signs of the exact records, it returns a
value within `e` of the exact phase criterion. -/
structure NearFit (E : ExactFit) (e : ℝ) (p : ℕ) {R : Rounding} (env : WEnv (FL R)) (rfs : List (Trace (FL R)))
    (preonset HSed VpSed VpCrust rayp gaussian wc wr wp : FL R) (KMoho HMoho : List (FL R)) (tr0 : Trace (FL R))
    (sd : List (FL R)) : Prop where
  first : rfs[0]? = some tr0
  rate : SamplesPerSecond p tr0.delta.val E.f
  onset : preonset.val = E.N
  short : tr0.data.length ≤ 2 ^ p
  bounded : (E.N + 25) * E.f < 2 ^ (p + 1)
  inside : E.N * E.f < tr0.data.length
  depths : HMoho.map FL.val = E.depths
  ratios : KMoho.map FL.val = E.ratios
  weights : wc.val = E.wc ∧ wr.val = E.wr ∧ wp.val = E.wp
  stack : ∃ more, env.stackR rfs = .ok (sd :: more)
  data : SamplesWithin e E.data (sd.map FL.val)
  synthetics : ∀ h ∈ HMoho, ∀ k ∈ KMoho, SamplesWithin e (E.synthetic h.val k.val)
    ((syntheticOf env HSed VpSed VpCrust rayp tr0.delta preonset gaussian sd.length h k).map FL.val)
  phases : ∀ h ∈ HMoho, ∀ k ∈ KMoho, ∀ x y v, x.map FL.val = ExactFit.signs (E.cut E.data) →
    y.map FL.val = ExactFit.signs (E.cut (E.synthetic h.val k.val)) → env.pg x y tr0.delta = .ok v →
    |v.val - E.phase h.val k.val| ≤ e

theorem cut_within (E : ExactFit) {e : ℝ} {x y : List ℝ} (h : SamplesWithin e x y) : SamplesWithin e (E.cut x) (E.cut y) :=
  List.forall₂_take _ (List.forall₂_drop _ h)

theorem fitted_cut (E : ExactFit) {R : Rounding} (x : List (FL R)) : fitted E.N E.f x = E.cut (x.map FL.val) := by
  rw [fitted, ExactFit.cut, List.map_take, List.map_drop]

/-- all that is used about one model -/
def NearCriteria (E : ExactFit) (c : ℝ) (m : ℝ × ℝ) (D e : ℝ) : Prop :=
  ∀ (R : Rounding), R.u ≤ e → ∀ (env : WEnv (FL R)) (delta : FL R) (sd rf : List (FL R)) (s : Sol (FL R)),
    SamplesWithin (c * e) E.data (sd.map FL.val) → SamplesWithin (c * e) (E.synthetic m.1 m.2) (rf.map FL.val) →
    FloatCriteria env delta E.N E.f sd rf s →
    |s.rmse.val - E.misfit m| ≤ D * e ∧ |s.corr.val - E.corr m| ≤ D * e ∧
    ExactFit.signs (E.cut (sd.map FL.val)) = ExactFit.signs (E.cut E.data) ∧
    ExactFit.signs (E.cut (rf.map FL.val)) = ExactFit.signs (E.cut (E.synthetic m.1 m.2))

theorem near_criteria {E : ExactFit} {C M Q : ℝ} (hE : E.Regular C M Q) {c : ℝ} (hc : 0 < c) {m : ℝ × ℝ}
    (hm : m ∈ E.models) : ∃ D > 0, ∃ δ > 0, ∀ e, 0 < e → e ≤ δ → NearCriteria E c m D e := by
  obtain ⟨hy, hl, hy0⟩ := hE.synthetics m hm
  set X := E.cut E.data with hX
  set Y := E.cut (E.synthetic m.1 m.2) with hY
  obtain ⟨κx, δx, px, vx⟩ := near_varies hE.varies
  obtain ⟨κy, δy, py, vy⟩ := near_varies hy
  obtain ⟨σx, qx, sx⟩ := near_signs hE.signed
  obtain ⟨σy, qy, sy⟩ := near_signs hy0
  set κ := max (max κx κy) 1 with hκ
  have κ1 : 1 ≤ κ := le_max_right _ _
  set L : ℝ := 2 ^ (25 * E.f + 8) - 1 with hL
  have L0 : 1 ≤ L := by
    have : (2 : ℝ) ^ 1 ≤ 2 ^ (25 * E.f + 8) := pow_le_pow_right₀ (by norm_num) (by omega)
    rw [hL]; linarith
  have sX := stdDev_pos hE.varies
  have sY := stdDev_pos hy
  have hmis : 0 ≤ E.misfit m := rms_nonneg _ _
  set D := L * (E.misfit m + 2 * c) + 2 * c + (L * (4 + 4 * κ) + (2 / stdDev X + 2 / stdDev Y) * c) with hD
  have D1 : 0 ≤ L * (E.misfit m + 2 * c) + 2 * c := by positivity
  have D2 : 0 < L * (4 + 4 * κ) + (2 / stdDev X + 2 / stdDev Y) * c := by positivity
  set δ := min (min (min (δx / c) (δy / c)) (min (σx / c) (σy / c))) (min (1 / 1000) (1 / (200 * L * κ))) with hδ
  refine ⟨D, by positivity, δ, ?_, fun e he hed R hu env delta sd rf s hsd hrf hfc => ?_⟩
  · refine lt_min (lt_min (lt_min ?_ ?_) (lt_min ?_ ?_)) (lt_min (by norm_num) ?_) <;> positivity
  · have e1 : c * e ≤ δx := by
      have := hed.trans ((min_le_left _ _).trans ((min_le_left _ _).trans (min_le_left _ _)))
      rwa [le_div_iff₀ hc, mul_comm] at this
    have e2 : c * e ≤ δy := by
      have := hed.trans ((min_le_left _ _).trans ((min_le_left _ _).trans (min_le_right _ _)))
      rwa [le_div_iff₀ hc, mul_comm] at this
    have e3 : c * e ≤ σx := by
      have := hed.trans ((min_le_left _ _).trans ((min_le_right _ _).trans (min_le_left _ _)))
      rwa [le_div_iff₀ hc, mul_comm] at this
    have e4 : c * e ≤ σy := by
      have := hed.trans ((min_le_left _ _).trans ((min_le_right _ _).trans (min_le_right _ _)))
      rwa [le_div_iff₀ hc, mul_comm] at this
    have e5 : e ≤ 1 / 1000 := hed.trans ((min_le_right _ _).trans (min_le_left _ _))
    have e6 : L * e * κ ≤ 1 / 200 := by
      have := hed.trans ((min_le_right _ _).trans (min_le_right _ _))
      rw [le_div_iff₀ (by positivity)] at this
      linarith
    have ce : 0 < c * e := mul_pos hc he
    have wX := cut_within E hsd
    have wY := cut_within E hrf
    obtain ⟨nx, kx⟩ := vx _ ce e1 _ wX
    obtain ⟨ny, ky⟩ := vy _ ce e2 _ wY
    refine ⟨?_, ?_, sx _ ce e3 _ wX, sy _ ce e4 _ wY⟩
    · have hr := near_rms ce hl wX wY
      have h1 := rmse_row (hu.trans e5) hfc
      rw [fitted_cut, fitted_cut] at h1
      have hacc : accumulated R.u (25 * E.f + 8) ≤ L * e :=
        (accumulated_linear R.u_nonneg (hu.trans (e5.trans (by norm_num))) _).trans
          (mul_le_mul_of_nonneg_left hu (by linarith))
      set r' := rms (E.cut (sd.map FL.val)) (E.cut (rf.map FL.val))
      have hr' : r' ≤ E.misfit m + 2 * c := by
        have := (abs_le.1 hr).2
        have : r' - E.misfit m ≤ 2 * (c * e) := this
        nlinarith
      have r0 : 0 ≤ r' := rms_nonneg _ _
      have h2 : accumulated R.u (25 * E.f + 8) * r' ≤ L * e * (E.misfit m + 2 * c) :=
        mul_le_mul hacc hr' r0 (by positivity)
      have h3 := abs_add_le (s.rmse.val - r') (r' - E.misfit m)
      rw [sub_add_sub_cancel] at h3
      have h4 : |r' - E.misfit m| ≤ 2 * (c * e) := hr
      have h5 : 0 ≤ (L * (4 + 4 * κ) + (2 / stdDev X + 2 / stdDev Y) * c) * e := (mul_pos D2 he).le
      rw [hD]
      nlinarith
    · have hp := near_pearson ce hl wX wY hE.varies hy nx ny
      have hacc : accumulated R.u (25 * E.f + 5) ≤ L * e :=
        (accumulated_mono (by omega : 25 * E.f + 5 ≤ 25 * E.f + 8)).trans
        ((accumulated_linear R.u_nonneg (hu.trans (e5.trans (by norm_num))) _).trans
          (mul_le_mul_of_nonneg_left hu (by linarith)))
      have a0 := accumulated_nonneg (R := R) (25 * E.f + 5)
      have Le : L * e ≤ 1 / 200 := by nlinarith [mul_pos (show 0 < L by linarith) he]
      have h1 := (corr_row (κ := κ) (hu.trans e5) hfc (by rw [fitted_cut]; exact nx) (by rw [fitted_cut]; exact ny)
        (by rw [fitted_cut]; exact kx.trans ((le_max_left _ _).trans (le_max_left _ _)))
        (by rw [fitted_cut]; exact ky.trans ((le_max_right _ _).trans (le_max_left _ _)))
        (by nlinarith) (hacc.trans (Le.trans (by norm_num)))).1
      rw [fitted_cut, fitted_cut] at h1
      set p' := pearson (E.cut (sd.map FL.val)) (E.cut (rf.map FL.val))
      have h2 : accumulated R.u (25 * E.f + 5) * (4 + 4 * κ) ≤ L * e * (4 + 4 * κ) :=
        mul_le_mul_of_nonneg_right hacc (by linarith)
      have h3 := abs_add_le (s.corr.val - p') (p' - E.corr m)
      rw [sub_add_sub_cancel] at h3
      have h4 : |p' - E.corr m| ≤ (2 / stdDev X + 2 / stdDev Y) * (c * e) := hp
      have h5 : 0 ≤ (L * (E.misfit m + 2 * c) + 2 * c) * e := mul_nonneg D1 he.le
      have h6 : D * e = (L * (E.misfit m + 2 * c) + 2 * c) * e + (L * e * (4 + 4 * κ) +
        (2 / stdDev X + 2 / stdDev Y) * (c * e)) := by rw [hD]; ring
      rw [h6]
      linarith

/-- the largest absolute value of a finite family -/
theorem bound_mem {α : Type} (l : List α) (g : α → ℝ) : ∃ A : ℝ, 0 ≤ A ∧ ∀ a ∈ l, |g a| ≤ A := by
  induction l with
  | nil => exact ⟨0, le_rfl, fun a ha => absurd ha List.not_mem_nil⟩
  | cons b l ih =>
    obtain ⟨A, h0, h⟩ := ih
    refine ⟨max A |g b|, le_max_of_le_left h0, fun a ha => ?_⟩
    rcases List.mem_cons.1 ha with rfl | ha
    · exact le_max_right _ _
    · exact (h a ha).trans (le_max_left _ _)

/-- the goodness of fit -/
theorem near_goodness {E : ExactFit} {C M Q A D : ℝ} (pC : 0 < C) (pM : 0 < M) (pQ : 0 < Q) (hA : 0 ≤ A) (hD : 0 ≤ D) :
    ∃ G > 0, ∃ δ > 0, ∀ e, 0 < e → e ≤ δ → ∀ m, |E.corr m| ≤ A → |E.misfit m| ≤ A → |E.phase m.1 m.2| ≤ A →
      ∀ R : Rounding, R.u ≤ e → ∀ wc wr wp mc mr mp c r q : FL R, wc.val = E.wc → wr.val = E.wr → wp.val = E.wp →
      |c.val - E.corr m| ≤ D * e → |r.val - E.misfit m| ≤ D * e → |q.val - E.phase m.1 m.2| ≤ D * e →
      |mc.val - C| ≤ D * e → |mr.val - M| ≤ D * e → |mp.val - Q| ≤ D * e →
      |(wc * (c / mc) + wr * (one - r / mr) + wp * (q / mp)).val - E.goodness C M Q m| ≤ G * e := by
  set qC := 2 * D * (C + A) / C ^ 2 with hqC
  set qM := 2 * D * (M + A) / M ^ 2 with hqM
  set qQ := 2 * D * (Q + A) / Q ^ 2 with hqQ
  have pqC : 0 ≤ qC := by positivity
  have pqM : 0 ≤ qM := by positivity
  have pqQ : 0 ≤ qQ := by positivity
  set T := |E.wc| * (A / C + qC) + |E.wr| * (1 + (A / M + qM)) + |E.wp| * (A / Q + qQ) with hT
  have pT : 0 ≤ T := by positivity
  set G := 31 * T + (|E.wc| * qC + |E.wr| * qM + |E.wp| * qQ) + 1 with hG
  refine ⟨G, by positivity, min 1 (min (C / (2 * (D + 1))) (min (M / (2 * (D + 1))) (Q / (2 * (D + 1))))), ?_,
    fun e he hed m b1 b2 b3 R hu wc wr wp mc mr mp c r q w1 w2 w3 h1 h2 h3 k1 k2 k3 => ?_⟩
  · refine lt_min one_pos (lt_min ?_ (lt_min ?_ ?_)) <;> positivity
  · have e1 : e ≤ 1 := hed.trans (min_le_left _ _)
    have small : ∀ z : ℝ, e ≤ z / (2 * (D + 1)) → D * e ≤ z / 2 := by
      intro z hz
      rw [le_div_iff₀ (by positivity)] at hz
      nlinarith
    have e2 := small C (hed.trans ((min_le_right _ _).trans (min_le_left _ _)))
    have e3 := small M (hed.trans ((min_le_right _ _).trans ((min_le_right _ _).trans (min_le_left _ _))))
    have e4 := small Q (hed.trans ((min_le_right _ _).trans ((min_le_right _ _).trans (min_le_right _ _))))
    have n1 := near_quotient pC b1 hD he.le e2 h1 k1
    have n2 := near_quotient pM b2 hD he.le e3 h2 k2
    have n3 := near_quotient pQ b3 hD he.le e4 h3 k3
    rw [← hqC] at n1
    rw [← hqM] at n2
    rw [← hqQ] at n3
    have size : ∀ {a a' z z' q : ℝ}, 0 < z → |a| ≤ A → 0 ≤ q → |a' / z' - a / z| ≤ q * e → |a' / z'| ≤ A / z + q := by
      intro a a' z z' q hz ha hq hn
      have := abs_add_le (a' / z' - a / z) (a / z)
      rw [sub_add_cancel] at this
      refine this.trans ?_
      rw [abs_div a z, abs_of_pos hz, add_comm]
      exact add_le_add (div_le_div_of_nonneg_right ha hz.le) (hn.trans (mul_le_of_le_one_right hq e1))
    have s1 := size pC b1 pqC n1
    have s2 := size pM b2 pqM n2
    have s3 := size pQ b3 pqQ n3
    have g := gof_approx wc wr wp c mc r mr q mp
    have hacc : accumulated R.u 5 ≤ 31 * e := by
      refine (accumulated_linear R.u_nonneg (hu.trans e1) 5).trans ?_
      norm_num
      exact hu
    have hT' : |wc.val * (c.val / mc.val)| + |wr.val| * (1 + |r.val / mr.val|) + |wp.val * (q.val / mp.val)| ≤ T := by
      rw [abs_mul, abs_mul wp.val, w1, w2, w3, hT]
      have t1 := mul_le_mul_of_nonneg_left s1 (abs_nonneg E.wc)
      have t2 := mul_le_mul_of_nonneg_left s2 (abs_nonneg E.wr)
      have t3 := mul_le_mul_of_nonneg_left s3 (abs_nonneg E.wp)
      linarith
    have g1 := g.trans (mul_le_mul hacc hT' (by positivity) (by positivity))
    rw [w1, w2, w3] at g1
    set S := E.wc * (c.val / mc.val) + E.wr * (1 - r.val / mr.val) + E.wp * (q.val / mp.val) with hS
    have hid : S - E.goodness C M Q m = E.wc * (c.val / mc.val - E.corr m / C) - E.wr * (r.val / mr.val - E.misfit m / M) +
        E.wp * (q.val / mp.val - E.phase m.1 m.2 / Q) := by
      rw [hS, ExactFit.goodness]; ring
    have t1 := mul_le_mul_of_nonneg_left n1 (abs_nonneg E.wc)
    have t2 := mul_le_mul_of_nonneg_left n2 (abs_nonneg E.wr)
    have t3 := mul_le_mul_of_nonneg_left n3 (abs_nonneg E.wp)
    rw [← abs_mul] at t1 t2 t3
    have g2 : |S - E.goodness C M Q m| ≤ |E.wc| * (qC * e) + |E.wr| * (qM * e) + |E.wp| * (qQ * e) := by
      rw [hid]
      refine (abs_add_le _ _).trans (add_le_add ((abs_sub _ _).trans (add_le_add t1 t2)) t3)
    have h3 := abs_add_le ((wc * (c / mc) + wr * (one - r / mr) + wp * (q / mp)).val - S) (S - E.goodness C M Q m)
    rw [sub_add_sub_cancel] at h3
    refine h3.trans ((add_le_add g1 g2).trans ?_)
    have hGe : G * e = 31 * e * T + (|E.wc| * (qC * e) + |E.wr| * (qM * e) + |E.wp| * (qQ * e)) + e := by rw [hG]; ring
    rw [hGe]
    linarith

/-- the reported model, for one criterion -/
theorem best_of_near {E : ExactFit} {g : ℝ × ℝ → ℝ} {D e : ℝ} (hgap : ∀ a ∈ E.models, ∀ b ∈ E.models, g a < g b →
    g a + 2 * D * e < g b) {R : Rounding} {sols : List (Sol (FL R))} {col : Sol (FL R) → ℝ} {t : Sol (FL R)}
    (hmod : ∀ m, m ∈ sols.map (fun s => (s.h.val, s.k.val)) ↔ m ∈ E.models) (ht : t ∈ sols)
    (hnear : ∀ s ∈ sols, |col s - g (s.h.val, s.k.val)| ≤ D * e) (hmax : ∀ s ∈ sols, col s ≤ col t) {b : ℝ × ℝ}
    (hb : E.OnlyBest g b) : (t.h.val, t.k.val) = b := by
  by_contra hne
  have htm : (t.h.val, t.k.val) ∈ E.models :=
    (hmod _).1 (List.mem_map_of_mem (f := fun s : Sol (FL R) => (s.h.val, s.k.val)) ht)
  have h1 := hgap _ htm _ hb.1 (hb.2 _ htm hne)
  obtain ⟨s, hs, rfl⟩ : ∃ s ∈ sols, (s.h.val, s.k.val) = b := List.mem_map.1 ((hmod _).2 hb.1)
  have h2 := abs_le.1 (hnear s hs)
  have h3 := abs_le.1 (hnear t ht)
  have h4 := hmax s hs
  linarith

/-- the reported models of the table `sols` are the exact best ones -/
def ReportsBest (E : ExactFit) (C M Q : ℝ) {R : Rounding} (best : Best (FL R)) : Prop :=
  (∀ b, E.OnlyBest (fun m => -E.misfit m) b → (best.rmse.h.val, best.rmse.k.val) = b) ∧
  (∀ b, E.OnlyBest E.corr b → (best.corr.h.val, best.corr.k.val) = b) ∧
  (∀ b, E.OnlyBest (fun m => E.phase m.1 m.2) b → (best.pg.h.val, best.pg.k.val) = b) ∧
  (∀ b, E.OnlyBest (E.goodness C M Q) b → (best.gof.h.val, best.gof.k.val) = b)

/-- every row has the criteria of its model up to `e` -/
def RowsWithin (E : ExactFit) (C M Q e : ℝ) {R : Rounding} (sols : List (Sol (FL R))) : Prop :=
  ∀ s ∈ sols, |s.rmse.val - E.misfit (s.h.val, s.k.val)| ≤ e ∧ |s.corr.val - E.corr (s.h.val, s.k.val)| ≤ e ∧
    |s.pg.val - E.phase s.h.val s.k.val| ≤ e ∧ |s.gof.val - E.goodness C M Q (s.h.val, s.k.val)| ≤ e

theorem wave_core {E : ExactFit} {C M Q : ℝ} (hE : E.Regular C M Q) {c : ℝ} (hc : 0 < c) :
    ∃ G > 0, ∃ δ > 0, ∀ ε, 0 < ε → ε ≤ δ → ∀ (p : ℕ) (R : Rounding), Nearest R p → R.u ≤ ε →
    ∀ (env : WEnv (FL R)) (rfs : List (Trace (FL R))) (preonset HSed VpSed VpCrust rayp gaussian wc wr wp : FL R)
      (KMoho HMoho : List (FL R)) (tr0 : Trace (FL R)) (sd : List (FL R)) (res : WResult (FL R)),
    NearFit E (c * ε) p env rfs preonset HSed VpSed VpCrust rayp gaussian wc wr wp KMoho HMoho tr0 sd →
    WaveformFitting env rfs preonset HSed VpSed VpCrust rayp KMoho HMoho gaussian wc wr wp = .ok res →
    res.WaveformSolutions.map (fun s => (s.h.val, s.k.val)) = E.models ∧
    RowsWithin E C M Q (G * ε) res.WaveformSolutions ∧
    ∀ sols best, sols.Perm res.WaveformSolutions → bestModels sols = .ok best → ReportsBest E C M Q best := by
  obtain ⟨D0, pD0, δ0, pδ0, hcrit⟩ := uniform_mem (P := NearCriteria E c) (l := E.models)
    (fun m D D' e he hDD h R hu env delta sd rf s a1 a2 a3 => by
      obtain ⟨b1, b2, b3⟩ := h R hu env delta sd rf s a1 a2 a3
      have := mul_le_mul_of_nonneg_right hDD he
      exact ⟨b1.trans this, b2.trans this, b3⟩)
    (fun m hm => near_criteria hE hc hm)
  set D := max D0 c with hDdef
  have pD : 0 < D := lt_max_of_lt_left pD0
  obtain ⟨A1, pA1, bA1⟩ := bound_mem E.models E.corr
  obtain ⟨A2, pA2, bA2⟩ := bound_mem E.models E.misfit
  obtain ⟨A3, pA3, bA3⟩ := bound_mem E.models (fun m => E.phase m.1 m.2)
  obtain ⟨G0, pG0, δ1, pδ1, hgood⟩ := near_goodness (E := E) hE.posC hE.posM hE.posQ
    (show 0 ≤ max A1 (max A2 A3) from le_max_of_le_left pA1) pD.le
  obtain ⟨d1, pd1, gap1⟩ := gaps_eventually (l := E.models) (fun m => -E.misfit m) (2 * D)
  obtain ⟨d2, pd2, gap2⟩ := gaps_eventually (l := E.models) E.corr (2 * D)
  obtain ⟨d3, pd3, gap3⟩ := gaps_eventually (l := E.models) (fun m => E.phase m.1 m.2) (2 * D)
  obtain ⟨d4, pd4, gap4⟩ := gaps_eventually (l := E.models) (E.goodness C M Q) (2 * G0)
  refine ⟨max D G0, lt_max_of_lt_left pD, min (min (min δ0 δ1) (min d1 d2)) (min (min d3 d4) (1 / 1000)), ?_, ?_⟩
  · refine lt_min (lt_min (lt_min pδ0 pδ1) (lt_min pd1 pd2)) (lt_min (lt_min pd3 pd4) (by norm_num))
  intro ε he hed p R hR hu env rfs preonset HSed VpSed VpCrust rayp gaussian wc wr wp KMoho HMoho tr0 sd res hN h
  have l0 : ε ≤ δ0 := hed.trans ((min_le_left _ _).trans ((min_le_left _ _).trans (min_le_left _ _)))
  have l1 : ε ≤ δ1 := hed.trans ((min_le_left _ _).trans ((min_le_left _ _).trans (min_le_right _ _)))
  have l2 : ε ≤ d1 := hed.trans ((min_le_left _ _).trans ((min_le_right _ _).trans (min_le_left _ _)))
  have l3 : ε ≤ d2 := hed.trans ((min_le_left _ _).trans ((min_le_right _ _).trans (min_le_right _ _)))
  have l4 : ε ≤ d3 := hed.trans ((min_le_right _ _).trans ((min_le_left _ _).trans (min_le_left _ _)))
  have l5 : ε ≤ d4 := hed.trans ((min_le_right _ _).trans ((min_le_left _ _).trans (min_le_right _ _)))
  obtain ⟨more, hS⟩ := hN.stack
  have hjud := judged_fun hR hN.first hN.rate hN.onset hN.short hN.bounded hN.inside hS rfl h
  obtain ⟨P, all, sols, best, hP, ha, hs, hb, rfl⟩ := WaveformFitting_ok h
  obtain ⟨mc, mr, mp, x1, x2, x3, hsol⟩ := normalise_ok hs
  show sols.map (fun s => (s.h.val, s.k.val)) = E.models ∧ _
  -- the models
  have hall : all.map (fun q => (q.h, q.k)) = KMoho.flatMap (fun k => HMoho.map (fun h => (h, k))) := by
    have := mapM_ok_iff.1 ha
    clear ha
    generalize KMoho.flatMap (fun k => HMoho.map (fun h => (h, k))) = pts at this
    clear hsol hs x1 x2 x3
    induction this with
    | nil => rfl
    | @cons q c0 l l' hq _ ih =>
      rw [List.map_cons, ih]
      congr 1
      unfold gridPoint at hq
      obtain ⟨rf, hrf, hq⟩ := bind_eq_ok.1 hq
      unfold criteria at hq
      obtain ⟨cc, i1, hq⟩ := bind_eq_ok.1 hq
      obtain ⟨mse, i2, hq⟩ := bind_eq_ok.1 hq
      obtain ⟨pg, i3, hq⟩ := bind_eq_ok.1 hq
      cases hq
      rfl
  have hpair : sols.map (fun s => (s.h, s.k)) = KMoho.flatMap (fun k => HMoho.map (fun h => (h, k))) := by
    rw [← hall, hsol, List.map_map]; rfl
  have hmod : sols.map (fun s => (s.h.val, s.k.val)) = E.models := by
    have e1 : sols.map (fun s => (s.h.val, s.k.val)) =
        (sols.map (fun s => (s.h, s.k))).map (fun q : FL R × FL R => (q.1.val, q.2.val)) := by
      rw [List.map_map]; rfl
    rw [e1, hpair, ExactFit.models, ← hN.depths, ← hN.ratios, List.map_flatMap, List.flatMap_map]
    congr 1
    funext k
    rw [List.map_map, List.map_map]; rfl
  have hgrid : ∀ s ∈ sols, s.h ∈ HMoho ∧ s.k ∈ KMoho := by
    intro s hs
    have : (s.h, s.k) ∈ sols.map (fun s => (s.h, s.k)) := List.mem_map_of_mem (f := fun s : Sol (FL R) => (s.h, s.k)) hs
    rw [hpair] at this
    obtain ⟨k, hk, hm⟩ := List.mem_flatMap.1 this
    obtain ⟨y, hy, he⟩ := List.mem_map.1 hm
    cases he
    exact ⟨hy, hk⟩
  have hmem : ∀ s ∈ sols, (s.h.val, s.k.val) ∈ E.models := by
    intro s hs
    rw [← hmod]; exact List.mem_map_of_mem (f := fun s : Sol (FL R) => (s.h.val, s.k.val)) hs
  -- the three criteria
  have hthree : ∀ s ∈ sols, |s.rmse.val - E.misfit (s.h.val, s.k.val)| ≤ D * ε ∧
      |s.corr.val - E.corr (s.h.val, s.k.val)| ≤ D * ε ∧ |s.pg.val - E.phase s.h.val s.k.val| ≤ D * ε := by
    intro s hs
    obtain ⟨gh, gk⟩ := hgrid s hs
    obtain ⟨b1, b2, b3, b4⟩ := hcrit ε he l0 _ (hmem s hs) R hu env tr0.delta sd _ s hN.data (hN.synthetics _ gh _ gk)
      (hjud s hs)
    have m1 : D0 * ε ≤ D * ε := mul_le_mul_of_nonneg_right (le_max_left _ _) he.le
    have m2 : c * ε ≤ D * ε := mul_le_mul_of_nonneg_right (le_max_right _ _) he.le
    refine ⟨b1.trans m1, b2.trans m1, le_trans ?_ m2⟩
    refine hN.phases _ gh _ gk _ _ _ ?_ ?_ (hjud s hs).2.2
    · rw [signs_exact hR, ← b3, ← fitted_cut]; rfl
    · rw [signs_exact hR, ← b4, ← fitted_cut]; rfl
  -- the maxima
  have col : ∀ (g : Crit (FL R) → FL R) (g' : Sol (FL R) → FL R), (∀ (c : Crit (FL R)) (v : FL R),
      g' ⟨c.corr, c.rmse, c.pg, v, c.h, c.k⟩ = g c) → (all.map g).map FL.val = sols.map (fun s => (g' s).val) := by
    intro g g' hg
    rw [hsol, List.map_map, List.map_map]
    refine List.map_congr_left (fun c _ => ?_)
    simp only [Function.comp, hg]
  have M1 : IsMaxVal (sols.map (fun s => s.corr.val)) mc.val := by
    rw [← col Crit.corr Sol.corr (fun _ _ => rfl)]; exact pyMax_fl x1
  have M2 : IsMaxVal (sols.map (fun s => s.rmse.val)) mr.val := by
    rw [← col Crit.rmse Sol.rmse (fun _ _ => rfl)]; exact pyMax_fl x2
  have M3 : IsMaxVal (sols.map (fun s => s.pg.val)) mp.val := by
    rw [← col Crit.pg Sol.pg (fun _ _ => rfl)]; exact pyMax_fl x3
  have ex : ∀ g : ℝ × ℝ → ℝ, E.models.map g = sols.map (fun s => g (s.h.val, s.k.val)) := by
    intro g
    rw [← hmod, List.map_map]; rfl
  have E1 := hE.maxCorr
  rw [ex] at E1
  have E2 := hE.maxMisfit
  rw [ex] at E2
  have E3 := hE.maxPhase
  rw [ex] at E3
  have k1 := near_maxOf E1 M1 (fun s hs => (hthree s hs).2.1)
  have k2 := near_maxOf E2 M2 (fun s hs => (hthree s hs).1)
  have k3 := near_maxOf E3 M3 (fun s hs => (hthree s hs).2.2)
  have hgof : ∀ s ∈ sols, |s.gof.val - E.goodness C M Q (s.h.val, s.k.val)| ≤ G0 * ε := by
    intro s hs
    have hg : s.gof = wc * (s.corr / mc) + wr * (one - s.rmse / mr) + wp * (s.pg / mp) := by
      have hs2 := hs
      rw [hsol] at hs2
      obtain ⟨c, -, rfl⟩ := List.mem_map.1 hs2
      rfl
    rw [hg]
    obtain ⟨t1, t2, t3⟩ := hthree s hs
    exact hgood ε he l1 (s.h.val, s.k.val) ((bA1 _ (hmem s hs)).trans (le_max_left _ _))
      ((bA2 _ (hmem s hs)).trans ((le_max_left _ _).trans (le_max_right _ _)))
      ((bA3 _ (hmem s hs)).trans ((le_max_right _ _).trans (le_max_right _ _))) R hu _ _ _ _ _ _ _ _ _
      hN.weights.1 hN.weights.2.1 hN.weights.2.2 t2 t1 t3 k1 k2 k3
  have mD : D * ε ≤ max D G0 * ε := mul_le_mul_of_nonneg_right (le_max_left _ _) he.le
  have mG : G0 * ε ≤ max D G0 * ε := mul_le_mul_of_nonneg_right (le_max_right _ _) he.le
  refine ⟨hmod, fun s hs => ⟨(hthree s hs).1.trans mD, (hthree s hs).2.1.trans mD, (hthree s hs).2.2.trans mD,
    (hgof s hs).trans mG⟩, fun sols' best' hperm hb => ?_⟩
  have hthree' : ∀ s ∈ sols', _ := fun s hs => hthree s (hperm.mem_iff.1 hs)
  have hgof' : ∀ s ∈ sols', _ := fun s hs => hgof s (hperm.mem_iff.1 hs)
  have hmod' : ∀ m, m ∈ sols'.map (fun s => (s.h.val, s.k.val)) ↔ m ∈ E.models := by
    intro m
    rw [← hmod]
    exact (hperm.map _).mem_iff
  obtain ⟨i, j, k, l, hi, hci, hj, hrj, hk, hpk, hl, hgl⟩ := bestModels_ok hb
  have top : ∀ (g : Sol (FL R) → FL R) (n : ℕ) (t : Sol (FL R)), argmax (sols'.map g) = .ok n → sols'[n]? = some t →
      ∀ s ∈ sols', (g s).val ≤ (g t).val := by
    intro g n t h1 h2 s hs
    obtain ⟨m, hm, hall, -⟩ := argmax_firstMax (fun _ _ => rfl) h1
    rw [List.getElem?_map, h2] at hm
    cases hm
    obtain ⟨q, hq⟩ := List.mem_iff_getElem?.1 (List.mem_map_of_mem (f := g) hs)
    exact (FL.le_iff _ _).1 (hall q _ hq)
  have low : ∀ s ∈ sols', best'.rmse.rmse.val ≤ s.rmse.val := by
    intro s hs
    obtain ⟨m, hm, hall, -⟩ := argmin_firstMin (fun _ _ => rfl) hj
    rw [List.getElem?_map, hrj] at hm
    cases hm
    obtain ⟨q, hq⟩ := List.mem_iff_getElem?.1 (List.mem_map_of_mem (f := Sol.rmse) hs)
    exact (FL.le_iff _ _).1 (hall q _ hq)
  refine ⟨fun b hbest => ?_, fun b hbest => ?_, fun b hbest => ?_, fun b hbest => ?_⟩
  · refine best_of_near (col := fun s => -s.rmse.val) (gap1 ε he.le l2) hmod' (List.mem_of_getElem? hrj) (fun s hs => ?_)
      (fun s hs => neg_le_neg (low s hs)) hbest
    have := (hthree' s hs).1
    rw [abs_sub_comm] at this
    have e : -s.rmse.val - -E.misfit (s.h.val, s.k.val) = E.misfit (s.h.val, s.k.val) - s.rmse.val := by ring
    show |-s.rmse.val - -E.misfit (s.h.val, s.k.val)| ≤ _
    rwa [e]
  · exact best_of_near (col := fun s => s.corr.val) (gap2 ε he.le l3) hmod' (List.mem_of_getElem? hci)
      (fun s hs => (hthree' s hs).2.1) (top Sol.corr i _ hi hci) hbest
  · exact best_of_near (col := fun s => s.pg.val) (gap3 ε he.le l4) hmod' (List.mem_of_getElem? hpk)
      (fun s hs => (hthree' s hs).2.2) (top Sol.pg k _ hk hpk) hbest
  · exact best_of_near (col := fun s => s.gof.val) (gap4 ε he.le l5) hmod' (List.mem_of_getElem? hgl)
      hgof' (top Sol.gof l _ hl hgl) hbest

/-- **C142** Let `E` be an exact fit whose records vary, have no zero samples, and whose largest criteria are positive, and
let `c > 0`.  There are `G` and `δ > 0` such that every fit in an arithmetic (rounding to nearest with `p` bits behind the
first) of precision at most `ε ≤ δ` whose stack, synthetics and phase criteria are within `c ε` of the exact ones has:
one row per model of the grid, in the order of the grid; every misfit, correlation, phase criterion and goodness of fit
within `G ε` of the exact value; and for each of the four, if exactly one model of the grid is the best, this is the model
reported. -/
theorem c142_waveform {E : ExactFit} {C M Q : ℝ} (hE : E.Regular C M Q) {c : ℝ} (hc : 0 < c) :
    ∃ G > 0, ∃ δ > 0, ∀ ε, 0 < ε → ε ≤ δ → ∀ (p : ℕ) (R : Rounding), Nearest R p → R.u ≤ ε →
    ∀ (env : WEnv (FL R)) (rfs : List (Trace (FL R))) (preonset HSed VpSed VpCrust rayp gaussian wc wr wp : FL R)
      (KMoho HMoho : List (FL R)) (tr0 : Trace (FL R)) (sd : List (FL R)) (res : WResult (FL R)),
    NearFit E (c * ε) p env rfs preonset HSed VpSed VpCrust rayp gaussian wc wr wp KMoho HMoho tr0 sd →
    WaveformFitting env rfs preonset HSed VpSed VpCrust rayp KMoho HMoho gaussian wc wr wp = .ok res →
    res.WaveformSolutions.map (fun s => (s.h.val, s.k.val)) = E.models ∧
    RowsWithin E C M Q (G * ε) res.WaveformSolutions ∧ ReportsBest E C M Q res.printed := by
  obtain ⟨G, hG, δ, hδ, h⟩ := wave_core hE hc
  refine ⟨G, hG, δ, hδ, fun ε he hed p R hR hu env rfs preonset HSed VpSed VpCrust rayp gaussian wc wr wp KMoho HMoho tr0 sd
    res hN hres => ?_⟩
  obtain ⟨h1, h2, h3⟩ := h ε he hed p R hR hu env rfs preonset HSed VpSed VpCrust rayp gaussian wc wr wp KMoho HMoho tr0 sd
    res hN hres
  refine ⟨h1, h2, h3 _ _ (List.Perm.refl _) ?_⟩
  obtain ⟨P, all, sols, best, hP, ha, hs, hb, rfl⟩ := WaveformFitting_ok hres
  exact hb

/-! ## the parallel pipeline -/

theorem pyMax_perm_fl {R : Rounding} {xs ys : List (FL R)} {m n : FL R} (hp : xs.Perm ys) (h1 : pyMax xs = .ok m)
    (h2 : pyMax ys = .ok n) : m = n := by
  have a := pyMax_fl h1
  have b := pyMax_fl h2
  exact FL.ext' (le_antisymm (b.2 _ ((hp.map _).mem_iff.1 a.1)) (a.2 _ ((hp.map _).mem_iff.2 b.1)))

theorem normalise_perm_fl {R : Rounding} {all all' : List (Crit (FL R))} {wc wr wp : FL R} {sols sols' : List (Sol (FL R))}
    (hp : all.Perm all') (h : normalise all wc wr wp = .ok sols) (h' : normalise all' wc wr wp = .ok sols') :
    sols.Perm sols' := by
  obtain ⟨mc, mr, mp, a1, a2, a3, rfl⟩ := normalise_ok h
  obtain ⟨mc', mr', mp', b1, b2, b3, rfl⟩ := normalise_ok h'
  cases pyMax_perm_fl (hp.map _) a1 b1
  cases pyMax_perm_fl (hp.map _) a2 b2
  cases pyMax_perm_fl (hp.map _) a3 b3
  exact hp.map _

/-- the best models of two tables that are permutations of each other -/
theorem best_perm_fl {R : Rounding} {sols sols' : List (Sol (FL R))} {b b' : Best (FL R)} (hp : sols.Perm sols')
    (h : bestModels sols = .ok b) (h' : bestModels sols' = .ok b') :
    b.corr.corr = b'.corr.corr ∧ b.rmse.rmse = b'.rmse.rmse ∧ b.pg.pg = b'.pg.pg ∧
    b.gof.gof = b'.gof.gof ∧
    ((∀ s ∈ sols, s.corr = b.corr.corr → s = b.corr) → b'.corr = b.corr) ∧
    ((∀ s ∈ sols, s.rmse = b.rmse.rmse → s = b.rmse) → b'.rmse = b.rmse) ∧
    ((∀ s ∈ sols, s.pg = b.pg.pg → s = b.pg) → b'.pg = b.pg) ∧
    ((∀ s ∈ sols, s.gof = b.gof.gof → s = b.gof) → b'.gof = b.gof) := by
  obtain ⟨i, j, k, l, a1, a2, a3, a4, a5, a6, a7, a8⟩ := bestModels_ok h
  obtain ⟨i', j', k', l', b1, b2, b3, b4, b5, b6, b7, b8⟩ := bestModels_ok h'
  have top : ∀ {sols : List (Sol (FL R))} {g : Sol (FL R) → FL R} {n : ℕ} {t : Sol (FL R)}, argmax (sols.map g) = .ok n →
      sols[n]? = some t → t ∈ sols ∧ ∀ s ∈ sols, (g s).val ≤ (g t).val := by
    intro sols g n t h1 h2
    obtain ⟨m, hm, hall, -⟩ := argmax_firstMax (fun _ _ => rfl) h1
    rw [List.getElem?_map, h2] at hm
    cases hm
    refine ⟨List.mem_of_getElem? h2, fun s hs => ?_⟩
    obtain ⟨q, hq⟩ := List.mem_iff_getElem?.1 (List.mem_map_of_mem (f := g) hs)
    exact (FL.le_iff _ _).1 (hall q _ hq)
  have low : ∀ {sols : List (Sol (FL R))} {g : Sol (FL R) → FL R} {n : ℕ} {t : Sol (FL R)}, argmin (sols.map g) = .ok n →
      sols[n]? = some t → t ∈ sols ∧ ∀ s ∈ sols, (g t).val ≤ (g s).val := by
    intro sols g n t h1 h2
    obtain ⟨m, hm, hall, -⟩ := argmin_firstMin (fun _ _ => rfl) h1
    rw [List.getElem?_map, h2] at hm
    cases hm
    refine ⟨List.mem_of_getElem? h2, fun s hs => ?_⟩
    obtain ⟨q, hq⟩ := List.mem_iff_getElem?.1 (List.mem_map_of_mem (f := g) hs)
    exact (FL.le_iff _ _).1 (hall q _ hq)
  have maxc : ∀ {col : Sol (FL R) → FL R} {s s' : Sol (FL R)}, (s ∈ sols ∧ ∀ r ∈ sols, (col r).val ≤ (col s).val) →
      (s' ∈ sols' ∧ ∀ r ∈ sols', (col r).val ≤ (col s').val) → col s = col s' ∧
      ((∀ r ∈ sols, col r = col s → r = s) → s' = s) := by
    intro col s s' h1 h2
    have e : col s = col s' := FL.ext' (le_antisymm (h2.2 s (hp.mem_iff.1 h1.1)) (h1.2 s' (hp.mem_iff.2 h2.1)))
    exact ⟨e, fun h => h s' (hp.mem_iff.2 h2.1) e.symm⟩
  have minc : ∀ {col : Sol (FL R) → FL R} {s s' : Sol (FL R)}, (s ∈ sols ∧ ∀ r ∈ sols, (col s).val ≤ (col r).val) →
      (s' ∈ sols' ∧ ∀ r ∈ sols', (col s').val ≤ (col r).val) → col s = col s' ∧
      ((∀ r ∈ sols, col r = col s → r = s) → s' = s) := by
    intro col s s' h1 h2
    have e : col s = col s' := FL.ext' (le_antisymm (h1.2 s' (hp.mem_iff.2 h2.1)) (h2.2 s (hp.mem_iff.1 h1.1)))
    exact ⟨e, fun h => h s' (hp.mem_iff.2 h2.1) e.symm⟩
  have c1 := maxc (top a1 a2) (top b1 b2)
  have c2 := minc (low a3 a4) (low b3 b4)
  have c3 := maxc (top a5 a6) (top b5 b6)
  have c4 := maxc (top a7 a8) (top b7 b8)
  exact ⟨c1.1, c2.1, c3.1, c4.1, c1.2, c2.2, c3.2, c4.2⟩

/-- **C37** (rounded arithmetic): what the parallel pipeline tabulates is exactly, bit by bit, what the serial function tabulates,
in another order, and the best models are chosen from it. -/
theorem c37_rounded {R : Rounding} {env : WEnv (FL R)} {rfs : List (Trace (FL R))}
    {preonset HSed VpSed VpCrust rayp gaussian wc wr wp : FL R} {KMoho HMoho : List (FL R)} {P : Para (FL R)} {nproc : ℕ}
    {res : List (List (Crit (FL R)))} {savepath format : String} {sols : List (Sol (FL R))} {best : Best (FL R)}
    {figs : List (Fig (FL R))} (hn : 0 < nproc)
    (hP : WaveformPara env rfs preonset HSed VpSed VpCrust rayp KMoho HMoho gaussian = .ok P)
    (h : RunWaveformfitting env nproc HMoho P (.ok (res.map some)))
    (hplot : plotbestmodel env res P (some wc) (some wr) (some wp) savepath format = .ok (sols, best, figs)) :
    ∃ W, WaveformFitting env rfs preonset HSed VpSed VpCrust rayp KMoho HMoho gaussian wc wr wp = .ok W ∧
      sols.Perm W.WaveformSolutions ∧ bestModels sols = .ok best ∧
      best.corr.corr = W.printed.corr.corr ∧ best.rmse.rmse = W.printed.rmse.rmse ∧
      best.pg.pg = W.printed.pg.pg ∧ best.gof.gof = W.printed.gof.gof ∧
      ((∀ s ∈ W.WaveformSolutions, s.corr = W.printed.corr.corr → s = W.printed.corr) → best.corr = W.printed.corr) ∧
      ((∀ s ∈ W.WaveformSolutions, s.rmse = W.printed.rmse.rmse → s = W.printed.rmse) → best.rmse = W.printed.rmse) ∧
      ((∀ s ∈ W.WaveformSolutions, s.pg = W.printed.pg.pg → s = W.printed.pg) → best.pg = W.printed.pg) ∧
      ((∀ s ∈ W.WaveformSolutions, s.gof = W.printed.gof.gof → s = W.printed.gof) → best.gof = W.printed.gof) := by
  obtain ⟨all', ha', hso', hb'⟩ := plotbestmodel_ok hplot
  have hPe : P.HMoho = HMoho ∧ P.KMoho = KMoho := by
    have hP' := hP
    rw [WaveformPara_eq] at hP'
    obtain ⟨_, _, _, _, _, _, _, _, _, _, _, _, rfl⟩ := prepare_ok hP'; exact ⟨rfl, rfl⟩
  have hlen : all'.length = HMoho.length * KMoho.length := by
    rw [← hPe.1, ← hPe.2]; exact fillRows_length ha'
  have hne : all' ≠ [] := by
    rintro rfl
    rw [normalise_nil] at hso'
    cases hso'
  have hK : KMoho ≠ [] := by rintro rfl; simp at hlen; exact hne hlen
  have hH : HMoho ≠ [] := by rintro rfl; simp at hlen; exact hne hlen
  obtain ⟨W, hW⟩ := c37_converse wc wr wp hn hK hH hP h
  refine ⟨W, hW, ?_⟩
  obtain ⟨res', hr, -, hperm⟩ := c37_same_criteria hn hW hP h
  have hrr : res = res' := List.map_injective_iff.2 (Option.some_injective _) (Except.ok.inj hr)
  subst hrr
  obtain ⟨P', all, sols0, best0, hP', ha, hso, hb, rfl⟩ := WaveformFitting_ok hW
  have hall : sols0.map critOf = all := by
    obtain ⟨mc, mr, mp, _, _, _, rfl⟩ := normalise_ok hso
    rw [List.map_map]
    conv_rhs => rw [← List.map_id all]
    exact List.map_congr_left (fun c _ => rfl)
  have hcount : res.flatten.length = HMoho.length * KMoho.length := by
    rw [hperm.length_eq, hall, mapM_length ha, length_flatMap_map, Nat.mul_comm]
  rw [hPe.1, hPe.2, ← hcount, fillRows_self] at ha'
  cases Except.ok.inj ha'
  simp only [Option.getD_some] at hso'
  have hp : sols0.Perm sols := by
    refine normalise_perm_fl ?_ hso hso'
    rw [← hall]; exact hperm.symm
  obtain ⟨b1, b2, b3, b4, b5⟩ := best_perm_fl hp hb hb'
  exact ⟨hp.symm, hb', b1.symm, b2.symm, b3.symm, b4.symm, b5⟩

/-- **C142** The parallel pipeline (`WaveformPara`, `run_waveformfitting` with any number of processes under any schedule,
`plotbestmodel`): the same. -/
theorem c142_parallel {E : ExactFit} {C M Q : ℝ} (hE : E.Regular C M Q) {c : ℝ} (hc : 0 < c) :
    ∃ G > 0, ∃ δ > 0, ∀ ε, 0 < ε → ε ≤ δ → ∀ (p : ℕ) (R : Rounding), Nearest R p → R.u ≤ ε →
    ∀ (env : WEnv (FL R)) (rfs : List (Trace (FL R))) (preonset HSed VpSed VpCrust rayp gaussian wc wr wp : FL R)
      (KMoho HMoho : List (FL R)) (tr0 : Trace (FL R)) (sd : List (FL R)) (P : Para (FL R)) (nproc : ℕ)
      (res : List (List (Crit (FL R)))) (savepath format : String) (sols : List (Sol (FL R))) (best : Best (FL R))
      (figs : List (Fig (FL R))),
    NearFit E (c * ε) p env rfs preonset HSed VpSed VpCrust rayp gaussian wc wr wp KMoho HMoho tr0 sd → 0 < nproc →
    WaveformPara env rfs preonset HSed VpSed VpCrust rayp KMoho HMoho gaussian = .ok P →
    RunWaveformfitting env nproc HMoho P (.ok (res.map some)) →
    plotbestmodel env res P (some wc) (some wr) (some wp) savepath format = .ok (sols, best, figs) →
    (sols.map (fun s => (s.h.val, s.k.val))).Perm E.models ∧
    RowsWithin E C M Q (G * ε) sols ∧ ReportsBest E C M Q best := by
  obtain ⟨G, hG, δ, hδ, h⟩ := wave_core hE hc
  refine ⟨G, hG, δ, hδ, fun ε he hed p R hR hu env rfs preonset HSed VpSed VpCrust rayp gaussian wc wr wp KMoho HMoho tr0 sd
    P nproc res savepath format sols best figs hN hn hP hrun hplot => ?_⟩
  obtain ⟨W, hW, hperm, hb, -⟩ := c37_rounded hn hP hrun hplot
  obtain ⟨h1, h2, h3⟩ := h ε he hed p R hR hu env rfs preonset HSed VpSed VpCrust rayp gaussian wc wr wp KMoho HMoho tr0 sd
    W hN hW
  refine ⟨?_, fun s hs => h2 s (hperm.mem_iff.1 hs), h3 _ _ hperm hb⟩
  rw [← h1]
  exact hperm.map _

/-! ## A concrete case -/

/-- synthetics `1, 2, H` -/
noncomputable def fitEnv (R : Rounding) : WEnv (FL R) where
  stackR := fun st => .ok (st.map Trace.data)
  synthRF := fun args => .ok [⟨1⟩, ⟨2⟩, args.depth.getD 1 ⟨0⟩]
  pg := fun _ _ _ => .ok ⟨1⟩

/-- data `1, 2, 3` -/
noncomputable def fitTrace (R : Rounding) : Trace (FL R) where
  station := "STA"
  channel := "R"
  data := [⟨1⟩, ⟨2⟩, ⟨3⟩]
  delta := ⟨1⟩
  starttime := ⟨0⟩
  onset := some ⟨0⟩
  slowness := some ⟨.py, ⟨6⟩⟩
  backAzimuth := none
  distance := none

/-- the exact fit -/
noncomputable def fitExact : ExactFit where
  data := [1, 2, 3]
  synthetic := fun h _ => [1, 2, h]
  phase := fun _ _ => 1
  depths := [3, 4]
  ratios := [2]
  wc := 1
  wr := 1
  wp := 1
  N := 0
  f := 1

theorem fitModels : fitExact.models = [(3, 2), (4, 2)] := rfl

theorem fitVaries (H : ℝ) : ¬ Constant [1, 2, H] := by
  intro h
  have := h 1 (by simp) 2 (by simp)
  norm_num at this

theorem fitCorr : fitExact.corr (3, 2) = 1 := pearson_self (fitVaries 3)

theorem fitCorr' : fitExact.corr (4, 2) ≤ 1 := (abs_le.1 (abs_pearson_le [1, 2, 3] [1, 2, 4] rfl)).2

theorem fitMisfit : fitExact.misfit (3, 2) = 0 := by
  show rms [1, 2, 3] [1, 2, 3] = 0
  simp [rms]

theorem fitMisfit' : fitExact.misfit (4, 2) = √(1 / 3) := by
  show rms [1, 2, 3] [1, 2, 4] = _
  simp [rms]; norm_num

theorem fitRegular : fitExact.Regular 1 (√(1 / 3)) 1 where
  varies := fitVaries 3
  signed := by
    show ∀ a ∈ ([1, 2, 3] : List ℝ), a ≠ 0
    simp
  synthetics := by
    intro m hm
    rw [fitModels] at hm
    simp only [List.mem_cons, List.not_mem_nil, or_false] at hm
    rcases hm with rfl | rfl
    · refine ⟨fitVaries 3, rfl, ?_⟩
      show ∀ a ∈ ([1, 2, 3] : List ℝ), a ≠ 0
      simp
    · refine ⟨fitVaries 4, rfl, ?_⟩
      show ∀ a ∈ ([1, 2, 4] : List ℝ), a ≠ 0
      simp
  maxCorr := by
    rw [fitModels]
    refine ⟨by simp [fitCorr], ?_⟩
    simp [fitCorr, fitCorr']
  maxMisfit := by
    rw [fitModels]
    refine ⟨by simp [fitMisfit'], ?_⟩
    simp [fitMisfit, fitMisfit']
  maxPhase := by
    rw [fitModels]
    refine ⟨by simp [fitExact], ?_⟩
    simp [fitExact]
  posC := one_pos
  posM := Real.sqrt_pos.2 (by norm_num)
  posQ := one_pos

theorem fitBest : fitExact.OnlyBest (fitExact.goodness 1 (√(1 / 3)) 1) (3, 2) := by
  refine ⟨by rw [fitModels]; simp, fun m hm hne => ?_⟩
  rw [fitModels] at hm
  simp only [List.mem_cons, List.not_mem_nil, or_false] at hm
  rcases hm with rfl | rfl
  · exact absurd rfl hne
  · have := fitCorr'
    have pM : 0 < √(1 / 3 : ℝ) := Real.sqrt_pos.2 (by norm_num)
    rw [ExactFit.goodness, ExactFit.goodness, fitCorr, fitMisfit, fitMisfit', div_self pM.ne']
    show 1 * (fitExact.corr (4, 2) / 1) + 1 * (1 - 1) + 1 * (1 / 1) < 1 * (1 / 1) + 1 * (1 - 0 / √(1 / 3)) + 1 * (1 / 1)
    rw [zero_div]
    linarith

theorem fitSame (R : Rounding) (x : List (FL R)) {e : ℝ} (he : 0 < e) (y : List ℝ) (h : x.map FL.val = y) :
    SamplesWithin e y (x.map FL.val) := by
  rw [h]
  exact List.forall₂_same.2 (fun a _ => by simpa using he)

/-- In every sufficiently precise binary arithmetic, the fit of data equal to the synthetic of one of two models succeeds
and reports that model as the best one overall. -/
example : ∃ δ > 0, ∀ p : ℕ, 4 ≤ p → (Rounding.binary p).u ≤ δ → ∃ res,
    WaveformFitting (fitEnv (Rounding.binary p)) [fitTrace _] ⟨0⟩ ⟨1⟩ ⟨2⟩ ⟨6⟩ ⟨0⟩ [⟨2⟩] [⟨3⟩, ⟨4⟩] ⟨1⟩ ⟨1⟩ ⟨1⟩ ⟨1⟩ = .ok res ∧
    res.printed.gof.h.val = 3 ∧ res.printed.gof.k.val = 2 := by
  obtain ⟨G, hG, δ, hδ, h⟩ := c142_waveform fitRegular one_pos
  refine ⟨δ, hδ, fun p hp hu => ?_⟩
  have h4 : (2 : ℕ) ^ 4 ≤ 2 ^ p := Nat.pow_le_pow_right (by norm_num) hp
  have rate : SamplesPerSecond p (fitTrace (Rounding.binary p)).delta.val 1 := by
    refine ⟨by norm_num, ?_, ?_⟩ <;> show _ <;> simp [fitTrace]
  have hbig : (0 + 25) * 1 < 2 ^ (p + 1) := by rw [pow_succ]; omega
  obtain ⟨res, hres⟩ := c122_succeeds (R := Rounding.binary p) (env := fitEnv _) (rfs := [fitTrace _]) (preonset := ⟨0⟩) (HSed := ⟨1⟩)
    (VpSed := ⟨2⟩) (VpCrust := ⟨6⟩) (rayp := ⟨0⟩) (KMoho := [⟨2⟩]) (HMoho := [⟨3⟩, ⟨4⟩]) (gaussian := ⟨1⟩)
    (N := 0) (f := 1) (p := p) (tr0 := fitTrace _) (sd := (fitTrace _).data) (S := [(fitTrace _).data]) ⟨1⟩ ⟨1⟩ ⟨1⟩
    (binary_nearest p) rfl rate (by simp) (by simp only [fitTrace, List.length_cons, List.length_nil]; omega)
    hbig (by simp [fitTrace]) rfl rfl rfl (fun _ => ⟨_, rfl, rfl⟩) (fun _ _ _ => ⟨_, rfl⟩) (by simp) (by simp)
  refine ⟨res, hres, ?_⟩
  have hbest := (h δ hδ le_rfl p (Rounding.binary p) (binary_nearest p) hu (fitEnv _) [fitTrace _] ⟨0⟩ ⟨1⟩ ⟨2⟩ ⟨6⟩ ⟨0⟩ ⟨1⟩
    ⟨1⟩ ⟨1⟩ ⟨1⟩ [⟨2⟩] [⟨3⟩, ⟨4⟩] (fitTrace _) (fitTrace _).data res {
      first := rfl
      rate := rate
      onset := by simp [fitExact]
      short := by simp only [fitTrace, List.length_cons, List.length_nil]; omega
      bounded := hbig
      inside := by simp [fitTrace, fitExact]
      depths := rfl
      ratios := rfl
      weights := ⟨rfl, rfl, rfl⟩
      stack := ⟨[], rfl⟩
      data := fitSame _ _ (by simpa using hδ) _ rfl
      synthetics := fun h _ k _ => fitSame _ _ (by simpa using hδ) _ rfl
      phases := fun h _ k _ x y v _ _ hv => by
        cases hv
        simpa [fitExact] using hδ.le } hres).2.2.2.2.2 _ fitBest
  exact ⟨congrArg Prod.fst hbest, congrArg Prod.snd hbest⟩

/-- The same in the parallel pipeline, with any positive number of processes. -/
example : ∃ δ > 0, ∀ p : ℕ, 4 ≤ p → (Rounding.binary p).u ≤ δ → ∀ nproc : ℕ, 0 < nproc → ∃ P res sols best figs,
    WaveformPara (fitEnv (Rounding.binary p)) [fitTrace _] ⟨0⟩ ⟨1⟩ ⟨2⟩ ⟨6⟩ ⟨0⟩ [⟨2⟩] [⟨3⟩, ⟨4⟩] ⟨1⟩ = .ok P ∧
    RunWaveformfitting (fitEnv _) nproc [⟨3⟩, ⟨4⟩] P (.ok (res.map some)) ∧
    plotbestmodel (fitEnv _) res P (some ⟨1⟩) (some ⟨1⟩) (some ⟨1⟩) "out" "pdf" = .ok (sols, best, figs) ∧
    best.gof.h.val = 3 ∧ best.gof.k.val = 2 := by
  obtain ⟨G, hG, δ, hδ, h⟩ := c142_parallel fitRegular one_pos
  refine ⟨δ, hδ, fun p hp hu nproc hn => ?_⟩
  have h4 : (2 : ℕ) ^ 4 ≤ 2 ^ p := Nat.pow_le_pow_right (by norm_num) hp
  have rate : SamplesPerSecond p (fitTrace (Rounding.binary p)).delta.val 1 := by
    refine ⟨by norm_num, ?_, ?_⟩ <;> show _ <;> simp [fitTrace]
  have hbig : (0 + 25) * 1 < 2 ^ (p + 1) := by rw [pow_succ]; omega
  obtain ⟨W, hW⟩ := c122_succeeds (R := Rounding.binary p) (env := fitEnv _) (rfs := [fitTrace _]) (preonset := ⟨0⟩) (HSed := ⟨1⟩)
    (VpSed := ⟨2⟩) (VpCrust := ⟨6⟩) (rayp := ⟨0⟩) (KMoho := [⟨2⟩]) (HMoho := [⟨3⟩, ⟨4⟩]) (gaussian := ⟨1⟩)
    (N := 0) (f := 1) (p := p) (tr0 := fitTrace _) (sd := (fitTrace _).data) (S := [(fitTrace _).data]) ⟨1⟩ ⟨1⟩ ⟨1⟩
    (binary_nearest p) rfl rate (by simp) (by simp only [fitTrace, List.length_cons, List.length_nil]; omega)
    hbig (by simp [fitTrace]) rfl rfl rfl (fun _ => ⟨_, rfl, rfl⟩) (fun _ _ _ => ⟨_, rfl⟩) (by simp) (by simp)
  obtain ⟨P, -, -, -, hP, -⟩ := WaveformFitting_ok hW
  rw [← WaveformPara_eq] at hP
  obtain ⟨out, log, hout⟩ := c46_has_outcome nproc (WaveformFit_multiproc (fitEnv _) P) [⟨3⟩, ⟨4⟩]
  obtain ⟨res, rfl, -, -⟩ := c37_same_criteria hn hW hP ⟨log, hout⟩
  obtain ⟨sols, best, figs, hplot⟩ := c100_parallel_plotted (some ⟨1⟩) (some ⟨1⟩) (some ⟨1⟩) "out" "pdf" hn
    (by simp) (by simp) hP ⟨log, hout⟩ rfl rfl (fun _ => rfl)
  refine ⟨P, res, sols, best, figs, hP, ⟨log, hout⟩, hplot, ?_⟩
  have hbest := (h δ hδ le_rfl p (Rounding.binary p) (binary_nearest p) hu (fitEnv _) [fitTrace _] ⟨0⟩ ⟨1⟩ ⟨2⟩ ⟨6⟩ ⟨0⟩ ⟨1⟩
    ⟨1⟩ ⟨1⟩ ⟨1⟩ [⟨2⟩] [⟨3⟩, ⟨4⟩] (fitTrace _) (fitTrace _).data P nproc res "out" "pdf" sols best figs {
      first := rfl
      rate := rate
      onset := by simp [fitExact]
      short := by simp only [fitTrace, List.length_cons, List.length_nil]; omega
      bounded := hbig
      inside := by simp [fitTrace, fitExact]
      depths := rfl
      ratios := rfl
      weights := ⟨rfl, rfl, rfl⟩
      stack := ⟨[], rfl⟩
      data := fitSame _ _ (by simpa using hδ) _ rfl
      synthetics := fun h _ k _ => fitSame _ _ (by simpa using hδ) _ rfl
      phases := fun h _ k _ x y v _ _ hv => by
        cases hv
        simpa [fitExact] using hδ.le } hn hP ⟨log, hout⟩ hplot).2.2.2.2.2 _ fitBest
  exact ⟨congrArg Prod.fst hbest, congrArg Prod.snd hbest⟩

end Rfsed.Props
