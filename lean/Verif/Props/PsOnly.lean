import Mathlib.Tactic.LinearCombination
import Verif.Proofs.Tradeoff
import Verif.Props.DelayTimes
import Verif.Props.Tradeoff
import Verif.Props.HkZhu2

/-!
# C119: what the Ps phase alone can tell
-/

namespace Rfsed.Props
open PyFloat Rfsed.Spec Rfsed.Proofs Rfsed.HkZhu

/-- the velocity ratio a layer of thickness `H'` must have in order to delay Ps as the layer (`H`, `K`) does -/
noncomputable def psRatio (p V H K H' : ℝ) : ℝ := V * Real.sqrt (p ^ 2 + (eta p V + tPs p V H K / H') ^ 2)

/-- **C119**: with one ray parameter, every thickness explains a Ps time, with exactly one velocity ratio. -/
theorem c119_one_ray {p V H K H' : ℝ} (h : Propagates p V) (hH : 0 < H) (hH' : 0 < H') (hK : 1 ≤ K) :
    1 ≤ psRatio p V H K H' ∧ tPs p V H' (psRatio p V H K H') = tPs p V H K ∧
    ∀ K' : ℝ, 0 < K' → p ^ 2 ≤ (K' / V) ^ 2 → tPs p V H' K' = tPs p V H K → K' = psRatio p V H K H' := by
  have hV := h.1
  have hp1 := eta_pos h
  have hS : eta p V ≤ eta p (V / K) := by
    rw [eta_one, eta_ratio]
    apply Real.sqrt_le_sqrt
    have : (1 / V) ^ 2 ≤ (K / V) ^ 2 := by gcongr
    linarith
  have ht : 0 ≤ tPs p V H K := by
    unfold tPs
    exact mul_nonneg hH.le (by linarith)
  have hsum : 0 < eta p V + tPs p V H K / H' := by positivity
  have e1 : psRatio p V H K H' / V = Real.sqrt (p ^ 2 + (eta p V + tPs p V H K / H') ^ 2) := by
    unfold psRatio; field_simp
  have e2 : eta p (V / psRatio p V H K H') = eta p V + tPs p V H K / H' := by
    rw [eta_ratio, e1, Real.sq_sqrt (by positivity), show p ^ 2 + (eta p V + tPs p V H K / H') ^ 2 - p ^ 2
      = (eta p V + tPs p V H K / H') ^ 2 by ring, Real.sqrt_sq hsum.le]
  refine ⟨?_, ?_, ?_⟩
  · have s1 : (eta p V) ^ 2 = (1 / V) ^ 2 - p ^ 2 := by rw [eta_one, Real.sq_sqrt (by linarith [h.2])]
    have hle : (1 / V) ≤ Real.sqrt (p ^ 2 + (eta p V + tPs p V H K / H') ^ 2) := by
      apply Real.le_sqrt_of_sq_le
      have : (eta p V) ^ 2 ≤ (eta p V + tPs p V H K / H') ^ 2 := by
        have : 0 ≤ tPs p V H K / H' := by positivity
        gcongr; linarith
      linarith
    unfold psRatio
    calc (1 : ℝ) = V * (1 / V) := by field_simp
      _ ≤ _ := by gcongr
  · rw [tPs, e2]
    field_simp
    ring
  · intro K' hK' hp' he
    have h3 : eta p (V / K') = eta p V + tPs p V H K / H' := by
      rw [← he, tPs]
      field_simp
      ring
    have h4 : (K' / V) ^ 2 = p ^ 2 + (eta p V + tPs p V H K / H') ^ 2 := by
      rw [← h3, eta_ratio, Real.sq_sqrt (by linarith)]; ring
    unfold psRatio
    rw [← h4, Real.sqrt_sq (by positivity)]
    field_simp

/-- sums of square roots -/
theorem roots_cross {a a' b q1 q2 : ℝ} (hq : q1 < q2) (hb : q2 < b) (ha : b < a) (haa : a < a') :
    (Real.sqrt (a' - q1) + Real.sqrt (b - q1)) * (Real.sqrt (a - q2) + Real.sqrt (b - q2)) <
    (Real.sqrt (a - q1) + Real.sqrt (b - q1)) * (Real.sqrt (a' - q2) + Real.sqrt (b - q2)) := by
  have A1 := Real.sqrt_pos.2 (show 0 < a - q1 by linarith)
  have A2 := Real.sqrt_pos.2 (show 0 < a - q2 by linarith)
  have A1' := Real.sqrt_pos.2 (show 0 < a' - q1 by linarith)
  have A2' := Real.sqrt_pos.2 (show 0 < a' - q2 by linarith)
  have B2 := Real.sqrt_pos.2 (show 0 < b - q2 by linarith)
  have s1 := Real.sq_sqrt (show 0 ≤ a - q1 by linarith)
  have s2 := Real.sq_sqrt (show 0 ≤ a - q2 by linarith)
  have s1' := Real.sq_sqrt (show 0 ≤ a' - q1 by linarith)
  have s2' := Real.sq_sqrt (show 0 ≤ a' - q2 by linarith)
  have b12 : Real.sqrt (b - q2) < Real.sqrt (b - q1) := Real.sqrt_lt_sqrt (by linarith) (by linarith)
  have a12 : Real.sqrt (a - q2) < Real.sqrt (a - q1) := Real.sqrt_lt_sqrt (by linarith) (by linarith)
  have a12' : Real.sqrt (a' - q2) < Real.sqrt (a' - q1) := Real.sqrt_lt_sqrt (by linarith) (by linarith)
  have d1 : Real.sqrt (a - q1) < Real.sqrt (a' - q1) := Real.sqrt_lt_sqrt (by linarith) (by linarith)
  have d2 : Real.sqrt (a - q2) < Real.sqrt (a' - q2) := Real.sqrt_lt_sqrt (by linarith) (by linarith)
  generalize Real.sqrt (a - q1) = x1 at *
  generalize Real.sqrt (a - q2) = x2 at *
  generalize Real.sqrt (a' - q1) = y1 at *
  generalize Real.sqrt (a' - q2) = y2 at *
  generalize Real.sqrt (b - q1) = c1 at *
  generalize Real.sqrt (b - q2) = c2 at *
  have t1 : y1 * x2 < x1 * y2 := by
    have : (y1 * x2) ^ 2 < (x1 * y2) ^ 2 := by
      rw [mul_pow, mul_pow, s1, s2, s1', s2']
      nlinarith
    exact lt_of_pow_lt_pow_left₀ 2 (by positivity) this
  have t2 : y1 - x1 < y2 - x2 := by
    have e1 : (y1 - x1) * (y1 + x1) = a' - a := by nlinarith
    have e2 : (y2 - x2) * (y2 + x2) = a' - a := by nlinarith
    by_contra hc
    push Not at hc
    have : (y2 - x2) * (y2 + x2) < (y1 - x1) * (y1 + x1) := by
      have : (y2 - x2) * (y2 + x2) < (y2 - x2) * (y1 + x1) := mul_lt_mul_of_pos_left (by linarith) (by linarith)
      have : (y2 - x2) * (y1 + x1) ≤ (y1 - x1) * (y1 + x1) := mul_le_mul_of_nonneg_right hc (by linarith)
      linarith
    linarith
  have t3 : c2 * (y1 - x1) < c1 * (y2 - x2) := by
    have : c2 * (y1 - x1) < c2 * (y2 - x2) := mul_lt_mul_of_pos_left t2 B2
    have : c2 * (y2 - x2) < c1 * (y2 - x2) := mul_lt_mul_of_pos_right b12 (by linarith)
    linarith
  nlinarith

theorem ps_factor {p V K : ℝ} (h : Propagates p V) (hK : 1 ≤ K) :
    (eta p (V / K) - eta p V) * (Real.sqrt ((K / V) ^ 2 - p ^ 2) + Real.sqrt ((1 / V) ^ 2 - p ^ 2))
      = (K / V) ^ 2 - (1 / V) ^ 2 := by
  have hV := h.1
  have : (1 / V) ^ 2 ≤ (K / V) ^ 2 := by gcongr
  rw [eta_ratio, eta_one]
  have s1 := Real.sq_sqrt (show 0 ≤ (K / V) ^ 2 - p ^ 2 by linarith [h.2])
  have s2 := Real.sq_sqrt (show 0 ≤ (1 / V) ^ 2 - p ^ 2 by linarith [h.2])
  nlinarith

/-- one ordering of the two ratios -/
theorem two_rays_lt {p1 p2 V H K H' K' : ℝ} (h1 : Propagates p1 V) (h2 : Propagates p2 V) (hp : p1 ^ 2 < p2 ^ 2)
    (hH : 0 < H) (hH' : 0 < H') (hK : 1 < K) (hKK : K < K')
    (e1 : tPs p1 V H K = tPs p1 V H' K') (e2 : tPs p2 V H K = tPs p2 V H' K') : False := by
  have hV := h1.1
  have i1 : (1 / V) ^ 2 < (K / V) ^ 2 := by
    have : 1 / V < K / V := by gcongr
    have : 0 < 1 / V := by positivity
    nlinarith
  have i2 : (K / V) ^ 2 < (K' / V) ^ 2 := by
    have : K / V < K' / V := by gcongr
    have : 0 < K / V := by positivity
    nlinarith
  have hx := roots_cross hp h2.2 i1 i2
  have f1 := ps_factor h1 hK.le
  have f2 := ps_factor h2 hK.le
  have f1' := ps_factor h1 (hK.le.trans hKK.le)
  have f2' := ps_factor h2 (hK.le.trans hKK.le)
  unfold tPs at e1 e2
  have r1 := Real.sqrt_pos.2 (show 0 < (K / V) ^ 2 - p1 ^ 2 by linarith [h1.2])
  have r2 := Real.sqrt_pos.2 (show 0 < (K / V) ^ 2 - p2 ^ 2 by linarith [h2.2])
  have r1' := Real.sqrt_pos.2 (show 0 < (K' / V) ^ 2 - p1 ^ 2 by linarith [h1.2])
  have r2' := Real.sqrt_pos.2 (show 0 < (K' / V) ^ 2 - p2 ^ 2 by linarith [h2.2])
  have c1 := Real.sqrt_pos.2 (show 0 < (1 / V) ^ 2 - p1 ^ 2 by linarith [h1.2])
  have c2 := Real.sqrt_pos.2 (show 0 < (1 / V) ^ 2 - p2 ^ 2 by linarith [h2.2])
  set S1 := Real.sqrt ((K / V) ^ 2 - p1 ^ 2) + Real.sqrt ((1 / V) ^ 2 - p1 ^ 2) with hS1
  set S2 := Real.sqrt ((K / V) ^ 2 - p2 ^ 2) + Real.sqrt ((1 / V) ^ 2 - p2 ^ 2) with hS2
  set S1' := Real.sqrt ((K' / V) ^ 2 - p1 ^ 2) + Real.sqrt ((1 / V) ^ 2 - p1 ^ 2) with hS1'
  set S2' := Real.sqrt ((K' / V) ^ 2 - p2 ^ 2) + Real.sqrt ((1 / V) ^ 2 - p2 ^ 2) with hS2'
  have p1S : 0 < S1 := by positivity
  have p2S : 0 < S2 := by positivity
  have p1S' : 0 < S1' := by positivity
  have p2S' : 0 < S2' := by positivity
  generalize eta p1 (V / K) - eta p1 V = u1 at *
  generalize eta p2 (V / K) - eta p2 V = u2 at *
  generalize eta p1 (V / K') - eta p1 V = v1 at *
  generalize eta p2 (V / K') - eta p2 V = v2 at *
  have hD : 0 < (K / V) ^ 2 - (1 / V) ^ 2 := by linarith
  have hD' : 0 < (K' / V) ^ 2 - (1 / V) ^ 2 := by linarith
  have g1 : u1 = ((K / V) ^ 2 - (1 / V) ^ 2) / S1 := by rw [eq_div_iff p1S.ne']; exact f1
  have g2 : u2 = ((K / V) ^ 2 - (1 / V) ^ 2) / S2 := by rw [eq_div_iff p2S.ne']; exact f2
  have g1' : v1 = ((K' / V) ^ 2 - (1 / V) ^ 2) / S1' := by rw [eq_div_iff p1S'.ne']; exact f1'
  have g2' : v2 = ((K' / V) ^ 2 - (1 / V) ^ 2) / S2' := by rw [eq_div_iff p2S'.ne']; exact f2'
  rw [g1, g1'] at e1
  rw [g2, g2'] at e2
  generalize (K / V) ^ 2 - (1 / V) ^ 2 = D at *
  generalize (K' / V) ^ 2 - (1 / V) ^ 2 = D' at *
  field_simp at e1 e2
  have : (H * D) * (S1' * S2) = (H * D) * (S1 * S2') := by
    linear_combination S2 * e1 - S1 * e2
  have := mul_left_cancel₀ (by positivity) this
  linarith

/-- **C119**: the Ps times of two different ray parameters determine thickness and velocity ratio. -/
theorem c119_two_rays {p1 p2 V H K H' K' : ℝ} (h1 : Propagates p1 V) (h2 : Propagates p2 V) (hp : p1 ^ 2 ≠ p2 ^ 2)
    (hH : 0 < H) (hH' : 0 < H') (hK : 1 < K) (hK' : 1 < K')
    (e1 : tPs p1 V H K = tPs p1 V H' K') (e2 : tPs p2 V H K = tPs p2 V H' K') : H = H' ∧ K = K' := by
  have hKK : K = K' := by
    rcases lt_trichotomy K K' with h | h | h
    · rcases lt_or_gt_of_ne hp with g | g
      · exact (two_rays_lt h1 h2 g hH hH' hK h e1 e2).elim
      · exact (two_rays_lt h2 h1 g hH hH' hK h e2 e1).elim
    · exact h
    · rcases lt_or_gt_of_ne hp with g | g
      · exact (two_rays_lt h1 h2 g hH' hH hK' h e1.symm e2.symm).elim
      · exact (two_rays_lt h2 h1 g hH' hH hK' h e2.symm e1.symm).elim
  subst hKK
  refine ⟨?_, rfl⟩
  have hV := h1.1
  have hlt : eta p1 V < eta p1 (V / K) := by
    rw [eta_one, eta_ratio]
    apply Real.sqrt_lt_sqrt (by linarith [h1.2])
    have : 1 / V < K / V := by gcongr
    have : 0 < 1 / V := by positivity
    nlinarith
  unfold tPs at e1
  exact mul_right_cancel₀ (by linarith : eta p1 (V / K) - eta p1 V ≠ 0) e1

/-- **C119** `hk` without stacking: with the Ps weight alone, grid points with the same Ps times have the same value. -/
theorem c119_hk {env : Env ℝ} {st : List (Trace ℝ)} {preonset : ℝ} {H K : List ℝ} {Vp : Scalar ℝ} {w1 : ℝ}
    {layer : Option String} {r : HKResult ℝ}
    (h : hk env st preonset H K (some Vp) (some w1) (some 0) (some 0) layer (some false) = .ok r) (hVp : Vp.val ≠ 0)
    (hpre : ∀ tr ∈ st, ∀ k ∈ K, PreCritical (env.km2deg1 * slownessOf tr) Vp.val k) :
    ∀ a ∈ r.stackvalues, ∀ b ∈ r.stackvalues,
      (∀ tr ∈ st, tPs (env.km2deg1 * slownessOf tr) Vp.val a.h a.k = tPs (env.km2deg1 * slownessOf tr) Vp.val b.h b.k) →
      a.s = b.s := by
  intro a ha b hb hab
  obtain ⟨A, hA, ea⟩ := c04_stack_value h hVp hpre a ha
  obtain ⟨B, hB, eb⟩ := c04_stack_value h hVp hpre b hb
  rw [ea, eb]
  congr 1
  apply List.map_congr_left
  intro tr htr
  have h1 := hA tr htr _ (List.mem_cons_self ..)
  have h2 := hB tr htr _ (List.mem_cons_self ..)
  rw [hab tr htr] at h1 ⊢
  rw [ReadsNearest.unique h1 h2]
  ring

theorem grid_of_row {env : Env ℝ} {st : List (Trace ℝ)} {preonset : ℝ} {H K : List ℝ} {Vp : Option (Scalar ℝ)}
    {w1 w2 w3 : Option ℝ} {layer : Option String} {stack : Option Bool} {r : HKResult ℝ}
    (h : hk env st preonset H K Vp w1 w2 w3 layer stack = .ok r) :
    ∀ a ∈ r.stackvalues, a.h ∈ H ∧ a.k ∈ K := by
  intro row hrow
  obtain ⟨tr0, rest, slows, f⟩ := hk_inv h
  obtain ⟨n, hn, hrow'⟩ := List.getElem_of_mem hrow
  obtain ⟨i, j, _, hk, hx, hv⟩ := (gridLoop_ok f.hgrid).2.2 n row (by simp [hn, hrow'])
  exact ⟨List.mem_of_getElem? hx, List.mem_of_getElem? hk⟩

/-- **C119** `hk` with stacking: with the Ps weight alone every thickness of the grid whose velocity ratio explains the
Ps time of a grid point has the value of that grid point: the table has a ridge, not a peak. -/
theorem c119_hk_stack {env : Env ℝ} {st : List (Trace ℝ)} {preonset : ℝ} {H K : List ℝ} {Vp : Scalar ℝ} {w1 : ℝ}
    {layer : Option String} {r : HKResult ℝ}
    (h : hk env st preonset H K (some Vp) (some w1) (some 0) (some 0) layer (some true) = .ok r) {p : ℝ}
    (hp : p = env.km2deg1 * ((st.map slownessOf).sum / st.length)) (hV : Propagates p Vp.val)
    (hK : ∀ k ∈ K, 1 ≤ k) (hH : ∀ x ∈ H, 0 < x) :
    ∀ a ∈ r.stackvalues, ∀ b ∈ r.stackvalues, b.k = psRatio p Vp.val a.h a.k b.h → b.s = a.s := by
  intro a ha b hb hab
  have hpre : ∀ k ∈ K, PreCritical p Vp.val k := by
    intro k hk
    have h1 := hK k hk
    have hV0 := hV.1
    have : (1 / Vp.val) ^ 2 ≤ (k / Vp.val) ^ 2 := by gcongr
    exact ⟨by linarith [hV.2], hV.2.le⟩
  obtain ⟨a1, a2, a3, ra, _, _, ea⟩ := c06_stack_value h hV.1.ne' p hp hpre a ha
  obtain ⟨b1, b2, b3, rb, _, _, eb⟩ := c06_stack_value h hV.1.ne' p hp hpre b hb
  have hgrid := grid_of_row h
  have e := (c119_one_ray hV (hH _ (hgrid a ha).1) (hH _ (hgrid b hb).1) (hK _ (hgrid a ha).2)).2.1
  rw [hab, e] at rb
  rw [ea, eb, ReadsNearest.unique ra rb]
  ring

/-- two different ray parameters in a crust of 6.5 km/s: only one model has these two Ps times -/
example : ∀ H' K' : ℝ, 0 < H' → 1 < K' → tPs (4 / 100) 6.5 35 1.75 = tPs (4 / 100) 6.5 H' K' →
    tPs (6 / 100) 6.5 35 1.75 = tPs (6 / 100) 6.5 H' K' → H' = 35 ∧ K' = 1.75 := by
  intro H' K' hH hK e1 e2
  obtain ⟨a, b⟩ := c119_two_rays (sample_propagates (by norm_num) (by norm_num) (by norm_num))
    (sample_propagates le_rfl (by norm_num) (by norm_num)) (by norm_num) (by norm_num) hH (by norm_num) hK e1 e2
  exact ⟨a.symm, b.symm⟩

/-- a crust of 40 km explains the Ps time of a crust of 30 km (ray parameter 0.06 s/km) -/
example : tPs (6 / 100) 6.5 40 (psRatio (6 / 100) 6.5 30 1.8 40) = tPs (6 / 100) 6.5 30 1.8 :=
  (c119_one_ray (sample_propagates le_rfl (by norm_num) (by norm_num)) (by norm_num) (by norm_num) (by norm_num)).2.1

/-- `hk` with the Ps weight alone: the grid points (30, 1.8) and (40, `psRatio …`) cannot be told apart -/
example : ∃ r, ∃ a ∈ r.stackvalues, ∃ b ∈ r.stackvalues,
    hk Sample.env [Sample.trace [0, 1, 3, 2, 0] 6] 1 [30, 40] [1.8, psRatio (1 / 111 * 6) 6.5 30 1.8 40] (some ⟨.py, 6.5⟩)
      (some 1) (some 0) (some 0) none (some true) = .ok r ∧
    a.h = 30 ∧ b.h = 40 ∧ a.s = b.s := by
  have hp : ((1 : ℝ) / 111 * 6) ^ 2 ≤ (6 / 100) ^ 2 := by norm_num
  have hV : Propagates (1 / 111 * 6) 6.5 := sample_propagates hp (by norm_num) (by norm_num)
  have h1 := (c119_one_ray (H := 30) (K := 1.8) (H' := 40) hV (by norm_num) (by norm_num) (by norm_num)).1
  obtain ⟨r, hr⟩ : ∃ r, hk Sample.env [Sample.trace [0, 1, 3, 2, 0] 6] 1 [30, 40]
      [1.8, psRatio (1 / 111 * 6) 6.5 30 1.8 40] (some ⟨.py, 6.5⟩)
      (some 1) (some 0) (some 0) none (some true) = .ok r := by
    refine c03_succeeds (sd := _) (more := []) rfl ?_ ?_ ?_ ?_ ?_ ?_ (by simp) (by simp) ?_
    · intro _; simp [Sample.trace]
    · simp [Sample.trace]
    · intro tr htr
      simp at htr
      subst htr; simp [Sample.trace]
    · intro tr htr
      simp at htr
    · intro v hv
      cases hv
      right
      rw [← Bool.not_eq_true, real_eq]; norm_num
    · intro h; cases h
    · intro _ _; rfl
  have hs := c03_table_shape hr
  obtain ⟨s1, e1⟩ := hs.2.1 0 0 1.8 30 rfl rfl
  obtain ⟨s2, e2⟩ := hs.2.1 1 1 _ 40 rfl rfl
  refine ⟨r, _, List.mem_of_getElem? e1, _, List.mem_of_getElem? e2, hr, rfl, rfl, ?_⟩
  refine (c119_hk_stack hr (p := 1 / 111 * 6) ?_ hV ?_ ?_ _ (List.mem_of_getElem? e1) _ (List.mem_of_getElem? e2) rfl).symm
  · simp [Sample.env, slownessOf, Sample.trace]
  · intro k hk
    simp at hk
    rcases hk with rfl | rfl
    · norm_num
    · simpa using h1
  · intro x hx
    simp at hx
    rcases hx with rfl | rfl <;> norm_num

end Rfsed.Props
