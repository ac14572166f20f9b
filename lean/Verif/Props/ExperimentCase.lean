import Verif.Props.ExperimentRF
import Verif.Props.HalfSpace

/-!
# C140: a concrete experiment

A half-space, four samples, the default parameters of the package, a grid of two models: H = 1 and H = 12, K = 1.8.  Its
receiver function is a pulse at time zero; the thin layer wins.
-/

namespace Rfsed.Props
open Rfsed HkZhu Spec Synrf Finset

theorem pulse_lt {dt a : ℝ} {n m k : Nat} (hk : k < n) (h : Real.cos (2 * Real.pi * (m * k) / n) < 1) :
    gaussPulse dt n a m < gaussPulse dt n a 0 := by
  unfold gaussPulse
  apply div_lt_div_of_pos_right _ (by exact_mod_cast (show 0 < n by omega))
  refine sum_lt_sum (fun j _ => ?_) ⟨k, mem_range.2 hk, ?_⟩
  · refine mul_le_mul_of_nonneg_left ?_ (Real.exp_pos _).le
    simpa using Real.cos_le_one _
  · refine mul_lt_mul_of_pos_left ?_ (Real.exp_pos _)
    simpa using h

theorem pulse_four {dt a : ℝ} : gaussPulse dt 4 a 1 < gaussPulse dt 4 a 0 ∧ gaussPulse dt 4 a 2 < gaussPulse dt 4 a 0 ∧
    gaussPulse dt 4 a 3 < gaussPulse dt 4 a 0 := by
  have c1 : Real.cos Real.pi < 1 := by rw [Real.cos_pi]; norm_num
  refine ⟨pulse_lt (k := 2) (by norm_num) ?_, pulse_lt (k := 1) (by norm_num) ?_, pulse_lt (k := 2) (by norm_num) ?_⟩
  · convert c1 using 2; push_cast; ring
  · convert c1 using 2; push_cast; ring
  · have : 2 * Real.pi * ((3 : ℕ) * (2 : ℕ)) / (4 : ℕ) = Real.pi + 2 * Real.pi := by push_cast; ring
    rw [this, Real.cos_add_two_pi]
    exact c1

/-- the grid of the example -/
noncomputable def twoModels : Search ℝ where
  time := [0, 1, 2, 3]
  H := [1, 12]
  K := [1.8]
  rayp := ⟨.py, 0.06⟩
  Vp := ⟨.py, 6⟩
  w1 := 0.6
  w2 := 0.3
  w3 := 0.1
  layer := none


theorem four_near {t : ℝ} {i : Nat} (hi : i < 4) (h : (i : ℝ) - 1 / 2 < t) (h' : t < i + 1 / 2 ∨ i = 3) :
    ∀ j < 4, j ≠ i → |(i : ℝ) - t| < |(j : ℝ) - t| := by
  intro j hj hne
  rw [← sq_lt_sq]
  rcases lt_or_gt_of_ne hne with hlt | hlt
  · have : (j : ℝ) + 1 ≤ i := by exact_mod_cast hlt
    nlinarith
  · have : (i : ℝ) + 1 ≤ j := by exact_mod_cast hlt
    rcases h' with h' | h'
    · nlinarith
    · omega

theorem four_get {j : Nat} {y : ℝ} (h : ([0, 1, 2, 3] : List ℝ)[j]? = some y) : j < 4 ∧ y = j := by
  match j with
  | 0 | 1 | 2 | 3 => simp at h; subst h; simp
  | j + 4 => simp at h

theorem four_self {i : Nat} (hi : i < 4) : ([0, 1, 2, 3] : List ℝ)[i]? = some (i : ℝ) := by
  interval_cases i <;> simp

theorem four_clear {t : ℝ} {i : Nat} (hi : i < 4) (h : (i : ℝ) - 1 / 2 < t) (h' : t < i + 1 / 2 ∨ i = 3) :
    ClearlyNearest [0, 1, 2, 3] t 0 :=
  ⟨i, i, four_self hi, fun j y hj hy => by
    obtain ⟨a, rfl⟩ := four_get hy
    simpa using four_near hi h h' j a hj⟩

theorem four_reads {t a : ℝ} {x : List ℝ} {i : Nat} (hi : i < 4) (h : (i : ℝ) - 1 / 2 < t) (h' : t < i + 1 / 2 ∨ i = 3)
    (hr : ReadsNearest x [0, 1, 2, 3] t a) : x[i]? = some a := by
  obtain ⟨j, ⟨y, hy, hmin, -⟩, ha⟩ := hr
  obtain ⟨hj, rfl⟩ := four_get hy
  by_cases e : j = i
  · rw [← e]; exact ha
  · have h1 := four_near hi h h' j hj e
    have h2 := hmin i i (four_self hi)
    rw [real_le, real_abs, real_abs] at h2
    linarith

theorem two_slow : 0.29 ≤ eta 0.06 (6 / 1.8) ∧ eta 0.06 (6 / 1.8) ≤ 0.3 ∧ 0.155 ≤ eta 0.06 6 ∧ eta 0.06 6 ≤ 0.156 := by
  unfold eta
  refine ⟨Real.le_sqrt_of_sq_le (by norm_num), ?_, Real.le_sqrt_of_sq_le (by norm_num), ?_⟩
  · rw [Real.sqrt_le_left (by norm_num)]; norm_num
  · rw [Real.sqrt_le_left (by norm_num)]; norm_num

theorem two_clear : ∀ k ∈ twoModels.K, ∀ h ∈ twoModels.H,
    ClearArrivals twoModels.time twoModels.rayp.val twoModels.Vp.val h k 0 := by
  obtain ⟨a1, a2, a3, a4⟩ := two_slow
  intro k hk h hh
  simp only [twoModels, List.mem_cons, List.not_mem_nil, or_false] at hk hh
  subst hk
  unfold ClearArrivals tPs tPpPs tPsPs
  simp only [twoModels]
  rcases hh with rfl | rfl
  · exact ⟨four_clear (i := 0) (by norm_num) (by norm_num; linarith) (Or.inl (by norm_num; linarith)),
      four_clear (i := 0) (by norm_num) (by norm_num; linarith) (Or.inl (by norm_num; linarith)),
      four_clear (i := 1) (by norm_num) (by norm_num; linarith) (Or.inl (by norm_num; linarith))⟩
  · exact ⟨four_clear (i := 2) (by norm_num) (by norm_num; linarith) (Or.inl (by norm_num; linarith)),
      four_clear (i := 3) (by norm_num) (by norm_num; linarith) (Or.inr rfl),
      four_clear (i := 3) (by norm_num) (by norm_num; linarith) (Or.inr rfl)⟩

/-- the value of one model -/
theorem two_value {x : List ℝ} {h s : ℝ} {i1 i2 i3 : Nat} (k1 : i1 < 4) (k2 : i2 < 4) (k3 : i3 < 4)
    (g1 : (i1 : ℝ) - 1 / 2 < tPs 0.06 6 h 1.8) (g1' : tPs 0.06 6 h 1.8 < i1 + 1 / 2 ∨ i1 = 3)
    (g2 : (i2 : ℝ) - 1 / 2 < tPpPs 0.06 6 h 1.8) (g2' : tPpPs 0.06 6 h 1.8 < i2 + 1 / 2 ∨ i2 = 3)
    (g3 : (i3 : ℝ) - 1 / 2 < tPsPs 0.06 6 h 1.8) (g3' : tPsPs 0.06 6 h 1.8 < i3 + 1 / 2 ∨ i3 = 3)
    (hs : SynthAnalysis.cell x [0, 1, 2, 3] ⟨.py, 0.06⟩ ⟨.py, 6⟩ 0.6 0.3 0.1 1.8 h = .ok s) :
    ∃ a1 a2 a3, x[i1]? = some a1 ∧ x[i2]? = some a2 ∧ x[i3]? = some a3 ∧ s = 0.6 * a1 + 0.3 * a2 - 0.1 * a3 := by
  rw [synthCell_eq, bestTimes_real (by norm_num) (by norm_num), except_ok_bind] at hs
  obtain ⟨v, hv, hs⟩ := bind_eq_ok.1 hs
  have hs := Except.ok.inj hs
  rw [real_zero, add_zero] at hs
  subst hs
  obtain ⟨a1, a2, a3, r1, r2, r3, rfl⟩ := weigh_real.1 hv
  exact ⟨a1, a2, a3, four_reads k1 g1 g1' r1, four_reads k2 g2 g2' r2, four_reads k3 g3 g3' r3, rfl⟩

/-- where the figures of the example go -/
def twoEnv (F : Type) (z : F) : Env F where
  km2deg1 := z
  stack := fun _ => .ok []
  draw := fun _ => .ok ()

/-- the search of the example on four samples of which the first is the largest -/
theorem two_decided {x0 x1 x2 x3 : ℝ} (h1 : x1 < x0) (h2 : x2 < x0) (h3 : x3 < x0) :
    ∃ r, Decided twoModels (twoEnv ℝ 1) [x0, x1, x2, x3] r ∧ r.bestIdx = 0 := by
  obtain ⟨a1, a2, a3, a4⟩ := two_slow
  obtain ⟨r, hr⟩ : ∃ r, twoModels.run (twoEnv ℝ 1) [x0, x1, x2, x3] = .ok r :=
    c25_hkSynth_succeeds (by simp [twoModels]) (by simp [twoModels]) (divisor_real (by norm_num)) (by simp [twoModels])
      (by simp [twoModels]) (fun _ _ => rfl)
  have f := hkSynth_inv hr
  obtain ⟨φ, hφ, htb⟩ := gridLoop_fun.1 f.hgrid
  simp only [twoModels, Option.getD_some] at hφ htb
  have v1 := hφ 1.8 (by simp) 1 (by simp)
  have v2 := hφ 1.8 (by simp) 12 (by simp)
  obtain ⟨b1, b2, b3, p1, p2, p3, e1⟩ := two_value (i1 := 0) (i2 := 0) (i3 := 1) (by norm_num) (by norm_num) (by norm_num)
    (by unfold tPs; norm_num; linarith) (Or.inl (by unfold tPs; norm_num; linarith))
    (by unfold tPpPs; norm_num; linarith) (Or.inl (by unfold tPpPs; norm_num; linarith))
    (by unfold tPsPs; norm_num; linarith) (Or.inl (by unfold tPsPs; norm_num; linarith)) v1
  obtain ⟨c1, c2, c3, q1, q2, q3, e2⟩ := two_value (i1 := 2) (i2 := 3) (i3 := 3) (by norm_num) (by norm_num) (by norm_num)
    (by unfold tPs; norm_num; linarith) (Or.inl (by unfold tPs; norm_num; linarith))
    (by unfold tPpPs; norm_num; linarith) (Or.inr rfl)
    (by unfold tPsPs; norm_num; linarith) (Or.inr rfl) v2
  simp only [List.getElem?_cons_zero, List.getElem?_cons_succ, Option.some.injEq] at p1 p2 p3 q1 q2 q3
  subst p1 p2 p3 q1 q2 q3
  have hlt : φ 1.8 12 < φ 1.8 1 := by rw [e1, e2]; linarith
  have htb' : r.stackvalues = [⟨1, 1.8, φ 1.8 1⟩, ⟨12, 1.8, φ 1.8 12⟩] := by
    rw [htb]; rfl
  have hb0 : r.bestIdx = 0 := by
    have hl := argmax_lt f.hbest
    obtain ⟨y, hy, hmax, -⟩ := argmax_firstMax (fun _ _ => rfl) f.hbest
    rw [htb'] at hl hy hmax
    simp only [List.map_cons, List.map_nil, List.length_cons, List.length_nil] at hl hy hmax
    have : r.bestIdx = 0 ∨ r.bestIdx = 1 := by omega
    rcases this with e | e
    · exact e
    · rw [e] at hy
      have hy : φ 1.8 12 = y := by simpa using hy
      have := hmax 0 (φ 1.8 1) rfl
      rw [real_le] at this
      linarith
  refine ⟨r, ⟨hr, by simp [twoModels], ?_, by norm_num [twoModels], two_clear, ?_⟩, hb0⟩
  · intro k hk
    simp only [twoModels, List.mem_singleton] at hk
    subst hk
    norm_num [twoModels]
  · rw [hb0, htb']
    intro best hb j row hj hrow
    cases hb
    match j with
    | 0 => exact absurd rfl hj
    | 1 => cases hrow; linarith
    | j + 2 => simp at hrow

/-- the deconvolution of four samples of a half-space makes its decisions clearly, with the default parameters -/
theorem hs_four_default {u z : List ℝ} (h : fwd_seis 0.06 1 4 1 [6] [3.5] [2.7] [35] = .ok (.num u, .num z)) :
    ∃ k ≤ 400, ∃ P, SteadyRun 4 1 (lowpass 4 1 2 u) (lowpass 4 1 2 z) "P" 0.001 400 k P := by
  have n4 : nextPow2 4 = 4 := by decide
  obtain ⟨x, y, hx, hy, rfl, rfl⟩ := hs_four h
  obtain ⟨R, hR⟩ := (c112_iterative (uin := [-x, 0, -x, 2 * x]) (win := [-y, 0, -y, 2 * y]) (dt := 1) (nt := none)
    (preonset := 0) (a := 2) (itmax := 400) (minderr := 0.001) (phase := "P") (by norm_num)).2
    ⟨rfl, by norm_num, Or.inl rfl, Or.inl (by simp)⟩
  have key := steady_copy (L := 0) (b := x / y) hR (Or.inl rfl) (by norm_num) (by norm_num) (by norm_num)
    (Or.inl (by norm_num)) ⟨2 * x, by simp, by simpa using hx⟩
  simp only [List.length_cons, List.length_nil, zero_add, Nat.reduceAdd, n4] at key
  obtain ⟨P, rf, hP, -⟩ := key ⟨by norm_num, fun _ => by norm_num⟩
    (by
      intro m hm
      interval_cases m <;> simp [smp, cyc] <;> field_simp)
    (by
      intro i c hi hne
      by_contra hcon
      push Not at hcon
      have hi4 := hi.1
      have a0 := hcon 0 (by norm_num)
      have a1 := hcon 1 (by norm_num)
      have : i = 1 ∨ i = 2 ∨ i = 3 := by omega
      rcases this with rfl | rfl | rfl <;> simp [smp, cyc, hy] at a0 a1 <;> simp [a1, hy] at a0)
  have hit : R.it ≤ 400 := (deconv_master hR rfl).2.2.1
  exact ⟨R.it, hit, P, hP⟩

/-- the receiver function of the half-space has its largest sample at time zero -/
theorem hs_four_pulse {o : Obj} (ho : init [35] [6] [3.5] [2.7] (.float 0.06) 1 4 1 = .ok o) :
    ∃ t x0 x1 x2 x3, (run_deconvolution delay2 (run_fwd o).1 none 0 2 none {}).2 = .ok [t] ∧
      t.data = some [x0, x1, x2, x3] ∧ x1 < x0 ∧ x2 < x0 ∧ x3 < x0 := by
  have hz : pyInt ((0 : ℝ) / 1) = 0 := by simp [pyInt]
  have n4 : nextPow2 4 = 4 := by decide
  obtain ⟨t, ht, -, h1, -⟩ := c85_halfspace (l := hsLayer) (p := 0.06) (bp := delay2) (pre := 0) (g := 2)
    hsLayer_propagating (by norm_num) (by norm_num) (by norm_num) (by norm_num) ho rfl (by rw [hz]; simp)
  obtain ⟨-, -, rf, hrf, hlen, hv⟩ := h1 (by norm_num [hsLayer])
  have htan : 0 < Real.tan (2 * Real.arcsin (hsLayer.β * 0.06)) := by
    have b1 : 0 < Real.arcsin (hsLayer.β * 0.06) := Real.arcsin_pos.2 (by norm_num [hsLayer])
    have b2 : Real.arcsin (hsLayer.β * 0.06) < Real.pi / 4 := by
      rw [Real.arcsin_lt_iff_lt_sin' ⟨by linarith [Real.pi_pos], by linarith [Real.pi_pos]⟩, Real.sin_pi_div_four]
      have : (1 : ℝ) ≤ √2 := Real.one_le_sqrt.2 (by norm_num)
      norm_num [hsLayer]
      linarith
    exact Real.tan_pos_of_pos_of_lt_pi_div_two (by linarith) (by linarith)
  set c := Real.tan (2 * Real.arcsin (hsLayer.β * 0.06)) with hc
  obtain ⟨x0, x1, x2, x3, rfl⟩ : ∃ x0 x1 x2 x3, rf = [x0, x1, x2, x3] := by
    match rf, hlen with
    | [a, b, c, d], _ => exact ⟨a, b, c, d, rfl⟩
  have e : ∀ m < 4, smp [x0, x1, x2, x3] m = c * gaussPulse 1 4 2 m := by
    intro m hm
    have := hv m hm
    rw [hz, n4, div_one, sub_zero] at this
    rw [this]
    interval_cases m <;> rfl
  obtain ⟨p1, p2, p3⟩ := pulse_four (dt := 1) (a := 2)
  have e0 : x0 = _ := e 0 (by norm_num)
  have e1 : x1 = _ := e 1 (by norm_num)
  have e2 : x2 = _ := e 2 (by norm_num)
  have e3 : x3 = _ := e 3 (by norm_num)
  refine ⟨t, x0, x1, x2, x3, ht, hrf, ?_, ?_, ?_⟩
  · rw [e0, e1]; exact mul_lt_mul_of_pos_left p1 htan
  · rw [e0, e2]; exact mul_lt_mul_of_pos_left p2 htan
  · rw [e0, e3]; exact mul_lt_mul_of_pos_left p3 htan

/-- the whole experiment -/
example : ∃ o, init [35] [6] [3.5] [2.7] (.float 0.06) 1 4 1 = .ok o ∧
    ∃ t x res, (run_deconvolution delay2 (run_fwd o).1 none 0 2 none {}).2 = .ok [t] ∧ t.data = some x ∧
      Decided twoModels (twoEnv ℝ 1) x res ∧ res.bestIdx = 0 ∧
      ∃ C > 0, ∃ δ > 0, ∀ ε, 0 < ε → ε ≤ δ → ∀ R : Rounding, R.u ≤ ε → ∀ (S' : Search (FL R)) (d : List (FL R)) (k : Nat),
        SynthIterRun ε 0.06 1 4 1 hsLayer [] (fun x => x) 0 2 400 0.001 "P" (d.map FL.val) k → S'.exact = twoModels →
        ∃ res', S'.run (twoEnv (FL R) ⟨1⟩) d = .ok res' ∧
          NearTable (C * ε) res.stackvalues (res'.stackvalues.map exactRow) ∧ res'.bestIdx = 0 := by
  refine ⟨_, rfl, ?_⟩
  obtain ⟨t, x0, x1, x2, x3, ht, htx, h1, h2, h3⟩ := hs_four_pulse rfl
  obtain ⟨res, hdec, hb0⟩ := two_decided h1 h2 h3
  refine ⟨t, _, res, ht, htx, hdec, hb0, ?_⟩
  have hz : pyInt ((0 : ℝ) / 1) = 0 := by simp [pyInt]
  have n4 : nextPow2 4 = 4 := by decide
  have hpass : List.filterMap Call.pass ([] ++ [Call.deconv none 0 2 none {}]) = [] := by
    simp [Call.pass]
  obtain ⟨rfs, g1, -, g2⟩ := c140_experiment (l := hsLayer) (rest := []) (depth := [35]) (r := [0.06]) (rayp := .float 0.06)
    (npts := 4) (dt := 1) (ipha := 1) (pre := 0) (g := 2) (bp := delay2) (kw := {}) (pf := none) (meth := none)
    (f := fun _ _ x => (0 :: 0 :: x).take x.length) (calls := []) (toLower_eq (by decide)) (by norm_num) (by norm_num)
    (fun p hp l hl => by
      rw [List.mem_singleton] at hp hl
      subst hp hl
      exact hsLayer_propagating) (by simp [thicknesses, hs, hsLayer]) rfl rfl
    (by simp) (Or.inl rfl) (fun _ _ _ _ _ _ => rfl) ⟨rfl, rfl⟩ (Or.inl rfl) (by norm_num) (by rw [hz]; simp)
    (fun _ _ _ _ => linear_proportional delay_linear)
    (by
      intro p hp u z h
      rw [List.mem_singleton] at hp
      subst hp
      simp only [hpass, List.foldl_nil, n4]
      exact hs_four_default h)
  have e : rfs = [t] := Except.ok.inj (g1.symm.trans ht)
  subst e
  obtain ⟨C, hC, δ, hδ, g3⟩ := g2 0 t _ twoModels _ res rfl htx hdec
  refine ⟨C, hC, δ, hδ, fun ε hε hεδ R hR S' d k hrun hS => ?_⟩
  obtain ⟨res', r1, r2, r3⟩ := g3 ε hε hεδ [(d.map FL.val, k)]
    (.cons (by simp only [hpass, List.foldl_nil]; exact hrun) .nil) R hR S' (twoEnv (FL R) ⟨1⟩) d k rfl hS (fun _ _ => rfl)
  exact ⟨res', r1, r2, r3.trans hb0⟩

end Rfsed.Props
