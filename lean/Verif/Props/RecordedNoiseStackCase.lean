import Verif.Props.RecordedNoiseStack
import Verif.Props.RecordedNoiseCase
import Verif.Props.ExperimentCase2
import Verif.Props.ExperimentCase4
import Verif.Spec.Sample

/-!
# C144: a concrete case

Two events with radial spikes of different size; their receiver functions are averaged.
-/

namespace Rfsed.Props
open Rfsed HkZhu Spec Synrf ReverbFilter

/-- an environment that averages -/
noncomputable def meanEnv : Env ℝ where
  km2deg1 := 1
  stack := Sample.meanStack
  draw := fun _ => .ok ()

theorem mean_pair {x0 x1 x2 x3 y0 y1 y2 y3 : ℝ} : meanEnv.stack [spikeTrace [x0, x1, x2, x3], spikeTrace [y0, y1, y2, y3]] =
    .ok [[(x0 + y0) / 2, (x1 + y1) / 2, (x2 + y2) / 2, (x3 + y3) / 2]] := by
  unfold meanEnv Sample.meanStack
  simp [spikeTrace, List.range, List.range.loop]

theorem pair_axis {x : List ℝ} (hx : x.length = 4) : timeAxis (1 : ℝ) 0 x.length = [0, 1, 2, 3] := by
  rw [hx]
  unfold timeAxis
  simp only [real_ofNat, one_mul, sub_zero]
  norm_num [List.range, List.range.loop]

theorem pair_cell {sd : List ℝ} {x y : List ℝ} {h s : ℝ} (g : cell meanEnv [spikeTrace x, spikeTrace y] [0, 1, 2, 3] sd 0.06
    ⟨.py, 6⟩ 0.6 0.3 0.1 true 1.8 h = .ok s) :
    ∃ v w, s = v + w ∧
      StackValue 0.6 0.3 0.1 sd [0, 1, 2, 3] (tPs 0.06 6 h 1.8) (tPpPs 0.06 6 h 1.8) (tPsPs 0.06 6 h 1.8) v ∧
      StackValue 0.6 0.3 0.1 sd [0, 1, 2, 3] (tPs 0.06 6 h 1.8) (tPpPs 0.06 6 h 1.8) (tPsPs 0.06 6 h 1.8) w := by
  obtain ⟨xs, hxs, rfl⟩ := cell_real_ok.1 g
  have er : rpOf meanEnv 0.06 true 0.06 = 0.06 := by
    unfold rpOf
    show (if (true : Bool) then (1 : ℝ) * 0.06 else 1 * 0.06) = 0.06
    simp
  have one : ∀ z v, traceTerm meanEnv [0, 1, 2, 3] sd 0.06 ⟨.py, 6⟩ 0.6 0.3 0.1 true 1.8 h (spikeTrace z) = .ok v →
      StackValue 0.6 0.3 0.1 sd [0, 1, 2, 3] (tPs 0.06 6 h 1.8) (tPpPs 0.06 6 h 1.8) (tPsPs 0.06 6 h 1.8) v := by
    intro z v hv
    rw [traceTerm_real_ok (o := 0) (sl := ⟨.py, 0.06⟩) (by norm_num) rfl rfl (by
      show rpOf meanEnv 0.06 true 0.06 ^ 2 ≤ _
      rw [er]; norm_num)] at hv
    simp only [er, if_true] at hv
    exact hv
  rw [mapM_ok_iff] at hxs
  cases hxs with
  | cons hv hxs =>
    cases hxs with
    | cons hw hxs =>
      cases hxs
      exact ⟨_, _, by simp, one _ _ hv, one _ _ hw⟩

theorem near_value {z0 z1 z2 z3 v : ℝ} (hv : StackValue 0.6 0.3 0.1 [z0, z1, z2, z3] [0, 1, 2, 3]
    (tPs 0.06 6 1 1.8) (tPpPs 0.06 6 1 1.8) (tPsPs 0.06 6 1 1.8) v) : v = 0.6 * z0 + 0.3 * z0 - 0.1 * z1 := by
  obtain ⟨a1, a2, a3, a4⟩ := two_slow
  obtain ⟨t1, t2, t3⟩ := two_times
  obtain ⟨_, _, _, p1, p2, p3, q⟩ := four_stack (i1 := 0) (i2 := 0) (i3 := 1) (by norm_num) (by norm_num) (by norm_num)
    (by rw [t1]; norm_num; linarith) (Or.inl (by rw [t1]; norm_num; linarith))
    (by rw [t2]; norm_num; linarith) (Or.inl (by rw [t2]; norm_num; linarith))
    (by rw [t3]; norm_num; linarith) (Or.inl (by rw [t3]; norm_num; linarith)) hv
  simp only [List.getElem?_cons_zero, List.getElem?_cons_succ, Option.some.injEq] at p1 p2 p3
  subst p1 p2 p3
  exact q

theorem far_value {z0 z1 z2 z3 v : ℝ} (hv : StackValue 0.6 0.3 0.1 [z0, z1, z2, z3] [0, 1, 2, 3]
    (tPs 0.06 6 12 1.8) (tPpPs 0.06 6 12 1.8) (tPsPs 0.06 6 12 1.8) v) : v = 0.6 * z2 + 0.3 * z3 - 0.1 * z3 := by
  obtain ⟨a1, a2, a3, a4⟩ := two_slow
  obtain ⟨t1, t2, t3⟩ := two_times
  obtain ⟨_, _, _, p1, p2, p3, q⟩ := four_stack (i1 := 2) (i2 := 3) (i3 := 3) (by norm_num) (by norm_num) (by norm_num)
    (by rw [t1]; norm_num; linarith) (Or.inl (by rw [t1]; norm_num; linarith))
    (by rw [t2]; norm_num; linarith) (Or.inr rfl)
    (by rw [t3]; norm_num; linarith) (Or.inr rfl) hv
  simp only [List.getElem?_cons_zero, List.getElem?_cons_succ, Option.some.injEq] at p1 p2 p3
  subst p1 p2 p3
  exact q

/-- two receiver functions of four samples whose average is largest at the first: the run with `stack=True` is decided -/
theorem pair_decided {x0 x1 x2 x3 y0 y1 y2 y3 : ℝ} (h1 : x1 + y1 < x0 + y0) (h2 : x2 + y2 < x0 + y0) (h3 : x3 + y3 < x0 + y0) :
    ∃ r, hk meanEnv [spikeTrace [x0, x1, x2, x3], spikeTrace [y0, y1, y2, y3]] 0 [1, 12] [1.8] (some ⟨.py, 6⟩) (some 0.6)
      (some 0.3) (some 0.1) none (some true) = .ok r ∧ r.bestIdx = 0 ∧ Margin 0 r.stackvalues r.bestIdx := by
  obtain ⟨r, hr⟩ : ∃ r, hk meanEnv [spikeTrace [x0, x1, x2, x3], spikeTrace [y0, y1, y2, y3]] 0 [1, 12] [1.8] (some ⟨.py, 6⟩)
      (some 0.6) (some 0.3) (some 0.1) none (some true) = .ok r := by
    refine (c104_hk ?_ ?_ (fun _ _ => rfl)).2 ⟨by simp, ⟨_, _, mean_pair⟩, ?_, divisor_real (by norm_num), by simp, by simp⟩
    · intro a ha b hb
      simp only [List.mem_cons, List.not_mem_nil, or_false] at ha hb
      rcases ha with rfl | rfl <;> rcases hb with rfl | rfl <;> rfl
    · intro sd more e a ha
      rw [mean_pair] at e
      have e := Except.ok.inj e
      injection e with e1 e2
      subst e1
      simp only [List.mem_cons, List.not_mem_nil, or_false] at ha
      rcases ha with rfl | rfl <;> simp [spikeTrace]
    · intro tr htr
      simp only [List.mem_cons, List.not_mem_nil, or_false] at htr
      rcases htr with rfl | rfl <;> exact ⟨by simp [spikeTrace], rfl, rfl⟩
  refine ⟨r, hr, ?_⟩
  obtain ⟨tr0, rest, slows, f⟩ := hk_inv hr
  have g := f.hgrid
  have e1 := f.hst
  injection e1 with e1 e2
  obtain ⟨more, hm⟩ := f.hstack
  rw [mean_pair] at hm
  have e3 := (List.cons.inj (Except.ok.inj hm)).1
  have e4 : r.AvgSlow = 0.06 := by
    have h1 := f.hslow
    have : [spikeTrace [x0, x1, x2, x3], spikeTrace [y0, y1, y2, y3]].mapM Trace.getSlowness =
        .ok [(⟨.py, 0.06⟩ : Scalar ℝ), ⟨.py, 0.06⟩] := rfl
    rw [this] at h1
    rw [f.havg, ← Except.ok.inj h1]
    unfold npMean
    simp [real_ofNat]
  have e5 : timeAxis tr0.delta 0 tr0.data.length = [0, 1, 2, 3] := by
    rw [← e1]
    exact pair_axis (by simp [spikeTrace])
  rw [f.hVp, ← e3, e4, f.htime, e5, f.hstk] at g
  simp only [Option.getD_some] at g
  obtain ⟨s1, s2, c1, c2, hT⟩ := two_table g
  obtain ⟨v1, w1, rfl, k1, k2⟩ := pair_cell c1
  obtain ⟨v2, w2, rfl, k3, k4⟩ := pair_cell c2
  have hb := f.hbest
  rw [hT] at hb ⊢
  rw [near_value k1, near_value k2, far_value k3, far_value k4] at hb ⊢
  exact two_best (by linarith) hb

/-- two events with different radial spikes meet every hypothesis of `c144_hk` -/
example {b c : ℝ} (hb : 0 < b) (hc : 0 < c) : ∃ x y r, (RFMethod.iterative 400 0.001 "P").Gives 1 0 2 (spikes b) x ∧
    (RFMethod.iterative 400 0.001 "P").Gives 1 0 2 (spikes c) y ∧
    hk meanEnv [spikeTrace x, spikeTrace y] 0 [1, 12] [1.8] (some ⟨.py, 6⟩) (some 0.6) (some 0.3) (some 0.1) none (some true) =
      .ok r ∧ r.bestIdx = 0 ∧
    ∃ C > 0, ∃ δ > 0, ∀ e, 0 < e → e ≤ δ → ∀ R : Rounding, R.u ≤ e →
      ∀ (env' : Env (FL R)) (es' : List (Recording × Trace (FL R))) (H' K' sd' : List (FL R)) (more' : List (List (FL R)))
        (pre' v1 v2 v3 : FL R) (Vp' : Scalar (FL R)) (layer' : Option String),
        RecordedStream (.iterative 400 0.001 "P") 0 2 e [(spikes b, spikeTrace x), (spikes c, spikeTrace y)] es' →
        env'.stack (es'.map Prod.snd) = .ok (sd' :: more') →
        AverageWithin (5 * e) (es'.map fun q => q.2.data.map FL.val) (sd'.map FL.val) →
        env'.km2deg1.val = 1 → pre'.val = 0 →
        H'.map FL.val = [1, 12] → K'.map FL.val = [1.8] → Vp'.val.val = 6 → v1.val = 0.6 → v2.val = 0.3 → v3.val = 0.1 →
        (∀ tb, tb ≠ [] → env'.draw tb = .ok ()) →
        ∃ r', hk env' (es'.map Prod.snd) pre' H' K' (some Vp') (some v1) (some v2) (some v3) layer' (some true) = .ok r' ∧
          NearTable (C * e) r.stackvalues (r'.stackvalues.map exactRow) ∧ r'.bestIdx = 0 := by
  obtain ⟨x0, x1, x2, x3, hg, hcl, h1, h2, h3, -, -⟩ := spikes_rf hb
  obtain ⟨y0, y1, y2, y3, hg', hcl', h1', h2', h3', -, -⟩ := spikes_rf hc
  obtain ⟨r, hr, hi, hM⟩ := pair_decided (x0 := x0) (x1 := x1) (x2 := x2) (x3 := x3) (y0 := y0) (y1 := y1) (y2 := y2)
    (y3 := y3) (by linarith) (by linarith) (by linarith)
  refine ⟨_, _, r, hg, hg', hr, hi, ?_⟩
  have key := c144_hk (M := .iterative 400 0.001 "P") (pre := 0) (a := 2) (env := meanEnv)
    (e0 := (spikes b, spikeTrace [x0, x1, x2, x3])) (es := [(spikes c, spikeTrace [y0, y1, y2, y3])]) (p := 0.06) (C0 := 5)
    (by norm_num) ?_ hr mean_pair ?_ ?_ ?_ ?_ ?_ ?_ hM
  · rw [hi] at key
    exact key
  · intro q hq
    simp only [List.mem_cons, List.not_mem_nil, or_false] at hq
    rcases hq with rfl | rfl
    · exact ⟨hg, hcl⟩
    · exact ⟨hg', hcl'⟩
  · refine ⟨by simp, by simp [spikeTrace], fun i hi => ?_⟩
    simp only [List.length_cons, List.length_nil] at hi
    interval_cases i <;> simp [spikeTrace]
  · show (0.06 : ℝ) = 1 * ((0.06 + (0.06 + 0)) / ((2 : ℕ) : ℝ))
    norm_num
  · intro q hq
    simp only [List.mem_cons, List.not_mem_nil, or_false] at hq
    rcases hq with rfl | rfl <;> (show (0 : ℝ) ≤ 0.06; norm_num)
  · intro k hk
    rw [List.mem_singleton.1 hk]; norm_num
  · norm_num
  · have hax : exactAxis (spikeTrace [x0, x1, x2, x3]).delta 0 (spikeTrace [x0, x1, x2, x3]).data.length = [0, 1, 2, 3] := by
      rw [← pair_axis (x := [x0, x1, x2, x3]) rfl]
      unfold timeAxis exactAxis
      simp only [real_ofNat]
      rfl
    intro k hk y hy
    rw [hax]
    exact two_clear k (by simpa [twoModels] using hk) y (by simpa [twoModels] using hy)

end Rfsed.Props
