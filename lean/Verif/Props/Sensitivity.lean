import Verif.Proofs.Differentiability
import Verif.Props.Continuity
import Verif.Props.SynthRate

/-!
# C136: the synthetics are differentiable, and their errors are proportional to the errors of the model
-/

namespace Rfsed.Props
open Rfsed Rfsed.Synrf Rfsed.Spec Topology Filter

section
variable {X : Type} [NormedAddCommGroup X] [NormedSpace ℝ X] {x0 : X}

/-- propagation is not lost by small changes -/
theorem propagating_eventually {l : X → Layer} {p : X → ℝ} (c : LayerDiff l x0) (hp : DifferentiableAt ℝ p x0)
    (h : (l x0).Propagating (p x0)) : ∀ᶠ y in 𝓝 x0, (l y).Propagating (p y) := by
  obtain ⟨h1, h2, h3, h4, h5⟩ := h
  have cp : ContinuousAt (fun y => |p y|) x0 := hp.continuousAt.abs
  have ca : ContinuousAt (fun y => 1 / (l y).α) x0 := continuousAt_const.div c.α.continuousAt h1.ne'
  have cb : ContinuousAt (fun y => 1 / (l y).β) x0 := continuousAt_const.div c.β.continuousAt h2.ne'
  filter_upwards [c.α.continuousAt.eventually (lt_mem_nhds h1), c.β.continuousAt.eventually (lt_mem_nhds h2),
    c.ρ.continuousAt.eventually (lt_mem_nhds h3), cp.eventually_lt ca h4, cp.eventually_lt cb h5] with y a1 a2 a3 a4 a5
  exact ⟨a1, a2, a3, a4, a5⟩

/-- **C136** Let the slowness, the sampling interval and the parameters of every layer depend differentiably on a parameter
(one number, or several). Around every model in which both waves propagate, the seismograms are numbers and each of their
samples depends differentiably on the parameter. -/
theorem c136_differentiable {p dt : X → ℝ} {npts : Nat} (hnp : 0 < npts) (ipha : ℤ) {F : List (X → Layer)}
    (hF : F ≠ []) (hp : DifferentiableAt ℝ p x0) (hdt : DifferentiableAt ℝ dt x0) (h0 : dt x0 ≠ 0)
    (hl : ∀ l ∈ F, LayerDiff l x0) (h : ∀ l ∈ F, (l x0).Propagating (p x0)) :
    ∃ r z : X → Nat → ℝ,
      (∀ᶠ x in 𝓝 x0, (∀ l ∈ F, (l x).Propagating (p x)) ∧ let ls := F.map (fun l => l x)
        fwd_seis (p x) (dt x) npts ipha (alphas ls) (betas ls) (rhos ls) (hs ls) =
          .ok (.num ((List.range npts).map (fun j : Nat => r x j)), .num ((List.range npts).map (fun j : Nat => z x j)))) ∧
      ∀ j, DifferentiableAt ℝ (fun x => r x j) x0 ∧ DifferentiableAt ℝ (fun x => z x j) x0 := by
  let U : X → ℝ → ℂ := fun x ω => (resp (p x) (F.map (fun l => l x)) (map_ne hF x) ipha ω).1
  let V : X → ℝ → ℂ := fun x ω => (resp (p x) (F.map (fun l => l x)) (map_ne hF x) ipha ω).2
  have hgood : ∀ l ∈ F, LayerDiff l x0 ∧ Good (p x0) (l x0) := fun l hm => ⟨hl l hm, (h l hm).good⟩
  refine ⟨fun x j => synthSample (nextPow2 npts) (dt x) (U x) j, fun x j => -synthSample (nextPow2 npts) (dt x) (V x) j,
    ?_, fun j => ⟨?_, ?_⟩⟩
  · have h1 : ∀ᶠ x in 𝓝 x0, ∀ l ∈ F, (l x).Propagating (p x) := by
      have : ∀ G : List (X → Layer), (∀ l ∈ G, l ∈ F) → ∀ᶠ x in 𝓝 x0, ∀ l ∈ G, (l x).Propagating (p x) := by
        intro G
        induction G with
        | nil => intro _; simp
        | cons k G ih =>
          intro hG
          have hk := hG k (List.mem_cons_self ..)
          filter_upwards [ih (fun l hl => hG l (List.mem_cons_of_mem _ hl)), propagating_eventually (hl k hk) hp (h k hk)]
            with x a b
          intro l hl
          rcases List.mem_cons.1 hl with rfl | hl
          · exact b
          · exact a l hl
      exact this F (fun _ h => h)
    filter_upwards [h1, hdt.continuousAt.eventually_ne h0] with x a b
    refine ⟨a, ?_⟩
    apply fwd_seis_some hnp b
    intro ω hω
    rw [show (hs (F.map (fun l => l x))).length = (F.map (fun l => l x)).length by simp [hs]]
    exact haskell_good hω (map_ne hF x) (fun l hl => by
      obtain ⟨k, hk, rfl⟩ := List.mem_map.1 hl
      exact (a k hk).good)
  · exact diff_synthSample hdt h0 U (fun i hi => by
      obtain ⟨a, b⟩ := diff_freq hdt h0 hi
      exact (diff_resp (x0 := x0) (ω := fun x => 2 * Real.pi * i / (nextPow2 npts * dt x)) b a hp F hF hgood ipha).1) j
  · exact (diff_synthSample hdt h0 V (fun i hi => by
      obtain ⟨a, b⟩ := diff_freq hdt h0 hi
      exact (diff_resp (x0 := x0) (ω := fun x => 2 * Real.pi * i / (nextPow2 npts * dt x)) b a hp F hF hgood ipha).2) j).fun_neg

end

theorem layerAt_diff {n : Nat} (i : Fin n) (x : ℝ × Params n) : LayerDiff (fun y : ℝ × Params n => layerAt i y.2) x := by
  constructor <;> (unfold layerAt; fun_prop)

/-- **C136** Around every model in which both waves propagate, the change of every sample of the seismograms is at most a
fixed multiple of the largest change of slowness, sampling interval and layer parameters. -/
theorem c136_sensitivity {p dt : ℝ} {npts : Nat} {ipha : ℤ} {ls : List Layer} (hnp : 0 < npts) (hdt : dt ≠ 0)
    (hn : ls ≠ []) (h : ∀ l ∈ ls, l.Propagating p) :
    ∃ r z, fwd_seis p dt npts ipha (alphas ls) (betas ls) (rhos ls) (hs ls) = .ok (.num r, .num z) ∧
    ∃ C > 0, ∃ δ₀ > 0, ∀ δ, 0 < δ → δ ≤ δ₀ → ∀ (p' dt' : ℝ) (ls' : List Layer), |p' - p| < δ → |dt' - dt| < δ →
      List.Forall₂ (Layer.Within δ) ls ls' →
      (∀ l ∈ ls', l.Propagating p') ∧
      ∃ r' z', fwd_seis p' dt' npts ipha (alphas ls') (betas ls') (rhos ls') (hs ls') = .ok (.num r', .num z') ∧
        SamplesWithin (C * δ) r r' ∧ SamplesWithin (C * δ) z z' := by
  let F : List (ℝ × Params ls.length → Layer) := List.ofFn (fun i y => layerAt i y.2)
  have hFn : F ≠ [] := by
    rw [← List.length_pos_iff, List.length_ofFn]
    exact List.length_pos_iff.2 hn
  have hmap : ∀ x : ℝ × Params ls.length, F.map (fun l => l x) = (layersAt ls.length).map (fun l => l x.2) := by
    intro x
    simp [F, layersAt, List.map_ofFn, Function.comp_def]
  let x0 : ℝ × Params ls.length := (dt, paramsOf p ls)
  have hx0 : F.map (fun l => l x0) = ls := by rw [hmap]; exact layersAt_paramsOf p ls
  obtain ⟨r, z, hev, hd⟩ := c136_differentiable (x0 := x0) (p := fun x => x.2.1) (dt := fun x => x.1) hnp ipha hFn
    (by fun_prop) (by fun_prop) hdt
    (fun l hl => by
      obtain ⟨i, rfl⟩ := (List.mem_ofFn' _ _).1 hl
      exact layerAt_diff i x0)
    (fun l hl => h _ (hx0 ▸ List.mem_map.2 ⟨l, hl, rfl⟩))
  have hv0 := hev.self_of_nhds.2
  simp only [hx0] at hv0
  refine ⟨_, _, hv0, ?_⟩
  have hb : ∀ j, ∃ c > 0, ∀ᶠ x in 𝓝 x0, |r x j - r x0 j| ≤ c * ‖x - x0‖ ∧ |z x j - z x0 j| ≤ c * ‖x - x0‖ := by
    intro j
    obtain ⟨c1, hc1, e1⟩ := (hd j).1.isBigO_sub.exists_pos
    obtain ⟨c2, hc2, e2⟩ := (hd j).2.isBigO_sub.exists_pos
    refine ⟨c1 + c2, by positivity, ?_⟩
    filter_upwards [e1.bound, e2.bound] with x a b
    have := norm_nonneg (x - x0)
    rw [Real.norm_eq_abs] at a b
    constructor <;> nlinarith
  choose c hc hcb using hb
  have hall : ∀ᶠ x in 𝓝 x0, ∀ j ∈ Finset.range npts,
      |r x j - r x0 j| ≤ c j * ‖x - x0‖ ∧ |z x j - z x0 j| ≤ c j * ‖x - x0‖ := by
    rw [Filter.eventually_all_finset]
    exact fun j _ => hcb j
  obtain ⟨δ₀, hδ₀, hball⟩ := Metric.eventually_nhds_iff.1 (hev.and hall)
  have hC : 0 < ∑ j ∈ Finset.range npts, c j := Finset.sum_pos (fun j _ => hc j) ⟨0, Finset.mem_range.2 hnp⟩
  refine ⟨∑ j ∈ Finset.range npts, c j, hC, δ₀, hδ₀, ?_⟩
  intro δ hδ hδδ p' dt' ls' hp' hdt' hls
  obtain ⟨x', hx', e1, e2⟩ := dist_paramsOf hδ hp' hls
  have hdist : dist ((dt', x') : ℝ × Params ls.length) x0 < δ := by
    rw [Prod.dist_eq, max_lt_iff]
    exact ⟨by rw [Real.dist_eq]; exact hdt', hx'⟩
  obtain ⟨⟨a, hv⟩, b⟩ := hball (hdist.trans_le hδδ)
  have e3 : F.map (fun l => l (dt', x')) = ls' := by rw [hmap]; exact e2
  simp only [e3, e1] at hv
  have hprop : ∀ l ∈ ls', l.Propagating p' := by
    intro l hl
    rw [← e3] at hl
    obtain ⟨k, hk, rfl⟩ := List.mem_map.1 hl
    have := a k hk
    rwa [e1] at this
  have hlt : ∀ j ∈ Finset.range npts, c j * ‖(dt', x') - x0‖ < (∑ j ∈ Finset.range npts, c j) * δ := by
    intro j hj
    have h1 : c j ≤ ∑ j ∈ Finset.range npts, c j := Finset.single_le_sum (fun j _ => (hc j).le) hj
    rw [dist_eq_norm] at hdist
    have h2 := norm_nonneg ((dt', x') - x0)
    have h3 := hc j
    nlinarith
  refine ⟨hprop, _, _, hv, ?_, ?_⟩ <;>
  · unfold SamplesWithin
    rw [List.forall₂_map_left_iff, List.forall₂_map_right_iff, List.forall₂_same]
    intro j hj
    have hj' : j ∈ Finset.range npts := by simpa using hj
    first
      | exact (b j hj').1.trans_lt (hlt j hj')
      | exact (b j hj').2.trans_lt (hlt j hj')

/-- a crust over a mantle meets the hypotheses -/
example : ∃ r z, fwd_seis 0.06 0.05 1000 1 (alphas crust) (betas crust) (rhos crust) (hs crust) = .ok (.num r, .num z) ∧
    ∃ C > 0, ∃ δ₀ > 0, ∀ δ, 0 < δ → δ ≤ δ₀ → ∀ (p' dt' : ℝ) (ls' : List Layer), |p' - 0.06| < δ → |dt' - 0.05| < δ →
      List.Forall₂ (Layer.Within δ) crust ls' →
      (∀ l ∈ ls', l.Propagating p') ∧
      ∃ r' z', fwd_seis p' dt' 1000 1 (alphas ls') (betas ls') (rhos ls') (hs ls') = .ok (.num r', .num z') ∧
        SamplesWithin (C * δ) r r' ∧ SamplesWithin (C * δ) z z' :=
  c136_sensitivity (by norm_num) (by norm_num) (by simp [crust]) crust_propagating

/-- the crust getting thicker: the samples have derivatives with respect to the thickness -/
example : ∃ r z : ℝ → Nat → ℝ,
    (∀ᶠ t in 𝓝 (35 : ℝ), (∀ l ∈ [fun t => (⟨6, 3.5, 2.7, t⟩ : Layer), fun _ => ⟨8, 4.5, 3.3, 40⟩], (l t).Propagating 0.06) ∧
      let ls := [(⟨6, 3.5, 2.7, t⟩ : Layer), ⟨8, 4.5, 3.3, 40⟩]
      fwd_seis 0.06 0.05 1000 1 (alphas ls) (betas ls) (rhos ls) (hs ls) =
        .ok (.num ((List.range 1000).map (fun j : Nat => r t j)), .num ((List.range 1000).map (fun j : Nat => z t j)))) ∧
    ∀ j, DifferentiableAt ℝ (fun t => r t j) 35 ∧ DifferentiableAt ℝ (fun t => z t j) 35 :=
  c136_differentiable (x0 := (35 : ℝ)) (p := fun _ => 0.06) (dt := fun _ => 0.05) (by norm_num) 1
    (F := [fun t => (⟨6, 3.5, 2.7, t⟩ : Layer), fun _ => ⟨8, 4.5, 3.3, 40⟩]) (by simp) (by fun_prop) (by fun_prop)
    (by norm_num)
    (fun l hl => by
      simp only [List.mem_cons, List.not_mem_nil, or_false] at hl
      rcases hl with rfl | rfl <;> constructor <;> fun_prop)
    (fun l hl => by
      apply crust_propagating
      simp only [List.mem_cons, List.not_mem_nil, or_false] at hl
      rcases hl with rfl | rfl <;> simp [crust])

end Rfsed.Props
