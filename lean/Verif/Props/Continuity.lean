import Verif.Proofs.Continuity
import Verif.Spec.Continuity
import Verif.Props.Forward

/-!
# C128: the synthetics depend continuously on slowness and layers
-/

namespace Rfsed.Props
open Rfsed.Synrf Rfsed.Spec Topology Filter

/-- slowness and layer parameters -/
abbrev Params (n : Nat) := ℝ × (Fin n → ℝ × ℝ × ℝ × ℝ)

/-- layer `i` -/
def layerAt {n : Nat} (i : Fin n) (x : Params n) : Layer := ⟨(x.2 i).1, (x.2 i).2.1, (x.2 i).2.2.1, (x.2 i).2.2.2⟩

/-- the layers -/
def layersAt (n : Nat) : List (Params n → Layer) := List.ofFn layerAt

/-- the parameters of a list of layers -/
def paramsOf (p : ℝ) (ls : List Layer) : Params ls.length := (p, fun i => (ls[i].α, ls[i].β, ls[i].ρ, ls[i].h))

theorem layersAt_paramsOf (p : ℝ) (ls : List Layer) : (layersAt ls.length).map (fun l => l (paramsOf p ls)) = ls := by
  apply List.ext_getElem
  · simp [layersAt]
  · intro i h1 h2
    simp [layersAt, layerAt, paramsOf]

theorem layerAt_cont {n : Nat} (i : Fin n) (x : Params n) : LayerCont (layerAt i) x := by
  constructor <;> (apply Continuous.continuousAt; unfold layerAt; fun_prop)

/-- propagation is not lost by small changes -/
theorem propagating_nhds {n : Nat} (i : Fin n) (x : Params n) (h : (layerAt i x).Propagating x.1) :
    ∀ᶠ y in 𝓝 x, (layerAt i y).Propagating y.1 := by
  obtain ⟨h1, h2, h3, h4, h5⟩ := h
  have c := layerAt_cont i x
  have cp : ContinuousAt (fun y : Params n => |y.1|) x := by fun_prop
  have ca : ContinuousAt (fun y => 1 / (layerAt i y).α) x := continuousAt_const.div c.α h1.ne'
  have cb : ContinuousAt (fun y => 1 / (layerAt i y).β) x := continuousAt_const.div c.β h2.ne'
  filter_upwards [c.α.eventually (lt_mem_nhds h1), c.β.eventually (lt_mem_nhds h2), c.ρ.eventually (lt_mem_nhds h3),
    cp.eventually_lt ca h4, cp.eventually_lt cb h5] with y a1 a2 a3 a4 a5
  exact ⟨a1, a2, a3, a4, a5⟩

/-- small changes of the layers are small changes of the parameters -/
theorem dist_paramsOf {p p' δ : ℝ} {ls ls' : List Layer} (hδ : 0 < δ) (hp : |p' - p| < δ)
    (h : List.Forall₂ (Layer.Within δ) ls ls') :
    ∃ x' : Params ls.length, dist x' (paramsOf p ls) < δ ∧ x'.1 = p' ∧
      (layersAt ls.length).map (fun l => l x') = ls' := by
  have hl : ls.length = ls'.length := h.length_eq
  refine ⟨(p', fun i => (ls'[i].α, ls'[i].β, ls'[i].ρ, ls'[i].h)), ?_, rfl, ?_⟩
  · rw [Prod.dist_eq, max_lt_iff]
    refine ⟨by rw [Real.dist_eq]; exact hp, ?_⟩
    rw [dist_pi_lt_iff hδ]
    intro i
    have hi := (List.forall₂_iff_get.1 h).2 i i.2 (by omega)
    simp only [List.get_eq_getElem] at hi
    simp only [paramsOf, Prod.dist_eq, Real.dist_eq, max_lt_iff]
    exact ⟨hi.1, hi.2.1, hi.2.2.1, hi.2.2.2⟩
  · apply List.ext_getElem
    · simp [layersAt, hl]
    · intro i h1 h2
      simp [layersAt, layerAt]

/-- **C128** For every stack of layers below the critical slowness and every tolerance there is a distance such that
all stacks of as many layers and all slownesses within it are below critical too, and every sample of both synthetic
seismograms changes by less than the tolerance. -/
theorem c128_seismograms {p dt ε : ℝ} {npts : Nat} {ipha : ℤ} {ls : List Layer} (hnp : 0 < npts) (hdt : dt ≠ 0)
    (hn : ls ≠ []) (h : ∀ l ∈ ls, l.Propagating p) (hε : 0 < ε) :
    ∃ r z, fwd_seis p dt npts ipha (alphas ls) (betas ls) (rhos ls) (hs ls) = .ok (.num r, .num z) ∧
    ∃ δ > 0, ∀ (p' : ℝ) (ls' : List Layer), |p' - p| < δ → List.Forall₂ (Layer.Within δ) ls ls' →
      (∀ l ∈ ls', l.Propagating p') ∧
      ∃ r' z', fwd_seis p' dt npts ipha (alphas ls') (betas ls') (rhos ls') (hs ls') = .ok (.num r', .num z') ∧
        SamplesWithin ε r r' ∧ SamplesWithin ε z z' := by
  set F := layersAt ls.length with hF
  have hFn : F ≠ [] := by
    rw [hF, ← List.length_pos_iff, layersAt, List.length_ofFn]
    exact List.length_pos_iff.2 hn
  let x0 := paramsOf p ls
  have hx0 : F.map (fun l => l x0) = ls := layersAt_paramsOf p ls
  have hgood : ∀ l ∈ F, LayerCont l x0 ∧ Good x0.1 (l x0) := by
    intro l hl
    have hm : l x0 ∈ ls := hx0 ▸ List.mem_map.2 ⟨l, hl, rfl⟩
    refine ⟨?_, (h _ hm).good⟩
    obtain ⟨i, rfl⟩ := (List.mem_ofFn' _ _).1 hl
    exact layerAt_cont i x0
  -- the synthetics at any parameters that propagate
  let U : Params ls.length → ℝ → ℂ := fun x ω => (resp x.1 (F.map (fun l => l x)) (map_ne hFn x) ipha ω).1
  let V : Params ls.length → ℝ → ℂ := fun x ω => (resp x.1 (F.map (fun l => l x)) (map_ne hFn x) ipha ω).2
  have hval : ∀ x : Params ls.length, (∀ l ∈ F.map (fun l => l x), l.Propagating x.1) →
      fwd_seis x.1 dt npts ipha (alphas (F.map (fun l => l x))) (betas (F.map (fun l => l x)))
        (rhos (F.map (fun l => l x))) (hs (F.map (fun l => l x))) =
      .ok (.num ((List.range npts).map (fun j => synthSample (nextPow2 npts) dt (U x) j)),
           .num ((List.range npts).map (fun j => -synthSample (nextPow2 npts) dt (V x) j))) := by
    intro x hx
    apply fwd_seis_some hnp hdt
    intro ω hω
    rw [show (hs (F.map (fun l => l x))).length = (F.map (fun l => l x)).length by simp [hs]]
    exact haskell_good hω (map_ne hFn x) (fun l hl => (hx l hl).good)
  have hprop : ∀ᶠ x in 𝓝 x0, ∀ l ∈ F.map (fun l => l x), l.Propagating x.1 := by
    have : ∀ᶠ x in 𝓝 x0, ∀ i : Fin ls.length, (layerAt i x).Propagating x.1 := by
      rw [eventually_all]
      intro i
      apply propagating_nhds
      have : layerAt i x0 = ls[i] := rfl
      rw [this]
      exact h _ (List.getElem_mem _)
    filter_upwards [this] with x hx l hl
    obtain ⟨k, hk, rfl⟩ := List.mem_map.1 hl
    obtain ⟨i, rfl⟩ := (List.mem_ofFn' _ _).1 hk
    exact hx i
  have hn2 : ∀ i ∈ Finset.Icc 1 (nextPow2 npts / 2), 2 * Real.pi * (i : ℝ) / (nextPow2 npts * dt) ≠ 0 := by
    intro i hi
    have h1 := (Finset.mem_Icc.1 hi).1
    have h2 := le_nextPow2 npts
    have : (i : ℝ) ≠ 0 := by exact_mod_cast (by omega : i ≠ 0)
    have : ((nextPow2 npts : ℕ) : ℝ) ≠ 0 := by exact_mod_cast (by omega : nextPow2 npts ≠ 0)
    have := Real.pi_ne_zero
    positivity
  have hcU : ∀ j, ContinuousAt (fun x => synthSample (nextPow2 npts) dt (U x) j) x0 := fun j =>
    cont_synthSample U (fun i hi => continuous_fst.continuousAt.comp
      (cont_resp (hn2 i hi) continuous_fst.continuousAt F hFn hgood ipha)) j
  have hcV : ∀ j, ContinuousAt (fun x => synthSample (nextPow2 npts) dt (V x) j) x0 := fun j =>
    cont_synthSample V (fun i hi => continuous_snd.continuousAt.comp
      (cont_resp (hn2 i hi) continuous_fst.continuousAt F hFn hgood ipha)) j
  have hev : ∀ᶠ x in 𝓝 x0, ∀ j ∈ Finset.range npts,
      |synthSample (nextPow2 npts) dt (U x) j - synthSample (nextPow2 npts) dt (U x0) j| < ε ∧
      |synthSample (nextPow2 npts) dt (V x) j - synthSample (nextPow2 npts) dt (V x0) j| < ε := by
    rw [Filter.eventually_all_finset]
    intro j _
    have h1 := Metric.tendsto_nhds.1 (hcU j) ε hε
    have h2 := Metric.tendsto_nhds.1 (hcV j) ε hε
    filter_upwards [h1, h2] with x a b
    rw [Real.dist_eq] at a b
    exact ⟨a, b⟩
  have hv0 := hval x0 (by rw [hx0]; exact h)
  rw [hx0] at hv0
  refine ⟨_, _, hv0, ?_⟩
  obtain ⟨δ, hδ, hball⟩ := Metric.eventually_nhds_iff.1 (hprop.and hev)
  refine ⟨δ, hδ, ?_⟩
  intro p' ls' hp' hls
  obtain ⟨x', hx', e1, e2⟩ := dist_paramsOf hδ hp' hls
  obtain ⟨a, b⟩ := hball hx'
  have hv := hval x' a
  rw [e2, e1] at hv a
  refine ⟨a, _, _, hv, ?_, ?_⟩
  · unfold SamplesWithin
    rw [List.forall₂_map_left_iff, List.forall₂_map_right_iff, List.forall₂_same]
    intro j hj
    exact (b j (by simpa using hj)).1
  · unfold SamplesWithin
    rw [List.forall₂_map_left_iff, List.forall₂_map_right_iff, List.forall₂_same]
    intro j hj
    have := (b j (by simpa using hj)).2
    rw [← abs_neg]
    convert this using 2
    ring

/-- a crust over a mantle meets the hypotheses: 1000 samples at 0.05 s of the P response -/
example : ∃ r z, fwd_seis 0.06 0.05 1000 1 (alphas crust) (betas crust) (rhos crust) (hs crust) = .ok (.num r, .num z) ∧
    ∃ δ > 0, ∀ (p' : ℝ) (ls' : List Layer), |p' - 0.06| < δ → List.Forall₂ (Layer.Within δ) crust ls' →
      (∀ l ∈ ls', l.Propagating p') ∧
      ∃ r' z', fwd_seis p' 0.05 1000 1 (alphas ls') (betas ls') (rhos ls') (hs ls') = .ok (.num r', .num z') ∧
        SamplesWithin 0.001 r r' ∧ SamplesWithin 0.001 z z' :=
  c128_seismograms (by norm_num) (by norm_num) (by simp [crust]) crust_propagating (by norm_num)

end Rfsed.Props
