import Verif.Proofs.Forward
import Mathlib.Topology.Instances.Matrix
import Mathlib.Analysis.SpecialFunctions.Trigonometric.Basic
import Mathlib.Topology.MetricSpace.Pseudo.Pi

/-!
# The synthetics depend continuously on slowness and layers
-/

namespace Rfsed.Synrf
open Matrix Complex Rfsed.Spec Topology Filter

attribute [local fun_prop] Complex.continuous_ofReal Complex.continuous_sin Complex.continuous_cos

variable {X : Type} [TopologicalSpace X] {x0 : X}

/-- velocities, density and thickness change continuously -/
structure LayerCont (l : X → Layer) (x0 : X) : Prop where
  α : ContinuousAt (fun x => (l x).α) x0
  β : ContinuousAt (fun x => (l x).β) x0
  ρ : ContinuousAt (fun x => (l x).ρ) x0
  h : ContinuousAt (fun x => (l x).h) x0

theorem vslow_ne {α β p : ℝ} (h : layerFinite α β p) : vslow α p ≠ 0 ∧ vslow β p ≠ 0 :=
  ⟨(Real.sqrt_pos.2 h.2.2.1).ne', (Real.sqrt_pos.2 h.2.2.2).ne'⟩

theorem cont_vslow {v p : X → ℝ} (hv : ContinuousAt v x0) (hp : ContinuousAt p x0) (h0 : v x0 ≠ 0) :
    ContinuousAt (fun x => vslow (v x) (p x)) x0 := by
  unfold vslow
  have : v x0 * v x0 ≠ 0 := mul_ne_zero h0 h0
  fun_prop (disch := assumption)

theorem cont_lp {ω : ℝ} (hω : ω ≠ 0) {l : X → Layer} {p : X → ℝ} (hl : LayerCont l x0) (hp : ContinuousAt p x0)
    (hg : Good (p x0) (l x0)) : ContinuousAt (fun x => lp ω (p x) (l x) (l x).h) x0 := by
  obtain ⟨ha, hb, hr, hh⟩ := hl
  have hf := hg.1
  have hρ := hg.2
  obtain ⟨n1, n2⟩ := vslow_ne hf
  have cξ := cont_vslow ha hp hf.1
  have cη := cont_vslow hb hp hf.2.1
  have hωρ : ω * (l x0).ρ ≠ 0 := mul_ne_zero hω hρ
  unfold lp propagatorSol ei
  refine continuousAt_pi.2 fun i => continuousAt_pi.2 fun j => ?_
  fin_cases i <;> fin_cases j <;> simp <;> fun_prop (disch := first | assumption | simp [*])

theorem cont_lE {ω : ℝ} (hω : ω ≠ 0) {l : X → Layer} {p : X → ℝ} (hl : LayerCont l x0) (hp : ContinuousAt p x0)
    (hg : Good (p x0) (l x0)) : ContinuousAt (fun x => lE ω (p x) (l x)) x0 := by
  obtain ⟨ha, hb, hr, hh⟩ := hl
  have hf := hg.1
  have hρ := hg.2
  have hα := hf.1
  have hβ := hf.2.1
  obtain ⟨n1, n2⟩ := vslow_ne hf
  have cξ := cont_vslow ha hp hf.1
  have cη := cont_vslow hb hp hf.2.1
  unfold lE eInverse ei
  refine continuousAt_pi.2 fun i => continuousAt_pi.2 fun j => ?_
  fin_cases i <;> fin_cases j <;> simp <;> fun_prop (disch := first | assumption | simp [*])

theorem cont_prodMat {ω : ℝ} (hω : ω ≠ 0) {p : X → ℝ} (hp : ContinuousAt p x0) (ls : List (X → Layer))
    (h : ∀ l ∈ ls, LayerCont l x0 ∧ Good (p x0) (l x0)) :
    ContinuousAt (fun x => prodMat ω (p x) (ls.map (fun l => l x))) x0 := by
  induction ls with
  | nil => simpa [prodMat] using continuousAt_const
  | cons l ls ih =>
    simp only [List.map_cons, prodMat]
    have h1 := ih (fun k hk => h k (List.mem_cons_of_mem _ hk))
    have h2 := cont_lp hω (h l (List.mem_cons_self ..)).1 hp (h l (List.mem_cons_self ..)).2
    exact h1.mul h2

theorem map_ne {ls : List (X → Layer)} (hn : ls ≠ []) (x : X) : ls.map (fun l => l x) ≠ [] := by simpa using hn

theorem cont_slMat {ω : ℝ} (hω : ω ≠ 0) {p : X → ℝ} (hp : ContinuousAt p x0) (ls : List (X → Layer)) (hn : ls ≠ [])
    (h : ∀ l ∈ ls, LayerCont l x0 ∧ Good (p x0) (l x0)) :
    ContinuousAt (fun x => slMat ω (p x) (ls.map (fun l => l x)) (map_ne hn x)) x0 := by
  unfold slMat
  have hl := h (ls.getLast hn) (List.getLast_mem hn)
  have e : ∀ x, (ls.map (fun l => l x)).getLast (map_ne hn x) = ls.getLast hn x := by
    intro x; rw [List.getLast_map]
  simp only [List.length_map, e]
  have h2 := cont_lE hω hl.1 hp hl.2
  split_ifs
  · exact h2.mul (cont_prodMat hω hp ls h)
  · exact h2

theorem cont_resp {ω : ℝ} (hω : ω ≠ 0) {p : X → ℝ} (hp : ContinuousAt p x0) (ls : List (X → Layer)) (hn : ls ≠ [])
    (h : ∀ l ∈ ls, LayerCont l x0 ∧ Good (p x0) (l x0)) (ipha : ℤ) :
    ContinuousAt (fun x => resp (p x) (ls.map (fun l => l x)) (map_ne hn x) ipha ω) x0 := by
  have hM := cont_slMat hω hp ls hn h
  have hij : ∀ i j, ContinuousAt (fun x => slMat ω (p x) (ls.map (fun l => l x)) (map_ne hn x) i j) x0 :=
    fun i j => continuousAt_pi.1 (continuousAt_pi.1 hM i) j
  have hd : den (slMat ω (p x0) (ls.map (fun l => l x0)) (map_ne hn x0)) ≠ 0 := by
    apply den_ne_zero (map_ne hn x0) hω
    intro l hl
    obtain ⟨k, hk, rfl⟩ := List.mem_map.1 hl
    exact (h k hk).2
  have hden : ContinuousAt (fun x => den (slMat ω (p x) (ls.map (fun l => l x)) (map_ne hn x))) x0 := by
    unfold den
    exact ((hij 2 0).mul (hij 3 1)).sub ((hij 2 1).mul (hij 3 0))
  unfold resp
  simp only
  split_ifs
  · exact ((hij 3 1).div hden hd).prodMk ((hij 3 0).neg.div hden hd)
  · exact ((hij 2 1).neg.div hden hd).prodMk ((hij 2 0).div hden hd)

theorem cont_synthSample {n : Nat} {dt : ℝ} (U : X → ℝ → ℂ)
    (hU : ∀ i ∈ Finset.Icc 1 (n / 2), ContinuousAt (fun x => U x (2 * Real.pi * i / (n * dt))) x0) (j : Nat) :
    ContinuousAt (fun x => synthSample n dt (U x) j) x0 := by
  unfold synthSample
  refine ContinuousAt.div_const ?_ _
  refine tendsto_finset_sum _ (fun i hi => ?_)
  exact (Complex.continuous_re.continuousAt).comp ((hU i hi).mul continuousAt_const)

end Rfsed.Synrf
