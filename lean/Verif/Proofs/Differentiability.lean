import Verif.Proofs.Continuity
import Mathlib.Analysis.Calculus.FDeriv.Mul
import Mathlib.Analysis.Calculus.FDeriv.Pi
import Mathlib.Analysis.Calculus.FDeriv.Prod
import Mathlib.Analysis.Calculus.Deriv.Inv
import Mathlib.Analysis.SpecialFunctions.Sqrt
import Mathlib.Analysis.SpecialFunctions.Trigonometric.Deriv
import Mathlib.Analysis.Complex.RealDeriv

/-!
# The synthetics are differentiable functions of slowness, sampling interval and layers
-/

namespace Rfsed.Synrf
open Matrix Complex Rfsed.Spec Topology Filter

variable {X : Type} [NormedAddCommGroup X] [NormedSpace ℝ X] {x0 : X}

/-- velocities, density and thickness change differentiably -/
structure LayerDiff (l : X → Layer) (x0 : X) : Prop where
  α : DifferentiableAt ℝ (fun x => (l x).α) x0
  β : DifferentiableAt ℝ (fun x => (l x).β) x0
  ρ : DifferentiableAt ℝ (fun x => (l x).ρ) x0
  h : DifferentiableAt ℝ (fun x => (l x).h) x0

theorem diff_ofReal {f : X → ℝ} (h : DifferentiableAt ℝ f x0) : DifferentiableAt ℝ (fun x => (f x : ℂ)) x0 :=
  (Complex.ofRealCLM.differentiableAt (x := f x0)).comp x0 h

theorem diff_sub' {f g : X → ℝ} (hf : DifferentiableAt ℝ f x0) (hg : DifferentiableAt ℝ g x0) :
    DifferentiableAt ℝ (fun x => f x / g x) x0 ∨ g x0 = 0 := by
  by_cases h : g x0 = 0
  · exact Or.inr h
  · refine Or.inl ?_
    simp only [div_eq_mul_inv]
    exact hf.fun_mul ((differentiableAt_inv h).comp x0 hg)

theorem diff_quot {f g : X → ℝ} (hf : DifferentiableAt ℝ f x0) (hg : DifferentiableAt ℝ g x0) (h : g x0 ≠ 0) :
    DifferentiableAt ℝ (fun x => f x / g x) x0 := (diff_sub' hf hg).resolve_right h

theorem diff_vslow {v p : X → ℝ} (hv : DifferentiableAt ℝ v x0) (hp : DifferentiableAt ℝ p x0) (h0 : v x0 ≠ 0)
    (h : 0 < 1 / (v x0 * v x0) - p x0 * p x0) : DifferentiableAt ℝ (fun x => vslow (v x) (p x)) x0 := by
  unfold vslow
  have h1 : v x0 * v x0 ≠ 0 := mul_ne_zero h0 h0
  have h2 : DifferentiableAt ℝ (fun x => 1 / (v x * v x) - p x * p x) x0 :=
    (diff_quot (differentiableAt_const _) (hv.fun_mul hv) h1).fun_sub (hp.fun_mul hp)
  exact h2.sqrt h.ne'

theorem diff_I {f : X → ℝ} (h : DifferentiableAt ℝ f x0) : DifferentiableAt ℝ (fun x => (f x : ℂ) * ei) x0 :=
  (diff_ofReal h).mul_const _

theorem diff_lp {ω : X → ℝ} (hω : ω x0 ≠ 0) (cω : DifferentiableAt ℝ ω x0) {l : X → Layer} {p : X → ℝ}
    (hl : LayerDiff l x0) (hp : DifferentiableAt ℝ p x0) (hg : Good (p x0) (l x0)) (i j : Fin 4) :
    DifferentiableAt ℝ (fun x => lp (ω x) (p x) (l x) (l x).h i j) x0 := by
  obtain ⟨ha, hb, hr, hh⟩ := hl
  have hf := hg.1
  have hρ := hg.2
  obtain ⟨n1, n2⟩ := vslow_ne hf
  have ξ := diff_vslow ha hp hf.1 hf.2.2.1
  have η := diff_vslow hb hp hf.2.1 hf.2.2.2
  have hωρ : ω x0 * (l x0).ρ ≠ 0 := mul_ne_zero hω hρ
  have k := fun c : ℝ => differentiableAt_const (𝕜 := ℝ) (E := X) (F := ℝ) (x := x0) c
  have b2 := hb.fun_mul hb
  have p2 := hp.fun_mul hp
  have bp := (k 1).fun_sub (((k 2).fun_mul b2).fun_mul p2)
  have cx := ((cω.fun_mul ξ).fun_mul hh).cos
  have ce := ((cω.fun_mul η).fun_mul hh).cos
  have sx := ((cω.fun_mul ξ).fun_mul hh).sin
  have se := ((cω.fun_mul η).fun_mul hh).sin
  have ωρ := cω.fun_mul hr
  have d00 := diff_ofReal (((((k 2).fun_mul b2).fun_mul p2).fun_mul cx).fun_add (bp.fun_mul ce))
  have d01 := diff_I (hp.fun_mul (((diff_quot bp ξ n1).fun_mul sx).fun_sub ((((k 2).fun_mul b2).fun_mul η).fun_mul se)))
  have d02 := diff_ofReal (diff_quot (((diff_quot p2 ξ n1).fun_mul sx).fun_add (η.fun_mul se)) ωρ hωρ)
  have d03 := diff_I (diff_quot (hp.fun_mul (cx.fun_neg.fun_add ce)) ωρ hωρ)
  have d10 := diff_I (hp.fun_mul (((((k 2).fun_mul b2).fun_mul ξ).fun_mul sx).fun_sub ((diff_quot bp η n2).fun_mul se)))
  have d11 := diff_ofReal ((bp.fun_mul cx).fun_add ((((k 2).fun_mul b2).fun_mul p2).fun_mul ce))
  have d13 := diff_ofReal (diff_quot ((ξ.fun_mul sx).fun_add ((diff_quot p2 η n2).fun_mul se)) ωρ hωρ)
  have d20 := diff_ofReal (ωρ.fun_mul (((((((k (-4)).fun_mul b2).fun_mul b2).fun_mul p2).fun_mul ξ).fun_mul sx).fun_sub
    ((diff_quot (bp.fun_mul bp) η n2).fun_mul se)))
  have d21 := diff_I (((((((k 2).fun_mul cω).fun_mul b2).fun_mul hr).fun_mul hp).fun_mul bp).fun_mul (cx.fun_sub ce))
  have d31 := diff_ofReal ((cω.fun_neg.fun_mul hr).fun_mul (((diff_quot (bp.fun_mul bp) ξ n1).fun_mul sx).fun_add
    ((((((k 4).fun_mul b2).fun_mul b2).fun_mul p2).fun_mul η).fun_mul se)))
  unfold lp propagatorSol
  fin_cases i <;> fin_cases j <;>
    first | exact d00 | exact d01 | exact d02 | exact d03 | exact d10 | exact d11 | exact d13 | exact d20 | exact d21 | exact d31

theorem diff_lE {ω : X → ℝ} (hω : ω x0 ≠ 0) (cω : DifferentiableAt ℝ ω x0) {l : X → Layer} {p : X → ℝ}
    (hl : LayerDiff l x0) (hp : DifferentiableAt ℝ p x0) (hg : Good (p x0) (l x0)) (i j : Fin 4) :
    DifferentiableAt ℝ (fun x => lE (ω x) (p x) (l x) i j) x0 := by
  obtain ⟨ha, hb, hr, hh⟩ := hl
  have hf := hg.1
  have hρ := hg.2
  have hα := hf.1
  have hβ := hf.2.1
  obtain ⟨n1, n2⟩ := vslow_ne hf
  have ξ := diff_vslow ha hp hf.1 hf.2.2.1
  have η := diff_vslow hb hp hf.2.1 hf.2.2.2
  have k := fun c : ℝ => differentiableAt_const (𝕜 := ℝ) (E := X) (F := ℝ) (x := x0) c
  have bp := (k 1).fun_sub (((((k 2).fun_mul hb).fun_mul hb).fun_mul hp).fun_mul hp)
  have h2 : (2 : ℝ) ≠ 0 := two_ne_zero
  have q1 := ((k 2).fun_mul ha).fun_mul ξ
  have q2 := ((((k 2).fun_mul cω).fun_mul hr).fun_mul ha).fun_mul ξ
  have q3 := (((k 2).fun_mul cω).fun_mul hr).fun_mul ha
  have q4 := ((k 2).fun_mul hb).fun_mul η
  have q5 := (((k 2).fun_mul cω).fun_mul hr).fun_mul hb
  have q6 := ((((k 2).fun_mul cω).fun_mul hr).fun_mul hb).fun_mul η
  have m1 : (2 : ℝ) * (l x0).α * vslow (l x0).α (p x0) ≠ 0 := by simp [*]
  have m2 : (2 : ℝ) * ω x0 * (l x0).ρ * (l x0).α * vslow (l x0).α (p x0) ≠ 0 := by simp [*]
  have m3 : (2 : ℝ) * ω x0 * (l x0).ρ * (l x0).α ≠ 0 := by simp [*]
  have m4 : (2 : ℝ) * (l x0).β * vslow (l x0).β (p x0) ≠ 0 := by simp [*]
  have m5 : (2 : ℝ) * ω x0 * (l x0).ρ * (l x0).β ≠ 0 := by simp [*]
  have m6 : (2 : ℝ) * ω x0 * (l x0).ρ * (l x0).β * vslow (l x0).β (p x0) ≠ 0 := by simp [*]
  have e00 := diff_ofReal (diff_quot ((hb.fun_mul hb).fun_mul hp) ha hα)
  have e01 := diff_ofReal (diff_quot bp q1 m1)
  have e02 := diff_I (diff_quot hp.fun_neg q2 m2)
  have e03 := diff_I (diff_quot (k (-1)) q3 m3)
  have e10 := diff_ofReal (diff_quot bp q4 m4)
  have e11 := diff_ofReal (hb.fun_neg.fun_mul hp)
  have e12 := diff_I (diff_quot (k (-1)) q5 m5)
  have e13 := diff_I (diff_quot hp q6 m6)
  have f01 := e01.fun_neg
  have f02 := e02.fun_neg
  have f11 := e11.fun_neg
  have f12 := e12.fun_neg
  unfold lE eInverse
  fin_cases i <;> fin_cases j <;>
    first | exact e00 | exact e01 | exact e02 | exact e03 | exact e10 | exact e11 | exact e12 | exact e13 | exact f01 | exact f02 | exact f11 | exact f12

theorem diff_matMul {A B : X → Mat4} (hA : ∀ i j, DifferentiableAt ℝ (fun x => A x i j) x0)
    (hB : ∀ i j, DifferentiableAt ℝ (fun x => B x i j) x0) (i j : Fin 4) :
    DifferentiableAt ℝ (fun x => (A x * B x) i j) x0 := by
  simp only [Matrix.mul_apply]
  exact DifferentiableAt.fun_sum fun k _ => (hA i k).fun_mul (hB k j)

theorem diff_prodMat {ω : X → ℝ} (hω : ω x0 ≠ 0) (cω : DifferentiableAt ℝ ω x0) {p : X → ℝ}
    (hp : DifferentiableAt ℝ p x0) (ls : List (X → Layer))
    (h : ∀ l ∈ ls, LayerDiff l x0 ∧ Good (p x0) (l x0)) : ∀ i j : Fin 4,
    DifferentiableAt ℝ (fun x => prodMat (ω x) (p x) (ls.map (fun l => l x)) i j) x0 := by
  induction ls with
  | nil => intro i j; simpa [prodMat] using differentiableAt_const _
  | cons l ls ih =>
    simp only [List.map_cons, prodMat]
    exact diff_matMul (ih (fun k hk => h k (List.mem_cons_of_mem _ hk)))
      (diff_lp hω cω (h l (List.mem_cons_self ..)).1 hp (h l (List.mem_cons_self ..)).2)

theorem diff_slMat {ω : X → ℝ} (hω : ω x0 ≠ 0) (cω : DifferentiableAt ℝ ω x0) {p : X → ℝ}
    (hp : DifferentiableAt ℝ p x0) (ls : List (X → Layer)) (hn : ls ≠ [])
    (h : ∀ l ∈ ls, LayerDiff l x0 ∧ Good (p x0) (l x0)) (i j : Fin 4) :
    DifferentiableAt ℝ (fun x => slMat (ω x) (p x) (ls.map (fun l => l x)) (map_ne hn x) i j) x0 := by
  unfold slMat
  have hl := h (ls.getLast hn) (List.getLast_mem hn)
  have e : ∀ x, (ls.map (fun l => l x)).getLast (map_ne hn x) = ls.getLast hn x := by
    intro x; rw [List.getLast_map]
  simp only [List.length_map, e]
  have h2 := diff_lE hω cω hl.1 hp hl.2
  split_ifs
  · exact diff_matMul h2 (diff_prodMat hω cω hp ls h) i j
  · exact h2 i j

theorem diff_cquot {f g : X → ℂ} (hf : DifferentiableAt ℝ f x0) (hg : DifferentiableAt ℝ g x0) (h : g x0 ≠ 0) :
    DifferentiableAt ℝ (fun x => f x / g x) x0 := by
  simp only [div_eq_mul_inv]
  have h0 : DifferentiableAt ℂ (fun z : ℂ => z⁻¹) (g x0) := differentiableAt_inv h
  have h1 : DifferentiableAt ℝ (fun z : ℂ => z⁻¹) (g x0) := h0.restrictScalars ℝ
  exact hf.fun_mul (h1.comp x0 hg)

theorem diff_resp {ω : X → ℝ} (hω : ω x0 ≠ 0) (cω : DifferentiableAt ℝ ω x0) {p : X → ℝ}
    (hp : DifferentiableAt ℝ p x0) (ls : List (X → Layer)) (hn : ls ≠ [])
    (h : ∀ l ∈ ls, LayerDiff l x0 ∧ Good (p x0) (l x0)) (ipha : ℤ) :
    DifferentiableAt ℝ (fun x => (resp (p x) (ls.map (fun l => l x)) (map_ne hn x) ipha (ω x)).1) x0 ∧
    DifferentiableAt ℝ (fun x => (resp (p x) (ls.map (fun l => l x)) (map_ne hn x) ipha (ω x)).2) x0 := by
  have hij := diff_slMat hω cω hp ls hn h
  have hd : den (slMat (ω x0) (p x0) (ls.map (fun l => l x0)) (map_ne hn x0)) ≠ 0 := by
    apply den_ne_zero (map_ne hn x0) hω
    intro l hl
    obtain ⟨k, hk, rfl⟩ := List.mem_map.1 hl
    exact (h k hk).2
  have hden : DifferentiableAt ℝ (fun x => den (slMat (ω x) (p x) (ls.map (fun l => l x)) (map_ne hn x))) x0 := by
    unfold den
    exact ((hij 2 0).fun_mul (hij 3 1)).fun_sub ((hij 2 1).fun_mul (hij 3 0))
  unfold resp
  simp only
  split_ifs
  · exact ⟨diff_cquot (hij 3 1) hden hd, diff_cquot (hij 3 0).fun_neg hden hd⟩
  · exact ⟨diff_cquot (hij 2 1).fun_neg hden hd, diff_cquot (hij 2 0) hden hd⟩

theorem diff_freq {n : Nat} {dt : X → ℝ} (cdt : DifferentiableAt ℝ dt x0) (hdt : dt x0 ≠ 0) {i : Nat}
    (hi : i ∈ Finset.Icc 1 (n / 2)) :
    DifferentiableAt ℝ (fun x => 2 * Real.pi * i / (n * dt x)) x0 ∧ 2 * Real.pi * (i : ℝ) / (n * dt x0) ≠ 0 := by
  rw [Finset.mem_Icc] at hi
  have hn : (n : ℝ) ≠ 0 := by exact_mod_cast (by omega : n ≠ 0)
  have hi0 : (i : ℝ) ≠ 0 := by exact_mod_cast (by omega : i ≠ 0)
  have := Real.pi_ne_zero
  exact ⟨diff_quot (differentiableAt_const _) ((differentiableAt_const _).fun_mul cdt) (mul_ne_zero hn hdt), by positivity⟩

theorem diff_synthSample {n : Nat} {dt : X → ℝ} (cdt : DifferentiableAt ℝ dt x0) (hdt : dt x0 ≠ 0) (U : X → ℝ → ℂ)
    (hU : ∀ i ∈ Finset.Icc 1 (n / 2), DifferentiableAt ℝ (fun x => U x (2 * Real.pi * i / (n * dt x))) x0) (j : Nat) :
    DifferentiableAt ℝ (fun x => synthSample n (dt x) (U x) j) x0 := by
  unfold synthSample
  have hs : DifferentiableAt ℝ (fun x => ∑ i ∈ Finset.Icc 1 (n / 2),
      (U x (2 * Real.pi * i / (n * dt x)) *
        exp (-I * ((2 * Real.pi * i / (n * dt x) : ℝ) * (((j : ℝ) + 1) * dt x : ℝ)))).re) x0 := by
    refine DifferentiableAt.fun_sum fun i hi => ?_
    have h1 := diff_ofReal (diff_freq cdt hdt hi).1
    have h2 := diff_ofReal ((differentiableAt_const ((j : ℝ) + 1)).fun_mul cdt)
    have h3 := ((h1.fun_mul h2).const_mul (-I)).cexp
    exact (Complex.reCLM.differentiableAt).comp x0 ((hU i hi).fun_mul h3)
  exact (hs.mul_const (((n : ℝ) ^ 2)⁻¹)).congr_of_eventuallyEq (.of_forall fun x => div_eq_mul_inv _ _)

end Rfsed.Synrf
