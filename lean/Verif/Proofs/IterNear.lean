import Verif.Proofs.IterRounded
import Verif.Proofs.IterSteady
import Mathlib.Analysis.Asymptotics.Lemmas

/-!
# Quantities that are exact up to a multiple of the precision
-/

namespace Rfsed.Synrf
open Finset Spec Topology Filter Asymptotics

section
variable {Ω : Type} {F : Filter Ω} {δ : Ω → ℝ}

/-- the computed value `f` is the exact one `a` up to a multiple of `δ` -/
def Near (F : Filter Ω) (δ : Ω → ℝ) (f : Ω → ℝ) (a : ℝ) : Prop := (fun ω => f ω - a) =O[F] δ

theorem near_const (a : ℝ) : Near F δ (fun _ => a) a := by
  unfold Near
  simpa using isBigO_zero _ _

variable {f g : Ω → ℝ} {a b : ℝ}

theorem Near.congr (hf : Near F δ f a) (h : ∀ᶠ ω in F, g ω = f ω) : Near F δ g a := by
  refine IsBigO.congr' hf ?_ (EventuallyEq.refl _ _)
  filter_upwards [h] with ω e
  rw [e]

theorem Near.add (hf : Near F δ f a) (hg : Near F δ g b) : Near F δ (fun ω => f ω + g ω) (a + b) := by
  unfold Near
  refine (IsBigO.add hf hg).congr_left fun ω => by ring

theorem Near.neg (hf : Near F δ f a) : Near F δ (fun ω => -f ω) (-a) := by
  unfold Near
  refine (IsBigO.neg_left hf).congr_left fun ω => by ring

theorem Near.sub (hf : Near F δ f a) (hg : Near F δ g b) : Near F δ (fun ω => f ω - g ω) (a - b) := by
  unfold Near
  refine (IsBigO.sub hf hg).congr_left fun ω => by ring

theorem Near.tendsto (hδ : Tendsto δ F (𝓝 0)) (hf : Near F δ f a) : Tendsto f F (𝓝 a) := by
  have := (IsBigO.trans_tendsto hf hδ).add_const a
  simpa using this

theorem Near.bounded (hδ : Tendsto δ F (𝓝 0)) (hf : Near F δ f a) : f =O[F] (fun _ => (1 : ℝ)) :=
  (hf.tendsto hδ).isBigO_one ℝ

theorem Near.mul (hδ : Tendsto δ F (𝓝 0)) (hf : Near F δ f a) (hg : Near F δ g b) :
    Near F δ (fun ω => f ω * g ω) (a * b) := by
  have h1 : (fun ω => (f ω - a) * g ω) =O[F] δ := by
    simpa using IsBigO.mul hf (hg.bounded hδ)
  have h2 : (fun ω => a * (g ω - b)) =O[F] δ := IsBigO.const_mul_left hg a
  unfold Near
  exact (h1.add h2).congr_left fun ω => by ring

theorem Near.inv (hδ : Tendsto δ F (𝓝 0)) (hf : Near F δ f a) (ha : a ≠ 0) : Near F δ (fun ω => (f ω)⁻¹) a⁻¹ := by
  have ht := hf.tendsto hδ
  have h1 : (fun ω => (f ω)⁻¹) =O[F] (fun _ => (1 : ℝ)) := (ht.inv₀ ha).isBigO_one ℝ
  have h2 : (fun ω => (f ω - a) * ((f ω)⁻¹ * (-a⁻¹))) =O[F] δ := by
    have := IsBigO.mul hf (h1.mul (isBigO_refl (fun _ : Ω => (-a⁻¹ : ℝ)) F))
    refine this.trans ?_
    simp only [one_mul]
    refine (IsBigO.const_mul_left (isBigO_refl δ F) (-a⁻¹)).congr_left fun ω => by ring
  unfold Near
  refine h2.congr' ?_ (EventuallyEq.refl _ _)
  filter_upwards [ht.eventually_ne ha] with ω hω
  field_simp
  ring

theorem Near.div (hδ : Tendsto δ F (𝓝 0)) (hf : Near F δ f a) (hg : Near F δ g b) (hb : b ≠ 0) :
    Near F δ (fun ω => f ω / g ω) (a / b) := by
  simp only [div_eq_mul_inv]
  exact hf.mul hδ (hg.inv hδ hb)

theorem Near.pow2 (hδ : Tendsto δ F (𝓝 0)) (hf : Near F δ f a) : Near F δ (fun ω => f ω ^ 2) (a ^ 2) := by
  simp only [pow_two]
  exact hf.mul hδ hf

theorem near_sum {ι : Type} {s : Finset ι} {f : ι → Ω → ℝ} {a : ι → ℝ} (h : ∀ i ∈ s, Near F δ (f i) (a i)) :
    Near F δ (fun ω => ∑ i ∈ s, f i ω) (∑ i ∈ s, a i) := by
  classical
  induction s using Finset.induction_on with
  | empty => simpa using near_const (0 : ℝ)
  | insert i s hi ih =>
    simp only [sum_insert hi]
    exact (h i (mem_insert_self _ _)).add (ih fun j hj => h j (mem_insert_of_mem hj))

/-- a line computed with a relative error -/
theorem near_of_le {e : Ω → ℝ} (he : ∀ᶠ ω in F, 0 ≤ e ω ∧ e ω ≤ δ ω) {B : Ω → ℝ} (hB : B =O[F] (fun _ => (1 : ℝ)))
    (h : ∀ᶠ ω in F, |f ω - g ω| ≤ e ω * B ω) (hg : Near F δ g a) : Near F δ f a := by
  have h1 : (fun ω => f ω - g ω) =O[F] δ := by
    have h2 : (fun ω => e ω * B ω) =O[F] δ := by
      have h3 : e =O[F] δ := by
        refine IsBigO.of_bound 1 ?_
        filter_upwards [he] with ω hω
        rw [Real.norm_eq_abs, Real.norm_eq_abs, abs_of_nonneg hω.1, abs_of_nonneg (hω.1.trans hω.2), one_mul]
        exact hω.2
      simpa using h3.mul hB
    refine IsBigO.trans (IsBigO.of_bound 1 ?_) h2
    filter_upwards [h] with ω hω
    rw [one_mul, Real.norm_eq_abs]
    exact hω.trans (le_abs_self _)
  unfold Near
  exact (h1.add hg).congr_left fun ω => by ring

theorem bounded_abs (h : f =O[F] (fun _ => (1 : ℝ))) : (fun ω => |f ω|) =O[F] (fun _ => (1 : ℝ)) := h.norm_left

theorem bounded_sum {ι : Type} {s : Finset ι} {f : ι → Ω → ℝ} (h : ∀ i ∈ s, (f i) =O[F] (fun _ => (1 : ℝ))) :
    (fun ω => ∑ i ∈ s, f i ω) =O[F] (fun _ => (1 : ℝ)) :=
  (IsBigO.sum h).congr_left fun ω => by simp

theorem bounded_of_le (h : f =O[F] (fun _ => (1 : ℝ))) (hg : ∀ᶠ ω in F, |g ω| ≤ f ω) : g =O[F] (fun _ => (1 : ℝ)) := by
  refine IsBigO.trans (IsBigO.of_bound 1 ?_) h
  filter_upwards [hg] with ω hω
  rw [one_mul, Real.norm_eq_abs]
  exact hω.trans (le_abs_self _)

theorem bounded_mul (hf : f =O[F] (fun _ => (1 : ℝ))) (hg : g =O[F] (fun _ => (1 : ℝ))) :
    (fun ω => f ω * g ω) =O[F] (fun _ => (1 : ℝ)) := by simpa using hf.mul hg

/-- each sample is exact up to a multiple of `δ` -/
def NearSig (F : Filter Ω) (δ : Ω → ℝ) (n : Nat) (x : Ω → Nat → ℝ) (y : Nat → ℝ) : Prop :=
  ∀ m < n, Near F δ (fun ω => x ω m) (y m)

variable {n : Nat} {x x' : Ω → Nat → ℝ} {y y' : Nat → ℝ}

theorem NearSig.bounded (hδ : Tendsto δ F (𝓝 0)) (h : NearSig F δ n x y) :
    (fun ω => size n (x ω)) =O[F] (fun _ => (1 : ℝ)) := by
  refine bounded_of_le (bounded_sum (s := range n) (f := fun m ω => |x ω m|)
    fun m hm => bounded_abs ((h m (mem_range.1 hm)).bounded hδ)) (.of_forall fun ω => ?_)
  rw [abs_of_nonneg (size_nonneg _ _)]
  exact size_le_sum n _

theorem NearSig.energy (hδ : Tendsto δ F (𝓝 0)) (h : NearSig F δ n x y) :
    Near F δ (fun ω => energy n (x ω)) (energy n y) :=
  near_sum fun m hm => (h m (mem_range.1 hm)).pow2 hδ

theorem NearSig.cconv (hδ : Tendsto δ F (𝓝 0)) (h : NearSig F δ n x y) (h' : NearSig F δ n x' y') (m : Nat) :
    Near F δ (fun ω => cconv n (x ω) (x' ω) m) (cconv n y y' m) := by
  refine near_sum fun j hj => (h j (mem_range.1 hj)).mul hδ (h' _ (cyc_lt ?_ _))
  exact lt_of_le_of_lt (Nat.zero_le _) (mem_range.1 hj)

theorem nearSig_const (y : Nat → ℝ) : NearSig F δ n (fun _ => y) y := fun m _ => near_const (y m)

/-- a signal computed with an error relative to its size -/
theorem nearSig_of_size {e : Ω → ℝ} (he : ∀ᶠ ω in F, 0 ≤ e ω ∧ e ω ≤ δ ω) {B : Ω → ℝ} (hB : B =O[F] (fun _ => (1 : ℝ)))
    (h : ∀ᶠ ω in F, size n (fun m => x ω m - x' ω m) ≤ e ω * B ω) (hx : NearSig F δ n x' y) : NearSig F δ n x y := by
  intro m hm
  refine near_of_le he hB ?_ (hx m hm)
  filter_upwards [h] with ω hω
  exact (abs_le_size (fun m => x ω m - x' ω m) hm).trans hω

theorem eventually_forall_lt {p : Nat → Ω → Prop} (h : ∀ m < n, ∀ᶠ ω in F, p m ω) : ∀ᶠ ω in F, ∀ m < n, p m ω := by
  have : ∀ᶠ ω in F, ∀ m ∈ range n, p m ω := by
    rw [Filter.eventually_all_finset]
    exact fun m hm => h m (mem_range.1 hm)
  filter_upwards [this] with ω hω m hm
  exact hω m (mem_range.2 hm)

end

end Rfsed.Synrf
