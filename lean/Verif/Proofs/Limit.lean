import Verif.Props.Rounding2
import Verif.Props.NoiseSeq
import Mathlib.Order.Filter.Finite
import Mathlib.Topology.Algebra.Order.LiminfLimsup

/-!
# What holds with some margin holds for all sufficiently small rounding errors
-/

namespace Rfsed.Props
open Rfsed Spec Filter Topology

/-- a uniquely nearest sample is nearest by some margin -/
theorem clearly_eventually {axis : List ℝ} {t : ℝ} (h : ClearlyNearest axis t 0) (c : ℝ) :
    ∀ᶠ u in 𝓝 (0 : ℝ), ClearlyNearest axis t (c * u) := by
  obtain ⟨i, x, hx, h⟩ := h
  have key : ∀ j ∈ Finset.range axis.length, ∀ᶠ u in 𝓝 (0 : ℝ), ∀ y, j ≠ i → axis[j]? = some y →
      |x - t| + c * u < |y - t| := by
    intro j hj
    by_cases hji : j = i
    · exact Eventually.of_forall (fun u y hn => absurd hji hn)
    · rw [Finset.mem_range] at hj
      have h1 := h j axis[j] hji (List.getElem?_eq_getElem hj)
      have hc : ContinuousAt (fun u : ℝ => |x - t| + c * u) 0 := by fun_prop
      have := hc.eventually (Iio_mem_nhds (show |x - t| + c * 0 < |axis[j] - t| by simpa using h1))
      filter_upwards [this] with u hu y _ hy
      rw [List.getElem?_eq_getElem hj] at hy
      cases hy
      exact hu
  filter_upwards [(Finset.eventually_all (Finset.range axis.length)).2 key] with u hu
  refine ⟨i, x, hx, fun j y hji hy => hu j ?_ y hji hy⟩
  rw [Finset.mem_range]
  exact (List.getElem?_eq_some_iff.1 hy).1

theorem clearTimes_eventually {axis : List ℝ} {t1 t2 t3 : ℝ} (h : ClearTimes axis t1 t2 t3 0) (c : ℝ) :
    ∀ᶠ u in 𝓝 (0 : ℝ), ClearTimes axis t1 t2 t3 (c * u) := by
  filter_upwards [clearly_eventually h.1 c, clearly_eventually h.2.1 c, clearly_eventually h.2.2 c] with u a b d
  exact ⟨a, b, d⟩

theorem well_eventually {p Vp K : ℝ} (h1 : p ^ 2 < (K / Vp) ^ 2) (h2 : p ^ 2 < (1 / Vp) ^ 2) :
    ∀ᶠ u in 𝓝 (0 : ℝ), WellConditioned u p Vp K := by
  have key : ∀ a b : ℝ, 0 < b → ∀ᶠ u in 𝓝 (0 : ℝ), 5 * u * a < b := by
    intro a b hb
    have hc : ContinuousAt (fun u : ℝ => 5 * u * a) 0 := by fun_prop
    exact hc.eventually (Iio_mem_nhds (by simpa using hb))
  filter_upwards [key ((K / Vp) ^ 2 + p ^ 2) ((K / Vp) ^ 2 - p ^ 2) (by linarith),
    key ((1 / Vp) ^ 2 + p ^ 2) ((1 / Vp) ^ 2 - p ^ 2) (by linarith)] with u a b
  exact ⟨a, b⟩

/-- a unique best row is best by some margin -/
theorem margin_eventually {tb : List (Row ℝ)} {n : Nat} (h : Margin 0 tb n) (c : ℝ) :
    ∀ᶠ e in 𝓝 (0 : ℝ), Margin (c * e) tb n := by
  by_cases hn : n < tb.length
  · have key : ∀ j ∈ Finset.range tb.length, ∀ᶠ e in 𝓝 (0 : ℝ), ∀ row, j ≠ n → tb[j]? = some row →
        row.s + c * e < tb[n].s := by
      intro j hj
      by_cases hji : j = n
      · exact Eventually.of_forall (fun u y hne => absurd hji hne)
      · rw [Finset.mem_range] at hj
        have h1 := h tb[n] (List.getElem?_eq_getElem hn) j tb[j] hji (List.getElem?_eq_getElem hj)
        have hc : ContinuousAt (fun u : ℝ => tb[j].s + c * u) 0 := by fun_prop
        have := hc.eventually (Iio_mem_nhds (show tb[j].s + c * 0 < tb[n].s by simpa using h1))
        filter_upwards [this] with u hu y _ hy
        rw [List.getElem?_eq_getElem hj] at hy
        cases hy
        exact hu
    filter_upwards [(Finset.eventually_all (Finset.range tb.length)).2 key] with e he
    intro best hb j row hj hr
    rw [List.getElem?_eq_getElem hn] at hb
    cases hb
    refine he j ?_ row hj hr
    rw [Finset.mem_range]
    exact (List.getElem?_eq_some_iff.1 hr).1
  · refine Eventually.of_forall (fun e best hb => ?_)
    rw [List.getElem?_eq_none (by omega)] at hb
    cases hb

theorem forall_mem_eventually {α : Type} {P : α → ℝ → Prop} {l : List α} (h : ∀ a ∈ l, ∀ᶠ u in 𝓝 (0 : ℝ), P a u) :
    ∀ᶠ u in 𝓝 (0 : ℝ), ∀ a ∈ l, P a u := by
  induction l with
  | nil => exact Eventually.of_forall (fun u a ha => absurd ha List.not_mem_nil)
  | cons b l ih =>
    filter_upwards [h b (List.mem_cons_self ..), ih (fun a ha => h a (List.mem_cons_of_mem _ ha))] with u h1 h2 a ha
    rcases List.mem_cons.1 ha with rfl | ha
    · exact h1
    · exact h2 a ha

theorem nearTable_trans {e e' : ℝ} {a b c : List (Row ℝ)} (h : NearTable e a b) (h' : NearTable e' b c) :
    NearTable (e + e') a c := by
  unfold NearTable at h h' ⊢
  induction h generalizing c with
  | nil => cases h'; exact .nil
  | cons h1 _ ih =>
    cases h' with
    | cons k1 k2 =>
      refine .cons ⟨k1.1.trans h1.1, k1.2.1.trans h1.2.1, ?_⟩ (ih k2)
      have := abs_add_le (_ - _) (_ - _) |>.trans (add_le_add h1.2.2 k1.2.2)
      rwa [sub_add_sub_cancel] at this

theorem nearTable_mono {e e' : ℝ} (he : e ≤ e') {a b : List (Row ℝ)} (h : NearTable e a b) : NearTable e' a b :=
  List.Forall₂.imp (fun _ _ h => ⟨h.1, h.2.1, h.2.2.trans he⟩) h

theorem accumulated_four {u : ℝ} (h0 : 0 ≤ u) (h1 : u ≤ 1) : accumulated u 4 ≤ 15 * u := by
  unfold accumulated
  nlinarith [mul_nonneg h0 h0, mul_nonneg (mul_nonneg h0 h0) h0, mul_nonneg h0 (sub_nonneg.2 h1),
    mul_nonneg (mul_nonneg h0 h0) (sub_nonneg.2 h1), mul_nonneg (mul_nonneg (mul_nonneg h0 h0) h0) (sub_nonneg.2 h1)]

theorem exists_radius {P : ℝ → Prop} (h : ∀ᶠ u in 𝓝 (0 : ℝ), P u) : ∃ δ > 0, ∀ u, 0 ≤ u → u ≤ δ → P u := by
  obtain ⟨δ, hδ, h⟩ := Metric.eventually_nhds_iff.1 h
  refine ⟨δ / 2, by positivity, fun u h0 hu => h ?_⟩
  rw [Real.dist_eq, sub_zero, abs_of_nonneg h0]
  linarith

end Rfsed.Props
