import Verif.Spec.WaveExperiment
import Verif.Props.WaveformSensitivity
import Verif.Props.WaveformRounding
import Verif.Props.ExperimentHk

/-!
# Small changes of records change the criteria of the waveform fit by a multiple of the change
-/

namespace Rfsed.Props
open Rfsed PyFloat Spec Proofs Waveform Filter Topology

theorem pearson_comm' (x y : List ℝ) : pearson x y = pearson y x := by
  rw [pearson, pearson, comoment_comm, mul_comm]

theorem within_length {e : ℝ} {x y : List ℝ} (h : SamplesWithin e x y) : y.length = x.length := h.length_eq.symm

theorem subL_rms {x x' : List ℝ} (h : x'.length = x.length) : norm2 (subL x' x) ≤ √(x.length) * rms x x' := by
  rw [rms, ← Real.sqrt_mul (Nat.cast_nonneg _), norm2]
  refine Real.sqrt_le_sqrt ?_
  by_cases hx : x = []
  · subst hx
    have : x' = [] := List.length_eq_zero_iff.1 (by simpa using h)
    subst this
    simp [subL]
  have hl : (x.length : ℝ) ≠ 0 := by
    have := List.length_pos_of_ne_nil hx
    positivity
  rw [mul_div_cancel₀ _ hl, subL, List.map_zipWith, List.zipWith_comm]
  refine le_of_eq ?_
  congr 2
  funext a b
  ring

/-- a record close to one that varies varies, and is not much larger compared with its variation -/
theorem near_varies {x : List ℝ} (hx : ¬ Constant x) : ∃ κ : ℝ, ∃ δ > 0, ∀ e, 0 < e → e ≤ δ → ∀ x', SamplesWithin e x x' →
    ¬ Constant x' ∧ relativeSize x' ≤ κ := by
  have pa := Real.sqrt_pos.2 (comoment_pos hx)
  set a := √(comoment x x) with ha
  have pn : 0 < √(x.length : ℝ) := by
    refine Real.sqrt_pos.2 ?_
    exact_mod_cast List.length_pos_of_ne_nil (ne_nil_of_not_constant hx)
  refine ⟨(norm2 x + a / 2) / (a / 2), a / 2 / √(x.length : ℝ), by positivity, fun e he hed x' h => ?_⟩
  have hl := within_length h
  have hr := rms_within he h
  have hb : √(x.length : ℝ) * rms x x' ≤ a / 2 := by
    rw [le_div_iff₀ pn] at hed
    nlinarith
  have h1 : a / 2 ≤ √(comoment x' x') := by
    have := (abs_le.1 ((abs_norm_diff hl).trans ((diff_size hl).trans hb))).1
    rw [← ha] at this
    linarith
  have h2 : norm2 x' ≤ norm2 x + a / 2 := by
    have := (abs_le.1 ((norm2_diff hl).trans ((subL_rms hl).trans hb))).2
    linarith
  have hne : x' ≠ [] := by
    intro h0
    have := List.length_pos_of_ne_nil (ne_nil_of_not_constant hx)
    rw [← hl, h0] at this
    simp at this
  refine ⟨fun hc => ?_, ?_⟩
  · rw [comoment_const hc hne, Real.sqrt_zero] at h1
    linarith
  · rw [relativeSize_eq hne]
    exact div_le_div₀ (by have := norm2_nonneg x; positivity) h2 (by positivity) h1

theorem near_signs {x : List ℝ} (hx : ∀ a ∈ x, a ≠ 0) : ∃ δ > 0, ∀ e, 0 < e → e ≤ δ → ∀ x', SamplesWithin e x x' →
    ExactFit.signs x' = ExactFit.signs x := by
  have key : ∀ᶠ e in 𝓝 (0 : ℝ), ∀ a ∈ x, e < |a| :=
    forall_mem_eventually (fun a ha => Iio_mem_nhds (abs_pos.2 (hx a ha)))
  obtain ⟨δ, hδ, h⟩ := exists_radius key
  refine ⟨δ, hδ, fun e he hed x' hw => ?_⟩
  have hlt := h e he.le hed
  clear h hx key
  unfold ExactFit.signs
  induction hw with
  | nil => rfl
  | @cons a b l l' hab _ ih =>
    rw [List.map_cons, List.map_cons, ih (fun c hc => hlt c (List.mem_cons_of_mem _ hc))]
    congr 1
    have h1 := hlt a (List.mem_cons_self ..)
    have h2 := abs_lt.1 hab
    rcases lt_trichotomy a 0 with h0 | h0 | h0
    · rw [abs_of_neg h0] at h1
      rw [sign_neg h0, sign_neg (by linarith)]
    · rw [h0, abs_zero] at h1
      linarith
    · rw [abs_of_pos h0] at h1
      rw [sign_pos h0, sign_pos (by linarith)]

theorem near_rms {x y x' y' : List ℝ} {e : ℝ} (he : 0 < e) (hl : x.length = y.length) (hx : SamplesWithin e x x')
    (hy : SamplesWithin e y y') : |rms x' y' - rms x y| ≤ 2 * e := by
  have l1 := within_length hx
  have l2 := within_length hy
  have h1 := (rms_data (x := x) (x' := x') (y := y') (by omega) (by omega)).trans (rms_within he hx)
  have h2 := (rms_data (x := y) (x' := y') (y := x) (by omega) (by omega)).trans (rms_within he hy)
  rw [c44_rms_symm (x := y') (by omega), c44_rms_symm (x := y) (by omega)] at h2
  rw [abs_le] at *
  constructor <;> linarith [h1.1, h1.2, h2.1, h2.2]

theorem near_pearson {x y x' y' : List ℝ} {e : ℝ} (he : 0 < e) (hl : x.length = y.length) (hx : SamplesWithin e x x')
    (hy : SamplesWithin e y y') (cx : ¬ Constant x) (cy : ¬ Constant y) (cx' : ¬ Constant x') (cy' : ¬ Constant y') :
    |pearson x' y' - pearson x y| ≤ (2 / stdDev x + 2 / stdDev y) * e := by
  have l1 := within_length hx
  have l2 := within_length hy
  have bound : ∀ {z z' : List ℝ}, ¬ Constant z → SamplesWithin e z z' → 2 * rms z z' / stdDev z ≤ 2 / stdDev z * e := by
    intro z z' hz hw
    rw [div_mul_eq_mul_div]
    exact div_le_div_of_nonneg_right (by linarith [rms_within he hw]) (stdDev_pos hz).le
  have h1 := (pearson_data (x := x) (x' := x') (y := y') (by omega) (by omega) cx cx' cy').trans (bound cx hx)
  have h2 := (pearson_data (x := y) (x' := y') (y := x) (by omega) (by omega) cy cy' cx).trans (bound cy hy)
  rw [pearson_comm' y' x, pearson_comm' y x] at h2
  rw [abs_le] at *
  constructor <;> linarith [h1.1, h1.2, h2.1, h2.2]

/-- quotients -/
theorem near_quotient {a m A D : ℝ} (hm : 0 < m) (ha : |a| ≤ A) (hD : 0 ≤ D) {e a' m' : ℝ} (he : 0 ≤ e) (hs : D * e ≤ m / 2)
    (h1 : |a' - a| ≤ D * e) (h2 : |m' - m| ≤ D * e) : |a' / m' - a / m| ≤ 2 * D * (m + A) / m ^ 2 * e := by
  have pm' : m / 2 ≤ m' := by linarith [(abs_le.1 h2).1]
  have pm0 : 0 < m' := by linarith
  have hid : a' / m' - a / m = ((a' - a) * m - a * (m' - m)) / (m * m') := by field_simp; ring
  rw [hid, abs_div, abs_of_pos (mul_pos hm pm0)]
  have hA : 0 ≤ A := (abs_nonneg _).trans ha
  have hn : |(a' - a) * m - a * (m' - m)| ≤ D * e * (m + A) := by
    refine (abs_sub _ _).trans ?_
    rw [abs_mul, abs_mul, abs_of_pos hm, mul_add]
    refine add_le_add (mul_le_mul_of_nonneg_right h1 hm.le) ?_
    rw [mul_comm]
    exact mul_le_mul h2 ha (abs_nonneg _) (by positivity)
  have hd : m * (m / 2) ≤ m * m' := mul_le_mul_of_nonneg_left pm' hm.le
  refine (div_le_div₀ (by positivity) hn (by positivity) hd).trans (le_of_eq ?_)
  field_simp

/-- finitely many thresholds and constants -/
theorem uniform_mem {α : Type} {P : α → ℝ → ℝ → Prop} {l : List α} (hmono : ∀ a C C' e, 0 ≤ e → C ≤ C' → P a C e → P a C' e)
    (h : ∀ a ∈ l, ∃ C > 0, ∃ δ > 0, ∀ e, 0 < e → e ≤ δ → P a C e) :
    ∃ C > 0, ∃ δ > 0, ∀ e, 0 < e → e ≤ δ → ∀ a ∈ l, P a C e := by
  induction l with
  | nil => exact ⟨1, one_pos, 1, one_pos, fun _ _ _ a ha => absurd ha List.not_mem_nil⟩
  | cons b l ih =>
    obtain ⟨C, hC, δ, hδ, h1⟩ := h b (List.mem_cons_self ..)
    obtain ⟨C', hC', δ', hδ', h2⟩ := ih (fun a ha => h a (List.mem_cons_of_mem _ ha))
    refine ⟨max C C', lt_max_of_lt_left hC, min δ δ', lt_min hδ hδ', fun e he hed a ha => ?_⟩
    rcases List.mem_cons.1 ha with rfl | ha
    · exact hmono _ _ _ _ he.le (le_max_left _ _) (h1 e he (hed.trans (min_le_left _ _)))
    · exact hmono _ _ _ _ he.le (le_max_right _ _) (h2 e he (hed.trans (min_le_right _ _)) a ha)

/-- finitely many differences -/
theorem gaps_eventually {α : Type} {l : List α} (g : α → ℝ) (D : ℝ) :
    ∃ δ > 0, ∀ e, 0 ≤ e → e ≤ δ → ∀ a ∈ l, ∀ b ∈ l, g a < g b → g a + D * e < g b := by
  have key : ∀ᶠ e in 𝓝 (0 : ℝ), ∀ a ∈ l, ∀ b ∈ l, g a < g b → g a + D * e < g b := by
    refine forall_mem_eventually (fun a _ => forall_mem_eventually (fun b _ => ?_))
    by_cases hab : g a < g b
    · have hc : ContinuousAt (fun e : ℝ => g a + D * e) 0 := by fun_prop
      filter_upwards [hc.eventually (Iio_mem_nhds (show g a + D * 0 < g b by simpa using hab))] with e he _
      exact he
    · exact Eventually.of_forall (fun e h => absurd h hab)
  exact exists_radius key

end Rfsed.Props
