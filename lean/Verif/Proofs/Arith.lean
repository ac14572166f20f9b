import Verif.Py.Arith

/-! # Inexact evaluation tends to exact evaluation -/

namespace Rfsed
open Filter Topology

/-- all values obtained are numbers close to `v` once the tolerance is small enough -/
def Accurate {V : Type} [NormedAddCommGroup V] (R : ℝ → Option V → Prop) (v : V) : Prop :=
  ∀ η > 0, ∃ δ > 0, ∀ ε ≤ δ, ∀ o, R ε o → ∃ z, o = some z ∧ ‖z - v‖ < η

variable {V W X : Type} [NormedAddCommGroup V] [NormedAddCommGroup W] [NormedAddCommGroup X]

theorem rounded_near {f : V} {s : ℝ} {v : V} {η ε δ : ℝ} {o : Option V} (h : Rounded ε s f o) (hs0 : 0 ≤ s) {B : ℝ}
    (hs : s ≤ B) (hB : 0 ≤ B) (hδ : ε ≤ δ) (hδ0 : 0 ≤ δ) (hδB : δ * B < η / 2) (hf : ‖f - v‖ < η / 2) :
    ∃ z, o = some z ∧ ‖z - v‖ < η := by
  obtain ⟨z, rfl, hz⟩ := h
  refine ⟨z, rfl, ?_⟩
  have e : z - v = (z - f) + (f - v) := by abel
  have h1 : ‖z - v‖ ≤ ‖z - f‖ + ‖f - v‖ := by rw [e]; exact norm_add_le _ _
  have h2 : ε * s ≤ δ * B := (mul_le_mul_of_nonneg_right hδ hs0).trans (mul_le_mul_of_nonneg_left hs hδ0)
  linarith

/-- one operand -/
theorem accurate_op1 {R : ℝ → Option V → Prop} {v : V} (h : Accurate R v) (f : V → W) (s : V → ℝ) (g : V → Prop)
    (hf : ContinuousAt f v) (hs : ContinuousAt s v) (hs0 : ∀ x, 0 ≤ s x) (hg : ∀ᶠ x in 𝓝 v, g x) :
    Accurate (fun ε o => ∃ x, R ε x ∧ ∀ x', x = some x' → g x' → Rounded ε (s x') (f x') o) (f v) := by
  intro η hη
  have e1 : ∀ᶠ x in 𝓝 v, ‖f x - f v‖ < η / 2 := by
    have := Metric.tendsto_nhds.1 hf (η / 2) (by positivity)
    simpa [dist_eq_norm] using this
  have e2 : ∀ᶠ x in 𝓝 v, s x ≤ s v + 1 := by
    have := Metric.tendsto_nhds.1 hs 1 one_pos
    filter_upwards [this] with x hx
    rw [Real.dist_eq] at hx
    linarith [(abs_lt.1 hx).2]
  obtain ⟨ρ, hρ, hall⟩ := Metric.eventually_nhds_iff.1 (e1.and (e2.and hg))
  obtain ⟨δ, hδ, hR⟩ := h ρ hρ
  have hB : 0 < s v + 1 := by linarith [hs0 v]
  refine ⟨min δ (η / (4 * (s v + 1))), by positivity, ?_⟩
  rintro ε hε o ⟨x, hx, ho⟩
  obtain ⟨x', rfl, hx'⟩ := hR ε (hε.trans (min_le_left _ _)) x hx
  obtain ⟨a1, a2, a3⟩ := hall (y := x') (by rwa [dist_eq_norm])
  refine rounded_near (ho x' rfl a3) (hs0 _) a2 hB.le (hε.trans (min_le_right _ _)) (by positivity) ?_ a1
  rw [div_mul_eq_mul_div, div_lt_iff₀ (by positivity)]
  nlinarith

/-- two operands -/
theorem accurate_op2 {R : ℝ → Option V → Prop} {S : ℝ → Option W → Prop} {v : V} {w : W} (h : Accurate R v)
    (h' : Accurate S w) (f : V → W → X) (s : V → W → ℝ) (g : V → W → Prop)
    (hf : ContinuousAt (fun x : V × W => f x.1 x.2) (v, w)) (hs : ContinuousAt (fun x : V × W => s x.1 x.2) (v, w))
    (hs0 : ∀ x y, 0 ≤ s x y) (hg : ∀ᶠ x in 𝓝 (v, w), g x.1 x.2) :
    Accurate (fun ε o => ∃ x y, R ε x ∧ S ε y ∧
      ∀ x' y', x = some x' → y = some y' → g x' y' → Rounded ε (s x' y') (f x' y') o) (f v w) := by
  intro η hη
  have e1 : ∀ᶠ x in 𝓝 (v, w), ‖f x.1 x.2 - f v w‖ < η / 2 := by
    have := Metric.tendsto_nhds.1 hf (η / 2) (by positivity)
    simpa [dist_eq_norm] using this
  have e2 : ∀ᶠ x in 𝓝 (v, w), s x.1 x.2 ≤ s v w + 1 := by
    have := Metric.tendsto_nhds.1 hs 1 one_pos
    filter_upwards [this] with x hx
    rw [Real.dist_eq] at hx
    linarith [(abs_lt.1 hx).2]
  obtain ⟨ρ, hρ, hall⟩ := Metric.eventually_nhds_iff.1 (e1.and (e2.and hg))
  obtain ⟨δ, hδ, hR⟩ := h ρ hρ
  obtain ⟨δ', hδ', hS⟩ := h' ρ hρ
  have hB : 0 < s v w + 1 := by linarith [hs0 v w]
  refine ⟨min (min δ δ') (η / (4 * (s v w + 1))), by positivity, ?_⟩
  rintro ε hε o ⟨x, y, hx, hy, ho⟩
  obtain ⟨x', rfl, hx'⟩ := hR ε (hε.trans ((min_le_left _ _).trans (min_le_left _ _))) x hx
  obtain ⟨y', rfl, hy'⟩ := hS ε (hε.trans ((min_le_left _ _).trans (min_le_right _ _))) y hy
  obtain ⟨a1, a2, a3⟩ := hall (y := (x', y')) (by
    rw [Prod.dist_eq, dist_eq_norm, dist_eq_norm]
    exact max_lt hx' hy')
  refine rounded_near (ho x' y' rfl rfl a3) (hs0 _ _) a2 hB.le (hε.trans (min_le_right _ _)) (by positivity) ?_ a1
  rw [div_mul_eq_mul_div, div_lt_iff₀ (by positivity)]
  nlinarith

/-- an exact operation -/
theorem accurate_map {R : ℝ → Option V → Prop} {v : V} (h : Accurate R v) (f : V → W)
    (hf : ∀ x y, ‖f x - f y‖ = ‖x - y‖) : Accurate (fun ε o => ∃ x, R ε x ∧ o = x.map f) (f v) := by
  intro η hη
  obtain ⟨δ, hδ, hR⟩ := h η hη
  refine ⟨δ, hδ, ?_⟩
  rintro ε hε o ⟨x, hx, rfl⟩
  obtain ⟨z, rfl, hz⟩ := hR ε hε x hx
  exact ⟨f z, rfl, by rwa [hf]⟩

theorem accurate_mono {R S : ℝ → Option V → Prop} {v : V} (h : Accurate S v) (hRS : ∀ ε o, R ε o → S ε o) :
    Accurate R v := by
  intro η hη
  obtain ⟨δ, hδ, hR⟩ := h η hη
  exact ⟨δ, hδ, fun ε hε o ho => hR ε hε o (hRS ε o ho)⟩

/-- finitely many values at once -/
theorem accurate_all {ι : Type} [Fintype ι] {R : ι → ℝ → Option V → Prop} {v : ι → V} (h : ∀ i, Accurate (R i) (v i))
    {η : ℝ} (hη : 0 < η) :
    ∃ δ > 0, ∀ ε ≤ δ, ∀ o : ι → Option V, (∀ i, R i ε (o i)) → ∃ z : ι → V, ∀ i, o i = some (z i) ∧ ‖z i - v i‖ < η := by
  choose d hd hR using fun i => h i η hη
  rcases isEmpty_or_nonempty ι with hι | hι
  · exact ⟨1, one_pos, fun ε _ o _ => ⟨fun i => (hι.false i).elim, fun i => (hι.false i).elim⟩⟩
  · refine ⟨Finset.univ.inf' Finset.univ_nonempty d, ?_, ?_⟩
    · exact (Finset.lt_inf'_iff _).2 fun i _ => hd i
    · intro ε hε o ho
      choose z hz using fun i => hR i ε (hε.trans (Finset.inf'_le _ (Finset.mem_univ i))) (o i) (ho i)
      exact ⟨z, hz⟩

theorem RE.accurate : ∀ {e : RE}, e.Safe → Accurate (fun ε o => e.Rnd ε o) e.val
  | .c x, _ => by
      intro η hη
      refine ⟨η / (2 * (|x| + 1)), by positivity, ?_⟩
      rintro ε hε o h
      refine rounded_near (h : Rounded ε |x| x o) (abs_nonneg x) (B := |x|) le_rfl (abs_nonneg x) hε (by positivity) ?_
        (by simpa [RE.val] using hη)
      rw [div_mul_eq_mul_div, div_lt_iff₀ (by positivity)]
      nlinarith [abs_nonneg x]
  | .neg a, h => accurate_map (RE.accurate (e := a) h) _ (fun x y => by rw [← norm_neg]; congr 1; ring)
  | .add a b, h => accurate_mono
      (accurate_op2 (RE.accurate h.1) (RE.accurate h.2) (fun x y : ℝ => x + y) (fun x y : ℝ => |x + y|) (fun _ _ => True)
        (by fun_prop) (by fun_prop) (fun _ _ => abs_nonneg _) (by simp))
      (fun ε o ⟨x, y, h1, h2, h3⟩ => ⟨x, y, h1, h2, fun x' y' a b _ => h3 x' y' a b⟩)
  | .sub a b, h => accurate_mono
      (accurate_op2 (RE.accurate h.1) (RE.accurate h.2) (fun x y : ℝ => x - y) (fun x y : ℝ => |x - y|) (fun _ _ => True)
        (by fun_prop) (by fun_prop) (fun _ _ => abs_nonneg _) (by simp))
      (fun ε o ⟨x, y, h1, h2, h3⟩ => ⟨x, y, h1, h2, fun x' y' a b _ => h3 x' y' a b⟩)
  | .mul a b, h => accurate_mono
      (accurate_op2 (RE.accurate h.1) (RE.accurate h.2) (fun x y : ℝ => x * y) (fun x y : ℝ => |x * y|) (fun _ _ => True)
        (by fun_prop) (by fun_prop) (fun _ _ => abs_nonneg _) (by simp))
      (fun ε o ⟨x, y, h1, h2, h3⟩ => ⟨x, y, h1, h2, fun x' y' a b _ => h3 x' y' a b⟩)
  | .div a b, h => by
      have hc : ContinuousAt (fun x : ℝ × ℝ => x.1 / x.2) (a.val, b.val) :=
        ContinuousAt.div continuousAt_fst continuousAt_snd h.2.2
      exact accurate_op2 (RE.accurate h.1) (RE.accurate h.2.1) (fun x y : ℝ => x / y) (fun x y : ℝ => |x / y|)
        (fun _ y => y ≠ 0) hc (continuous_abs.continuousAt.comp hc) (fun _ _ => abs_nonneg _)
        (continuousAt_snd.eventually_ne h.2.2)
  | .sqrt a, h => accurate_op1 (RE.accurate h.1) (fun x : ℝ => Real.sqrt x) (fun x : ℝ => |Real.sqrt x|)
        (fun x => 0 ≤ x) (by fun_prop) (by fun_prop) (fun _ => abs_nonneg _)
        ((lt_mem_nhds h.2).mono fun x hx => le_of_lt hx)
  | .cos a, h => accurate_mono
      (accurate_op1 (RE.accurate (e := a) h) (fun x : ℝ => Real.cos x) (fun x : ℝ => |Real.cos x|) (fun _ => True)
        (by fun_prop) (by fun_prop) (fun _ => abs_nonneg _) (by simp))
      (fun ε o ⟨x, h1, h3⟩ => ⟨x, h1, fun x' a _ => h3 x' a⟩)
  | .sin a, h => accurate_mono
      (accurate_op1 (RE.accurate (e := a) h) (fun x : ℝ => Real.sin x) (fun x : ℝ => |Real.sin x|) (fun _ => True)
        (by fun_prop) (by fun_prop) (fun _ => abs_nonneg _) (by simp))
      (fun ε o ⟨x, h1, h3⟩ => ⟨x, h1, fun x' a _ => h3 x' a⟩)

theorem accurate_dot {R S : Fin 4 → ℝ → Option ℂ → Prop} {v w : Fin 4 → ℂ} (h : ∀ k, Accurate (R k) (v k))
    (h' : ∀ k, Accurate (S k) (w k)) :
    Accurate (fun ε o => ∃ x y : Fin 4 → Option ℂ, (∀ k, R k ε (x k)) ∧ (∀ k, S k ε (y k)) ∧
      ∀ x' y' : Fin 4 → ℂ, (∀ k, x k = some (x' k)) → (∀ k, y k = some (y' k)) →
        Rounded ε (∑ k, ‖x' k‖ * ‖y' k‖) (∑ k, x' k * y' k) o) (∑ k, v k * w k) := by
  intro η hη
  have hf : ContinuousAt (fun x : (Fin 4 → ℂ) × (Fin 4 → ℂ) => ∑ k, x.1 k * x.2 k) (v, w) := by fun_prop
  have hs : ContinuousAt (fun x : (Fin 4 → ℂ) × (Fin 4 → ℂ) => ∑ k, ‖x.1 k‖ * ‖x.2 k‖) (v, w) := by fun_prop
  set B : ℝ := (∑ k, ‖v k‖ * ‖w k‖) + 1 with hBdef
  have hs0 : ∀ x y : Fin 4 → ℂ, 0 ≤ ∑ k, ‖x k‖ * ‖y k‖ := fun x y => Finset.sum_nonneg fun k _ => by positivity
  have hB : 0 < B := by have := hs0 v w; linarith
  have e1 : ∀ᶠ x in 𝓝 (v, w), ‖(∑ k, x.1 k * x.2 k) - ∑ k, v k * w k‖ < η / 2 := by
    have := Metric.tendsto_nhds.1 hf (η / 2) (by positivity)
    simpa [dist_eq_norm] using this
  have e2 : ∀ᶠ x in 𝓝 (v, w), (∑ k, ‖x.1 k‖ * ‖x.2 k‖) ≤ B := by
    have := Metric.tendsto_nhds.1 hs 1 one_pos
    filter_upwards [this] with x hx
    rw [Real.dist_eq] at hx
    have := (abs_lt.1 hx).2
    linarith
  obtain ⟨ρ, hρ, hall⟩ := Metric.eventually_nhds_iff.1 (e1.and e2)
  obtain ⟨δ, hδ, hR⟩ := accurate_all h hρ
  obtain ⟨δ', hδ', hS⟩ := accurate_all h' hρ
  refine ⟨min (min δ δ') (η / (4 * B)), by positivity, ?_⟩
  rintro ε hε o ⟨x, y, hx, hy, ho⟩
  obtain ⟨x', hx'⟩ := hR ε (hε.trans ((min_le_left _ _).trans (min_le_left _ _))) x hx
  obtain ⟨y', hy'⟩ := hS ε (hε.trans ((min_le_left _ _).trans (min_le_right _ _))) y hy
  obtain ⟨a1, a2⟩ := hall (y := (x', y')) (by
    rw [Prod.dist_eq]
    refine max_lt ((dist_pi_lt_iff hρ).2 fun k => ?_) ((dist_pi_lt_iff hρ).2 fun k => ?_)
    · rw [dist_eq_norm]; exact (hx' k).2
    · rw [dist_eq_norm]; exact (hy' k).2)
  refine rounded_near (ho x' y' (fun k => (hx' k).1) (fun k => (hy' k).1)) (hs0 _ _) a2 hB.le
    (hε.trans (min_le_right _ _)) (by positivity) ?_ a1
  rw [div_mul_eq_mul_div, div_lt_iff₀ (by positivity)]
  nlinarith

theorem CE.accurate : ∀ {e : CE}, e.Safe → Accurate (fun ε o => e.Rnd ε o) e.val
  | .re a, h => accurate_map (RE.accurate (e := a) h) _ (fun x y => by
      rw [← Complex.ofReal_sub, Complex.norm_real])
  | .im a, h => accurate_mono
      (accurate_op1 (RE.accurate (e := a) h) (fun x : ℝ => (x : ℂ) * Complex.I) (fun x : ℝ => |x|) (fun _ => True)
        (by fun_prop) (by fun_prop) (fun _ => abs_nonneg _) (by simp))
      (fun ε o ⟨x, h1, h3⟩ => ⟨x, h1, fun x' a _ => h3 x' a⟩)
  | .neg a, h => accurate_map (CE.accurate (e := a) h) _ (fun x y => by rw [← norm_neg]; congr 1; ring)
  | .sub a b, h => accurate_mono
      (accurate_op2 (CE.accurate h.1) (CE.accurate h.2) (fun x y : ℂ => x - y) (fun x y : ℂ => ‖x - y‖) (fun _ _ => True)
        (by fun_prop) (by fun_prop) (fun _ _ => norm_nonneg _) (by simp))
      (fun ε o ⟨x, y, h1, h2, h3⟩ => ⟨x, y, h1, h2, fun x' y' a b _ => h3 x' y' a b⟩)
  | .mul a b, h => accurate_mono
      (accurate_op2 (CE.accurate h.1) (CE.accurate h.2) (fun x y : ℂ => x * y) (fun x y : ℂ => ‖x * y‖) (fun _ _ => True)
        (by fun_prop) (by fun_prop) (fun _ _ => norm_nonneg _) (by simp))
      (fun ε o ⟨x, y, h1, h2, h3⟩ => ⟨x, y, h1, h2, fun x' y' a b _ => h3 x' y' a b⟩)
  | .div a b, h => by
      have hc : ContinuousAt (fun x : ℂ × ℂ => x.1 / x.2) (a.val, b.val) :=
        ContinuousAt.div continuousAt_fst continuousAt_snd h.2.2
      exact accurate_op2 (CE.accurate h.1) (CE.accurate h.2.1) (fun x y : ℂ => x / y) (fun x y : ℂ => ‖x / y‖)
        (fun _ y => y ≠ 0) hc (continuous_norm.continuousAt.comp hc) (fun _ _ => norm_nonneg _)
        (continuousAt_snd.eventually_ne h.2.2)
  | .dot a b, h => accurate_dot (fun k => CE.accurate (h k).1) (fun k => CE.accurate (h k).2)

/-! exact evaluation is among the inexact ones -/

theorem rounded_self {ε s : ℝ} (hε : 0 ≤ ε) (hs : 0 ≤ s) (v : V) : Rounded ε s v (some v) :=
  ⟨v, rfl, by rw [sub_self, norm_zero]; positivity⟩

theorem RE.rnd_val {ε : ℝ} (hε : 0 ≤ ε) : ∀ e : RE, e.Rnd ε (some e.val)
  | .c x => rounded_self hε (abs_nonneg _) _
  | .neg a => ⟨_, RE.rnd_val hε a, rfl⟩
  | .add a b => ⟨_, _, RE.rnd_val hε a, RE.rnd_val hε b, fun x' y' h1 h2 => by
      cases h1; cases h2; exact rounded_self hε (abs_nonneg _) _⟩
  | .sub a b => ⟨_, _, RE.rnd_val hε a, RE.rnd_val hε b, fun x' y' h1 h2 => by
      cases h1; cases h2; exact rounded_self hε (abs_nonneg _) _⟩
  | .mul a b => ⟨_, _, RE.rnd_val hε a, RE.rnd_val hε b, fun x' y' h1 h2 => by
      cases h1; cases h2; exact rounded_self hε (abs_nonneg _) _⟩
  | .div a b => ⟨_, _, RE.rnd_val hε a, RE.rnd_val hε b, fun x' y' h1 h2 _ => by
      cases h1; cases h2; exact rounded_self hε (abs_nonneg _) _⟩
  | .sqrt a => ⟨_, RE.rnd_val hε a, fun x' h1 _ => by cases h1; exact rounded_self hε (abs_nonneg _) _⟩
  | .cos a => ⟨_, RE.rnd_val hε a, fun x' h1 => by cases h1; exact rounded_self hε (abs_nonneg _) _⟩
  | .sin a => ⟨_, RE.rnd_val hε a, fun x' h1 => by cases h1; exact rounded_self hε (abs_nonneg _) _⟩

theorem CE.rnd_val {ε : ℝ} (hε : 0 ≤ ε) : ∀ e : CE, e.Rnd ε (some e.val)
  | .re a => ⟨_, RE.rnd_val hε a, rfl⟩
  | .im a => ⟨_, RE.rnd_val hε a, fun x' h1 => by cases h1; exact rounded_self hε (abs_nonneg _) _⟩
  | .neg a => ⟨_, CE.rnd_val hε a, rfl⟩
  | .sub a b => ⟨_, _, CE.rnd_val hε a, CE.rnd_val hε b, fun x' y' h1 h2 => by
      cases h1; cases h2; exact rounded_self hε (norm_nonneg _) _⟩
  | .mul a b => ⟨_, _, CE.rnd_val hε a, CE.rnd_val hε b, fun x' y' h1 h2 => by
      cases h1; cases h2; exact rounded_self hε (norm_nonneg _) _⟩
  | .div a b => ⟨_, _, CE.rnd_val hε a, CE.rnd_val hε b, fun x' y' h1 h2 _ => by
      cases h1; cases h2; exact rounded_self hε (norm_nonneg _) _⟩
  | .dot a b => ⟨_, _, fun k => CE.rnd_val hε (a k), fun k => CE.rnd_val hε (b k), fun x' y' h1 h2 => by
      have e1 : x' = fun k => (a k).val := funext fun k => (Option.some.inj (h1 k)).symm
      have e2 : y' = fun k => (b k).val := funext fun k => (Option.some.inj (h2 k)).symm
      rw [e1, e2]
      exact rounded_self hε (Finset.sum_nonneg fun k _ => by positivity) _⟩

end Rfsed
