import Verif.Proofs.Limit
import Verif.Props.ContinuityRF

/-!
# C140: the grid search on computed receiver functions, in sufficiently precise arithmetic

No margins are assumed: the exact search has one best model, every exact delay time one nearest sample.  Then all
sufficiently precise arithmetics report that model, with stack values that are wrong by at most a multiple of the precision.
-/

namespace Rfsed.Props
open Rfsed HkZhu Spec Filter Topology

theorem divisor_fl {R : Rounding} {v : Scalar (FL R)} (h : v.val.val ≠ 0) : Divisor v := by
  refine Or.inr ?_
  unfold PyFloat.eq
  rcases lt_or_gt_of_ne h with h | h
  · simp [h]
  · simp [h]

/-- the samples of a list are bounded -/
theorem samples_bounded (x : List ℝ) : ∃ A, 0 ≤ A ∧ ∀ a ∈ x, |a| ≤ A := by
  induction x with
  | nil => exact ⟨0, le_rfl, fun a ha => absurd ha List.not_mem_nil⟩
  | cons b x ih =>
    obtain ⟨A, h0, h⟩ := ih
    refine ⟨A + |b|, by positivity, fun a ha => ?_⟩
    rcases List.mem_cons.1 ha with rfl | ha
    · linarith
    · linarith [h a ha, abs_nonneg b]

theorem near_of_within {e : ℝ} {x y : List ℝ} (h : SamplesWithin e x y) : Near e x y :=
  List.Forall₂.imp (fun a b h => by rw [abs_sub_comm]; exact h.le) h

theorem within_bounded {e A : ℝ} {x y : List ℝ} (h : SamplesWithin e x y) (hA : ∀ a ∈ x, |a| ≤ A) :
    ∀ b ∈ y, |b| ≤ A + e := by
  induction h with
  | nil => exact fun b hb => absurd hb List.not_mem_nil
  | @cons a b x y h1 _ ih =>
    intro c hc
    rcases List.mem_cons.1 hc with rfl | hc
    · have := abs_add_le a (c - a)
      rw [add_sub_cancel] at this
      linarith [hA a (List.mem_cons_self ..)]
    · exact ih (fun a ha => hA a (List.mem_cons_of_mem _ ha)) c hc

/-- the stacking on exact data, without the drawing -/
theorem hkSynth_quiet {x τ : List ℝ} {p Vp : Scalar ℝ} {H K : List ℝ} {w1 w2 w3 : Option ℝ} {layer : Option String}
    (env : Env ℝ) (ht : τ ≠ []) (hd : τ.length ≤ x.length) (hVp : Vp.val ≠ 0) (hK : K ≠ []) (hH : H ≠ []) :
    ∃ r, SynthAnalysis.hkSynth { env with draw := fun _ => .ok () } x τ p H K (some Vp) w1 w2 w3 layer = .ok r :=
  c25_hkSynth_succeeds ht hd (divisor_real (k := Vp.kind) hVp) hK hH (fun _ _ => rfl)

theorem vp_ne_zero {p Vp : ℝ} (h : p ^ 2 < (1 / Vp) ^ 2) : Vp ≠ 0 := by
  rintro rfl
  simp at h
  nlinarith [sq_nonneg p]

/-- **C140** `hkSynth` in arithmetic of precision `ε`, on data within `C ε` of the exact ones. -/
theorem c140_hkSynth {env : Env ℝ} {x τ : List ℝ} {p Vp : Scalar ℝ} {H K : List ℝ} {w1 w2 w3 : ℝ}
    {layer : Option String} {r : SynthAnalysis.SynthResult ℝ}
    (h : SynthAnalysis.hkSynth env x τ p H K (some Vp) (some w1) (some w2) (some w3) layer = .ok r)
    (hlen : τ.length ≤ x.length) (hS : ∀ k ∈ K, p.val ^ 2 < (k / Vp.val) ^ 2) (hP : p.val ^ 2 < (1 / Vp.val) ^ 2)
    (hclear : ∀ k ∈ K, ∀ y ∈ H, ClearArrivals τ p.val Vp.val y k 0) (hbest : Margin 0 r.stackvalues r.bestIdx)
    {C : ℝ} (hC : 0 ≤ C) :
    ∃ C' > 0, ∃ δ > 0, ∀ ε, 0 < ε → ε ≤ δ → ∀ R : Rounding, R.u ≤ ε →
      ∀ (env' : Env (FL R)) (d t H' K' : List (FL R)) (p' Vp' : Scalar (FL R)) (v1 v2 v3 : FL R) (layer' : Option String),
        SamplesWithin (C * ε) x (d.map FL.val) → t.map FL.val = τ → H'.map FL.val = H → K'.map FL.val = K →
        p'.val.val = p.val → Vp'.val.val = Vp.val → v1.val = w1 → v2.val = w2 → v3.val = w3 →
        (∀ tb, tb ≠ [] → env'.draw tb = .ok ()) →
        ∃ r', SynthAnalysis.hkSynth env' d t p' H' K' (some Vp') (some v1) (some v2) (some v3) layer' = .ok r' ∧
          NearTable (C' * ε) r.stackvalues (r'.stackvalues.map exactRow) ∧ r'.bestIdx = r.bestIdx := by
  have f := hkSynth_inv h
  obtain ⟨hK, hH, k0, x0, s0, hs0⟩ := grid_ne f.hgrid f.hbest
  have ht : τ ≠ [] := by
    rw [synthCell_eq] at hs0
    obtain ⟨ts, hts, hs⟩ := bind_eq_ok.1 hs0
    obtain ⟨v, hv, -⟩ := bind_eq_ok.1 hs
    exact weigh_axis hv
  have hV := vp_ne_zero hP
  obtain ⟨A, hA0, hA⟩ := samples_bounded x
  obtain ⟨L, hL0, hL⟩ := samples_bounded τ
  set W := |w1| + |w2| + |w3| with hW
  have hW0 : 0 ≤ W := by positivity
  set C' := W * C + 15 * (W * (A + C)) + 1 with hC'
  have hC'0 : 0 < C' := by positivity
  have ev : ∀ᶠ u in 𝓝 (0 : ℝ), u < 1 / 1000 ∧ Margin (2 * C' * u) r.stackvalues r.bestIdx ∧
      (∀ k ∈ K, WellConditioned u p.val Vp.val k) ∧
      ∀ k ∈ K, ∀ y ∈ H, ClearArrivals τ p.val Vp.val y k (40 * (L + timeScale p.val Vp.val y k) * u) := by
    filter_upwards [Iio_mem_nhds (show (0 : ℝ) < 1 / 1000 by norm_num), margin_eventually hbest (2 * C'),
      forall_mem_eventually (fun k hk => well_eventually (hS k hk) hP),
      forall_mem_eventually (fun k hk => forall_mem_eventually (fun y hy => clearTimes_eventually (hclear k hk y hy)
        (40 * (L + timeScale p.val Vp.val y k))))] with u a b c d
    exact ⟨a, b, c, d⟩
  obtain ⟨δ, hδ, hev⟩ := exists_radius ev
  refine ⟨C', hC'0, δ, hδ, ?_⟩
  intro ε hε hεδ R hR env' d t H' K' p' Vp' v1 v2 v3 layer' hd rfl rfl rfl hp hVp rfl rfl rfl hdraw
  obtain ⟨hu3, -, hwell, hcl⟩ := hev R.u R.u_nonneg (hR.trans hεδ)
  obtain ⟨hε3, hmar, -, -⟩ := hev ε hε.le hεδ
  have hdl : x.length = d.length := by simpa using hd.length_eq
  have hKf : K' ≠ [] := by simpa using hK
  have hHf : H' ≠ [] := by simpa using hH
  have htf : t ≠ [] := by simpa using ht
  have hlen' : t.length ≤ d.length := by rw [List.length_map] at hlen; omega
  obtain ⟨r', hr'⟩ := c25_hkSynth_succeeds (env := env') (rp := p') (w1 := some v1) (w2 := some v2) (w3 := some v3)
    (layer := layer') htf hlen' (divisor_fl (by rw [hVp]; exact hV)) hKf hHf (fun tb htb => hdraw tb (by
      rw [← List.length_pos_iff, htb]
      exact Nat.mul_pos (List.length_pos_iff.2 hKf) (List.length_pos_iff.2 hHf)))
  obtain ⟨r1, hr1⟩ := hkSynth_quiet (x := d.map FL.val) (τ := t.map FL.val) (p := p) (Vp := Vp) (H := H'.map FL.val)
    (K := K'.map FL.val) (w1 := some v1.val) (w2 := some v2.val) (w3 := some v3.val) (layer := layer) env ht
    (by simpa using hlen') hV hK hH
  have n1 := (c95_hkSynth (near_of_within hd) h hr1).1
  have hr1' := hr1
  rw [show p = ⟨p.kind, p'.val.val⟩ by rw [hp], show Vp = ⟨Vp.kind, Vp'.val.val⟩ by rw [hVp]] at hr1'
  have n2 := (c105_hkSynth_exact (A := A + C * ε) (L := L) hu3.le hr' hr1'
    (fun τ hτ => hL _ (List.mem_map_of_mem hτ)) (fun a ha => within_bounded hd hA _ (List.mem_map_of_mem ha))
    (fun k hk => by rw [hp, hVp]; exact hwell _ (List.mem_map_of_mem hk))
    (fun k hk y hy => by
      rw [hp, hVp]
      have := hcl _ (List.mem_map_of_mem hk) _ (List.mem_map_of_mem hy)
      rwa [mul_right_comm] at this)).1
  have hT : NearTable (C' * ε) r.stackvalues (r'.stackvalues.map exactRow) := by
    refine nearTable_mono ?_ (nearTable_trans n1 n2)
    have a4 := accumulated_four R.u_nonneg (by linarith)
    have h1 : accumulated R.u 4 * (W * (A + C * ε)) ≤ 15 * ε * (W * (A + C)) := by
      refine mul_le_mul (a4.trans (by linarith)) (mul_le_mul_of_nonneg_left (by nlinarith) hW0) (by positivity) (by positivity)
    rw [hC']
    nlinarith
  have f' := hkSynth_inv hr'
  exact ⟨r', hr', hT, nearTable_best hT f.hbest (best_fl f'.hbest) (by rwa [← mul_assoc])⟩

end Rfsed.Props
