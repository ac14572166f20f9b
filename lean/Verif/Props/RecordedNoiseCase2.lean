import Verif.Props.RecordedNoiseSeq
import Verif.Props.RecordedNoiseCase
import Verif.Props.ExperimentCase2

/-!
# C143: a concrete case for the sequential stacking

The receiver function of a radial spike under a vertical spike serves both stages.
-/

namespace Rfsed.Props
open Rfsed HkZhu Spec Synrf ReverbFilter

example {b : ℝ} (hb0 : 0 < b) : ∃ x r best, (RFMethod.iterative 400 0.001 "P").Gives 1 0 2 (spikes b) x ∧
    SynthAnalysis.hkSeqSynth (twoEnv ℝ 1) x x [0, 1, 2, 3] ⟨.py, 0.06⟩ [1, 12] [1.8]
      (some ⟨.py, 6⟩) (some 0.6) (some 0.3) (some 0.1) [1, 12] [1.8] (some ⟨.py, 6⟩) (some 0.6) (some 0.3) (some 0.1) = .ok r ∧
    r.bestmodelSed = some best ∧ r.bestIdxMoho = 0 ∧
    ∃ C > 0, ∃ δ > 0, ∀ e, 0 < e → e ≤ δ → ∀ q', (spikes b).Within e q' → ∀ R : Rounding, R.u ≤ e →
      ∀ (d t H K : List (FL R)) (p Vp : Scalar (FL R)) (v1 v2 v3 : FL R),
        (RFMethod.iterative 400 0.001 "P").Computes e 1 0 2 q' (d.map FL.val) →
        t.map FL.val = [0, 1, 2, 3] → H.map FL.val = [1, 12] → K.map FL.val = [1.8] → p.val.val = 0.06 → Vp.val.val = 6 →
        v1.val = 0.6 → v2.val = 0.3 → v3.val = 0.1 →
        ∃ r', SynthAnalysis.hkSeqSynth (twoEnv (FL R) ⟨1⟩) d d t p H K (some Vp) (some v1) (some v2) (some v3) H K
            (some Vp) (some v1) (some v2) (some v3) = .ok r' ∧
          NearTable (C * e) r.stackvalueMoho (r'.stackvalueMoho.map exactRow) ∧ r'.bestIdxMoho = 0 := by
  obtain ⟨x0, x1, x2, x3, hg, hc, hl1, hl2, hl3, hl4, hl5⟩ := spikes_rf hb0
  obtain ⟨a1, a2, a3, a4⟩ := two_slow
  obtain ⟨e1, e2, e3⟩ := two_times
  obtain ⟨r, hr⟩ := c25_hkSeqSynth_succeeds (F := ℝ) (env := twoEnv ℝ 1) (rp := ⟨.py, 0.06⟩) (dS := [x0, x1, x2, x3])
    (dM := [x0, x1, x2, x3]) (t := [0, 1, 2, 3]) (HS := [1, 12]) (KS := [1.8]) (HM := [1, 12]) (KM := [1.8]) (VpSed := ⟨.py, 6⟩)
    (VpMoho := ⟨.py, 6⟩) (w1S := some 0.6) (w2S := some 0.3) (w3S := some 0.1) (w1M := 0.6) (w2M := 0.3) (w3M := 0.1)
    (by simp) (by simp) (by simp) (divisor_real (by norm_num)) (divisor_real (by norm_num)) (by simp) (by simp) (by simp)
    (by simp) (fun _ _ => rfl)
  obtain ⟨b, raw, f⟩ := hkSeqSynth_inv hr
  have gS := f.hgridS
  have gM := f.hgridM
  rw [f.hVpSed] at gS gM
  simp only [Option.getD_some] at gS gM
  obtain ⟨s1, s2, c1, c2, hT⟩ := two_table gS
  rw [seqSedCell_eq] at c1 c2
  obtain ⟨v1, v2, v3, p1, p2, p3, q1⟩ := two_value (i1 := 0) (i2 := 0) (i3 := 1) (by norm_num) (by norm_num) (by norm_num)
    (by rw [e1]; norm_num; linarith) (Or.inl (by rw [e1]; norm_num; linarith))
    (by rw [e2]; norm_num; linarith) (Or.inl (by rw [e2]; norm_num; linarith))
    (by rw [e3]; norm_num; linarith) (Or.inl (by rw [e3]; norm_num; linarith)) c1
  obtain ⟨y1, y2, y3, u1, u2, u3, q2⟩ := two_value (i1 := 2) (i2 := 3) (i3 := 3) (by norm_num) (by norm_num) (by norm_num)
    (by rw [e1]; norm_num; linarith) (Or.inl (by rw [e1]; norm_num; linarith))
    (by rw [e2]; norm_num; linarith) (Or.inr rfl)
    (by rw [e3]; norm_num; linarith) (Or.inr rfl) c2
  simp only [List.getElem?_cons_zero, List.getElem?_cons_succ, Option.some.injEq] at p1 p2 p3 u1 u2 u3
  subst p1 p2 p3 u1 u2 u3
  have hbS := f.hbestS
  rw [hT] at hbS
  obtain ⟨n0, m0⟩ := two_best (by rw [q1, q2]; linarith) hbS
  have hrow := f.hrowS
  rw [hT, n0] at hrow
  have hb : b = ⟨1, 1.8, s1⟩ := (Option.some.inj hrow).symm
  subst hb
  obtain ⟨S1, S2, C1, C2, hR⟩ := two_table gM
  have moho : ∀ y s : ℝ, SynthAnalysis.seqMohoCell [x0, x1, x2, x3] [0, 1, 2, 3] ⟨.py, 0.06⟩ ⟨.py, 6⟩ 1 1.8 (some ⟨.py, 6⟩)
      (some 0.6) (some 0.3) (some 0.1) 1.8 y = .ok s → StackValue 0.6 0.3 0.1 [x0, x1, x2, x3] [0, 1, 2, 3]
        (tPs 0.06 6 1 1.8 + tPs 0.06 6 y 1.8) (tPpPs 0.06 6 1 1.8 + tPpPs 0.06 6 y 1.8)
        (tPsPs 0.06 6 1 1.8 + tPsPs 0.06 6 y 1.8) s := by
    intro y s hs
    rw [seqMohoCell_eq, mohoTimes_real (by norm_num) (by norm_num) (by norm_num) (by norm_num), except_ok_bind] at hs
    obtain ⟨v, hv, hs⟩ := bind_eq_ok.1 hs
    have hs := Except.ok.inj hs
    rw [real_zero, add_zero] at hs
    subst hs
    exact weigh_real.1 hv
  obtain ⟨X1, X2, X3, P1, P2, P3, Q1⟩ := four_stack (i1 := 0) (i2 := 1) (i3 := 1) (by norm_num) (by norm_num) (by norm_num)
    (by rw [e1]; norm_num; linarith) (Or.inl (by rw [e1]; norm_num; linarith))
    (by rw [e2]; norm_num; linarith) (Or.inl (by rw [e2]; norm_num; linarith))
    (by rw [e3]; norm_num; linarith) (Or.inl (by rw [e3]; norm_num; linarith)) (moho _ _ C1)
  obtain ⟨Y1, Y2, Y3, U1, U2, U3, Q2⟩ := four_stack (i1 := 2) (i2 := 3) (i3 := 3) (by norm_num) (by norm_num) (by norm_num)
    (by rw [e1, e1]; norm_num; linarith) (Or.inl (by rw [e1, e1]; norm_num; linarith))
    (by rw [e2, e2]; norm_num; linarith) (Or.inr rfl)
    (by rw [e3, e3]; norm_num; linarith) (Or.inr rfl) (moho _ _ C2)
  simp only [List.getElem?_cons_zero, List.getElem?_cons_succ, Option.some.injEq] at P1 P2 P3 U1 U2 U3
  subst P1 P2 P3 U1 U2 U3
  have hC : r.stackvalueMoho = [⟨1, 1.8, max S1 0⟩, ⟨12, 1.8, max S2 0⟩] := by
    rw [f.hclip, clipLoop_eq, hR]
    simp [clipRow_real]
  have hbM := f.hbestM
  rw [hR] at hbM
  obtain ⟨n1, -⟩ := two_best (by rw [Q1, Q2]; linarith) hbM
  have m1 : Margin 0 r.stackvalueMoho r.bestIdxMoho := by
    rw [hC, n1, Q1, Q2]
    intro best hb j row hj hrow
    cases hb
    match j with
    | 0 => exact absurd rfl hj
    | 1 =>
      cases hrow
      show max _ 0 + 0 < max _ 0
      rw [add_zero]
      exact (max_lt (by linarith) (by linarith)).trans_le (le_max_left _ _)
    | j + 2 => simp at hrow
  obtain ⟨C, hC0, δ, hδ, g⟩ := c143_hkSeqSynth hg hc hg hc hr f.hrowS (by simp) (by simp)
    (by intro k hk; rw [List.mem_singleton] at hk; subst hk; norm_num) (by norm_num)
    (by intro k hk; rw [List.mem_singleton] at hk; subst hk; norm_num) (by norm_num)
    (by
      intro k hk y hy
      exact two_clear k (by simpa [twoModels] using hk) y (by simpa [twoModels] using hy))
    (by
      intro k hk y hy
      simp only [List.mem_cons, List.not_mem_nil, or_false] at hk hy
      subst hk
      unfold mohoPs mohoPpPs mohoPsPs
      simp only [e1, e2, e3]
      rcases hy with rfl | rfl
      · exact ⟨four_clear (i := 0) (by norm_num) (by norm_num; linarith) (Or.inl (by norm_num; linarith)),
          four_clear (i := 1) (by norm_num) (by norm_num; linarith) (Or.inl (by norm_num; linarith)),
          four_clear (i := 1) (by norm_num) (by norm_num; linarith) (Or.inl (by norm_num; linarith))⟩
      · exact ⟨four_clear (i := 2) (by norm_num) (by norm_num; linarith) (Or.inl (by norm_num; linarith)),
          four_clear (i := 3) (by norm_num) (by norm_num; linarith) (Or.inr rfl),
          four_clear (i := 3) (by norm_num) (by norm_num; linarith) (Or.inr rfl)⟩)
    (by rw [hT]; exact m0) m1
  refine ⟨_, r, _, hg, hr, f.hrowS, n1, C, hC0, δ, hδ, ?_⟩
  intro e he hed q' hq R hR d t H K p Vp v1 v2 v3 hd ht hH hK hp hVp h1 h2 h3
  obtain ⟨r', g1, -, -, g2, g3⟩ := g e he hed q' q' hq hq R hR (twoEnv (FL R) ⟨1⟩) d d t H K H K p Vp Vp v1 v2 v3 v1 v2 v3 e
    he.le le_rfl hd hd ht hH hK hH hK hp hVp hVp h1 h2 h3 h1 h2 h3 (fun _ _ => rfl)
  exact ⟨r', g1, g2, g3.trans n1⟩

end Rfsed.Props
