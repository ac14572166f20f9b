import Verif.Props.ExperimentCase
import Verif.Props.ExperimentSeq
import Verif.Props.ExperimentYu

/-!
# C140: a sequential stacking and a resonance-corrected stacking

The four samples 1, 0, 0, 0, two sediment models and two crustal models (H = 1 and H = 12, K = 1.8).
-/

namespace Rfsed.Props
open Rfsed HkZhu Spec Synrf Finset

/-- the value of a model whose arrivals fall on the samples `i1`, `i2`, `i3` -/
theorem four_stack {x : List ℝ} {w1 w2 w3 t1 t2 t3 s : ℝ} {i1 i2 i3 : Nat} (k1 : i1 < 4) (k2 : i2 < 4) (k3 : i3 < 4)
    (g1 : (i1 : ℝ) - 1 / 2 < t1) (g1' : t1 < i1 + 1 / 2 ∨ i1 = 3) (g2 : (i2 : ℝ) - 1 / 2 < t2)
    (g2' : t2 < i2 + 1 / 2 ∨ i2 = 3) (g3 : (i3 : ℝ) - 1 / 2 < t3) (g3' : t3 < i3 + 1 / 2 ∨ i3 = 3)
    (hs : StackValue w1 w2 w3 x [0, 1, 2, 3] t1 t2 t3 s) :
    ∃ a1 a2 a3, x[i1]? = some a1 ∧ x[i2]? = some a2 ∧ x[i3]? = some a3 ∧ s = w1 * a1 + w2 * a2 - w3 * a3 := by
  obtain ⟨a1, a2, a3, r1, r2, r3, rfl⟩ := hs
  exact ⟨a1, a2, a3, four_reads k1 g1 g1' r1, four_reads k2 g2 g2' r2, four_reads k3 g3 g3' r3, rfl⟩

/-- the better of two models -/
theorem two_best {h1 h2 k1 k2 s1 s2 : ℝ} {n : Nat} (hlt : s2 < s1)
    (hb : argmax (([⟨h1, k1, s1⟩, ⟨h2, k2, s2⟩] : List (Row ℝ)).map Row.s) = .ok n) :
    n = 0 ∧ Margin 0 [⟨h1, k1, s1⟩, ⟨h2, k2, s2⟩] n := by
  have hn : n = 0 := by
    have hl := argmax_lt hb
    obtain ⟨y, hy, hmax, -⟩ := argmax_firstMax (fun _ _ => rfl) hb
    simp only [List.map_cons, List.map_nil, List.length_cons, List.length_nil] at hl hy hmax
    have : n = 0 ∨ n = 1 := by omega
    rcases this with e | e
    · exact e
    · rw [e] at hy
      have hy : s2 = y := by simpa using hy
      have := hmax 0 s1 rfl
      rw [real_le] at this
      linarith
  refine ⟨hn, ?_⟩
  rw [hn]
  intro best hb j row hj hrow
  cases hb
  match j with
  | 0 => exact absurd rfl hj
  | 1 => cases hrow; linarith
  | j + 2 => simp at hrow

theorem two_table {f : ℝ → ℝ → Except PyErr ℝ} {tb : List (Row ℝ)} (h : gridLoop [1.8] [1, 12] f = .ok tb) :
    ∃ s1 s2, f 1.8 1 = .ok s1 ∧ f 1.8 12 = .ok s2 ∧ tb = [⟨1, 1.8, s1⟩, ⟨12, 1.8, s2⟩] := by
  obtain ⟨φ, hφ, htb⟩ := gridLoop_fun.1 h
  exact ⟨_, _, hφ 1.8 (by simp) 1 (by simp), hφ 1.8 (by simp) 12 (by simp), by rw [htb]; rfl⟩

/-- the numbers of the two models -/
theorem two_times : (∀ H : ℝ, tPs 0.06 6 H 1.8 = H * (eta 0.06 (6 / 1.8) - eta 0.06 6)) ∧
    (∀ H : ℝ, tPpPs 0.06 6 H 1.8 = H * (eta 0.06 (6 / 1.8) + eta 0.06 6)) ∧
    ∀ H : ℝ, tPsPs 0.06 6 H 1.8 = 2 * H * eta 0.06 (6 / 1.8) :=
  ⟨fun _ => rfl, fun _ => rfl, fun _ => rfl⟩

/-- The sequential stacking: exact run decided, hence the same best models in all sufficiently precise arithmetics. -/
example : ∃ r b, SynthAnalysis.hkSeqSynth (twoEnv ℝ 1) [1, 0, 0, 0] [1, 0, 0, 0] [0, 1, 2, 3] ⟨.py, 0.06⟩ [1, 12] [1.8]
      (some ⟨.py, 6⟩) (some 0.6) (some 0.3) (some 0.1) [1, 12] [1.8] (some ⟨.py, 6⟩) (some 0.6) (some 0.3) (some 0.1) = .ok r ∧
    r.bestmodelSed = some b ∧ r.bestIdxMoho = 0 ∧
    ∃ C > 0, ∃ δ > 0, ∀ ε, 0 < ε → ε ≤ δ → ∀ R : Rounding, R.u ≤ ε →
      ∀ (d t H K : List (FL R)) (p Vp : Scalar (FL R)) (v1 v2 v3 : FL R), SamplesWithin ε [1, 0, 0, 0] (d.map FL.val) →
        t.map FL.val = [0, 1, 2, 3] → H.map FL.val = [1, 12] → K.map FL.val = [1.8] → p.val.val = 0.06 → Vp.val.val = 6 →
        v1.val = 0.6 → v2.val = 0.3 → v3.val = 0.1 →
        ∃ r', SynthAnalysis.hkSeqSynth (twoEnv (FL R) ⟨1⟩) d d t p H K (some Vp) (some v1) (some v2) (some v3) H K
            (some Vp) (some v1) (some v2) (some v3) = .ok r' ∧
          NearTable (C * ε) r.stackvalueMoho (r'.stackvalueMoho.map exactRow) ∧ r'.bestIdxMoho = 0 := by
  obtain ⟨a1, a2, a3, a4⟩ := two_slow
  obtain ⟨e1, e2, e3⟩ := two_times
  obtain ⟨r, hr⟩ := c25_hkSeqSynth_succeeds (F := ℝ) (env := twoEnv ℝ 1) (rp := ⟨.py, 0.06⟩) (dS := [1, 0, 0, 0])
    (dM := [1, 0, 0, 0]) (t := [0, 1, 2, 3]) (HS := [1, 12]) (KS := [1.8]) (HM := [1, 12]) (KM := [1.8]) (VpSed := ⟨.py, 6⟩)
    (VpMoho := ⟨.py, 6⟩) (w1S := some 0.6) (w2S := some 0.3) (w3S := some 0.1) (w1M := 0.6) (w2M := 0.3) (w3M := 0.1)
    (by simp) (by simp) (by simp) (divisor_real (by norm_num)) (divisor_real (by norm_num)) (by simp) (by simp) (by simp)
    (by simp) (fun _ _ => rfl)
  obtain ⟨b, raw, f⟩ := hkSeqSynth_inv hr
  have gS := f.hgridS
  have gM := f.hgridM
  rw [f.hVpSed] at gS gM
  simp only [Option.getD_some] at gS gM
  obtain ⟨s1, s2, c1, c2, hT⟩ := two_table gS
  rw [seqSedCell_eq] at c1 c2
  obtain ⟨x1, x2, x3, p1, p2, p3, q1⟩ := two_value (i1 := 0) (i2 := 0) (i3 := 1) (by norm_num) (by norm_num) (by norm_num)
    (by rw [e1]; norm_num; linarith) (Or.inl (by rw [e1]; norm_num; linarith))
    (by rw [e2]; norm_num; linarith) (Or.inl (by rw [e2]; norm_num; linarith))
    (by rw [e3]; norm_num; linarith) (Or.inl (by rw [e3]; norm_num; linarith)) c1
  obtain ⟨y1, y2, y3, u1, u2, u3, q2⟩ := two_value (i1 := 2) (i2 := 3) (i3 := 3) (by norm_num) (by norm_num) (by norm_num)
    (by rw [e1]; norm_num; linarith) (Or.inl (by rw [e1]; norm_num; linarith))
    (by rw [e2]; norm_num; linarith) (Or.inr rfl)
    (by rw [e3]; norm_num; linarith) (Or.inr rfl) c2
  simp only [List.getElem?_cons_zero, List.getElem?_cons_succ, Option.some.injEq] at p1 p2 p3 u1 u2 u3
  subst p1 p2 p3 u1 u2 u3
  have hbS := f.hbestS
  rw [hT] at hbS
  obtain ⟨n0, m0⟩ := two_best (by rw [q1, q2]; norm_num) hbS
  have hrow := f.hrowS
  rw [hT, n0] at hrow
  have hb : b = ⟨1, 1.8, s1⟩ := (Option.some.inj hrow).symm
  subst hb
  obtain ⟨S1, S2, C1, C2, hR⟩ := two_table gM
  have moho : ∀ y s : ℝ, SynthAnalysis.seqMohoCell [1, 0, 0, 0] [0, 1, 2, 3] ⟨.py, 0.06⟩ ⟨.py, 6⟩ 1 1.8 (some ⟨.py, 6⟩)
      (some 0.6) (some 0.3) (some 0.1) 1.8 y = .ok s → StackValue 0.6 0.3 0.1 [1, 0, 0, 0] [0, 1, 2, 3]
        (tPs 0.06 6 1 1.8 + tPs 0.06 6 y 1.8) (tPpPs 0.06 6 1 1.8 + tPpPs 0.06 6 y 1.8)
        (tPsPs 0.06 6 1 1.8 + tPsPs 0.06 6 y 1.8) s := by
    intro y s hs
    rw [seqMohoCell_eq, mohoTimes_real (by norm_num) (by norm_num) (by norm_num) (by norm_num), except_ok_bind] at hs
    obtain ⟨v, hv, hs⟩ := bind_eq_ok.1 hs
    have hs := Except.ok.inj hs
    rw [real_zero, add_zero] at hs
    subst hs
    exact weigh_real.1 hv
  obtain ⟨X1, X2, X3, P1, P2, P3, Q1⟩ := four_stack (i1 := 0) (i2 := 1) (i3 := 1) (by norm_num) (by norm_num) (by norm_num)
    (by rw [e1]; norm_num; linarith) (Or.inl (by rw [e1]; norm_num; linarith))
    (by rw [e2]; norm_num; linarith) (Or.inl (by rw [e2]; norm_num; linarith))
    (by rw [e3]; norm_num; linarith) (Or.inl (by rw [e3]; norm_num; linarith)) (moho _ _ C1)
  obtain ⟨Y1, Y2, Y3, U1, U2, U3, Q2⟩ := four_stack (i1 := 2) (i2 := 3) (i3 := 3) (by norm_num) (by norm_num) (by norm_num)
    (by rw [e1, e1]; norm_num; linarith) (Or.inl (by rw [e1, e1]; norm_num; linarith))
    (by rw [e2, e2]; norm_num; linarith) (Or.inr rfl)
    (by rw [e3, e3]; norm_num; linarith) (Or.inr rfl) (moho _ _ C2)
  simp only [List.getElem?_cons_zero, List.getElem?_cons_succ, Option.some.injEq] at P1 P2 P3 U1 U2 U3
  subst P1 P2 P3 U1 U2 U3
  have hC : r.stackvalueMoho = [⟨1, 1.8, max S1 0⟩, ⟨12, 1.8, max S2 0⟩] := by
    rw [f.hclip, clipLoop_eq, hR]
    simp [clipRow_real]
  have hbM := f.hbestM
  rw [hR] at hbM
  obtain ⟨n1, -⟩ := two_best (by rw [Q1, Q2]; norm_num) hbM
  have m1 : Margin 0 r.stackvalueMoho r.bestIdxMoho := by
    rw [hC, n1, Q1, Q2]
    intro best hb j row hj hrow
    cases hb
    match j with
    | 0 => exact absurd rfl hj
    | 1 => cases hrow; norm_num
    | j + 2 => simp at hrow
  obtain ⟨C, hC0, δ, hδ, g⟩ := c140_hkSeqSynth (C := 1) hr f.hrowS (by simp) (by simp)
    (by intro k hk; rw [List.mem_singleton] at hk; subst hk; norm_num) (by norm_num)
    (by intro k hk; rw [List.mem_singleton] at hk; subst hk; norm_num) (by norm_num)
    (by
      intro k hk y hy
      exact two_clear k (by simpa [twoModels] using hk) y (by simpa [twoModels] using hy))
    (by
      intro k hk y hy
      simp only [List.mem_cons, List.not_mem_nil, or_false] at hk hy
      subst hk
      unfold mohoPs mohoPpPs mohoPsPs
      simp only [e1, e2, e3]
      rcases hy with rfl | rfl
      · exact ⟨four_clear (i := 0) (by norm_num) (by norm_num; linarith) (Or.inl (by norm_num; linarith)),
          four_clear (i := 1) (by norm_num) (by norm_num; linarith) (Or.inl (by norm_num; linarith)),
          four_clear (i := 1) (by norm_num) (by norm_num; linarith) (Or.inl (by norm_num; linarith))⟩
      · exact ⟨four_clear (i := 2) (by norm_num) (by norm_num; linarith) (Or.inl (by norm_num; linarith)),
          four_clear (i := 3) (by norm_num) (by norm_num; linarith) (Or.inr rfl),
          four_clear (i := 3) (by norm_num) (by norm_num; linarith) (Or.inr rfl)⟩)
    (by rw [hT]; exact m0) m1 zero_le_one
  refine ⟨r, _, hr, f.hrowS, n1, C, hC0, δ, hδ, ?_⟩
  intro ε hε hεδ R hR d t H K p Vp v1 v2 v3 hd ht hH hK hp hVp h1 h2 h3
  rw [← one_mul ε] at hd
  obtain ⟨r', g1, -, -, g2, g3⟩ := g ε hε hεδ R hR (twoEnv (FL R) ⟨1⟩) d d t H K H K p Vp Vp v1 v2 v3 v1 v2 v3 hd hd ht hH hK hH
    hK hp hVp hVp h1 h2 h3 h1 h2 h3 (fun _ _ => rfl)
  exact ⟨r', g1, g2, g3.trans n1⟩

/-- The resonance-corrected stacking: a lag of half a second, sediments of `Vp = 2`, `Vs = 0.5`. -/
example : ∃ r, HkYu.hkYu (twoEnv ℝ 1) ⟨[1, 0, 0, 0], [0, 1, 2, 3], ⟨.py, 0.5⟩⟩ ⟨.py, 0.06⟩ [1, 12] [1.8] (some ⟨.py, 6⟩)
      (some ⟨.py, 2⟩) (some ⟨.py, 0.5⟩) (some 0.6) (some 0.3) (some 0.1) = .ok r ∧ r.bestIdx = 0 ∧
    ∃ C > 0, ∃ δ > 0, ∀ ε, 0 < ε → ε ≤ δ → ∀ R : Rounding, R.u ≤ ε →
      ∀ (flt : HkYu.FltInput (FL R)) (H K : List (FL R)) (p VpM VpS VsS : Scalar (FL R)) (v1 v2 v3 : FL R),
        SamplesWithin ε [1, 0, 0, 0] (flt.filteredrf.map FL.val) → flt.time.map FL.val = [0, 1, 2, 3] →
        |flt.tlag.val.val - 0.5| ≤ ε → H.map FL.val = [1, 12] → K.map FL.val = [1.8] → p.val.val = 0.06 → VpM.val.val = 6 →
        VpS.val.val = 2 → VsS.val.val = 0.5 → v1.val = 0.6 → v2.val = 0.3 → v3.val = 0.1 →
        ∃ r', HkYu.hkYu (twoEnv (FL R) ⟨1⟩) flt p H K (some VpM) (some VpS) (some VsS) (some v1) (some v2) (some v3) = .ok r' ∧
          |r'.Pdelay.val - r.Pdelay| ≤ C * ε ∧ r'.bestIdx = 0 := by
  obtain ⟨a1, a2, a3, a4⟩ := two_slow
  obtain ⟨e1, e2, e3⟩ := two_times
  obtain ⟨r, hr⟩ := c25_hkYu_succeeds (F := ℝ) (env := twoEnv ℝ 1) (rp := ⟨.py, 0.06⟩)
    (flt := ⟨[1, 0, 0, 0], [0, 1, 2, 3], ⟨.py, 0.5⟩⟩) (H := [1, 12]) (K := [1.8]) (VpMoho := ⟨.py, 6⟩) (VpSed := ⟨.py, 2⟩)
    (VsSed := ⟨.py, 0.5⟩) (w1 := 0.6) (w2 := 0.3) (w3 := 0.1) (by simp) (by simp) (divisor_real (by norm_num))
    (divisor_real (by norm_num)) (divisor_real (by norm_num)) (by simp) (by simp) (fun _ _ => rfl)
  obtain ⟨vs0, a0, b0, bmod, f⟩ := hkYu_inv hr
  obtain ⟨-, cell, hgrid, hcell⟩ := yu_values hr (by norm_num) (by norm_num)
  have hdel : sedimentDelay 0.5 2 0.5 = 0.1875 := by unfold sedimentDelay; norm_num
  obtain ⟨s1, s2, c1, c2, hT⟩ := two_table hgrid
  have c1 := hcell _ _ _ c1
  have c2 := hcell _ _ _ c2
  simp only [hdel] at c1 c2
  obtain ⟨x1, x2, x3, p1, p2, p3, q1⟩ := four_stack (i1 := 0) (i2 := 1) (i3 := 1) (by norm_num) (by norm_num) (by norm_num)
    (by rw [e1]; norm_num; linarith) (Or.inl (by rw [e1]; norm_num; linarith))
    (by rw [e2]; norm_num; linarith) (Or.inl (by rw [e2]; norm_num; linarith))
    (by rw [e3]; norm_num; linarith) (Or.inl (by rw [e3]; norm_num; linarith)) c1
  obtain ⟨y1, y2, y3, u1, u2, u3, q2⟩ := four_stack (i1 := 2) (i2 := 3) (i3 := 3) (by norm_num) (by norm_num) (by norm_num)
    (by rw [e1]; norm_num; linarith) (Or.inl (by rw [e1]; norm_num; linarith))
    (by rw [e2]; norm_num; linarith) (Or.inr rfl)
    (by rw [e3]; norm_num; linarith) (Or.inr rfl) c2
  simp only [List.getElem?_cons_zero, List.getElem?_cons_succ, Option.some.injEq] at p1 p2 p3 u1 u2 u3
  subst p1 p2 p3 u1 u2 u3
  have hb := f.hbest
  rw [hT] at hb
  obtain ⟨n0, m0⟩ := two_best (by rw [q1, q2]; norm_num) hb
  obtain ⟨C, hC0, δ, hδ, g⟩ := c140_hkYu (C := 1) hr (by simp) (by norm_num) (by norm_num)
    (by intro k hk; rw [List.mem_singleton] at hk; subst hk; norm_num) (by norm_num)
    (by
      intro k hk y hy
      simp only [List.mem_cons, List.not_mem_nil, or_false] at hk hy
      subst hk
      simp only [e1, e2, e3, hdel]
      rcases hy with rfl | rfl
      · exact ⟨four_clear (i := 0) (by norm_num) (by norm_num; linarith) (Or.inl (by norm_num; linarith)),
          four_clear (i := 1) (by norm_num) (by norm_num; linarith) (Or.inl (by norm_num; linarith)),
          four_clear (i := 1) (by norm_num) (by norm_num; linarith) (Or.inl (by norm_num; linarith))⟩
      · exact ⟨four_clear (i := 2) (by norm_num) (by norm_num; linarith) (Or.inl (by norm_num; linarith)),
          four_clear (i := 3) (by norm_num) (by norm_num; linarith) (Or.inr rfl),
          four_clear (i := 3) (by norm_num) (by norm_num; linarith) (Or.inr rfl)⟩)
    (by rw [hT]; exact m0) zero_le_one
  refine ⟨r, hr, n0, C, hC0, δ, hδ, ?_⟩
  intro ε hε hεδ R hR flt H K p VpM VpS VsS v1 v2 v3 hd ht hl hH hK hp hVM hVS hvs h1 h2 h3
  obtain ⟨r', g1, g2, -, g3⟩ := g ε hε hεδ R hR (twoEnv (FL R) ⟨1⟩) flt H K p VpM VpS VsS v1 v2 v3 (by rwa [one_mul]) ht
    (by rwa [one_mul]) hH hK hp hVM hVS hvs h1 h2 h3 (fun _ _ => rfl)
  exact ⟨r', g1, g2, g3.trans n0⟩

end Rfsed.Props
