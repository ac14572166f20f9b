import Verif.Props.RecordedNoiseStackCase

/-!
# C144: a concrete case for the sequential stacking with `stack=True`
-/

namespace Rfsed.Props
open Rfsed HkZhu Spec Synrf ReverbFilter

/-- `hkSeq` with the grid of two models for both stages -/
noncomputable def seqPair (st : List (Trace ℝ)) : Except PyErr (HkSeqYeck.SeqResult ℝ) :=
  HkSeqYeck.hkSeq meanEnv st st 0 [1, 12] [1.8] (some ⟨.py, 6⟩) (some 0.6) (some 0.3) (some 0.1)
    [1, 12] [1.8] (some ⟨.py, 6⟩) (some 0.6) (some 0.3) (some 0.1) (some true)

theorem moho_near {z0 z1 z2 z3 v : ℝ} (hv : StackValue 0.6 0.3 0.1 [z0, z1, z2, z3] [0, 1, 2, 3]
    (tPs 0.06 6 1 1.8 + tPs 0.06 6 1 1.8) (tPpPs 0.06 6 1 1.8 + tPpPs 0.06 6 1 1.8)
    (tPsPs 0.06 6 1 1.8 + tPsPs 0.06 6 1 1.8) v) : v = 0.6 * z0 + 0.3 * z1 - 0.1 * z1 := by
  obtain ⟨a1, a2, a3, a4⟩ := two_slow
  obtain ⟨t1, t2, t3⟩ := two_times
  obtain ⟨_, _, _, p1, p2, p3, q⟩ := four_stack (i1 := 0) (i2 := 1) (i3 := 1) (by norm_num) (by norm_num) (by norm_num)
    (by rw [t1]; norm_num; linarith) (Or.inl (by rw [t1]; norm_num; linarith))
    (by rw [t2]; norm_num; linarith) (Or.inl (by rw [t2]; norm_num; linarith))
    (by rw [t3]; norm_num; linarith) (Or.inl (by rw [t3]; norm_num; linarith)) hv
  simp only [List.getElem?_cons_zero, List.getElem?_cons_succ, Option.some.injEq] at p1 p2 p3
  subst p1 p2 p3
  exact q

theorem moho_far {z0 z1 z2 z3 v : ℝ} (hv : StackValue 0.6 0.3 0.1 [z0, z1, z2, z3] [0, 1, 2, 3]
    (tPs 0.06 6 1 1.8 + tPs 0.06 6 12 1.8) (tPpPs 0.06 6 1 1.8 + tPpPs 0.06 6 12 1.8)
    (tPsPs 0.06 6 1 1.8 + tPsPs 0.06 6 12 1.8) v) : v = 0.6 * z2 + 0.3 * z3 - 0.1 * z3 := by
  obtain ⟨a1, a2, a3, a4⟩ := two_slow
  obtain ⟨t1, t2, t3⟩ := two_times
  obtain ⟨_, _, _, p1, p2, p3, q⟩ := four_stack (i1 := 2) (i2 := 3) (i3 := 3) (by norm_num) (by norm_num) (by norm_num)
    (by rw [t1, t1]; norm_num; linarith) (Or.inl (by rw [t1, t1]; norm_num; linarith))
    (by rw [t2, t2]; norm_num; linarith) (Or.inr rfl)
    (by rw [t3, t3]; norm_num; linarith) (Or.inr rfl) hv
  simp only [List.getElem?_cons_zero, List.getElem?_cons_succ, Option.some.injEq] at p1 p2 p3
  subst p1 p2 p3
  exact q

theorem seqPair_runs {x0 x1 x2 x3 y0 y1 y2 y3 : ℝ} :
    ∃ r, seqPair [spikeTrace [x0, x1, x2, x3], spikeTrace [y0, y1, y2, y3]] = .ok r := by
  refine (c104_hkSeq (tr0 := spikeTrace [x0, x1, x2, x3]) (restS := [spikeTrace [y0, y1, y2, y3]]) ?_ ?_ (fun _ _ => rfl)).2
    ⟨⟨_, _, mean_pair⟩, ⟨_, _, mean_pair⟩, ?_, ?_,
    ⟨_, _, rfl, rfl⟩, ?_, divisor_real (by norm_num), ⟨_, rfl, divisor_real (by norm_num)⟩, rfl, rfl, rfl, by simp,
    by simp, by simp, by simp⟩
  · intro tr htr
    simp only [List.mem_append, List.mem_cons, List.not_mem_nil, or_false] at htr
    rcases htr with (rfl | rfl) | rfl | rfl <;> rfl
  · intro st hst sd more hsd
    simp only [List.mem_cons, List.not_mem_nil, or_false] at hst
    have hst : st = [spikeTrace [x0, x1, x2, x3], spikeTrace [y0, y1, y2, y3]] := by rcases hst with h | h <;> exact h
    rw [hst, mean_pair] at hsd
    injection (Except.ok.inj hsd) with h1 h2
    rw [← h1]; rfl
  · simp [spikeTrace]
  · intro tr htr
    simp only [List.mem_cons, List.not_mem_nil, or_false] at htr
    rcases htr with rfl | rfl <;> exact ⟨rfl, rfl⟩
  · intro tr htr
    simp only [List.mem_cons, List.not_mem_nil, or_false] at htr
    rcases htr with rfl | rfl <;> rfl

theorem seqPair_decided {x0 x1 x2 x3 y0 y1 y2 y3 : ℝ} (h1 : x1 + y1 < x0 + y0) (h2 : x2 + y2 < x0 + y0)
    (h3 : x3 + y3 < x0 + y0) (h4 : x3 + y3 = x1 + y1) (h5 : 0 < x0 + y0 + (x1 + y1)) {r : HkSeqYeck.SeqResult ℝ}
    (hr : seqPair [spikeTrace [x0, x1, x2, x3], spikeTrace [y0, y1, y2, y3]] = .ok r) :
    (r.bestIdxSed = 0 ∧ Margin 0 r.stackvalueSed r.bestIdxSed) ∧ (r.bestIdxMoho = 0 ∧ Margin 0 r.stackvalueMoho r.bestIdxMoho) ∧
      ∃ s, r.bestmodelSed = some ⟨1, 1.8, s⟩ := by
  unfold seqPair at hr
  obtain ⟨tr0, rest, slows, bm, raw, f⟩ := hkSeq_inv hr
  have e1 := f.hst
  injection e1 with e1 e2
  have ht : r.time = [0, 1, 2, 3] := by
    rw [f.htime, ← e1]
    exact pair_axis (by simp [spikeTrace])
  have e4 : r.AvgSlow = 0.06 := by
    have h1 := f.hslow
    have : [spikeTrace [x0, x1, x2, x3], spikeTrace [y0, y1, y2, y3]].mapM Trace.getSlowness =
        .ok [(⟨.py, 0.06⟩ : Scalar ℝ), ⟨.py, 0.06⟩] := rfl
    rw [this] at h1
    rw [f.havg, ← Except.ok.inj h1]
    unfold npMean
    simp [real_ofNat]
  have hp : (0.06 : ℝ) = if (true : Bool) then meanEnv.km2deg1 * r.AvgSlow
      else meanEnv.km2deg1 * (⟨.py, 0.06⟩ : Scalar ℝ).val := by
    rw [e4]
    show (0.06 : ℝ) = if (true : Bool) then 1 * 0.06 else 1 * 0.06
    simp
  set z : List ℝ := [(x0 + y0) / 2, (x1 + y1) / 2, (x2 + y2) / 2, (x3 + y3) / 2] with hz
  have hdS : r.RFSedStack = z := by
    obtain ⟨more, hm⟩ := f.hstackS
    rw [mean_pair] at hm
    exact ((List.cons.inj (Except.ok.inj hm)).1).symm
  have hdM : r.RFMohoStack = z := by
    obtain ⟨more, hm⟩ := f.hstackM
    rw [mean_pair] at hm
    exact ((List.cons.inj (Except.ok.inj hm)).1).symm
  have g := f.hgridS
  rw [f.hVpSed, f.hstk, ht] at g
  simp only [Option.getD_some] at g
  obtain ⟨s1, s2, c1, c2, hT⟩ := two_table g
  have c1 := lastTrace_getLast (last := spikeTrace [y0, y1, y2, y3]) rfl c1
  have c2 := lastTrace_getLast (last := spikeTrace [y0, y1, y2, y3]) rfl c2
  rw [sedTerm_real (o := 0) (sl := ⟨.py, 0.06⟩) (p := 0.06) rfl rfl (by norm_num) hp (by norm_num), if_pos rfl, hdS] at c1 c2
  have q1 := near_value c1
  have q2 := far_value c2
  have hbS := f.hbestS
  have hrow := f.hrowS
  have hmS : r.bestIdxSed = 0 ∧ Margin 0 r.stackvalueSed r.bestIdxSed := by
    rw [hT] at hbS ⊢
    exact two_best (by rw [q1, q2]; linarith) hbS
  rw [hmS.1, hT] at hrow
  have hbm : bm = ⟨1, 1.8, s1⟩ := (Option.some.inj hrow).symm
  have g := f.hgridM
  rw [f.hVpSed, f.hstk, ht, hbm] at g
  simp only [Option.getD_some] at g
  obtain ⟨S1, S2, C1, C2, hR⟩ := two_table g
  have C1 := lastTrace_getLast (last := spikeTrace [y0, y1, y2, y3]) rfl C1
  have C2 := lastTrace_getLast (last := spikeTrace [y0, y1, y2, y3]) rfl C2
  rw [mohoTerm_real (o := 0) (sl := ⟨.py, 0.06⟩) (p := 0.06) (tr0 := spikeTrace [x0, x1, x2, x3]) rfl rfl rfl (by norm_num)
    (by norm_num) hp (by norm_num) (by norm_num), if_pos rfl, hdM] at C1 C2
  have Q1 := moho_near C1
  have Q2 := moho_far C2
  have hC : r.stackvalueMoho = [⟨1, 1.8, max S1 0⟩, ⟨12, 1.8, max S2 0⟩] := by
    rw [f.hclip, clipLoop_eq, hR]
    simp [clipRow_real]
  have hbM := f.hbestM
  rw [hR] at hbM
  obtain ⟨n1, -⟩ := two_best (by rw [Q1, Q2]; linarith) hbM
  refine ⟨hmS, ⟨n1, ?_⟩, s1, ?_⟩
  · rw [hC, n1, Q1, Q2]
    intro best hb j row hj hrow
    cases hb
    match j with
    | 0 => exact absurd rfl hj
    | 1 =>
      cases hrow
      show max _ 0 + 0 < max _ 0
      rw [add_zero]
      exact (max_lt (by linarith) (by linarith)).trans_le (le_max_left _ _)
    | j + 2 => simp at hrow
  · unfold HkSeqYeck.SeqResult.bestmodelSed
    rw [hmS.1, hT]
    rfl

/-- two events with different radial spikes, used for both stages, meet every hypothesis of `c144_hkSeq` -/
example {b c : ℝ} (hb : 0 < b) (hc : 0 < c) : ∃ x y r, (RFMethod.iterative 400 0.001 "P").Gives 1 0 2 (spikes b) x ∧
    (RFMethod.iterative 400 0.001 "P").Gives 1 0 2 (spikes c) y ∧
    seqPair [spikeTrace x, spikeTrace y] = .ok r ∧ r.bestIdxSed = 0 ∧ r.bestIdxMoho = 0 ∧
    ∃ C > 0, ∃ δ > 0, ∀ e, 0 < e → e ≤ δ → ∀ R : Rounding, R.u ≤ e →
      ∀ (env' : Env (FL R)) (es' : List (Recording × Trace (FL R))) (H' K' sd' : List (FL R)) (more' : List (List (FL R)))
        (pre' v1 v2 v3 : FL R) (Vp' : Scalar (FL R)),
        RecordedStream (.iterative 400 0.001 "P") 0 2 e [(spikes b, spikeTrace x), (spikes c, spikeTrace y)] es' →
        env'.stack (es'.map Prod.snd) = .ok (sd' :: more') →
        AverageWithin (5 * e) (es'.map fun q => q.2.data.map FL.val) (sd'.map FL.val) →
        env'.km2deg1.val = 1 → pre'.val = 0 →
        H'.map FL.val = [1, 12] → K'.map FL.val = [1.8] → Vp'.val.val = 6 → v1.val = 0.6 → v2.val = 0.3 → v3.val = 0.1 →
        (∀ tb, tb ≠ [] → env'.draw tb = .ok ()) →
        ∃ r', HkSeqYeck.hkSeq env' (es'.map Prod.snd) (es'.map Prod.snd) pre' H' K' (some Vp') (some v1) (some v2) (some v3)
            H' K' (some Vp') (some v1) (some v2) (some v3) (some true) = .ok r' ∧
          NearTable (C * e) r.stackvalueMoho (r'.stackvalueMoho.map exactRow) ∧ r'.bestIdxSed = 0 ∧ r'.bestIdxMoho = 0 := by
  obtain ⟨x0, x1, x2, x3, hg, hcl, h1, h2, h3, h4, h5⟩ := spikes_rf hb
  obtain ⟨y0, y1, y2, y3, hg', hcl', h1', h2', h3', h4', h5'⟩ := spikes_rf hc
  obtain ⟨r, hr⟩ := seqPair_runs (x0 := x0) (x1 := x1) (x2 := x2) (x3 := x3) (y0 := y0) (y1 := y1) (y2 := y2) (y3 := y3)
  obtain ⟨⟨iS, mS⟩, ⟨iM, mM⟩, s, hbm⟩ := seqPair_decided (by linarith) (by linarith) (by linarith) (by linarith) (by linarith) hr
  obtain ⟨a1, a2, a3, a4⟩ := two_slow
  obtain ⟨e1, e2, e3⟩ := two_times
  have hrf : ∀ q ∈ [(spikes b, spikeTrace [x0, x1, x2, x3]), (spikes c, spikeTrace [y0, y1, y2, y3])],
      (RFMethod.iterative 400 0.001 "P").Gives q.2.delta 0 2 q.1 q.2.data ∧
      (RFMethod.iterative 400 0.001 "P").Clear q.2.delta 0 2 q.1 := by
    intro q hq
    simp only [List.mem_cons, List.not_mem_nil, or_false] at hq
    rcases hq with rfl | rfl
    · exact ⟨hg, hcl⟩
    · exact ⟨hg', hcl'⟩
  have hav : AverageWithin 0 ([(spikes b, spikeTrace [x0, x1, x2, x3]), (spikes c, spikeTrace [y0, y1, y2, y3])].map
      fun q => q.2.data) [(x0 + y0) / 2, (x1 + y1) / 2, (x2 + y2) / 2, (x3 + y3) / 2] := by
    refine ⟨by simp, by simp [spikeTrace], fun i hi => ?_⟩
    simp only [List.length_cons, List.length_nil] at hi
    interval_cases i <;> simp [spikeTrace]
  have hax : exactAxis (spikeTrace [x0, x1, x2, x3]).delta 0 (spikeTrace [x0, x1, x2, x3]).data.length = [0, 1, 2, 3] := by
    rw [← pair_axis (x := [x0, x1, x2, x3]) rfl]
    unfold timeAxis exactAxis
    simp only [real_ofNat]
    rfl
  have hsub : ∀ k ∈ [(1.8 : ℝ)], (0.06 : ℝ) ^ 2 < (k / 6) ^ 2 := by
    intro k hk
    rw [List.mem_singleton.1 hk]; norm_num
  have hcS : ∀ k ∈ [(1.8 : ℝ)], ∀ y ∈ [(1 : ℝ), 12], ClearTimes (exactAxis (spikeTrace [x0, x1, x2, x3]).delta 0
      (spikeTrace [x0, x1, x2, x3]).data.length) (tPs 0.06 6 y k) (tPpPs 0.06 6 y k) (tPsPs 0.06 6 y k) 0 := by
    intro k hk y hy
    rw [hax]
    exact two_clear k (by simpa [twoModels] using hk) y (by simpa [twoModels] using hy)
  have hcM : ∀ k ∈ [(1.8 : ℝ)], ∀ y ∈ [(1 : ℝ), 12], ClearTimes (exactAxis (spikeTrace [x0, x1, x2, x3]).delta 0
      (spikeTrace [x0, x1, x2, x3]).data.length) (mohoPs 0.06 6 1 1.8 6 y k) (mohoPpPs 0.06 6 1 1.8 6 y k)
      (mohoPsPs 0.06 6 1 1.8 6 y k) 0 := by
    intro k hk y hy
    rw [hax, List.mem_singleton.1 hk]
    simp only [List.mem_cons, List.not_mem_nil, or_false] at hy
    unfold mohoPs mohoPpPs mohoPsPs
    simp only [e1, e2, e3]
    rcases hy with rfl | rfl
    · exact ⟨four_clear (i := 0) (by norm_num) (by norm_num; linarith) (Or.inl (by norm_num; linarith)),
        four_clear (i := 1) (by norm_num) (by norm_num; linarith) (Or.inl (by norm_num; linarith)),
        four_clear (i := 1) (by norm_num) (by norm_num; linarith) (Or.inl (by norm_num; linarith))⟩
    · exact ⟨four_clear (i := 2) (by norm_num) (by norm_num; linarith) (Or.inl (by norm_num; linarith)),
        four_clear (i := 3) (by norm_num) (by norm_num; linarith) (Or.inr rfl),
        four_clear (i := 3) (by norm_num) (by norm_num; linarith) (Or.inr rfl)⟩
  have hon : ∀ q ∈ [(spikes b, spikeTrace [x0, x1, x2, x3]), (spikes c, spikeTrace [y0, y1, y2, y3])], q.2.onset.isSome := by
    intro q hq
    simp only [List.mem_cons, List.not_mem_nil, or_false] at hq
    rcases hq with rfl | rfl <;> rfl
  have hpos : ∀ q ∈ [(spikes b, spikeTrace [x0, x1, x2, x3]), (spikes c, spikeTrace [y0, y1, y2, y3])], 0 ≤ slownessOf q.2 := by
    intro q hq
    simp only [List.mem_cons, List.not_mem_nil, or_false] at hq
    rcases hq with rfl | rfl <;> (show (0 : ℝ) ≤ 0.06; norm_num)
  have hp : (0.06 : ℝ) = meanEnv.km2deg1 * (([(spikes b, spikeTrace [x0, x1, x2, x3]),
      (spikes c, spikeTrace [y0, y1, y2, y3])].map fun q => slownessOf q.2).sum / ([(spikes b, spikeTrace [x0, x1, x2, x3]),
      (spikes c, spikeTrace [y0, y1, y2, y3])].length : ℕ)) := by
    show (0.06 : ℝ) = 1 * ((0.06 + (0.06 + 0)) / ((2 : ℕ) : ℝ))
    norm_num
  obtain ⟨C, hC, δ, hδ, g⟩ := c144_hkSeq (MS := .iterative 400 0.001 "P") (MM := .iterative 400 0.001 "P") (C0 := 5) (by norm_num)
    hrf hrf hr hbm rfl mean_pair mean_pair hav hav le_rfl hon hp hpos hsub (by norm_num) hsub (by norm_num) hcS hcM mS mM
  refine ⟨_, _, r, hg, hg', hr, iS, iM, C, hC, δ, hδ, ?_⟩
  intro e he hed R hR env' es' H' K' sd' more' pre' v1 v2 v3 Vp' hes hst hav' hkm hpre hH hK hVp w1 w2 w3 hdraw
  obtain ⟨r', g1, -, g2, g3, g4⟩ := g e he hed R hR env' es' es' H' K' H' K' pre' Vp' Vp' v1 v2 v3 v1 v2 v3 sd' sd' more' more'
    hes hes hst hst hav' hav' hkm hpre hH hK hH hK hVp hVp w1 w2 w3 w1 w2 w3 hdraw
  exact ⟨r', g1, g3, g2.trans iS, g4.trans iM⟩

end Rfsed.Props
