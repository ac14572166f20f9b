import Verif.Props.Experiment

/-!
# C140: the sequential grid search and the search on filtered receiver functions, in sufficiently precise arithmetic
-/

namespace Rfsed.Props
open Rfsed HkZhu Spec Filter Topology

theorem margin_mono {m m' : ℝ} (h : m ≤ m') {tb : List (Row ℝ)} {n : Nat} (hm : Margin m' tb n) : Margin m tb n :=
  fun best hb j row hj hr => by linarith [hm best hb j row hj hr]

/-- a margin survives a small change of the table -/
theorem margin_near {m e : ℝ} {tb tb' : List (Row ℝ)} {n : Nat} (hn : NearTable e tb tb') (hm : Margin (m + 2 * e) tb n) :
    Margin m tb' n := by
  intro best hb j row hj hr
  obtain ⟨l1, e1⟩ := List.getElem?_eq_some_iff.1 hb
  obtain ⟨l2, e2⟩ := List.getElem?_eq_some_iff.1 hr
  have hl := hn.length_eq
  have k1 := ((List.forall₂_iff_get.1 hn).2 n (by omega) l1).2.2
  have k2 := ((List.forall₂_iff_get.1 hn).2 j (by omega) l2).2.2
  simp only [List.get_eq_getElem, e1, e2] at k1 k2
  have := hm tb[n] (List.getElem?_eq_getElem (by omega)) j tb[j] hj (List.getElem?_eq_getElem (by omega))
  linarith [(abs_le.1 k1).1, (abs_le.1 k1).2, (abs_le.1 k2).1, (abs_le.1 k2).2]

/-- the sediment stage in floating-point arithmetic -/
theorem seqSynth_sed {R : Rounding} (hu : R.u ≤ 1 / 1000) {env : Env (FL R)} {env' : Env ℝ} {dS dM t : List (FL R)}
    {rp : Scalar (FL R)} {HS KS HM KM : List (FL R)} {VpS vm : Scalar (FL R)} {w1S w2S w3S w1M w2M w3M : FL R}
    {r : SynthAnalysis.SeqSynthResult (FL R)} {r' : SynthAnalysis.SeqSynthResult ℝ} {kr k1 k2 : Kind} {L AS : ℝ}
    (h : SynthAnalysis.hkSeqSynth env dS dM t rp HS KS (some VpS) (some w1S) (some w2S) (some w3S) HM KM (some vm)
      (some w1M) (some w2M) (some w3M) = .ok r)
    (h' : SynthAnalysis.hkSeqSynth env' (dS.map FL.val) (dM.map FL.val) (t.map FL.val) ⟨kr, rp.val.val⟩ (HS.map FL.val)
      (KS.map FL.val) (some ⟨k1, VpS.val.val⟩) (some w1S.val) (some w2S.val) (some w3S.val) (HM.map FL.val)
      (KM.map FL.val) (some ⟨k2, vm.val.val⟩) (some w1M.val) (some w2M.val) (some w3M.val) = .ok r')
    (hL0 : 0 ≤ L) (hL : ∀ τ ∈ t, |τ.val| ≤ L) (hAS : ∀ a ∈ dS, |a.val| ≤ AS)
    (hwS : ∀ k ∈ KS, WellConditioned R.u rp.val.val VpS.val.val k.val)
    (hcS : ∀ k ∈ KS, ∀ x ∈ HS, ClearTimes (t.map FL.val) (tPs rp.val.val VpS.val.val x.val k.val)
      (tPpPs rp.val.val VpS.val.val x.val k.val) (tPsPs rp.val.val VpS.val.val x.val k.val)
      (40 * R.u * (L + timeScale rp.val.val VpS.val.val x.val k.val))) :
    NearTable (accumulated R.u 4 * ((|w1S.val| + |w2S.val| + |w3S.val|) * AS)) r'.stackvalueSed
      (r.stackvalueSed.map exactRow) := by
  obtain ⟨bm, raw, f⟩ := hkSeqSynth_inv h
  obtain ⟨bm', raw', f'⟩ := hkSeqSynth_inv h'
  have hu0 := R.u_nonneg
  have gS := f.hgridS
  rw [f.hVpSed] at gS
  have gS' := f'.hgridS
  rw [f'.hVpSed] at gS'
  simp only [Option.getD_some] at gS gS'
  refine nearTable_fl gS gS' ?_
  intro k hk x hx s s' hs hs'
  have hwc := hwS k hk
  obtain ⟨hV, hp⟩ := well_pre hu0 hwc
  have q := seqSed_almost hu hL hwc hs
  rw [seqSedCell_eq, synthCell_eq, bestTimes_real (Vp := ⟨k1, VpS.val.val⟩) (p := rp.val.val) hV hp,
    except_ok_bind] at hs'
  obtain ⟨v, hv, hs'⟩ := bind_eq_ok.1 hs'
  have hs' := Except.ok.inj hs'
  rw [real_zero, add_zero] at hs'
  subst hs'
  have hT := timeScale_nonneg rp.val.val VpS.val.val x.val k.val
  refine almost_exact (by positivity) (accumulated_nonneg _) q (hcS k hk x hx) (weigh_real.1 hv) ?_
  intro z hz
  obtain ⟨y, hy, rfl⟩ := List.mem_map.1 hz
  exact hAS y hy

/-- **C140** `hkSeqSynth` in arithmetic of precision `ε`, on data within `C ε` of the exact ones. -/
theorem c140_hkSeqSynth {env : Env ℝ} {xS xM τ : List ℝ} {p VpS VpM : Scalar ℝ} {HS KS HM KM : List ℝ}
    {w1S w2S w3S w1M w2M w3M : ℝ} {r : SynthAnalysis.SeqSynthResult ℝ} {b : Row ℝ}
    (h : SynthAnalysis.hkSeqSynth env xS xM τ p HS KS (some VpS) (some w1S) (some w2S) (some w3S) HM KM (some VpM)
      (some w1M) (some w2M) (some w3M) = .ok r) (hb : r.bestmodelSed = some b)
    (hlenS : τ.length ≤ xS.length) (hlenM : τ.length ≤ xM.length)
    (hSS : ∀ k ∈ KS, p.val ^ 2 < (k / VpS.val) ^ 2) (hPS : p.val ^ 2 < (1 / VpS.val) ^ 2)
    (hSM : ∀ k ∈ KM, p.val ^ 2 < (k / VpM.val) ^ 2) (hPM : p.val ^ 2 < (1 / VpM.val) ^ 2)
    (hclearS : ∀ k ∈ KS, ∀ y ∈ HS, ClearTimes τ (tPs p.val VpS.val y k) (tPpPs p.val VpS.val y k)
      (tPsPs p.val VpS.val y k) 0)
    (hclearM : ∀ k ∈ KM, ∀ y ∈ HM, ClearTimes τ (mohoPs p.val VpS.val b.h b.k VpM.val y k)
      (mohoPpPs p.val VpS.val b.h b.k VpM.val y k) (mohoPsPs p.val VpS.val b.h b.k VpM.val y k) 0)
    (hbestS : Margin 0 r.stackvalueSed r.bestIdxSed) (hbestM : Margin 0 r.stackvalueMoho r.bestIdxMoho)
    {C : ℝ} (hC : 0 ≤ C) :
    ∃ C' > 0, ∃ δ > 0, ∀ ε, 0 < ε → ε ≤ δ → ∀ R : Rounding, R.u ≤ ε →
      ∀ (env' : Env (FL R)) (dS dM t HS' KS' HM' KM' : List (FL R)) (p' VpS' VpM' : Scalar (FL R))
        (v1S v2S v3S v1M v2M v3M : FL R),
        SamplesWithin (C * ε) xS (dS.map FL.val) → SamplesWithin (C * ε) xM (dM.map FL.val) → t.map FL.val = τ →
        HS'.map FL.val = HS → KS'.map FL.val = KS → HM'.map FL.val = HM → KM'.map FL.val = KM →
        p'.val.val = p.val → VpS'.val.val = VpS.val → VpM'.val.val = VpM.val → v1S.val = w1S → v2S.val = w2S →
        v3S.val = w3S → v1M.val = w1M → v2M.val = w2M → v3M.val = w3M →
        (∀ tb, tb ≠ [] → env'.draw tb = .ok ()) →
        ∃ r', SynthAnalysis.hkSeqSynth env' dS dM t p' HS' KS' (some VpS') (some v1S) (some v2S) (some v3S) HM' KM'
            (some VpM') (some v1M) (some v2M) (some v3M) = .ok r' ∧
          NearTable (C' * ε) r.stackvalueSed (r'.stackvalueSed.map exactRow) ∧ r'.bestIdxSed = r.bestIdxSed ∧
          NearTable (C' * ε) r.stackvalueMoho (r'.stackvalueMoho.map exactRow) ∧ r'.bestIdxMoho = r.bestIdxMoho := by
  obtain ⟨bm, raw, f⟩ := hkSeqSynth_inv h
  have hbb : bm = b := Option.some.inj (f.hrowS.symm.trans hb)
  subst hbb
  obtain ⟨hKS, hHS, k0, x0, s0, hs0⟩ := grid_ne f.hgridS f.hbestS
  obtain ⟨hKM, hHM, -⟩ := grid_ne f.hgridM f.hbestM
  have ht : τ ≠ [] := by
    rw [seqSedCell_eq, synthCell_eq] at hs0
    obtain ⟨ts, hts, hs⟩ := bind_eq_ok.1 hs0
    obtain ⟨v, hv, -⟩ := bind_eq_ok.1 hs
    exact weigh_axis hv
  have hVS := vp_ne_zero hPS
  have hVM := vp_ne_zero hPM
  obtain ⟨AS, hAS0, hAS⟩ := samples_bounded xS
  obtain ⟨AM, hAM0, hAM⟩ := samples_bounded xM
  obtain ⟨L, hL0, hL⟩ := samples_bounded τ
  set WS := |w1S| + |w2S| + |w3S| with hWS
  set WM := |w1M| + |w2M| + |w3M| with hWM
  have hWS0 : 0 ≤ WS := by positivity
  have hWM0 : 0 ≤ WM := by positivity
  set CS := WS * C + 15 * (WS * (AS + C)) with hCS
  set CM := WM * C + 15 * (WM * (AM + C)) with hCM
  have hCS0 : 0 ≤ CS := by positivity
  have hCM0 : 0 ≤ CM := by positivity
  set C' := CS + CM + 1 with hC'
  have hC'0 : 0 < C' := by positivity
  have ev : ∀ᶠ u in 𝓝 (0 : ℝ), (u < 1 / 1000 ∧ Margin (2 * C' * u) r.stackvalueSed r.bestIdxSed ∧
      Margin (2 * C' * u) r.stackvalueMoho r.bestIdxMoho) ∧
      ((∀ k ∈ KS, WellConditioned u p.val VpS.val k) ∧ (∀ k ∈ KM, WellConditioned u p.val VpM.val k)) ∧
      (∀ k ∈ KS, ∀ y ∈ HS, ClearTimes τ (tPs p.val VpS.val y k) (tPpPs p.val VpS.val y k)
        (tPsPs p.val VpS.val y k) (40 * (L + timeScale p.val VpS.val y k) * u)) ∧
      ∀ k ∈ KM, ∀ y ∈ HM, ClearTimes τ (mohoPs p.val VpS.val bm.h bm.k VpM.val y k)
        (mohoPpPs p.val VpS.val bm.h bm.k VpM.val y k) (mohoPsPs p.val VpS.val bm.h bm.k VpM.val y k)
        (50 * (L + (timeScale p.val VpS.val bm.h bm.k + timeScale p.val VpM.val y k)) * u) := by
    filter_upwards [Iio_mem_nhds (show (0 : ℝ) < 1 / 1000 by norm_num), margin_eventually hbestS (2 * C'),
      margin_eventually hbestM (2 * C'),
      forall_mem_eventually (fun k hk => well_eventually (hSS k hk) hPS),
      forall_mem_eventually (fun k hk => well_eventually (hSM k hk) hPM),
      forall_mem_eventually (fun k hk => forall_mem_eventually (fun y hy => clearTimes_eventually (hclearS k hk y hy)
        (40 * (L + timeScale p.val VpS.val y k)))),
      forall_mem_eventually (fun k hk => forall_mem_eventually (fun y hy => clearTimes_eventually (hclearM k hk y hy)
        (50 * (L + (timeScale p.val VpS.val bm.h bm.k + timeScale p.val VpM.val y k)))))] with u a b c d e f g
    exact ⟨⟨a, b, c⟩, ⟨d, e⟩, f, g⟩
  obtain ⟨δ, hδ, hev⟩ := exists_radius ev
  refine ⟨C', hC'0, δ, hδ, ?_⟩
  intro ε hε hεδ R hR env' dS dM t HS' KS' HM' KM' p' VpS' VpM' v1S v2S v3S v1M v2M v3M hdS hdM rfl rfl rfl rfl rfl hp hvS
    hvM rfl rfl rfl rfl rfl rfl hdraw
  obtain ⟨⟨hu3, -, -⟩, ⟨hwS, hwM⟩, hcS, hcM⟩ := hev R.u R.u_nonneg (hR.trans hεδ)
  obtain ⟨⟨hε3, hmS, hmM⟩, -, -⟩ := hev ε hε.le hεδ
  have hlS : xS.length = dS.length := by simpa using hdS.length_eq
  have hlM : xM.length = dM.length := by simpa using hdM.length_eq
  rw [List.length_map] at hlenS hlenM
  obtain ⟨r', hr'⟩ := c25_hkSeqSynth_succeeds (env := env') (rp := p') (dS := dS) (dM := dM) (t := t) (HS := HS')
    (KS := KS') (HM := HM') (KM := KM') (VpSed := VpS') (VpMoho := VpM') (w1S := some v1S) (w2S := some v2S)
    (w3S := some v3S) (w1M := v1M) (w2M := v2M) (w3M := v3M) (by simpa using ht) (by omega) (by omega)
    (divisor_fl (by rw [hvS]; exact hVS)) (divisor_fl (by rw [hvM]; exact hVM)) (by simpa using hKS) (by simpa using hHS)
    (by simpa using hKM) (by simpa using hHM) hdraw
  obtain ⟨r1, hr1⟩ := c25_hkSeqSynth_succeeds (env := { env with draw := fun _ => .ok () }) (rp := p)
    (dS := dS.map FL.val) (dM := dM.map FL.val) (t := t.map FL.val) (HS := HS'.map FL.val)
    (KS := KS'.map FL.val) (HM := HM'.map FL.val) (KM := KM'.map FL.val) (VpSed := VpS) (VpMoho := VpM)
    (w1S := some v1S.val) (w2S := some v2S.val) (w3S := some v3S.val) (w1M := v1M.val) (w2M := v2M.val) (w3M := v3M.val)
    ht (by simp; omega) (by simp; omega)
    (divisor_real (k := VpS.kind) hVS) (divisor_real (k := VpM.kind) hVM) hKS hHS hKM hHM (fun _ _ => rfl)
  have hCε : 0 ≤ C * ε := by positivity
  obtain ⟨n1, rest1⟩ := c95_hkSeqSynth (near_of_within hdS) (near_of_within hdM) hCε h hr1
  have hr1' := hr1
  rw [show p = ⟨p.kind, p'.val.val⟩ by rw [hp], show VpS = ⟨VpS.kind, VpS'.val.val⟩ by rw [hvS],
    show VpM = ⟨VpM.kind, VpM'.val.val⟩ by rw [hvM]] at hr1'
  have hwS' : ∀ k ∈ KS', WellConditioned R.u p'.val.val VpS'.val.val k.val := fun k hk => by
    rw [hp, hvS]; exact hwS _ (List.mem_map_of_mem hk)
  have hwM' : ∀ k ∈ KM', WellConditioned R.u p'.val.val VpM'.val.val k.val := fun k hk => by
    rw [hp, hvM]; exact hwM _ (List.mem_map_of_mem hk)
  have hcS' : ∀ k ∈ KS', ∀ x ∈ HS', ClearTimes (t.map FL.val) (tPs p'.val.val VpS'.val.val x.val k.val)
      (tPpPs p'.val.val VpS'.val.val x.val k.val) (tPsPs p'.val.val VpS'.val.val x.val k.val)
      (40 * R.u * (L + timeScale p'.val.val VpS'.val.val x.val k.val)) := fun k hk y hy => by
    rw [hp, hvS]
    have := hcS _ (List.mem_map_of_mem hk) _ (List.mem_map_of_mem hy)
    rwa [mul_right_comm] at this
  have hLt : ∀ τ ∈ t, |τ.val| ≤ L := fun τ hτ => hL _ (List.mem_map_of_mem hτ)
  have hA1 : ∀ a ∈ dS, |a.val| ≤ AS + C * ε := fun a ha => within_bounded hdS hAS _ (List.mem_map_of_mem ha)
  have hA2 : ∀ a ∈ dM, |a.val| ≤ AM + C * ε := fun a ha => within_bounded hdM hAM _ (List.mem_map_of_mem ha)
  have n2 := seqSynth_sed (AS := AS + C * ε) hu3.le hr' hr1' hL0 hLt hA1 hwS' hcS'
  have a4 := accumulated_four R.u_nonneg (by linarith)
  have bound : ∀ W A : ℝ, 0 ≤ W → 0 ≤ A → accumulated R.u 4 * (W * (A + C * ε)) ≤ 15 * (W * (A + C)) * ε := by
    intro W A hW hA
    have : accumulated R.u 4 * (W * (A + C * ε)) ≤ 15 * ε * (W * (A + C)) :=
      mul_le_mul (a4.trans (by linarith)) (mul_le_mul_of_nonneg_left (by nlinarith) hW) (by positivity) (by positivity)
    linarith
  have bS := bound WS AS hWS0 hAS0
  have bM := bound WM AM hWM0 hAM0
  have cS : CS * ε ≤ C' * ε := mul_le_mul_of_nonneg_right (by linarith) hε.le
  have cM : CM * ε ≤ C' * ε := mul_le_mul_of_nonneg_right (by linarith) hε.le
  have eS : CS * ε = WS * (C * ε) + 15 * (WS * (AS + C)) * ε := by rw [hCS]; ring
  have eM : CM * ε = WM * (C * ε) + 15 * (WM * (AM + C)) * ε := by rw [hCM]; ring
  have pS : 0 ≤ 15 * (WS * (AS + C)) * ε := by positivity
  have pM : 0 ≤ 15 * (WM * (AM + C)) * ε := by positivity
  have hTS : NearTable (C' * ε) r.stackvalueSed (r'.stackvalueSed.map exactRow) :=
    nearTable_mono (by linarith) (nearTable_trans n1 n2)
  obtain ⟨bm', raw', f'⟩ := hkSeqSynth_inv hr'
  have hbS : r'.bestIdxSed = r.bestIdxSed := nearTable_best hTS f.hbestS (best_fl f'.hbestS) (by rwa [← mul_assoc])
  obtain ⟨q1, q2⟩ := best_same hTS hbS f'.hrowS f.hrowS
  obtain ⟨e1, n3, -⟩ := rest1 (margin_mono (by linarith) hmS)
  obtain ⟨-, rest2⟩ := c116_hkSeqSynth_exact (AS := AS + C * ε) (AM := AM + C * ε) hu3.le hr' hr1' hL0 hLt hA1 hA2
    (by positivity) hwS' hwM' hcS' (by
      intro c hc k hk y hy
      have : c = bm' := Option.some.inj (hc.symm.trans f'.hrowS)
      subst this
      rw [hp, hvS, hvM, ← q1, ← q2]
      have := hcM _ (List.mem_map_of_mem hk) _ (List.mem_map_of_mem hy)
      rwa [mul_right_comm] at this)
  have hm1 : Margin (2 * (accumulated R.u 4 * (WS * (AS + C * ε)))) r1.stackvalueSed r1.bestIdxSed := by
    rw [e1]
    exact margin_near n1 (margin_mono (by linarith) hmS)
  obtain ⟨-, n4, -⟩ := rest2 hm1
  have hTM : NearTable (C' * ε) r.stackvalueMoho (r'.stackvalueMoho.map exactRow) :=
    nearTable_mono (by linarith) (nearTable_trans n3 n4)
  refine ⟨r', hr', hTS, hbS, hTM, ?_⟩
  obtain ⟨-, -, g1⟩ := rest1 (margin_mono (by linarith) hmS)
  obtain ⟨-, -, g2⟩ := rest2 hm1
  have e2 := g1 (margin_mono (by linarith) hmM)
  rw [← e2]
  refine g2 ?_
  rw [e2]
  exact margin_near n3 (margin_mono (by linarith) hmM)

end Rfsed.Props
