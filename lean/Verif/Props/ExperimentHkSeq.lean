import Verif.Props.ExperimentHk
import Verif.Props.ExperimentSeq

/-!
# C140: `hkSeq` on streams of computed receiver functions, in sufficiently precise arithmetic
-/

namespace Rfsed.Props
open Rfsed HkZhu Spec Filter Topology

theorem nearStream_last {R : Rounding} {e : ℝ} {st : List (Trace ℝ)} {st' : List (Trace (FL R))}
    (h : NearStream e st st') {l : Trace ℝ} (hl : st.getLast? = some l) :
    ∃ l', st'.getLast? = some l' ∧ NearTrace e l (exactTrace l') := by
  have hr := List.rel_reverse h
  rw [← List.head?_reverse] at hl
  simp only [← List.head?_reverse]
  generalize st.reverse = a at hr hl
  generalize st'.reverse = b at hr
  cases hr with
  | nil => simp at hl
  | cons h1 _ =>
    simp only [List.head?_cons, Option.some.injEq] at hl
    subst hl
    exact ⟨_, rfl, h1⟩

/-- the sediment stage in floating-point arithmetic -/
theorem hkSeq_sed {R : Rounding} (hu : R.u ≤ 1 / 1000) {env : Env (FL R)} {env' : Env ℝ} {stS stM : List (Trace (FL R))}
    {preonset : FL R} {HS KS HM KM : List (FL R)} {VpS vm : Scalar (FL R)} {w1S w2S w3S w1M w2M w3M : FL R}
    {stack stack' : Option Bool} {r : HkSeqYeck.SeqResult (FL R)} {r' : HkSeqYeck.SeqResult ℝ}
    {first lastS : Trace (FL R)} {slS : Scalar (FL R)} {k1 k2 : Kind} {AS : ℝ}
    (hs : stack ≠ some true) (hs' : stack' ≠ some true) (hkm : env'.km2deg1 = env.km2deg1.val)
    (h : HkSeqYeck.hkSeq env stS stM preonset HS KS (some VpS) (some w1S) (some w2S) (some w3S) HM KM (some vm)
      (some w1M) (some w2M) (some w3M) stack = .ok r)
    (h' : HkSeqYeck.hkSeq env' (stS.map exactTrace) (stM.map exactTrace) preonset.val (HS.map FL.val) (KS.map FL.val)
      (some ⟨k1, VpS.val.val⟩) (some w1S.val) (some w2S.val) (some w3S.val) (HM.map FL.val) (KM.map FL.val)
      (some ⟨k2, vm.val.val⟩) (some w1M.val) (some w2M.val) (some w3M.val) stack' = .ok r')
    (h0 : stS.head? = some first) (h1 : stS.getLast? = some lastS) (h3 : lastS.slowness = some slS)
    (hAS : ∀ a ∈ lastS.data, |a.val| ≤ AS)
    (hwS : ∀ k ∈ KS, WellConditioned R.u (env.km2deg1.val * slS.val.val) VpS.val.val k.val)
    (hcS : ∀ k ∈ KS, ∀ x ∈ HS, ClearTimes (exactAxis first.delta.val preonset.val first.data.length)
      (tPs (env.km2deg1.val * slS.val.val) VpS.val.val x.val k.val)
      (tPpPs (env.km2deg1.val * slS.val.val) VpS.val.val x.val k.val)
      (tPsPs (env.km2deg1.val * slS.val.val) VpS.val.val x.val k.val)
      (40 * R.u * (|first.delta.val| * first.data.length + |preonset.val| +
        timeScale (env.km2deg1.val * slS.val.val) VpS.val.val x.val k.val))) :
    NearTable (accumulated R.u 4 * ((|w1S.val| + |w2S.val| + |w3S.val|) * AS)) r'.stackvalueSed
      (r.stackvalueSed.map exactRow) := by
  obtain ⟨tr0, rest, slows, bm, raw, f⟩ := hkSeq_inv h
  obtain ⟨tr0', rest', slows', bm', raw', f'⟩ := hkSeq_inv h'
  have e0 : tr0 = first := by
    rw [f.hst] at h0
    exact Option.some.inj h0
  subst e0
  have ht' : r'.time = exactAxis tr0.delta.val preonset.val tr0.data.length := by
    have hst' := f'.hst
    rw [f.hst, List.map_cons] at hst'
    injection hst' with e1 e2
    rw [f'.htime, ← e1]
    unfold timeAxis exactAxis exactTrace
    simp only [real_ofNat, List.length_map]
  have hu0 := R.u_nonneg
  have hax := axisApprox_timeAxis hu tr0.delta preonset tr0.data.length
  have gS := f.hgridS
  rw [f.hVpSed, f.hstk, not_true_getD hs, f.htime] at gS
  have gS' := f'.hgridS
  rw [f'.hVpSed, f'.hstk, not_true_getD hs', ht'] at gS'
  simp only [Option.getD_some] at gS gS'
  have hl1 : (stS.map exactTrace).getLast? = some (exactTrace lastS) := by rw [List.getLast?_map, h1]; rfl
  have hq1 : (exactTrace lastS).slowness = some ⟨slS.kind, slS.val.val⟩ := by
    show lastS.slowness.map _ = _
    rw [h3]; rfl
  refine nearTable_fl gS gS' ?_
  intro k hk x hx s s' hs hs'
  have hwc := hwS k hk
  obtain ⟨hV, hp⟩ := well_pre hu0 hwc
  have q := sedTerm_almost hu hax h3 hwc (lastTrace_getLast h1 hs)
  have hs' := lastTrace_getLast hl1 hs'
  rw [sedTerm_eq] at hs'
  obtain ⟨o, -, hs'⟩ := bind_eq_ok.1 hs'
  obtain ⟨sl', g1, hs'⟩ := bind_eq_ok.1 hs'
  rw [getSlowness_ok, hq1] at g1
  cases g1
  simp only [Bool.false_eq_true, if_false] at hs'
  rw [hkm, bestTimes_real (Vp := ⟨k1, VpS.val.val⟩) (p := env.km2deg1.val * slS.val.val) hV hp, except_ok_bind] at hs'
  obtain ⟨v, hv, hs'⟩ := bind_eq_ok.1 hs'
  have hs' := Except.ok.inj hs'
  rw [real_zero, add_zero] at hs'
  subst hs'
  have hT := timeScale_nonneg (env.km2deg1.val * slS.val.val) VpS.val.val x.val k.val
  refine almost_exact (by positivity) (accumulated_nonneg _) q (hcS k hk x hx) (weigh_real.1 hv) ?_
  intro z hz
  obtain ⟨y, hy, rfl⟩ := List.mem_map.1 hz
  exact hAS y hy

set_option maxHeartbeats 1600000 in
/-- **C140** `hkSeq` on single traces in arithmetic of precision `ε`, on data within `C ε` of the exact ones.  Only the last
trace of each stream counts (C08), so the conditions are about the last traces. -/
theorem c140_hkSeq {env : Env ℝ} {first lastS lastM : Trace ℝ} {stS stM : List (Trace ℝ)} {preonset pS pM : ℝ}
    {VpS VpM : Scalar ℝ} {HS KS HM KM : List ℝ} {w1S w2S w3S w1M w2M w3M : ℝ} {stack : Option Bool}
    {r : HkSeqYeck.SeqResult ℝ} {b : Row ℝ} (hs : stack ≠ some true)
    (h : HkSeqYeck.hkSeq env stS stM preonset HS KS (some VpS) (some w1S) (some w2S) (some w3S) HM KM (some VpM)
      (some w1M) (some w2M) (some w3M) stack = .ok r) (hb : r.bestmodelSed = some b)
    (h0 : stS.head? = some first) (hlS : stS.getLast? = some lastS) (hlM : stM.getLast? = some lastM)
    (honset : ∀ tr ∈ stM, tr.onset.isSome)
    (hlen : ∀ tr ∈ stS ++ stM, first.data.length ≤ tr.data.length)
    (hpS : pS = env.km2deg1 * slownessOf lastS) (hpM : pM = env.km2deg1 * slownessOf lastM)
    (hSS : ∀ k ∈ KS, pS ^ 2 < (k / VpS.val) ^ 2) (hPS : pS ^ 2 < (1 / VpS.val) ^ 2)
    (hSS2 : ∀ k ∈ KS, pM ^ 2 < (k / VpS.val) ^ 2) (hPS2 : pM ^ 2 < (1 / VpS.val) ^ 2)
    (hSM : ∀ k ∈ KM, pM ^ 2 < (k / VpM.val) ^ 2) (hPM : pM ^ 2 < (1 / VpM.val) ^ 2)
    (hclearS : ∀ k ∈ KS, ∀ y ∈ HS, ClearTimes (exactAxis first.delta preonset first.data.length) (tPs pS VpS.val y k)
      (tPpPs pS VpS.val y k) (tPsPs pS VpS.val y k) 0)
    (hclearM : ∀ k ∈ KM, ∀ y ∈ HM, ClearTimes (exactAxis first.delta preonset first.data.length)
      (mohoPs pM VpS.val b.h b.k VpM.val y k) (mohoPpPs pM VpS.val b.h b.k VpM.val y k)
      (mohoPsPs pM VpS.val b.h b.k VpM.val y k) 0)
    (hbestS : Margin 0 r.stackvalueSed r.bestIdxSed) (hbestM : Margin 0 r.stackvalueMoho r.bestIdxMoho)
    {C : ℝ} (hC : 0 ≤ C) :
    ∃ C' > 0, ∃ δ > 0, ∀ ε, 0 < ε → ε ≤ δ → ∀ R : Rounding, R.u ≤ ε →
      ∀ (env' : Env (FL R)) (stS' stM' : List (Trace (FL R))) (HS' KS' HM' KM' : List (FL R)) (pre' : FL R)
        (VpS' VpM' : Scalar (FL R)) (v1S v2S v3S v1M v2M v3M : FL R) (stack' : Option Bool),
        NearStream (C * ε) stS stS' → NearStream (C * ε) stM stM' → env'.km2deg1.val = env.km2deg1 →
        pre'.val = preonset →
        HS'.map FL.val = HS → KS'.map FL.val = KS → HM'.map FL.val = HM → KM'.map FL.val = KM →
        VpS'.val.val = VpS.val → VpM'.val.val = VpM.val → v1S.val = w1S → v2S.val = w2S →
        v3S.val = w3S → v1M.val = w1M → v2M.val = w2M → v3M.val = w3M → stack' ≠ some true →
        (∃ d more, env'.stack stS' = .ok (d :: more) ∧ first.data.length ≤ d.length) →
        (∃ d more, env'.stack stM' = .ok (d :: more) ∧ first.data.length ≤ d.length) →
        (∀ tb, tb ≠ [] → env'.draw tb = .ok ()) →
        ∃ r', HkSeqYeck.hkSeq env' stS' stM' pre' HS' KS' (some VpS') (some v1S) (some v2S) (some v3S) HM' KM'
            (some VpM') (some v1M) (some v2M) (some v3M) stack' = .ok r' ∧
          NearTable (C' * ε) r.stackvalueSed (r'.stackvalueSed.map exactRow) ∧ r'.bestIdxSed = r.bestIdxSed ∧
          NearTable (C' * ε) r.stackvalueMoho (r'.stackvalueMoho.map exactRow) ∧ r'.bestIdxMoho = r.bestIdxMoho := by
  obtain ⟨tr0, rest, slows, bm, raw, f⟩ := hkSeq_inv h
  have hbb : bm = b := Option.some.inj (f.hrowS.symm.trans hb)
  subst hbb
  have e0 : tr0 = first := by
    rw [f.hst] at h0
    exact Option.some.inj h0
  subst e0
  obtain ⟨hKS, hHS, k0, x0, s0, hs0⟩ := grid_ne f.hgridS f.hbestS
  obtain ⟨hKM, hHM, k2, x2, s2, hs2⟩ := grid_ne f.hgridM f.hbestM
  have hVS := vp_ne_zero hPS
  have hVM := vp_ne_zero hPM
  have hmS : lastS ∈ stS := List.mem_of_getLast? hlS
  have hmM : lastM ∈ stM := List.mem_of_getLast? hlM
  have hne : tr0.data ≠ [] := by
    have hl := lastTrace_getLast hlS hs0
    rw [sedTerm_eq] at hl
    obtain ⟨_, -, hl⟩ := bind_eq_ok.1 hl
    obtain ⟨_, -, hl⟩ := bind_eq_ok.1 hl
    obtain ⟨_, -, hl⟩ := bind_eq_ok.1 hl
    obtain ⟨_, hw, -⟩ := bind_eq_ok.1 hl
    have := weigh_axis hw
    rw [f.htime, ← List.length_pos_iff, timeAxis_length] at this
    exact List.length_pos_iff.1 this
  have hheadS : ∀ tr ∈ stS, (∃ o, tr.onset = some o) ∧ ∃ s, tr.slowness = some s := by
    have key : ∀ tr ∈ stS, ∃ v, HkSeqYeck.sedTerm env r.time r.RFSedStack r.AvgSlow r.VpSed w1S w2S w3S r.stack k0 x0 tr
        = .ok v := by
      obtain ⟨i, l, hil, hi, hlv⟩ := lastTrace_ok.1 hs0
      intro tr htr
      rw [hil] at htr
      rcases List.mem_append.1 htr with htr | htr
      · exact hi tr htr
      · rw [List.mem_singleton.1 htr]; exact ⟨_, hlv⟩
    intro tr htr
    obtain ⟨v, hv⟩ := key tr htr
    rw [sedTerm_eq] at hv
    obtain ⟨o, ho, hv⟩ := bind_eq_ok.1 hv
    obtain ⟨s, hsl, -⟩ := bind_eq_ok.1 hv
    refine ⟨?_, s, getSlowness_ok.1 hsl⟩
    unfold Trace.getOnset at ho
    cases hto : tr.onset with
    | none => rw [hto] at ho; cases ho
    | some o' => exact ⟨o', rfl⟩
  have hslM : ∀ tr ∈ stM, ∃ s, tr.slowness = some s := by
    intro tr htr
    obtain ⟨s, hsl⟩ := mapM_ok_mem f.hslow htr
    exact ⟨s, getSlowness_ok.1 hsl⟩
  obtain ⟨AS, hAS0, hAS⟩ := samples_bounded lastS.data
  obtain ⟨AM, hAM0, hAM⟩ := samples_bounded lastM.data
  set axis := exactAxis tr0.delta preonset tr0.data.length with haxis
  set L := |tr0.delta| * tr0.data.length + |preonset| with hL
  set WS := |w1S| + |w2S| + |w3S| with hWS
  set WM := |w1M| + |w2M| + |w3M| with hWM
  have hWS0 : 0 ≤ WS := by positivity
  have hWM0 : 0 ≤ WM := by positivity
  set CS := WS * C + 15 * (WS * (AS + C)) with hCS
  set CM := WM * C + 15 * (WM * (AM + C)) with hCM
  have hCS0 : 0 ≤ CS := by positivity
  have hCM0 : 0 ≤ CM := by positivity
  set C' := CS + CM + 1 with hC'
  have hC'0 : 0 < C' := by positivity
  have ev : ∀ᶠ u in 𝓝 (0 : ℝ), (u < 1 / 1000 ∧ Margin (2 * C' * u) r.stackvalueSed r.bestIdxSed ∧
      Margin (2 * C' * u) r.stackvalueMoho r.bestIdxMoho) ∧
      ((∀ k ∈ KS, WellConditioned u pS VpS.val k) ∧ (∀ k ∈ KS, WellConditioned u pM VpS.val k) ∧
        (∀ k ∈ KM, WellConditioned u pM VpM.val k)) ∧
      (∀ k ∈ KS, ∀ y ∈ HS, ClearTimes axis (tPs pS VpS.val y k) (tPpPs pS VpS.val y k)
        (tPsPs pS VpS.val y k) (40 * (L + timeScale pS VpS.val y k) * u)) ∧
      ∀ k ∈ KM, ∀ y ∈ HM, ClearTimes axis (mohoPs pM VpS.val bm.h bm.k VpM.val y k)
        (mohoPpPs pM VpS.val bm.h bm.k VpM.val y k) (mohoPsPs pM VpS.val bm.h bm.k VpM.val y k)
        (50 * (L + (timeScale pM VpS.val bm.h bm.k + timeScale pM VpM.val y k)) * u) := by
    filter_upwards [Iio_mem_nhds (show (0 : ℝ) < 1 / 1000 by norm_num), margin_eventually hbestS (2 * C'),
      margin_eventually hbestM (2 * C'),
      forall_mem_eventually (fun k hk => well_eventually (hSS k hk) hPS),
      forall_mem_eventually (fun k hk => well_eventually (hSS2 k hk) hPS2),
      forall_mem_eventually (fun k hk => well_eventually (hSM k hk) hPM),
      forall_mem_eventually (fun k hk => forall_mem_eventually (fun y hy => clearTimes_eventually (hclearS k hk y hy)
        (40 * (L + timeScale pS VpS.val y k)))),
      forall_mem_eventually (fun k hk => forall_mem_eventually (fun y hy => clearTimes_eventually (hclearM k hk y hy)
        (50 * (L + (timeScale pM VpS.val bm.h bm.k + timeScale pM VpM.val y k)))))] with u a b c d d' e f g
    exact ⟨⟨a, b, c⟩, ⟨d, d', e⟩, f, g⟩
  obtain ⟨δ, hδ, hev⟩ := exists_radius ev
  refine ⟨C', hC'0, δ, hδ, ?_⟩
  intro ε hε hεδ R hR env' stS' stM' HS' KS' HM' KM' pre' VpS' VpM' v1S v2S v3S v1M v2M v3M stack' hnS hnM hkm rfl rfl rfl
    rfl rfl hvS hvM rfl rfl rfl rfl rfl rfl hs' hstS hstM hdraw
  obtain ⟨⟨hu3, -, -⟩, ⟨hwS, hwS2, hwM⟩, hcS, hcM⟩ := hev R.u R.u_nonneg (hR.trans hεδ)
  obtain ⟨⟨hε3, hmrS, hmrM⟩, -, -⟩ := hev ε hε.le hεδ
  obtain ⟨lS', hlS', nS⟩ := nearStream_last hnS hlS
  obtain ⟨lM', hlM', nM⟩ := nearStream_last hnM hlM
  obtain ⟨tr0', rest', rfl⟩ : ∃ a b, stS' = a :: b := by
    rw [f.hst] at hnS
    cases hnS with
    | cons _ _ => exact ⟨_, _, rfl⟩
  have hn0 : NearTrace (C * ε) tr0 (exactTrace tr0') := by
    rw [f.hst] at hnS
    cases hnS with
    | cons a _ => exact a
  have hlen0 : tr0.data.length = tr0'.data.length := by
    have := hn0.2.2.2.length_eq
    simpa [exactTrace] using this
  have hdel : tr0'.delta.val = tr0.delta := hn0.2.2.1
  have hMne : stM' ≠ [] := by rintro rfl; simp at hlM'
  have hhead' : ∀ tr ∈ tr0' :: rest' ++ stM', (∃ o, tr.onset = some o) ∧ (∃ s, tr.slowness = some s) ∧
      tr0'.data.length ≤ tr.data.length := by
    intro tr htr
    have : ∃ b ∈ stS ++ stM, NearTrace (C * ε) b (exactTrace tr) := by
      rcases List.mem_append.1 htr with htr | htr
      · obtain ⟨b, hb, hn⟩ := nearStream_mem hnS htr
        exact ⟨b, List.mem_append_left _ hb, hn⟩
      · obtain ⟨b, hb, hn⟩ := nearStream_mem hnM htr
        exact ⟨b, List.mem_append_right _ hb, hn⟩
    obtain ⟨b, hb, h1, h2, -, h4⟩ := this
    have hq : b.onset.isSome ∧ b.slowness.isSome := by
      rcases List.mem_append.1 hb with hb | hb
      · obtain ⟨⟨o, ho⟩, s, hs⟩ := hheadS b hb
        exact ⟨by rw [ho]; rfl, by rw [hs]; rfl⟩
      · obtain ⟨s, hs⟩ := hslM b hb
        exact ⟨honset b hb, by rw [hs]; rfl⟩
    have hl4 := h4.length_eq
    simp only [exactTrace, List.length_map] at hl4
    have := hlen b hb
    rw [← h1, ← h2] at hq
    refine ⟨Option.isSome_iff_exists.1 ?_, Option.isSome_iff_exists.1 ?_, by omega⟩
    · simpa [exactTrace] using hq.1
    · simpa [exactTrace] using hq.2
  obtain ⟨dS, moreS, hdS, hdSl⟩ := hstS
  obtain ⟨dM, moreM, hdM, hdMl⟩ := hstM
  have hne' : tr0'.data ≠ [] := by rw [← List.length_pos_iff, ← hlen0]; exact List.length_pos_iff.2 hne
  obtain ⟨r', hr'⟩ := c25_hkSeq_succeeds (env := env') (tr0 := tr0') (rest := rest') (stM := stM') (preonset := pre')
    (HS := HS') (KS := KS') (HM := HM') (KM := KM') (VpSed := VpS') (VpMoho := VpM') (w1S := some v1S) (w2S := some v2S)
    (w3S := some v3S) (w1M := v1M) (w2M := v2M) (w3M := v3M) (stack := stack') hdS hdM hMne hne' hhead'
    (by omega) (by omega)
    (divisor_fl (by rw [hvS]; exact hVS)) (divisor_fl (by rw [hvM]; exact hVM)) (by simpa using hKS) (by simpa using hHS)
    (by simpa using hKM) (by simpa using hHM) hdraw
  let env1 : Env ℝ := { env with draw := fun _ => .ok (), stack := fun _ => .ok [tr0.data] }
  obtain ⟨r1, hr1⟩ := c25_hkSeq_succeeds (env := env1) (tr0 := exactTrace tr0') (rest := rest'.map exactTrace)
    (stM := stM'.map exactTrace) (preonset := pre'.val) (HS := HS'.map FL.val)
    (KS := KS'.map FL.val) (HM := HM'.map FL.val) (KM := KM'.map FL.val) (VpSed := VpS) (VpMoho := VpM)
    (w1S := some v1S.val) (w2S := some v2S.val) (w3S := some v3S.val) (w1M := v1M.val) (w2M := v2M.val) (w3M := v3M.val)
    (stack := stack) rfl rfl (by simpa using hMne) (by simpa [exactTrace] using hne')
    (by
      intro tr htr
      rw [← List.map_cons, ← List.map_append] at htr
      obtain ⟨c, hc, rfl⟩ := List.mem_map.1 htr
      obtain ⟨⟨o, ho⟩, ⟨s, hs⟩, hl⟩ := hhead' c hc
      refine ⟨⟨_, by simp [exactTrace, ho]; rfl⟩, ⟨_, by simp [exactTrace, hs]; rfl⟩, by simpa [exactTrace] using hl⟩)
    (by simp [exactTrace]; omega) (by simp [exactTrace]; omega)
    (divisor_real (k := VpS.kind) hVS) (divisor_real (k := VpM.kind) hVM) hKS hHS hKM hHM (fun _ _ => rfl)
  have hCε : 0 ≤ C * ε := by positivity
  have hnrS : List.Forall₂ (NearTrace (C * ε)) stS ((tr0' :: rest').map exactTrace) := by
    rw [List.forall₂_map_right_iff]; exact hnS
  have hnrM : List.Forall₂ (NearTrace (C * ε)) stM (stM'.map exactTrace) := by
    rw [List.forall₂_map_right_iff]; exact hnM
  rw [← List.map_cons] at hr1
  obtain ⟨n1, rest1⟩ := c95_hkSeq (env := env) (env' := env1) hs rfl hnrS hnrM hCε h hr1
  have hr1' := hr1
  rw [show VpS = ⟨VpS.kind, VpS'.val.val⟩ by rw [hvS], show VpM = ⟨VpM.kind, VpM'.val.val⟩ by rw [hvM]] at hr1'
  obtain ⟨-, ⟨slS, hslS⟩, -⟩ := hhead' lS' (List.mem_append_left _ (List.mem_of_getLast? hlS'))
  obtain ⟨-, ⟨slM, hslM'⟩, -⟩ := hhead' lM' (List.mem_append_right _ (List.mem_of_getLast? hlM'))
  have hpS' : env'.km2deg1.val * slS.val.val = pS := by
    have : slownessOf lastS = slS.val.val := by
      have := nS.1
      unfold slownessOf
      rw [← this]
      simp [exactTrace, hslS]
    rw [hkm, hpS, this]
  have hpM' : env'.km2deg1.val * slM.val.val = pM := by
    have : slownessOf lastM = slM.val.val := by
      have := nM.1
      unfold slownessOf
      rw [← this]
      simp [exactTrace, hslM']
    rw [hkm, hpM, this]
  have hA1 : ∀ a ∈ lS'.data, |a.val| ≤ AS + C * ε := fun a ha => near_bounded nS.2.2.2 hAS _ (List.mem_map_of_mem ha)
  have hA2 : ∀ a ∈ lM'.data, |a.val| ≤ AM + C * ε := fun a ha => near_bounded nM.2.2.2 hAM _ (List.mem_map_of_mem ha)
  have hcS' : ∀ k ∈ KS', ∀ x ∈ HS', ClearTimes (exactAxis tr0'.delta.val pre'.val tr0'.data.length)
      (tPs (env'.km2deg1.val * slS.val.val) VpS'.val.val x.val k.val)
      (tPpPs (env'.km2deg1.val * slS.val.val) VpS'.val.val x.val k.val)
      (tPsPs (env'.km2deg1.val * slS.val.val) VpS'.val.val x.val k.val)
      (40 * R.u * (|tr0'.delta.val| * tr0'.data.length + |pre'.val| +
        timeScale (env'.km2deg1.val * slS.val.val) VpS'.val.val x.val k.val)) := fun k hk y hy => by
    rw [hpS', hvS, hdel, ← hlen0]
    have := hcS _ (List.mem_map_of_mem hk) _ (List.mem_map_of_mem hy)
    rwa [mul_right_comm] at this
  have n2 := hkSeq_sed (AS := AS + C * ε) hu3.le hs' hs (by rw [hkm]) hr' hr1' (first := tr0') rfl hlS' hslS hA1
    (fun k hk => by rw [hpS', hvS]; exact hwS _ (List.mem_map_of_mem hk)) hcS'
  have a4 := accumulated_four R.u_nonneg (by linarith)
  have bound : ∀ W A : ℝ, 0 ≤ W → 0 ≤ A → accumulated R.u 4 * (W * (A + C * ε)) ≤ 15 * (W * (A + C)) * ε := by
    intro W A hW hA
    have : accumulated R.u 4 * (W * (A + C * ε)) ≤ 15 * ε * (W * (A + C)) :=
      mul_le_mul (a4.trans (by linarith)) (mul_le_mul_of_nonneg_left (by nlinarith) hW) (by positivity) (by positivity)
    linarith
  have bS := bound WS AS hWS0 hAS0
  have bM := bound WM AM hWM0 hAM0
  have cS : CS * ε ≤ C' * ε := mul_le_mul_of_nonneg_right (by linarith) hε.le
  have cM : CM * ε ≤ C' * ε := mul_le_mul_of_nonneg_right (by linarith) hε.le
  have eS : CS * ε = WS * (C * ε) + 15 * (WS * (AS + C)) * ε := by rw [hCS]; ring
  have eM : CM * ε = WM * (C * ε) + 15 * (WM * (AM + C)) * ε := by rw [hCM]; ring
  have qS : 0 ≤ 15 * (WS * (AS + C)) * ε := by positivity
  have qM : 0 ≤ 15 * (WM * (AM + C)) * ε := by positivity
  have hTS : NearTable (C' * ε) r.stackvalueSed (r'.stackvalueSed.map exactRow) :=
    nearTable_mono (by linarith) (nearTable_trans n1 n2)
  obtain ⟨_, _, _, bm', raw', f'⟩ := hkSeq_inv hr'
  have hbS : r'.bestIdxSed = r.bestIdxSed := nearTable_best hTS f.hbestS (best_fl f'.hbestS) (by rwa [← mul_assoc])
  obtain ⟨q1, q2⟩ := best_same hTS hbS f'.hrowS f.hrowS
  obtain ⟨e1, n3, -⟩ := rest1 (margin_mono (by linarith) hmrS)
  obtain ⟨-, rest2⟩ := c116_hkSeq_exact (AS := AS + C * ε) (AM := AM + C * ε) hu3.le hs' hs (by rw [hkm]) hr' hr1'
    (first := tr0') rfl hlS' hlM' hslS hslM' hA1 hA2 (by positivity)
    (fun k hk => ⟨by rw [hpS', hvS]; exact hwS _ (List.mem_map_of_mem hk),
      by rw [hpM', hvS]; exact hwS2 _ (List.mem_map_of_mem hk)⟩)
    (fun k hk => by rw [hpM', hvM]; exact hwM _ (List.mem_map_of_mem hk)) hcS' (by
      intro c hc k hk y hy
      have : c = bm' := Option.some.inj (hc.symm.trans f'.hrowS)
      subst this
      rw [hpM', hvS, hvM, ← q1, ← q2, hdel, ← hlen0]
      have := hcM _ (List.mem_map_of_mem hk) _ (List.mem_map_of_mem hy)
      rwa [mul_right_comm] at this)
  have hm1 : Margin (2 * (accumulated R.u 4 * (WS * (AS + C * ε)))) r1.stackvalueSed r1.bestIdxSed := by
    rw [e1]
    exact margin_near n1 (margin_mono (by linarith) hmrS)
  obtain ⟨-, n4, -⟩ := rest2 hm1
  have hTM : NearTable (C' * ε) r.stackvalueMoho (r'.stackvalueMoho.map exactRow) :=
    nearTable_mono (by linarith) (nearTable_trans n3 n4)
  refine ⟨r', hr', hTS, hbS, hTM, ?_⟩
  obtain ⟨-, -, g1⟩ := rest1 (margin_mono (by linarith) hmrS)
  obtain ⟨-, -, g2⟩ := rest2 hm1
  have e2 := g1 (margin_mono (by linarith) hmrM)
  rw [← e2]
  refine g2 ?_
  rw [e2]
  exact margin_near n3 (margin_mono (by linarith) hmrM)

end Rfsed.Props
