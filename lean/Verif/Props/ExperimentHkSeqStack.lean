import Verif.Props.ExperimentHkSeq
import Verif.Props.NoiseStack

/-!
# C140: `hkSeq` with `stack=True` in sufficiently precise arithmetic
-/

namespace Rfsed.Props
open Rfsed HkZhu Spec Filter Topology

/-- the number with its parts taken as numbers of the rounded arithmetic -/
def liftNum {R : Rounding} : PyNum ℝ → PyNum (FL R)
  | .real x => .real ⟨x⟩
  | .cplx re im => .cplx ⟨re⟩ ⟨im⟩

/-- the trace of exact numbers as a trace of the rounded arithmetic -/
def liftTrace {R : Rounding} (tr : Trace ℝ) : Trace (FL R) where
  station := tr.station
  channel := tr.channel
  data := tr.data.map FL.mk
  delta := ⟨tr.delta⟩
  starttime := ⟨tr.starttime⟩
  onset := tr.onset.map FL.mk
  slowness := tr.slowness.map (fun s => ⟨s.kind, ⟨s.val⟩⟩)
  backAzimuth := tr.backAzimuth.map FL.mk
  distance := tr.distance.map FL.mk
  extra := fun s => (tr.extra s).map liftNum

theorem lift_exact {R : Rounding} (tr : Trace (FL R)) : liftTrace (exactTrace tr) = tr := by
  unfold liftTrace exactTrace
  cases tr with
  | mk a b c d e f g h i x =>
    have h3 : (fun s => ((x s).map exactNum).map (liftNum (R := R))) = x := by
      funext s
      cases x s with
      | none => rfl
      | some v => cases v <;> rfl
    have h1 : ∀ o : Option (FL R), (o.map FL.val).map (FL.mk (R := R)) = o := by
      intro o; cases o <;> rfl
    have h2 : ∀ l : List (FL R), (l.map FL.val).map (FL.mk (R := R)) = l := by
      intro l
      rw [List.map_map]
      exact List.map_id _
    simp only [h1, h2, h3, Trace.mk.injEq, true_and, and_true]
    cases g <;> rfl

/-- an exact environment that stacks as a rounded one does -/
def stackLike {R : Rounding} (env : Env ℝ) (env' : Env (FL R)) : Env ℝ where
  km2deg1 := env.km2deg1
  stack := fun st => (env'.stack (st.map liftTrace)).map (List.map (List.map FL.val))
  draw := fun _ => .ok ()

theorem stackLike_stack {R : Rounding} {env : Env ℝ} {env' : Env (FL R)} {st : List (Trace (FL R))}
    {sd : List (FL R)} {more : List (List (FL R))} (h : env'.stack st = .ok (sd :: more)) :
    (stackLike env env').stack (st.map exactTrace) = .ok (sd.map FL.val :: more.map (List.map FL.val)) := by
  unfold stackLike
  simp only
  rw [List.map_map, show (liftTrace ∘ exactTrace : Trace (FL R) → Trace (FL R)) = id from funext lift_exact, List.map_id, h]
  rfl

theorem hkSeq_sed_stacked {R : Rounding} {env : Env (FL R)} {env' : Env ℝ} {stS stM : List (Trace (FL R))} {preonset : FL R}
    {HS KS HM KM : List (FL R)} {VpS vm : Scalar (FL R)} {w1S w2S w3S w1M w2M w3M : FL R}
    {r : HkSeqYeck.SeqResult (FL R)} {r' : HkSeqYeck.SeqResult ℝ} {first : Trace (FL R)} {sdS : List (FL R)}
    {moreS : List (List (FL R))} {moreS' : List (List ℝ)} {k1 k2 : Kind} {AS : ℝ}
    (hu : meanAccuracy R.u stM.length ≤ 1 / 1000) (hkm : env'.km2deg1 = env.km2deg1.val)
    (h : HkSeqYeck.hkSeq env stS stM preonset HS KS (some VpS) (some w1S) (some w2S) (some w3S) HM KM (some vm)
      (some w1M) (some w2M) (some w3M) (some true) = .ok r)
    (h' : HkSeqYeck.hkSeq env' (stS.map exactTrace) (stM.map exactTrace) preonset.val (HS.map FL.val) (KS.map FL.val)
      (some ⟨k1, VpS.val.val⟩) (some w1S.val) (some w2S.val) (some w3S.val) (HM.map FL.val) (KM.map FL.val)
      (some ⟨k2, vm.val.val⟩) (some w1M.val) (some w2M.val) (some w3M.val) (some true) = .ok r')
    (h0 : stS.head? = some first) (h1 : env.stack stS = .ok (sdS :: moreS))
    (h1' : env'.stack (stS.map exactTrace) = .ok (sdS.map FL.val :: moreS'))
    (hpos : Slownesses stM) (hAS : ∀ a ∈ sdS, |a.val| ≤ AS)
    (hwS : ∀ k ∈ KS, WellConditioned (meanAccuracy R.u stM.length) (meanRay env.km2deg1.val stM) VpS.val.val k.val) :
    let axis := exactAxis first.delta.val preonset.val first.data.length
    let L := |first.delta.val| * first.data.length + |preonset.val|
    let p := meanRay env.km2deg1.val stM
    let e := meanAccuracy R.u stM.length
    (∀ k ∈ KS, ∀ x ∈ HS, ClearTimes axis (tPs p VpS.val.val x.val k.val) (tPpPs p VpS.val.val x.val k.val)
      (tPsPs p VpS.val.val x.val k.val) (40 * e * (L + timeScale p VpS.val.val x.val k.val))) →
    NearTable (accumulated R.u 4 * ((|w1S.val| + |w2S.val| + |w3S.val|) * AS)) r'.stackvalueSed
      (r.stackvalueSed.map exactRow) := by
  intro axis L p e hcS
  obtain ⟨tr0, rest, slows, bm, raw, f⟩ := hkSeq_inv h
  obtain ⟨tr0', rest', slows', bm', raw', f'⟩ := hkSeq_inv h'
  have e0 : tr0 = first := by
    rw [f.hst] at h0
    exact Option.some.inj h0
  subst e0
  have ht' : r'.time = axis := by
    have hst' := f'.hst
    rw [f.hst, List.map_cons] at hst'
    injection hst' with e1 e2
    rw [f'.htime, ← e1]
    unfold axis timeAxis exactAxis exactTrace
    simp only [real_ofNat, List.length_map]
  have hv := meanAccuracy_ge (R := R) stM.length
  have hu' := hv.trans hu
  have he0 : 0 ≤ e := R.u_nonneg.trans hv
  have hax := axisApprox_timeAxis hu' tr0.delta preonset tr0.data.length
  have hL0 : 0 ≤ L := by positivity
  have hp := meanRay_approx hu' f.hslow hpos env.km2deg1
  have ha' : env'.km2deg1 * r'.AvgSlow = p := by
    rw [f'.havg, avgSlow_eq f'.hslow, hkm, List.map_map, List.length_map]
    rfl
  obtain ⟨_, hq⟩ := f.hstackS
  rw [h1] at hq
  injection Except.ok.inj hq with hq _
  obtain ⟨_, hq'⟩ := f'.hstackS
  rw [h1'] at hq'
  injection Except.ok.inj hq' with hq' _
  have gS := f.hgridS
  rw [f.hVpSed, f.hstk, f.htime, f.havg] at gS
  rw [← hq] at gS
  have gS' := f'.hgridS
  rw [f'.hVpSed, f'.hstk, ht'] at gS'
  rw [← hq'] at gS'
  simp only [Option.getD_some] at gS gS'
  have hmem : ∀ {d : List (FL R)} {A : ℝ}, (∀ a ∈ d, |a.val| ≤ A) → ∀ a ∈ d.map FL.val, |a| ≤ A := by
    intro d A hA z hz
    obtain ⟨y, hy, rfl⟩ := List.mem_map.1 hz
    exact hA y hy
  show NearTable _ r'.stackvalueSed (r.stackvalueSed.map exactRow)
  refine nearTable_fl gS gS' ?_
  intro k hk x hx s s' hs hs'
  have hwc := hwS k hk
  obtain ⟨hV, hpp⟩ := well_pre he0 hwc
  have q := sedTerm_stacked hv hu hax hp hwc hs
  obtain ⟨_, tr, -, -, hs'⟩ := lastTrace_ok.1 hs'
  rw [sedTerm_eq] at hs'
  obtain ⟨o, -, hs'⟩ := bind_eq_ok.1 hs'
  obtain ⟨sl', -, hs'⟩ := bind_eq_ok.1 hs'
  simp only [if_true] at hs'
  rw [ha', bestTimes_real (Vp := ⟨k1, VpS.val.val⟩) (p := p) hV hpp, except_ok_bind] at hs'
  obtain ⟨v, hv, hs'⟩ := bind_eq_ok.1 hs'
  have hs' := Except.ok.inj hs'
  rw [real_zero, add_zero] at hs'
  subst hs'
  have hT := timeScale_nonneg p VpS.val.val x.val k.val
  exact almost_exact (by positivity) (accumulated_nonneg _) q (hcS k hk x hx) (weigh_real.1 hv) (hmem hAS)

set_option maxHeartbeats 1600000 in
/-- **C140** `hkSeq` with `stack=True` in arithmetic of precision `ε`, on stacked receiver functions within `C ε` of the
exact ones.  The ray parameter of both stages is that of the mean slowness of the second stream (C22). -/
theorem c140_hkSeq_stacked {env : Env ℝ} {first : Trace ℝ} {stS stM : List (Trace ℝ)} {preonset p : ℝ}
    {VpS VpM : Scalar ℝ} {HS KS HM KM : List ℝ} {w1S w2S w3S w1M w2M w3M : ℝ}
    {r : HkSeqYeck.SeqResult ℝ} {b : Row ℝ} {sdS sdM : List ℝ} {moreS moreM : List (List ℝ)}
    (h : HkSeqYeck.hkSeq env stS stM preonset HS KS (some VpS) (some w1S) (some w2S) (some w3S) HM KM (some VpM)
      (some w1M) (some w2M) (some w3M) (some true) = .ok r) (hb : r.bestmodelSed = some b)
    (h0 : stS.head? = some first) (hsdS : env.stack stS = .ok (sdS :: moreS)) (hsdM : env.stack stM = .ok (sdM :: moreM))
    (hlS : first.data.length ≤ sdS.length) (hlM : first.data.length ≤ sdM.length)
    (honset : ∀ tr ∈ stM, tr.onset.isSome)
    (hlen : ∀ tr ∈ stS ++ stM, first.data.length ≤ tr.data.length)
    (hp : p = env.km2deg1 * ((stM.map slownessOf).sum / stM.length)) (hpos : ∀ tr ∈ stM, 0 ≤ slownessOf tr)
    (hSS : ∀ k ∈ KS, p ^ 2 < (k / VpS.val) ^ 2) (hPS : p ^ 2 < (1 / VpS.val) ^ 2)
    (hSM : ∀ k ∈ KM, p ^ 2 < (k / VpM.val) ^ 2) (hPM : p ^ 2 < (1 / VpM.val) ^ 2)
    (hclearS : ∀ k ∈ KS, ∀ y ∈ HS, ClearTimes (exactAxis first.delta preonset first.data.length) (tPs p VpS.val y k)
      (tPpPs p VpS.val y k) (tPsPs p VpS.val y k) 0)
    (hclearM : ∀ k ∈ KM, ∀ y ∈ HM, ClearTimes (exactAxis first.delta preonset first.data.length)
      (mohoPs p VpS.val b.h b.k VpM.val y k) (mohoPpPs p VpS.val b.h b.k VpM.val y k)
      (mohoPsPs p VpS.val b.h b.k VpM.val y k) 0)
    (hbestS : Margin 0 r.stackvalueSed r.bestIdxSed) (hbestM : Margin 0 r.stackvalueMoho r.bestIdxMoho)
    {C : ℝ} (hC : 0 ≤ C) :
    ∃ C' > 0, ∃ δ > 0, ∀ ε, 0 < ε → ε ≤ δ → ∀ R : Rounding, R.u ≤ ε →
      ∀ (env' : Env (FL R)) (stS' stM' : List (Trace (FL R))) (HS' KS' HM' KM' : List (FL R)) (pre' : FL R)
        (VpS' VpM' : Scalar (FL R)) (v1S v2S v3S v1M v2M v3M : FL R) (sdS' sdM' : List (FL R))
        (moreS' moreM' : List (List (FL R))),
        NearStream (C * ε) stS stS' → NearStream (C * ε) stM stM' → env'.stack stS' = .ok (sdS' :: moreS') →
        env'.stack stM' = .ok (sdM' :: moreM') → Near (C * ε) sdS (sdS'.map FL.val) → Near (C * ε) sdM (sdM'.map FL.val) →
        env'.km2deg1.val = env.km2deg1 →
        pre'.val = preonset →
        HS'.map FL.val = HS → KS'.map FL.val = KS → HM'.map FL.val = HM → KM'.map FL.val = KM →
        VpS'.val.val = VpS.val → VpM'.val.val = VpM.val → v1S.val = w1S → v2S.val = w2S →
        v3S.val = w3S → v1M.val = w1M → v2M.val = w2M → v3M.val = w3M →
        (∀ tb, tb ≠ [] → env'.draw tb = .ok ()) →
        ∃ r', HkSeqYeck.hkSeq env' stS' stM' pre' HS' KS' (some VpS') (some v1S) (some v2S) (some v3S) HM' KM'
            (some VpM') (some v1M) (some v2M) (some v3M) (some true) = .ok r' ∧
          NearTable (C' * ε) r.stackvalueSed (r'.stackvalueSed.map exactRow) ∧ r'.bestIdxSed = r.bestIdxSed ∧
          NearTable (C' * ε) r.stackvalueMoho (r'.stackvalueMoho.map exactRow) ∧ r'.bestIdxMoho = r.bestIdxMoho := by
  obtain ⟨tr0, rest, slows, bm, raw, f⟩ := hkSeq_inv h
  have hbb : bm = b := Option.some.inj (f.hrowS.symm.trans hb)
  subst hbb
  have e0 : tr0 = first := by
    rw [f.hst] at h0
    exact Option.some.inj h0
  subst e0
  obtain ⟨hKS, hHS, k0, x0, s0, hs0⟩ := grid_ne f.hgridS f.hbestS
  obtain ⟨hKM, hHM, k2, x2, s2, hs2⟩ := grid_ne f.hgridM f.hbestM
  have hVS := vp_ne_zero hPS
  have hVM := vp_ne_zero hPM
  have hne : tr0.data ≠ [] := by
    obtain ⟨_, _, -, -, hl⟩ := lastTrace_ok.1 hs0
    rw [sedTerm_eq] at hl
    obtain ⟨_, -, hl⟩ := bind_eq_ok.1 hl
    obtain ⟨_, -, hl⟩ := bind_eq_ok.1 hl
    obtain ⟨_, -, hl⟩ := bind_eq_ok.1 hl
    obtain ⟨_, hw, -⟩ := bind_eq_ok.1 hl
    have := weigh_axis hw
    rw [f.htime, ← List.length_pos_iff, timeAxis_length] at this
    exact List.length_pos_iff.1 this
  have hheadS : ∀ tr ∈ stS, (∃ o, tr.onset = some o) ∧ ∃ s, tr.slowness = some s := by
    have key : ∀ tr ∈ stS, ∃ v, HkSeqYeck.sedTerm env r.time r.RFSedStack r.AvgSlow r.VpSed w1S w2S w3S r.stack k0 x0 tr
        = .ok v := by
      obtain ⟨i, l, hil, hi, hlv⟩ := lastTrace_ok.1 hs0
      intro tr htr
      rw [hil] at htr
      rcases List.mem_append.1 htr with htr | htr
      · exact hi tr htr
      · rw [List.mem_singleton.1 htr]; exact ⟨_, hlv⟩
    intro tr htr
    obtain ⟨v, hv⟩ := key tr htr
    rw [sedTerm_eq] at hv
    obtain ⟨o, ho, hv⟩ := bind_eq_ok.1 hv
    obtain ⟨s, hsl, -⟩ := bind_eq_ok.1 hv
    refine ⟨?_, s, getSlowness_ok.1 hsl⟩
    unfold Trace.getOnset at ho
    cases hto : tr.onset with
    | none => rw [hto] at ho; cases ho
    | some o' => exact ⟨o', rfl⟩
  have hslM : ∀ tr ∈ stM, ∃ s, tr.slowness = some s := by
    intro tr htr
    obtain ⟨s, hsl⟩ := mapM_ok_mem f.hslow htr
    exact ⟨s, getSlowness_ok.1 hsl⟩
  obtain ⟨AS, hAS0, hAS⟩ := samples_bounded sdS
  obtain ⟨AM, hAM0, hAM⟩ := samples_bounded sdM
  set n := stM.length with hn
  set axis := exactAxis tr0.delta preonset tr0.data.length with haxis
  set L := |tr0.delta| * tr0.data.length + |preonset| with hL
  set WS := |w1S| + |w2S| + |w3S| with hWS
  set WM := |w1M| + |w2M| + |w3M| with hWM
  have hWS0 : 0 ≤ WS := by positivity
  have hWM0 : 0 ≤ WM := by positivity
  set CS := WS * C + 15 * (WS * (AS + C)) with hCS
  set CM := WM * C + 15 * (WM * (AM + C)) with hCM
  have hCS0 : 0 ≤ CS := by positivity
  have hCM0 : 0 ≤ CM := by positivity
  set C' := CS + CM + 1 with hC'
  have hC'0 : 0 < C' := by positivity
  have ev : ∀ᶠ u in 𝓝 (0 : ℝ), (u < 1 / 1000 ∧ Margin (2 * C' * u) r.stackvalueSed r.bestIdxSed ∧
      Margin (2 * C' * u) r.stackvalueMoho r.bestIdxMoho) ∧
      (meanAccuracy u n < 1 / 1000 ∧ (∀ k ∈ KS, WellConditioned (meanAccuracy u n) p VpS.val k) ∧
        (∀ k ∈ KM, WellConditioned (meanAccuracy u n) p VpM.val k)) ∧
      (∀ k ∈ KS, ∀ y ∈ HS, ClearTimes axis (tPs p VpS.val y k) (tPpPs p VpS.val y k)
        (tPsPs p VpS.val y k) (40 * (L + timeScale p VpS.val y k) * meanAccuracy u n)) ∧
      ∀ k ∈ KM, ∀ y ∈ HM, ClearTimes axis (mohoPs p VpS.val bm.h bm.k VpM.val y k)
        (mohoPpPs p VpS.val bm.h bm.k VpM.val y k) (mohoPsPs p VpS.val bm.h bm.k VpM.val y k)
        (50 * (L + (timeScale p VpS.val bm.h bm.k + timeScale p VpM.val y k)) * meanAccuracy u n) := by
    have hio := Iio_mem_nhds (show (0 : ℝ) < 1 / 1000 by norm_num)
    filter_upwards [hio, margin_eventually hbestS (2 * C'),
      margin_eventually hbestM (2 * C'),
      meanAccuracy_eventually (P := fun u => u < 1 / 1000) n hio,
      meanAccuracy_eventually n (forall_mem_eventually (fun k hk => well_eventually (hSS k hk) hPS)),
      meanAccuracy_eventually n (forall_mem_eventually (fun k hk => well_eventually (hSM k hk) hPM)),
      meanAccuracy_eventually n (forall_mem_eventually (fun k hk => forall_mem_eventually (fun y hy =>
        clearTimes_eventually (hclearS k hk y hy) (40 * (L + timeScale p VpS.val y k))))),
      meanAccuracy_eventually n (forall_mem_eventually (fun k hk => forall_mem_eventually (fun y hy =>
        clearTimes_eventually (hclearM k hk y hy)
        (50 * (L + (timeScale p VpS.val bm.h bm.k + timeScale p VpM.val y k))))))] with u a b c d d' e f g
    exact ⟨⟨a, b, c⟩, ⟨d, d', e⟩, f, g⟩
  obtain ⟨δ, hδ, hev⟩ := exists_radius ev
  refine ⟨C', hC'0, δ, hδ, ?_⟩
  intro ε hε hεδ R hR env' stS' stM' HS' KS' HM' KM' pre' VpS' VpM' v1S v2S v3S v1M v2M v3M sdS' sdM' moreS' moreM'
    hnS hnM hsdS' hsdM' nS nM hkm rfl rfl rfl
    rfl rfl hvS hvM rfl rfl rfl rfl rfl rfl hdraw
  obtain ⟨⟨hu3, -, -⟩, ⟨hma, hwS, hwM⟩, hcS, hcM⟩ := hev R.u R.u_nonneg (hR.trans hεδ)
  obtain ⟨⟨hε3, hmrS, hmrM⟩, -, -⟩ := hev ε hε.le hεδ
  obtain ⟨tr0', rest', rfl⟩ : ∃ a b, stS' = a :: b := by
    rw [f.hst] at hnS
    cases hnS with
    | cons _ _ => exact ⟨_, _, rfl⟩
  have hn0 : NearTrace (C * ε) tr0 (exactTrace tr0') := by
    rw [f.hst] at hnS
    cases hnS with
    | cons a _ => exact a
  have hlen0 : tr0.data.length = tr0'.data.length := by
    have := hn0.2.2.2.length_eq
    simpa [exactTrace] using this
  have hdel : tr0'.delta.val = tr0.delta := hn0.2.2.1
  have hnn : stM'.length = n := (hnM.length_eq).symm
  have hMne : stM' ≠ [] := by
    have : stM ≠ [] := by
      rintro rfl
      obtain ⟨_, _, hh, -⟩ := lastTrace_ok.1 hs2
      simp at hh
    rw [← List.length_pos_iff, hnn]
    exact List.length_pos_iff.2 this
  have hhead' : ∀ tr ∈ tr0' :: rest' ++ stM', (∃ o, tr.onset = some o) ∧ (∃ s, tr.slowness = some s) ∧
      tr0'.data.length ≤ tr.data.length := by
    intro tr htr
    have : ∃ b ∈ stS ++ stM, NearTrace (C * ε) b (exactTrace tr) := by
      rcases List.mem_append.1 htr with htr | htr
      · obtain ⟨b, hb, hn⟩ := nearStream_mem hnS htr
        exact ⟨b, List.mem_append_left _ hb, hn⟩
      · obtain ⟨b, hb, hn⟩ := nearStream_mem hnM htr
        exact ⟨b, List.mem_append_right _ hb, hn⟩
    obtain ⟨b, hb, h1, h2, -, h4⟩ := this
    have hq : b.onset.isSome ∧ b.slowness.isSome := by
      rcases List.mem_append.1 hb with hb | hb
      · obtain ⟨⟨o, ho⟩, s, hs⟩ := hheadS b hb
        exact ⟨by rw [ho]; rfl, by rw [hs]; rfl⟩
      · obtain ⟨s, hs⟩ := hslM b hb
        exact ⟨honset b hb, by rw [hs]; rfl⟩
    have hl4 := h4.length_eq
    simp only [exactTrace, List.length_map] at hl4
    have := hlen b hb
    rw [← h1, ← h2] at hq
    refine ⟨Option.isSome_iff_exists.1 ?_, Option.isSome_iff_exists.1 ?_, by omega⟩
    · simpa [exactTrace] using hq.1
    · simpa [exactTrace] using hq.2
  have hdSl : sdS.length = sdS'.length := by simpa using nS.length_eq
  have hdMl : sdM.length = sdM'.length := by simpa using nM.length_eq
  have hne' : tr0'.data ≠ [] := by rw [← List.length_pos_iff, ← hlen0]; exact List.length_pos_iff.2 hne
  obtain ⟨r', hr'⟩ := c25_hkSeq_succeeds (env := env') (tr0 := tr0') (rest := rest') (stM := stM') (preonset := pre')
    (HS := HS') (KS := KS') (HM := HM') (KM := KM') (VpSed := VpS') (VpMoho := VpM') (w1S := some v1S) (w2S := some v2S)
    (w3S := some v3S) (w1M := v1M) (w2M := v2M) (w3M := v3M) (stack := some true) hsdS' hsdM' hMne hne' hhead'
    (by omega) (by omega)
    (divisor_fl (by rw [hvS]; exact hVS)) (divisor_fl (by rw [hvM]; exact hVM)) (by simpa using hKS) (by simpa using hHS)
    (by simpa using hKM) (by simpa using hHM) hdraw
  have s1 := stackLike_stack (env := env) hsdS'
  have s2 := stackLike_stack (env := env) hsdM'
  rw [List.map_cons] at s1
  obtain ⟨r1, hr1⟩ := c25_hkSeq_succeeds (env := stackLike env env') (tr0 := exactTrace tr0') (rest := rest'.map exactTrace)
    (stM := stM'.map exactTrace) (preonset := pre'.val) (HS := HS'.map FL.val)
    (KS := KS'.map FL.val) (HM := HM'.map FL.val) (KM := KM'.map FL.val) (VpSed := VpS) (VpMoho := VpM)
    (w1S := some v1S.val) (w2S := some v2S.val) (w3S := some v3S.val) (w1M := v1M.val) (w2M := v2M.val) (w3M := v3M.val)
    (stack := some true) s1 s2 (by simpa using hMne) (by simpa [exactTrace] using hne')
    (by
      intro tr htr
      rw [← List.map_cons, ← List.map_append] at htr
      obtain ⟨c, hc, rfl⟩ := List.mem_map.1 htr
      obtain ⟨⟨o, ho⟩, ⟨s, hs⟩, hl⟩ := hhead' c hc
      refine ⟨⟨_, by simp [exactTrace, ho]; rfl⟩, ⟨_, by simp [exactTrace, hs]; rfl⟩, by simpa [exactTrace] using hl⟩)
    (by simp only [exactTrace, List.length_map]; omega) (by simp only [exactTrace, List.length_map]; omega)
    (divisor_real (k := VpS.kind) hVS) (divisor_real (k := VpM.kind) hVM) hKS hHS hKM hHM (fun _ _ => rfl)
  have hCε : 0 ≤ C * ε := by positivity
  have hnrS : List.Forall₂ (NearTrace (C * ε)) stS ((tr0' :: rest').map exactTrace) := by
    rw [List.forall₂_map_right_iff]; exact hnS
  have hnrM : List.Forall₂ (NearTrace (C * ε)) stM (stM'.map exactTrace) := by
    rw [List.forall₂_map_right_iff]; exact hnM
  rw [← List.map_cons] at hr1 s1
  obtain ⟨n1, rest1⟩ := c95_hkSeq_stacked (env := env) (env' := stackLike env env') rfl hnrS hnrM hCε hsdS s1 nS
    hsdM s2 nM h hr1
  have hr1' := hr1
  rw [show VpS = ⟨VpS.kind, VpS'.val.val⟩ by rw [hvS], show VpM = ⟨VpM.kind, VpM'.val.val⟩ by rw [hvM]] at hr1'
  have hslow : stM'.map (fun tr => slownessOf (exactTrace tr)) = stM.map slownessOf := by
    have h3 := hnM
    unfold NearStream at h3
    clear_value n
    clear * - h3
    induction h3 with
    | nil => rfl
    | cons hx _ ih =>
      rw [List.map_cons, List.map_cons, ih]
      congr 1
      unfold slownessOf
      rw [hx.1]
  have hray : meanRay env'.km2deg1.val stM' = p := by
    unfold meanRay
    rw [hslow, hkm, hnn, hp]
  have hsl : Slownesses stM' := by
    intro tr htr
    have : slownessOf (exactTrace tr) ∈ stM.map slownessOf := by
      rw [← hslow]
      exact List.mem_map_of_mem (f := fun tr => slownessOf (exactTrace tr)) htr
    obtain ⟨b, hb, he⟩ := List.mem_map.1 this
    rw [← he]
    exact hpos b hb
  have hA1 : ∀ a ∈ sdS', |a.val| ≤ AS + C * ε := fun a ha => near_bounded nS hAS _ (List.mem_map_of_mem ha)
  have hA2 : ∀ a ∈ sdM', |a.val| ≤ AM + C * ε := fun a ha => near_bounded nM hAM _ (List.mem_map_of_mem ha)
  have hcS' : ∀ k ∈ KS', ∀ x ∈ HS', ClearTimes (exactAxis tr0'.delta.val pre'.val tr0'.data.length)
      (tPs (meanRay env'.km2deg1.val stM') VpS'.val.val x.val k.val)
      (tPpPs (meanRay env'.km2deg1.val stM') VpS'.val.val x.val k.val)
      (tPsPs (meanRay env'.km2deg1.val stM') VpS'.val.val x.val k.val)
      (40 * meanAccuracy R.u stM'.length * (|tr0'.delta.val| * tr0'.data.length + |pre'.val| +
        timeScale (meanRay env'.km2deg1.val stM') VpS'.val.val x.val k.val)) := fun k hk y hy => by
    rw [hray, hnn, hvS, hdel, ← hlen0]
    have := hcS _ (List.mem_map_of_mem hk) _ (List.mem_map_of_mem hy)
    rwa [mul_right_comm] at this
  have n2 := hkSeq_sed_stacked (AS := AS + C * ε) (by rw [hnn]; exact hma.le) (by rw [hkm]; rfl) hr' hr1' (first := tr0') rfl
    hsdS' s1 hsl hA1 (fun k hk => by rw [hray, hnn, hvS]; exact hwS _ (List.mem_map_of_mem hk)) hcS'
  have a4 := accumulated_four R.u_nonneg (by linarith)
  have bound : ∀ W A : ℝ, 0 ≤ W → 0 ≤ A → accumulated R.u 4 * (W * (A + C * ε)) ≤ 15 * (W * (A + C)) * ε := by
    intro W A hW hA
    have : accumulated R.u 4 * (W * (A + C * ε)) ≤ 15 * ε * (W * (A + C)) :=
      mul_le_mul (a4.trans (by linarith)) (mul_le_mul_of_nonneg_left (by nlinarith) hW) (by positivity) (by positivity)
    linarith
  have bS := bound WS AS hWS0 hAS0
  have bM := bound WM AM hWM0 hAM0
  have cS : CS * ε ≤ C' * ε := mul_le_mul_of_nonneg_right (by linarith) hε.le
  have cM : CM * ε ≤ C' * ε := mul_le_mul_of_nonneg_right (by linarith) hε.le
  have eS : CS * ε = WS * (C * ε) + 15 * (WS * (AS + C)) * ε := by rw [hCS]; ring
  have eM : CM * ε = WM * (C * ε) + 15 * (WM * (AM + C)) * ε := by rw [hCM]; ring
  have qS : 0 ≤ 15 * (WS * (AS + C)) * ε := by positivity
  have qM : 0 ≤ 15 * (WM * (AM + C)) * ε := by positivity
  have hTS : NearTable (C' * ε) r.stackvalueSed (r'.stackvalueSed.map exactRow) :=
    nearTable_mono (by linarith) (nearTable_trans n1 n2)
  obtain ⟨_, _, _, bm', raw', f'⟩ := hkSeq_inv hr'
  have hbS : r'.bestIdxSed = r.bestIdxSed := nearTable_best hTS f.hbestS (best_fl f'.hbestS) (by rwa [← mul_assoc])
  obtain ⟨q1, q2⟩ := best_same hTS hbS f'.hrowS f.hrowS
  obtain ⟨e1, n3, -⟩ := rest1 (margin_mono (by linarith) hmrS)
  obtain ⟨-, rest2⟩ := c116_hkSeq_stacked_exact (AS := AS + C * ε) (AM := AM + C * ε) (by rw [hnn]; exact hma.le)
    (by rw [hkm]; rfl) hr' hr1' (first := tr0') rfl hsdS' hsdM' s1 s2 hsl hA1 hA2 (by positivity)
    (fun k hk => by rw [hray, hnn, hvS]; exact hwS _ (List.mem_map_of_mem hk))
    (fun k hk => by rw [hray, hnn, hvM]; exact hwM _ (List.mem_map_of_mem hk)) hcS' (by
      intro c hc k hk y hy
      have : c = bm' := Option.some.inj (hc.symm.trans f'.hrowS)
      subst this
      rw [hray, hnn, hvS, hvM, ← q1, ← q2, hdel, ← hlen0]
      have := hcM _ (List.mem_map_of_mem hk) _ (List.mem_map_of_mem hy)
      rwa [mul_right_comm] at this)
  have hm1 : Margin (2 * (accumulated R.u 4 * (WS * (AS + C * ε)))) r1.stackvalueSed r1.bestIdxSed := by
    rw [e1]
    exact margin_near n1 (margin_mono (by linarith) hmrS)
  obtain ⟨-, n4, -⟩ := rest2 hm1
  have hTM : NearTable (C' * ε) r.stackvalueMoho (r'.stackvalueMoho.map exactRow) :=
    nearTable_mono (by linarith) (nearTable_trans n3 n4)
  refine ⟨r', hr', hTS, hbS, hTM, ?_⟩
  obtain ⟨-, -, g1⟩ := rest1 (margin_mono (by linarith) hmrS)
  obtain ⟨-, -, g2⟩ := rest2 hm1
  have e2 := g1 (margin_mono (by linarith) hmrM)
  rw [← e2]
  refine g2 ?_
  rw [e2]
  exact margin_near n3 (margin_mono (by linarith) hmrM)

end Rfsed.Props
