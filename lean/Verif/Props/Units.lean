import Verif.Proofs.Units
import Verif.Props.HkZhu2
import Verif.Props.Variants
import Verif.Props.Seq

/-!
# Property C96: H-k stacking does not depend on the units of length and time

`a` and `b` are the factors of the numbers for lengths and for times (`Verif.Spec.Units`).
-/

namespace Rfsed.Props
open Spec PyFloat HkZhu

/-- **C96** `hk`. -/
theorem c96_hk {env env' : Env ℝ} {a b : ℝ} (ha : 0 < a) (hb : 0 < b) {st : List (Trace ℝ)} {preonset : ℝ}
    {H K : List ℝ} {Vp : Scalar ℝ} {w1 w2 w3 : Option ℝ} {layer : Option String} {stack : Option Bool}
    {r : HKResult ℝ} (hkm : env'.km2deg1 = env.km2deg1)
    (hstack : env'.stack (st.map (traceIn a b)) = env.stack st)
    (h : hk env st preonset H K (some Vp) w1 w2 w3 layer stack = .ok r)
    (hdraw : env'.draw (tableIn a r.stackvalues) = .ok ()) :
    ∃ r', hk env' (st.map (traceIn a b)) (b * preonset) (allIn a H) K (some (velocityIn a b Vp)) w1 w2 w3 layer
        stack = .ok r' ∧ r'.stackvalues = tableIn a r.stackvalues ∧ r'.bestIdx = r.bestIdx ∧
      r'.time = allIn b r.time ∧ r'.AvgSlow = b / a * r.AvgSlow ∧ r'.RFStack = r.RFStack := by
  obtain ⟨tr0, rest, slows, f⟩ := hk_inv h
  have hst := f.hst
  subst hst
  obtain ⟨more, hs⟩ := f.hstack
  have htime : timeAxis (traceIn a b tr0).delta (b * preonset) (traceIn a b tr0).data.length = allIn b r.time := by
    rw [f.htime, ← timeAxis_scale]; rfl
  have havg := avg_scale a b slows
  rw [← f.havg] at havg
  have hsl := slowness_scale (a := a) (b := b) f.hslow
  have hg := gridLoop_scale (a := a) f.hgrid (fun k _ x _ => cell_scale (env' := env') ha hb hkm (tr0 :: rest) r.time
    r.RFStack r.AvgSlow r.Vp (w1.getD (dec 6 1)) (w2.getD (dec 3 1)) (w3.getD (dec 1 1)) r.stack k x)
  rw [f.hVp, f.hstk, ← havg, ← htime] at hg
  refine ⟨_, hk_of_facts (hstack.trans hs) hsl hg ((tableIn_s a _).symm ▸ f.hbest) hdraw, rfl, rfl, htime, havg, rfl⟩

/-- **C96** `hkSynth`. -/
theorem c96_hkSynth {env env' : Env ℝ} {a b : ℝ} (ha : 0 < a) (hb : 0 < b) {d t : List ℝ} {rp Vp : Scalar ℝ}
    {H K : List ℝ} {w1 w2 w3 : Option ℝ} {layer : Option String} {r : SynthAnalysis.SynthResult ℝ}
    (h : SynthAnalysis.hkSynth env d t rp H K (some Vp) w1 w2 w3 layer = .ok r)
    (hdraw : env'.draw (tableIn a r.stackvalues) = .ok ()) :
    ∃ r', SynthAnalysis.hkSynth env' d (allIn b t) (slownessIn a b rp) (allIn a H) K (some (velocityIn a b Vp))
        w1 w2 w3 layer = .ok r' ∧ r'.stackvalues = tableIn a r.stackvalues ∧ r'.bestIdx = r.bestIdx := by
  have f := hkSynth_inv h
  have hg := gridLoop_scale (a := a) f.hgrid (fun k _ x _ => synthCell_scale ha hb d t rp Vp _ _ _ k x)
  exact ⟨_, hkSynth_of (Vp := some (velocityIn a b Vp)) hg ((tableIn_s a _).symm ▸ f.hbest) hdraw, rfl, rfl⟩

theorem scalarDiv_scale {a b : ℝ} (ha : 0 < a) (hb : 0 < b) {k : Kind} {x : ℝ} {v q : Scalar ℝ}
    (h : scalarDiv ⟨k, x⟩ v = .ok q) : ∃ q', scalarDiv ⟨k, a * x⟩ (velocityIn a b v) = .ok q' ∧ q'.val = b * q.val := by
  have e : PyFloat.eq (a / b * v.val) zero = PyFloat.eq v.val zero := by
    rw [Bool.eq_iff_iff, real_eq, real_eq, real_zero]
    simp [ha.ne', hb.ne']
  have e2 : a * x / (a / b * v.val) = b * (x / v.val) := by
    by_cases hv : v.val = 0
    · simp [hv]
    · field_simp
  unfold scalarDiv velocityIn at *
  simp only [e, e2]
  cases hk : k.join v.kind with
  | np =>
    simp only [hk] at h ⊢
    cases h
    exact ⟨_, rfl, rfl⟩
  | py =>
    simp only [hk] at h ⊢
    split at h
    · cases h
    · rename_i hz
      cases h
      rw [if_neg hz]
      exact ⟨_, rfl, rfl⟩

/-- **C96** `hkYu`. -/
theorem c96_hkYu {env env' : Env ℝ} {a b : ℝ} (ha : 0 < a) (hb : 0 < b) {flt : HkYu.FltInput ℝ}
    {rp VpMoho VpSed VsSed : Scalar ℝ} {H K : List ℝ} {w1 w2 w3 : ℝ} {r : HkYu.YuResult ℝ}
    (h : HkYu.hkYu env flt rp H K (some VpMoho) (some VpSed) (some VsSed) (some w1) (some w2) (some w3) = .ok r)
    (hdraw : env'.draw (tableIn a r.stackvaluesSubSed) = .ok ()) :
    ∃ r', HkYu.hkYu env' ⟨flt.filteredrf, allIn b flt.time, timeIn b flt.tlag⟩ (slownessIn a b rp) (allIn a H) K
        (some (velocityIn a b VpMoho)) (some (velocityIn a b VpSed)) (some (velocityIn a b VsSed)) (some w1) (some w2)
        (some w3) = .ok r' ∧
      r'.stackvaluesSubSed = tableIn a r.stackvaluesSubSed ∧ r'.bestIdx = r.bestIdx ∧
      r'.SedThick = a * r.SedThick ∧ r'.Pdelay = b * r.Pdelay ∧ r'.SubSedThick = a * r.SubSedThick ∧
      r'.SubSedVpVs = r.SubSedVpVs := by
  obtain ⟨vs, qa, qb, bmod, f⟩ := hkYu_inv h
  have hvs := f.hvs
  cases hvs
  have e1 : b * flt.tlag.val * (a / b * VsSed.val) / two = a * r.SedThick := by
    rw [f.hSed]; field_simp
  obtain ⟨qa', ga, va⟩ := scalarDiv_scale ha hb f.ha
  obtain ⟨qb', gb, vb⟩ := scalarDiv_scale ha hb f.hb
  have hVpS : r.VpSed = VpSed := f.hVpSed
  have hVpM : r.VpMoho = VpMoho := f.hVp
  have e2 : qa'.val - qb'.val = b * r.Pdelay := by rw [va, vb, f.hPd]; ring
  have hg := gridLoop_scale (a := a) (v' := HkYu.cell ⟨flt.filteredrf, allIn b flt.time, timeIn b flt.tlag⟩
    (slownessIn a b rp) (velocityIn a b VpMoho) (b * r.Pdelay) (some w1) (some w2) (some w3)) f.hgrid (by
    intro k _ x _
    rw [yuCell_eq, yuCell_eq, hVpM]
    have : bestTimes (velocityIn a b VpMoho) (slownessIn a b rp).kind (slownessIn a b rp).val (a * x) k =
      (bestTimes VpMoho rp.kind rp.val x k).map (timesIn b) := bestTimes_scale ha hb _ _ _ _ _
    rw [this]
    cases bestTimes VpMoho rp.kind rp.val x k with
    | error e => rfl
    | ok ts =>
      simp only [Except.map, except_ok_bind]
      have : yuShift (timeIn b flt.tlag).val (b * r.Pdelay) (timesIn b ts) =
          timesIn b (yuShift flt.tlag.val r.Pdelay ts) := by
        simp only [yuShift, timesIn, timeIn, numIn_addr, numIn_subr]
      rw [this, weigh_units hb])
  rw [hVpS] at gb
  have hrow : (tableIn a r.stackvaluesSubSed)[r.bestIdx]? = some ⟨a * bmod.h, bmod.k, bmod.s⟩ := by
    rw [tableIn_get, f.hrow]; rfl
  refine ⟨{ FltRF := flt.filteredrf, time := allIn b flt.time, tlag := timeIn b flt.tlag, Pdelay := b * r.Pdelay,
            rayp := slownessIn a b rp, bestIdx := r.bestIdx, VpMoho := velocityIn a b VpMoho,
            VpSed := velocityIn a b VpSed, stackvaluesSubSed := tableIn a r.stackvaluesSubSed, HMoho := allIn a H,
            KMoho := K, SubSedThick := a * bmod.h, SubSedVpVs := bmod.k, SedThick := a * r.SedThick },
    ?_, rfl, rfl, rfl, rfl, ?_, ?_⟩
  · unfold HkYu.hkYu
    simp only [Option.getD_some, HkYu.need, except_ok_bind]
    simp only [timeIn] at *
    simp only [show (velocityIn a b VsSed).val = a / b * VsSed.val from rfl,
      show (velocityIn a b VsSed).kind = VsSed.kind from rfl, e1]
    rw [ga, except_ok_bind, gb, except_ok_bind]
    simp only [e2, hg, except_ok_bind, tableIn_s, f.hbest, hdraw, item_ok.2 hrow, except_pure]
  · simp only [f.hthick]
  · simp only [f.hvpvs]

/-- **C96** `hkSeqSynth`. -/
theorem c96_hkSeqSynth {env env' : Env ℝ} {a b : ℝ} (ha : 0 < a) (hb : 0 < b) {dS dM t : List ℝ}
    {rp VpSed VpMoho : Scalar ℝ} {HS KS HM KM : List ℝ} {w1S w2S w3S : Option ℝ} {w1M w2M w3M : ℝ}
    {r : SynthAnalysis.SeqSynthResult ℝ}
    (h : SynthAnalysis.hkSeqSynth env dS dM t rp HS KS (some VpSed) w1S w2S w3S HM KM (some VpMoho) (some w1M)
      (some w2M) (some w3M) = .ok r)
    (hdrawS : env'.draw (tableIn a r.stackvalueSed) = .ok ())
    (hdrawM : env'.draw (tableIn a r.stackvalueMoho) = .ok ()) :
    ∃ r', SynthAnalysis.hkSeqSynth env' dS dM (allIn b t) (slownessIn a b rp) (allIn a HS) KS
        (some (velocityIn a b VpSed)) w1S w2S w3S (allIn a HM) KM (some (velocityIn a b VpMoho)) (some w1M)
        (some w2M) (some w3M) = .ok r' ∧
      r'.stackvalueSed = tableIn a r.stackvalueSed ∧ r'.bestIdxSed = r.bestIdxSed ∧
      r'.stackvalueMoho = tableIn a r.stackvalueMoho ∧ r'.bestIdxMoho = r.bestIdxMoho := by
  obtain ⟨bmod, raw, f⟩ := hkSeqSynth_inv h
  have hV : r.VpSed = VpSed := f.hVpSed
  have hS := f.hgridS
  have hM := f.hgridM
  rw [hV] at hS hM
  have gS := gridLoop_scale (a := a) hS (v' := SynthAnalysis.seqSedCell dS (allIn b t) (slownessIn a b rp)
    (velocityIn a b VpSed) (w1S.getD (dec 6 1)) (w2S.getD (dec 3 1)) (w3S.getD (dec 1 1)))
    (fun k _ x _ => by rw [seqSedCell_eq, seqSedCell_eq]; exact synthCell_scale ha hb dS t rp VpSed _ _ _ k x)
  have gM := gridLoop_scale (a := a) hM
    (fun k _ x _ => seqMohoCell_scale ha hb dM t rp VpSed VpMoho bmod.h bmod.k w1M w2M w3M k x)
  have hrow : (tableIn a r.stackvalueSed)[r.bestIdxSed]? = some ⟨a * bmod.h, bmod.k, bmod.s⟩ := by
    rw [tableIn_get, f.hrowS]; rfl
  rw [f.hclip, ← tableIn_clip] at hdrawM
  refine ⟨_, hkSeqSynth_of (VpSed := some (velocityIn a b VpSed)) (VpMoho := some (velocityIn a b VpMoho)) gS
    ((tableIn_s a _).symm ▸ f.hbestS) hdrawS hrow gM ((tableIn_s a _).symm ▸ f.hbestM) hdrawM, rfl, rfl, ?_, rfl⟩
  simp only [f.hclip, tableIn_clip]

/-- **C96** `hkSeq`. -/
theorem c96_hkSeq {env env' : Env ℝ} {a b : ℝ} (ha : 0 < a) (hb : 0 < b) {stS stM : List (Trace ℝ)} {preonset : ℝ}
    {VpSed VpMoho : Scalar ℝ} {HS KS HM KM : List ℝ} {w1S w2S w3S : Option ℝ} {w1M w2M w3M : ℝ}
    {stack : Option Bool} {r : HkSeqYeck.SeqResult ℝ} (hkm : env'.km2deg1 = env.km2deg1)
    (hstackS : env'.stack (stS.map (traceIn a b)) = env.stack stS)
    (hstackM : env'.stack (stM.map (traceIn a b)) = env.stack stM)
    (h : HkSeqYeck.hkSeq env stS stM preonset HS KS (some VpSed) w1S w2S w3S HM KM (some VpMoho) (some w1M)
      (some w2M) (some w3M) stack = .ok r)
    (hdrawS : env'.draw (tableIn a r.stackvalueSed) = .ok ())
    (hdrawM : env'.draw (tableIn a r.stackvalueMoho) = .ok ()) :
    ∃ r', HkSeqYeck.hkSeq env' (stS.map (traceIn a b)) (stM.map (traceIn a b)) (b * preonset) (allIn a HS) KS
        (some (velocityIn a b VpSed)) w1S w2S w3S (allIn a HM) KM (some (velocityIn a b VpMoho)) (some w1M)
        (some w2M) (some w3M) stack = .ok r' ∧
      r'.stackvalueSed = tableIn a r.stackvalueSed ∧ r'.bestIdxSed = r.bestIdxSed ∧
      r'.stackvalueMoho = tableIn a r.stackvalueMoho ∧ r'.bestIdxMoho = r.bestIdxMoho ∧
      r'.time = allIn b r.time := by
  obtain ⟨tr0, rest, slows, bmod, raw, f⟩ := hkSeq_inv h
  have hst := f.hst
  subst hst
  obtain ⟨mS, hs⟩ := f.hstackS
  obtain ⟨mM, hm⟩ := f.hstackM
  have hV : r.VpSed = VpSed := f.hVpSed
  have hS := f.hgridS
  have hM := f.hgridM
  have htime : timeAxis (traceIn a b tr0).delta (b * preonset) (traceIn a b tr0).data.length = allIn b r.time := by
    rw [f.htime, ← timeAxis_scale]; rfl
  have havg := avg_scale a b slows
  rw [← f.havg] at havg
  have hsl := slowness_scale (a := a) (b := b) f.hslow
  rw [hV] at hS hM
  have gS := gridLoop_scale (a := a) hS (v' := fun k x => HkSeqYeck.lastTrace (HkSeqYeck.sedTerm env' (allIn b r.time)
    r.RFSedStack (b / a * r.AvgSlow) (velocityIn a b VpSed) (w1S.getD (dec 6 1)) (w2S.getD (dec 3 1))
    (w3S.getD (dec 1 1)) r.stack k x) ((tr0 :: rest).map (traceIn a b))) (fun k _ x _ => lastTrace_scale (a := a) (b := b) (tr0 :: rest)
    (fun tr => sedTerm_scale (env' := env') ha hb hkm r.time r.RFSedStack r.AvgSlow VpSed (w1S.getD (dec 6 1))
      (w2S.getD (dec 3 1)) (w3S.getD (dec 1 1)) r.stack k x tr))
  have gM := gridLoop_scale (a := a) hM (v' := fun k x => HkSeqYeck.lastTrace (HkSeqYeck.mohoTerm env'
    (stM.map (traceIn a b)) (allIn b r.time) r.RFMohoStack (b / a * r.AvgSlow) (velocityIn a b VpSed) (a * bmod.h)
    bmod.k (some (velocityIn a b VpMoho)) (some w1M) (some w2M) (some w3M) r.stack k x) (stM.map (traceIn a b)))
    (fun k _ x _ => lastTrace_scale (a := a) (b := b) stM
    (fun tr => mohoTerm_scale (env' := env') ha hb hkm stM r.time r.RFMohoStack r.AvgSlow VpSed VpMoho bmod.h bmod.k
      w1M w2M w3M r.stack k x tr))
  rw [f.hstk, ← havg, ← htime] at gS gM
  have hrow : (tableIn a r.stackvalueSed)[r.bestIdxSed]? = some ⟨a * bmod.h, bmod.k, bmod.s⟩ := by
    rw [tableIn_get, f.hrowS]; rfl
  rw [f.hclip, ← tableIn_clip] at hdrawM
  refine ⟨_, hkSeq_of (VpSed := some (velocityIn a b VpSed)) (VpMoho := some (velocityIn a b VpMoho))
    (hstackS.trans hs) (hstackM.trans hm) hsl gS ((tableIn_s a _).symm ▸ f.hbestS) hdrawS hrow gM
    ((tableIn_s a _).symm ▸ f.hbestM) hdrawM, rfl, rfl, ?_, rfl, htime⟩
  simp only [f.hclip, tableIn_clip]

/-- metres and milliseconds instead of kilometres and seconds -/
example : ∃ r r', hk Sample.env Sample.stream 1 [30, 35] [1.7, 1.8, 1.9] (some ⟨.py, 6.5⟩) none none none none none
      = .ok r ∧
    hk Sample.env (Sample.stream.map (traceIn 1000 1000)) (1000 * 1) (allIn 1000 [30, 35]) [1.7, 1.8, 1.9]
      (some (velocityIn 1000 1000 ⟨.py, 6.5⟩)) none none none none none = .ok r' ∧ r'.bestIdx = r.bestIdx := by
  obtain ⟨r, hr⟩ := sample_ok none none none none
  obtain ⟨r', h', _, e, _⟩ := c96_hk (env' := Sample.env) (a := 1000) (b := 1000) (by norm_num) (by norm_num) rfl
    (by simp [Sample.env, Sample.meanStack, Sample.stream, Sample.trace, traceIn]) hr rfl
  exact ⟨r, r', hr, h', e⟩

/-- `hkYu`: a sediment of half a kilometre is one of 500 metres -/
example : ∃ r', HkYu.hkYu Sample.env ⟨sampleFlt.filteredrf, allIn 1 sampleFlt.time, timeIn 1 sampleFlt.tlag⟩
      (slownessIn 1000 1 ⟨.py, 6 / 100⟩) (allIn 1000 [30, 35, 40]) [17 / 10, 18 / 10]
      (some (velocityIn 1000 1 ⟨.py, 65 / 10⟩)) (some (velocityIn 1000 1 ⟨.py, 25 / 10⟩))
      (some (velocityIn 1000 1 ⟨.py, 1⟩)) (some (6 / 10)) (some (3 / 10)) (some (1 / 10)) = .ok r' ∧
      r'.SedThick = 500 ∧ r'.Pdelay = 3 / 10 := by
  obtain ⟨r, hr⟩ := c25_hkYu_succeeds (env := Sample.env) (flt := sampleFlt) (rp := ⟨.py, 6 / 100⟩)
    (H := [30, 35, 40]) (K := [17 / 10, 18 / 10]) (VpMoho := ⟨.py, 65 / 10⟩)
    (VpSed := ⟨.py, 25 / 10⟩) (VsSed := ⟨.py, 1⟩) (w1 := 6 / 10) (w2 := 3 / 10) (w3 := 1 / 10)
    (by simp [sampleFlt]) (by simp [sampleFlt]) (divisor_real (by norm_num))
    (divisor_real (by norm_num)) (divisor_real (by norm_num)) (by simp) (by simp) (fun _ _ => rfl)
  obtain ⟨h1, h2, _⟩ := c23_thickness_delay hr (by norm_num) (by norm_num)
  obtain ⟨r', h', _, _, e1, e2, _⟩ := c96_hkYu (env' := Sample.env) (a := 1000) (b := 1) (by norm_num) (by norm_num)
    hr rfl
  refine ⟨r', h', ?_, ?_⟩
  · rw [e1, h1]; norm_num [sampleFlt]
  · rw [e2, h2]; norm_num [sampleFlt]

/-- `hkSeqSynth` with times in milliseconds -/
example : ∃ r r', SynthAnalysis.hkSeqSynth Sample.env [0, 1, 3, 2, 0, -1] [0, 1, 2, 2, 0, -1]
      [-1, -1 / 2, 0, 1 / 2, 1, 3 / 2] ⟨.py, 6 / 100⟩ [1, 2] [2, 3] (some ⟨.py, 3⟩) none none none
      [30, 35] [17 / 10, 18 / 10] (some ⟨.py, 65 / 10⟩) (some (6 / 10)) (some (3 / 10))
      (some (1 / 10)) = .ok r ∧
    SynthAnalysis.hkSeqSynth Sample.env [0, 1, 3, 2, 0, -1] [0, 1, 2, 2, 0, -1]
      (allIn 1000 [-1, -1 / 2, 0, 1 / 2, 1, 3 / 2]) (slownessIn 1 1000 ⟨.py, 6 / 100⟩) (allIn 1 [1, 2]) [2, 3]
      (some (velocityIn 1 1000 ⟨.py, 3⟩)) none none none (allIn 1 [30, 35]) [17 / 10, 18 / 10]
      (some (velocityIn 1 1000 ⟨.py, 65 / 10⟩)) (some (6 / 10)) (some (3 / 10)) (some (1 / 10)) = .ok r' ∧
    r'.bestIdxMoho = r.bestIdxMoho := by
  obtain ⟨r, hr⟩ := c25_hkSeqSynth_succeeds (env := Sample.env) (dS := [0, 1, 3, 2, 0, -1])
    (dM := [0, 1, 2, 2, 0, -1]) (t := [-1, -1 / 2, 0, 1 / 2, 1, 3 / 2]) (rp := ⟨.py, 6 / 100⟩)
    (HS := [1, 2]) (KS := [2, 3]) (HM := [30, 35]) (KM := [17 / 10, 18 / 10])
    (VpSed := ⟨.py, 3⟩) (VpMoho := ⟨.py, 65 / 10⟩) (w1S := none) (w2S := none) (w3S := none)
    (w1M := 6 / 10) (w2M := 3 / 10) (w3M := 1 / 10)
    (by simp) (by simp) (by simp) (divisor_real (by norm_num)) (divisor_real (by norm_num))
    (by simp) (by simp) (by simp) (by simp) (fun _ _ => rfl)
  obtain ⟨r', h', _, _, _, e⟩ := c96_hkSeqSynth (env' := Sample.env) (a := 1) (b := 1000) (by norm_num)
    (by norm_num) hr rfl rfl
  exact ⟨r, r', hr, h', e⟩

/-- `hkSeq` in metres -/
example : ∃ r r', HkSeqYeck.hkSeq Sample.env Sample.stream Sample.stream 1 [1, 2] [2, 3] (some ⟨.py, 3⟩) none none
      none [30, 35] [17 / 10, 18 / 10] (some ⟨.py, 65 / 10⟩) (some (6 / 10)) (some (3 / 10)) (some (1 / 10)) none
      = .ok r ∧
    HkSeqYeck.hkSeq Sample.env (Sample.stream.map (traceIn 1000 1)) (Sample.stream.map (traceIn 1000 1)) (1 * 1)
      (allIn 1000 [1, 2]) [2, 3] (some (velocityIn 1000 1 ⟨.py, 3⟩)) none none none (allIn 1000 [30, 35])
      [17 / 10, 18 / 10] (some (velocityIn 1000 1 ⟨.py, 65 / 10⟩)) (some (6 / 10)) (some (3 / 10)) (some (1 / 10))
      none = .ok r' ∧ r'.bestIdxMoho = r.bestIdxMoho := by
  obtain ⟨r, hr⟩ := sample_hkSeq (Sample.trace [0, 1, 3, 2, 0] 6) [Sample.trace [1, 1, 2, 0, -1] 7]
    (Sample.trace [0, 1, 3, 2, 0] 6) [Sample.trace [1, 1, 2, 0, -1] 7] (by simp [Sample.trace])
    (by
      intro tr htr
      simp at htr
      rcases htr with rfl | rfl | rfl | rfl <;> simp [Sample.trace])
    (HS := [1, 2]) (KS := [2, 3]) (HM := [30, 35]) (KM := [17 / 10, 18 / 10]) (by simp) (by simp) (by simp)
    (by simp) (Vp := 3) (vm := 65 / 10) (by norm_num) (by norm_num) 1 none none none (6 / 10) (3 / 10) (1 / 10) none
  have hs : Sample.env.stack (Sample.stream.map (traceIn 1000 1)) = Sample.env.stack Sample.stream := by
    simp [Sample.env, Sample.meanStack, Sample.stream, Sample.trace, traceIn]
  obtain ⟨r', h', _, _, _, e, _⟩ := c96_hkSeq (env' := Sample.env) (a := 1000) (b := 1) (by norm_num) (by norm_num)
    rfl hs hs hr rfl rfl
  exact ⟨r, r', hr, h', e⟩

end Rfsed.Props
