import Verif.Proofs.Tradeoff
import Verif.Props.DelayTimes
import Verif.Props.Seq
import Verif.Props.Variants

/-!
# C118: the assumed P velocity

Exact reals.  All P waves propagate (`Propagates`); S waves are assumed to (real numbers have no NaN).
-/

namespace Rfsed.Props
open PyFloat Rfsed.Spec Rfsed.Proofs Rfsed.HkZhu

/-- **C118**: for one ray parameter, every other velocity has a model with the same three delay times. -/
theorem c118_times {p V V' : ℝ} (h : Propagates p V) (h' : Propagates p V') (H K : ℝ) :
    tPs p V' (tradeH p V V' H) (tradeK p V V' K) = tPs p V H K ∧
    tPpPs p V' (tradeH p V V' H) (tradeK p V V' K) = tPpPs p V H K ∧
    tPsPs p V' (tradeH p V V' H) (tradeK p V V' K) = tPsPs p V H K := trade_times h h' H K

/-- **C118**: it is the only one. -/
theorem c118_unique {p V V' H K H' K' : ℝ} (h : Propagates p V) (h' : Propagates p V') (hH : 0 < H)
    (hK' : 0 < K') (hH' : 0 < H') (hpK : p ^ 2 < (K / V) ^ 2) (hpK' : p ^ 2 ≤ (K' / V') ^ 2)
    (e1 : tPs p V' H' K' = tPs p V H K) (e2 : tPpPs p V' H' K' = tPpPs p V H K) :
    H' = tradeH p V V' H ∧ K' = tradeK p V V' K := by
  obtain ⟨t1, t2, _⟩ := trade_times h h' H K
  have hs : 0 < eta p (V / K) := by rw [eta_ratio]; exact Real.sqrt_pos.2 (by linarith)
  have hp1 := eta_pos h
  have hp2 := eta_pos h'
  have hV := h'.1
  have hk : 0 < tradeK p V V' K := by
    unfold tradeK
    exact mul_pos hV (Real.sqrt_pos.2 (by positivity))
  have hsq : p ^ 2 ≤ (tradeK p V V' K / V') ^ 2 := by
    have : tradeK p V V' K / V' = Real.sqrt (p ^ 2 + (eta p (V / K) * (eta p V' / eta p V)) ^ 2) := by
      unfold tradeK; field_simp
    rw [this, Real.sq_sqrt (by positivity)]
    have : 0 ≤ (eta p (V / K) * (eta p V' / eta p V)) ^ 2 := by positivity
    linarith
  have hh : 0 < tradeH p V V' H := by unfold tradeH; positivity
  exact c09_unique p V' H' K' _ _ hV hH' hK' hh hk h'.2 hpK' hsq (e1.trans t1.symm) (e2.trans t2.symm)

/-- **C118**: a velocity that is too high gives a layer that is too thick and a velocity ratio that is too low (unless
the incidence is vertical: then the ratio is right and the thickness is wrong by the same factor as the velocity). -/
theorem c118_bias {p V V' H K : ℝ} (h : Propagates p V) (h' : Propagates p V') (hp : 0 ≤ p) (hV : V < V') (hH : 0 < H)
    (hK : 1 < K) :
    H < tradeH p V V' H ∧ tradeK p V V' K ≤ K ∧ (0 < p → tradeK p V V' K < K) := by
  have hp1 := eta_pos h
  have hp2 := eta_pos h'
  have hV0 := h.1
  have hV0' := h'.1
  have i1 : (1 / V') ^ 2 < (1 / V) ^ 2 := by
    have : 1 / V' < 1 / V := one_div_lt_one_div_of_lt hV0 hV
    have h0 : 0 < 1 / V' := by positivity
    nlinarith
  have he : eta p V' < eta p V := by
    rw [eta_one, eta_one]
    exact Real.sqrt_lt_sqrt (by linarith [h'.2]) (by linarith)
  refine ⟨?_, ?_⟩
  · unfold tradeH
    have : 1 < eta p V / eta p V' := by rwa [one_lt_div hp2]
    nlinarith
  · have s1 : (eta p V) ^ 2 = (1 / V) ^ 2 - p ^ 2 := by rw [eta_one, Real.sq_sqrt (by linarith [h.2])]
    have s2 : (eta p V') ^ 2 = (1 / V') ^ 2 - p ^ 2 := by rw [eta_one, Real.sq_sqrt (by linarith [h'.2])]
    have hk1 : p ^ 2 ≤ (K / V) ^ 2 := by
      have : (1 / V) ^ 2 ≤ (K / V) ^ 2 := by
        rw [div_pow, div_pow]
        gcongr
      linarith [h.2]
    have s3 : (eta p (V / K)) ^ 2 = (K / V) ^ 2 - p ^ 2 := by rw [eta_ratio, Real.sq_sqrt (by linarith)]
    have hsq : (tradeK p V V' K) ^ 2 = V' ^ 2 * (p ^ 2 + ((K / V) ^ 2 - p ^ 2) * (((1 / V') ^ 2 - p ^ 2) / ((1 / V) ^ 2 - p ^ 2))) := by
      unfold tradeK
      rw [mul_pow, Real.sq_sqrt (by positivity), mul_pow, div_pow, s1, s2, s3]
    have hd : 0 < 1 - p ^ 2 * V ^ 2 := by
      have := h.2
      rw [div_pow, one_pow, lt_div_iff₀ (by positivity)] at this
      linarith
    have hd' : 0 < 1 - p ^ 2 * V' ^ 2 := by
      have := h'.2
      rw [div_pow, one_pow, lt_div_iff₀ (by positivity)] at this
      linarith
    have key : K ^ 2 - (tradeK p V V' K) ^ 2 = p ^ 2 * (V' ^ 2 - V ^ 2) * (K ^ 2 - 1) / (1 - p ^ 2 * V ^ 2) := by
      rw [hsq]
      have e : (1 / V) ^ 2 - p ^ 2 = (1 - p ^ 2 * V ^ 2) / V ^ 2 := by field_simp
      rw [e]
      have := hd.ne'
      field_simp
      ring
    have hk0 : 0 ≤ tradeK p V V' K := by unfold tradeK; positivity
    have hv2 : 0 < V' ^ 2 - V ^ 2 := by nlinarith
    have hk2 : 0 < K ^ 2 - 1 := by nlinarith
    constructor
    · have : 0 ≤ p ^ 2 * (V' ^ 2 - V ^ 2) * (K ^ 2 - 1) / (1 - p ^ 2 * V ^ 2) := by positivity
      nlinarith
    · intro hp0
      have : 0 < p ^ 2 * (V' ^ 2 - V ^ 2) * (K ^ 2 - 1) / (1 - p ^ 2 * V ^ 2) := by positivity
      nlinarith

/-- **C118**: vertical incidence. -/
theorem c118_vertical {V V' : ℝ} (hV : 0 < V) (hV' : 0 < V') (H : ℝ) {K : ℝ} (hK : 0 ≤ K) :
    tradeH 0 V V' H = H * (V' / V) ∧ tradeK 0 V V' K = K := by
  have e : ∀ W : ℝ, 0 ≤ W → eta 0 W = 1 / W := by
    intro W hW
    rw [eta_one, show (1 / W) ^ 2 - (0 : ℝ) ^ 2 = (1 / W) ^ 2 by ring, Real.sqrt_sq (by positivity)]
  constructor
  · unfold tradeH
    rw [e V hV.le, e V' hV'.le]
    field_simp
  · unfold tradeK
    rw [e V hV.le, e V' hV'.le, e (V / K) (by positivity)]
    rw [show (0 : ℝ) ^ 2 + (1 / (V / K) * (1 / V' / (1 / V))) ^ 2 = (K / V') ^ 2 by
      rcases eq_or_ne K 0 with rfl | h0
      · simp
      · field_simp; ring]
    rw [Real.sqrt_sq (by positivity)]
    field_simp

/-- **C118** `hkSynth`: with another velocity and the corresponding grid the table has the same values at the
corresponding grid points, and the best models correspond. -/
theorem c118_hkSynth {env env' : Env ℝ} {d t : List ℝ} {rp Vp Vp' : Scalar ℝ}
    {H K : List ℝ} {w1 w2 w3 : Option ℝ} {layer : Option String} {r : SynthAnalysis.SynthResult ℝ}
    (h : SynthAnalysis.hkSynth env d t rp H K (some Vp) w1 w2 w3 layer = .ok r)
    (hV : Propagates rp.val Vp.val) (hV' : Propagates rp.val Vp'.val)
    (hdraw : ∀ tb, env'.draw tb = .ok ()) :
    ∃ r', SynthAnalysis.hkSynth env' d t rp (H.map (tradeH rp.val Vp.val Vp'.val))
        (K.map (tradeK rp.val Vp.val Vp'.val)) (some Vp') w1 w2 w3 layer = .ok r' ∧
      r'.stackvalues = relabelled (tradeH rp.val Vp.val Vp'.val) (tradeK rp.val Vp.val Vp'.val) r.stackvalues ∧
      r'.bestIdx = r.bestIdx := by
  have f := hkSynth_inv h
  have hg := gridLoop_relabel (f := tradeH rp.val Vp.val Vp'.val) (g := tradeK rp.val Vp.val Vp'.val)
    (v' := SynthAnalysis.cell d t rp Vp' (w1.getD (dec 6 1)) (w2.getD (dec 3 1)) (w3.getD (dec 1 1))) f.hgrid
    (fun k _ x _ => by
      simp only [Option.getD_some]
      rw [synthCell_eq, synthCell_eq, bestTimes_trade (kd := rp.kind) hV hV'])
  exact ⟨_, hkSynth_of (Vp := some Vp') hg ((relabelled_s _ _ _).symm ▸ f.hbest) (hdraw _), rfl, rfl⟩

/-- **C118** `hk`, all traces with the same ray parameter (as with `stack=True`, where the mean slowness is used). -/
theorem c118_hk {env env' : Env ℝ} {st : List (Trace ℝ)} {preonset : ℝ}
    {H K : List ℝ} {Vp Vp' : Scalar ℝ} {w1 w2 w3 : Option ℝ} {layer : Option String} {stack : Bool}
    {r : HKResult ℝ} {p : ℝ} (hkm : env'.km2deg1 = env.km2deg1) (hstack : env'.stack st = env.stack st)
    (h : hk env st preonset H K (some Vp) w1 w2 w3 layer (some stack) = .ok r)
    (hray : ∀ tr ∈ st, ∀ sl, tr.slowness = some sl →
      (if stack then env.km2deg1 * r.AvgSlow else env.km2deg1 * sl.val) = p)
    (hV : Propagates p Vp.val) (hV' : Propagates p Vp'.val) (hdraw : ∀ tb, env'.draw tb = .ok ()) :
    ∃ r', hk env' st preonset (H.map (tradeH p Vp.val Vp'.val)) (K.map (tradeK p Vp.val Vp'.val)) (some Vp') w1 w2 w3
        layer (some stack) = .ok r' ∧
      r'.stackvalues = relabelled (tradeH p Vp.val Vp'.val) (tradeK p Vp.val Vp'.val) r.stackvalues ∧
      r'.bestIdx = r.bestIdx := by
  obtain ⟨tr0, rest, slows, f⟩ := hk_inv h
  have hst := f.hst
  subst hst
  obtain ⟨more, hs⟩ := f.hstack
  have hg := gridLoop_relabel (f := tradeH p Vp.val Vp'.val) (g := tradeK p Vp.val Vp'.val)
    (v' := cell env' (tr0 :: rest) r.time r.RFStack r.AvgSlow Vp' (w1.getD (dec 6 1)) (w2.getD (dec 3 1))
      (w3.getD (dec 1 1)) stack) f.hgrid
    (fun k _ x _ => by
      rw [f.hVp, f.hstk, cell_eq, cell_eq]
      simp only [Option.getD_some]
      congr 1
      apply mapM_congr_mem
      intro tr htr
      rw [traceTerm_eq, traceTerm_eq, hkm]
      cases tr.getOnset with
      | error e => rfl
      | ok o =>
        simp only [except_ok_bind]
        cases hsl : tr.getSlowness with
        | error e => rfl
        | ok sl =>
          simp only [except_ok_bind]
          rw [hray tr htr sl (getSlowness_ok.1 hsl), bestTimes_trade (kd := if stack then Kind.np else sl.kind) hV hV'])
  rw [f.havg, f.htime] at hg
  refine ⟨_, hk_of_facts (stack := some stack) (Vp := some Vp') (hstack.trans hs) f.hslow hg
    ((relabelled_s _ _ _).symm ▸ f.hbest) (hdraw _), rfl, rfl⟩

/-- **C118** `hkYu`: another crustal velocity. -/
theorem c118_hkYu {env env' : Env ℝ} {flt : HkYu.FltInput ℝ} {rp Vp Vp' : Scalar ℝ} {H K : List ℝ}
    {VpSed VsSed : Option (Scalar ℝ)} {w1 w2 w3 : ℝ} {r : HkYu.YuResult ℝ}
    (h : HkYu.hkYu env flt rp H K (some Vp) VpSed VsSed (some w1) (some w2) (some w3) = .ok r)
    (hV : Propagates rp.val Vp.val) (hV' : Propagates rp.val Vp'.val) (hdraw : ∀ tb, env'.draw tb = .ok ()) :
    ∃ r', HkYu.hkYu env' flt rp (H.map (tradeH rp.val Vp.val Vp'.val)) (K.map (tradeK rp.val Vp.val Vp'.val)) (some Vp')
        VpSed VsSed (some w1) (some w2) (some w3) = .ok r' ∧
      r'.stackvaluesSubSed =
        relabelled (tradeH rp.val Vp.val Vp'.val) (tradeK rp.val Vp.val Vp'.val) r.stackvaluesSubSed ∧
      r'.bestIdx = r.bestIdx ∧ r'.SubSedThick = tradeH rp.val Vp.val Vp'.val r.SubSedThick ∧
      r'.SubSedVpVs = tradeK rp.val Vp.val Vp'.val r.SubSedVpVs ∧ r'.SedThick = r.SedThick ∧ r'.Pdelay = r.Pdelay := by
  obtain ⟨vs, qa, qb, bmod, f⟩ := hkYu_inv h
  have hvs := f.hvs
  subst hvs
  have hVpM : r.VpMoho = Vp := f.hVp
  have ha := f.ha
  have hb := f.hb
  rw [f.hSed] at ha hb
  rw [f.hVpSed] at hb
  have hg := gridLoop_relabel (f := tradeH rp.val Vp.val Vp'.val) (g := tradeK rp.val Vp.val Vp'.val)
    (v' := HkYu.cell flt rp Vp' r.Pdelay (some w1) (some w2) (some w3)) f.hgrid (fun k _ x _ => by
      rw [yuCell_eq, yuCell_eq, hVpM, bestTimes_trade (kd := rp.kind) hV hV'])
  rw [f.hPd] at hg
  have hrow : (relabelled (tradeH rp.val Vp.val Vp'.val) (tradeK rp.val Vp.val Vp'.val) r.stackvaluesSubSed)[r.bestIdx]?
      = some ⟨tradeH rp.val Vp.val Vp'.val bmod.h, tradeK rp.val Vp.val Vp'.val bmod.k, bmod.s⟩ := by
    rw [relabelled_get, f.hrow]; rfl
  have hbest := f.hbest
  rw [← relabelled_s (tradeH rp.val Vp.val Vp'.val) (tradeK rp.val Vp.val Vp'.val)] at hbest
  have main : HkYu.hkYu env' flt rp (H.map (tradeH rp.val Vp.val Vp'.val)) (K.map (tradeK rp.val Vp.val Vp'.val)) (some Vp')
      VpSed (some vs) (some w1) (some w2) (some w3) = .ok
      { FltRF := flt.filteredrf, time := flt.time, tlag := flt.tlag, Pdelay := qa.val - qb.val, rayp := rp,
        bestIdx := r.bestIdx, VpMoho := Vp', VpSed := VpSed.getD ⟨.py, dec 25 1⟩,
        stackvaluesSubSed := relabelled (tradeH rp.val Vp.val Vp'.val) (tradeK rp.val Vp.val Vp'.val) r.stackvaluesSubSed,
        HMoho := H.map (tradeH rp.val Vp.val Vp'.val), KMoho := K.map (tradeK rp.val Vp.val Vp'.val),
        SubSedThick := tradeH rp.val Vp.val Vp'.val bmod.h, SubSedVpVs := tradeK rp.val Vp.val Vp'.val bmod.k,
        SedThick := flt.tlag.val * vs.val / two } := by
    unfold HkYu.hkYu
    simp only [Option.getD_some, HkYu.need, except_ok_bind]
    rw [ha, except_ok_bind, hb, except_ok_bind]
    simp only [hg, except_ok_bind, hbest, hdraw, item_ok.2 hrow, except_pure]
  exact ⟨_, main, rfl, rfl, by rw [f.hthick], by rw [f.hvpvs], f.hSed.symm, f.hPd.symm⟩

/-- **C118** `hkSeqSynth`: other velocities of sediment and crust.  In particular (`VM' = VM`, see `c118_same`) the
Moho answer does not depend on the velocity assumed for the sediment. -/
theorem c118_hkSeqSynth {env env' : Env ℝ} {dS dM t : List ℝ} {rp VS VM VS' VM' : Scalar ℝ} {HS KS HM KM : List ℝ}
    {w1S w2S w3S : Option ℝ} {w1M w2M w3M : ℝ} {r : SynthAnalysis.SeqSynthResult ℝ}
    (h : SynthAnalysis.hkSeqSynth env dS dM t rp HS KS (some VS) w1S w2S w3S HM KM (some VM) (some w1M) (some w2M)
      (some w3M) = .ok r)
    (hS : Propagates rp.val VS.val) (hM : Propagates rp.val VM.val) (hS' : Propagates rp.val VS'.val)
    (hM' : Propagates rp.val VM'.val) (hdraw : ∀ tb, env'.draw tb = .ok ()) :
    ∃ r', SynthAnalysis.hkSeqSynth env' dS dM t rp (HS.map (tradeH rp.val VS.val VS'.val))
        (KS.map (tradeK rp.val VS.val VS'.val)) (some VS') w1S w2S w3S (HM.map (tradeH rp.val VM.val VM'.val))
        (KM.map (tradeK rp.val VM.val VM'.val)) (some VM') (some w1M) (some w2M) (some w3M) = .ok r' ∧
      r'.stackvalueSed = relabelled (tradeH rp.val VS.val VS'.val) (tradeK rp.val VS.val VS'.val) r.stackvalueSed ∧
      r'.bestIdxSed = r.bestIdxSed ∧
      r'.stackvalueMoho = relabelled (tradeH rp.val VM.val VM'.val) (tradeK rp.val VM.val VM'.val) r.stackvalueMoho ∧
      r'.bestIdxMoho = r.bestIdxMoho := by
  obtain ⟨bmod, raw, f⟩ := hkSeqSynth_inv h
  have hV : r.VpSed = VS := f.hVpSed
  have gS := gridLoop_relabel (f := tradeH rp.val VS.val VS'.val) (g := tradeK rp.val VS.val VS'.val)
    (v' := SynthAnalysis.seqSedCell dS t rp VS' (w1S.getD (dec 6 1)) (w2S.getD (dec 3 1)) (w3S.getD (dec 1 1)))
    f.hgridS (fun k _ x _ => by
      rw [seqSedCell_eq, seqSedCell_eq, synthCell_eq, synthCell_eq, hV, bestTimes_trade (kd := rp.kind) hS hS'])
  have gM := gridLoop_relabel (f := tradeH rp.val VM.val VM'.val) (g := tradeK rp.val VM.val VM'.val)
    (v' := SynthAnalysis.seqMohoCell dM t rp VS' (tradeH rp.val VS.val VS'.val bmod.h) (tradeK rp.val VS.val VS'.val bmod.k)
      (some VM') (some w1M) (some w2M) (some w3M))
    f.hgridM (fun k _ x _ => by
      rw [seqMohoCell_eq, seqMohoCell_eq, hV, mohoTimes_trade (kd := rp.kind) hS hM hS' hM'])
  have hrow : (relabelled (tradeH rp.val VS.val VS'.val) (tradeK rp.val VS.val VS'.val) r.stackvalueSed)[r.bestIdxSed]?
      = some ⟨tradeH rp.val VS.val VS'.val bmod.h, tradeK rp.val VS.val VS'.val bmod.k, bmod.s⟩ := by
    rw [relabelled_get, f.hrowS]; rfl
  refine ⟨_, hkSeqSynth_of (VpSed := some VS') (VpMoho := some VM') gS
    ((relabelled_s _ _ _).symm ▸ f.hbestS) (hdraw _) hrow gM ((relabelled_s _ _ _).symm ▸ f.hbestM) (hdraw _),
    rfl, rfl, ?_, rfl⟩
  simp only [f.hclip, relabelled_clip]

/-- **C118**: the velocity is not changed, nothing changes. -/
theorem c118_same {p V : ℝ} (h : Propagates p V) (H : ℝ) {K : ℝ} (hK : 0 < K) (hp : p ^ 2 ≤ (K / V) ^ 2) :
    tradeH p V V H = H ∧ tradeK p V V K = K := by
  have hp1 := (eta_pos h).ne'
  have hV := h.1
  constructor
  · unfold tradeH; field_simp
  · unfold tradeK
    rw [div_self hp1, mul_one, eta_ratio, Real.sq_sqrt (by linarith),
      show p ^ 2 + ((K / V) ^ 2 - p ^ 2) = (K / V) ^ 2 by ring, Real.sqrt_sq (by positivity)]
    field_simp

theorem lastTrace_congr {f g : Trace ℝ → Except PyErr ℝ} {st : List (Trace ℝ)} (h : ∀ tr ∈ st, f tr = g tr) :
    HkSeqYeck.lastTrace f st = HkSeqYeck.lastTrace g st := by
  have key : ∀ a : Option ℝ, st.foldlM (fun (_ : Option ℝ) tr => do let v ← f tr; pure (some v)) a
      = st.foldlM (fun (_ : Option ℝ) tr => do let v ← g tr; pure (some v)) a := by
    induction st with
    | nil => intro a; rfl
    | cons tr st ih =>
      intro a
      rw [List.foldlM_cons, List.foldlM_cons, h tr (by simp)]
      congr 1
      funext b
      exact ih (fun tr' h' => h tr' (by simp [h'])) b
  unfold HkSeqYeck.lastTrace
  rw [key]

/-- **C118** `hkSeq`, all traces of both streams with the same ray parameter (as with `stack=True`). -/
theorem c118_hkSeq {env env' : Env ℝ} {stS stM : List (Trace ℝ)} {preonset : ℝ} {VS VM VS' VM' : Scalar ℝ}
    {HS KS HM KM : List ℝ} {w1S w2S w3S : Option ℝ} {w1M w2M w3M : ℝ} {stack : Bool} {r : HkSeqYeck.SeqResult ℝ} {p : ℝ}
    (hkm : env'.km2deg1 = env.km2deg1) (hstackS : env'.stack stS = env.stack stS)
    (hstackM : env'.stack stM = env.stack stM)
    (h : HkSeqYeck.hkSeq env stS stM preonset HS KS (some VS) w1S w2S w3S HM KM (some VM) (some w1M) (some w2M)
      (some w3M) (some stack) = .ok r)
    (hray : ∀ tr ∈ stS ++ stM, ∀ sl, tr.slowness = some sl →
      (if stack then env.km2deg1 * r.AvgSlow else env.km2deg1 * sl.val) = p)
    (hS : Propagates p VS.val) (hM : Propagates p VM.val) (hS' : Propagates p VS'.val)
    (hM' : Propagates p VM'.val) (hdraw : ∀ tb, env'.draw tb = .ok ()) :
    ∃ r', HkSeqYeck.hkSeq env' stS stM preonset (HS.map (tradeH p VS.val VS'.val)) (KS.map (tradeK p VS.val VS'.val))
        (some VS') w1S w2S w3S (HM.map (tradeH p VM.val VM'.val)) (KM.map (tradeK p VM.val VM'.val)) (some VM') (some w1M)
        (some w2M) (some w3M) (some stack) = .ok r' ∧
      r'.stackvalueSed = relabelled (tradeH p VS.val VS'.val) (tradeK p VS.val VS'.val) r.stackvalueSed ∧
      r'.bestIdxSed = r.bestIdxSed ∧
      r'.stackvalueMoho = relabelled (tradeH p VM.val VM'.val) (tradeK p VM.val VM'.val) r.stackvalueMoho ∧
      r'.bestIdxMoho = r.bestIdxMoho := by
  obtain ⟨tr0, rest, slows, bmod, raw, f⟩ := hkSeq_inv h
  have hst := f.hst
  subst hst
  obtain ⟨moreS, hs⟩ := f.hstackS
  obtain ⟨moreM, hm⟩ := f.hstackM
  have hV : r.VpSed = VS := f.hVpSed
  have hk : r.stack = stack := f.hstk
  have gS := gridLoop_relabel (f := tradeH p VS.val VS'.val) (g := tradeK p VS.val VS'.val)
    (v' := fun k x => HkSeqYeck.lastTrace (HkSeqYeck.sedTerm env' r.time r.RFSedStack
      r.AvgSlow VS' (w1S.getD (dec 6 1)) (w2S.getD (dec 3 1)) (w3S.getD (dec 1 1)) stack k x) (tr0 :: rest))
    f.hgridS (fun k _ x _ => by
      rw [hV, hk]
      apply lastTrace_congr
      intro tr htr
      rw [sedTerm_eq, sedTerm_eq, hkm]
      cases tr.getOnset with
      | error e => rfl
      | ok o =>
        simp only [except_ok_bind]
        cases hsl : tr.getSlowness with
        | error e => rfl
        | ok sl =>
          simp only [except_ok_bind]
          rw [hray tr (List.mem_append_left _ htr) sl (getSlowness_ok.1 hsl),
            bestTimes_trade (kd := if stack then Kind.np else sl.kind) hS hS'])
  have gM := gridLoop_relabel (f := tradeH p VM.val VM'.val) (g := tradeK p VM.val VM'.val)
    (v' := fun k x => HkSeqYeck.lastTrace (HkSeqYeck.mohoTerm env' stM r.time
      r.RFMohoStack r.AvgSlow VS' (tradeH p VS.val VS'.val bmod.h) (tradeK p VS.val VS'.val bmod.k) (some VM')
      (some w1M) (some w2M) (some w3M) stack k x) stM)
    f.hgridM (fun k _ x _ => by
      rw [hV, hk]
      apply lastTrace_congr
      intro tr htr
      rw [mohoTerm_eq, mohoTerm_eq, hkm]
      cases item stM 0 with
      | error e => rfl
      | ok tr1 =>
        simp only [except_ok_bind]
        cases tr1.getOnset with
        | error e => rfl
        | ok o =>
          simp only [except_ok_bind]
          cases hsl : tr.getSlowness with
          | error e => rfl
          | ok sl =>
            simp only [except_ok_bind]
            rw [hray tr (List.mem_append_right _ htr) sl (getSlowness_ok.1 hsl),
              mohoTimes_trade (kd := if stack then Kind.np else sl.kind) hS hM hS' hM'])
  have hrow : (relabelled (tradeH p VS.val VS'.val) (tradeK p VS.val VS'.val) r.stackvalueSed)[r.bestIdxSed]?
      = some ⟨tradeH p VS.val VS'.val bmod.h, tradeK p VS.val VS'.val bmod.k, bmod.s⟩ := by
    rw [relabelled_get, f.hrowS]; rfl
  rw [f.havg, f.htime] at gS gM
  refine ⟨_, hkSeq_of (stack := some stack) (VpSed := some VS') (VpMoho := some VM') (hstackS.trans hs) (hstackM.trans hm)
    f.hslow gS ((relabelled_s _ _ _).symm ▸ f.hbestS) (hdraw _) hrow gM ((relabelled_s _ _ _).symm ▸ f.hbestM) (hdraw _),
    rfl, rfl, ?_, rfl⟩
  simp only [f.hclip, relabelled_clip]

/-! ## Concrete cases -/

theorem sample_propagates {p V : ℝ} (hp : p ^ 2 ≤ (6 / 100) ^ 2) (hV : 0 < V) (hV' : V ≤ 10) : Propagates p V := by
  refine ⟨hV, ?_⟩
  have : (1 / 10 : ℝ) ≤ 1 / V := one_div_le_one_div_of_le hV hV'
  have h2 : (1 / 10 : ℝ) ^ 2 ≤ (1 / V) ^ 2 := by gcongr
  have : ((6 : ℝ) / 100) ^ 2 < (1 / 10) ^ 2 := by norm_num
  linarith

/-- a crust of 35 km with `Vp/Vs = 1.75` and `Vp = 6`, analysed with `Vp = 6.5`: too thick, ratio too low -/
example : 35 < tradeH (6 / 100) 6 6.5 35 ∧ tradeK (6 / 100) 6 6.5 1.75 < 1.75 := by
  obtain ⟨h1, _, h3⟩ := c118_bias (p := 6 / 100) (V := 6) (V' := 6.5) (H := 35) (K := 1.75)
    (sample_propagates le_rfl (by norm_num) (by norm_num)) (sample_propagates le_rfl (by norm_num) (by norm_num))
    (by norm_num) (by norm_num) (by norm_num) (by norm_num)
  exact ⟨h1, h3 (by norm_num)⟩

/-- `hk` on two traces of slowness 6 s/deg, with 6.5 and 6 km/s -/
example : ∃ r r', hk Sample.env [Sample.trace [0, 1, 3, 2, 0] 6, Sample.trace [1, 1, 2, 0, -1] 6] 1 [30, 35] [1.7, 1.8]
      (some ⟨.py, 6.5⟩) none none none none (some false) = .ok r ∧
    hk Sample.env [Sample.trace [0, 1, 3, 2, 0] 6, Sample.trace [1, 1, 2, 0, -1] 6] 1
      ([30, 35].map (tradeH (1 / 111 * 6) 6.5 6)) ([1.7, 1.8].map (tradeK (1 / 111 * 6) 6.5 6))
      (some ⟨.py, 6⟩) none none none none (some false) = .ok r' ∧ r'.bestIdx = r.bestIdx := by
  have e : ∃ r, hk Sample.env [Sample.trace [0, 1, 3, 2, 0] 6, Sample.trace [1, 1, 2, 0, -1] 6] 1 [30, 35] [1.7, 1.8]
      (some ⟨.py, 6.5⟩) none none none none (some false) = .ok r := by
    refine c03_succeeds (sd := _) (more := []) rfl ?_ ?_ ?_ ?_ ?_ ?_ (by simp) (by simp) ?_
    · intro _; simp [Sample.trace]
    · simp [Sample.trace]
    · intro tr htr
      simp at htr
      rcases htr with rfl | rfl <;> simp [Sample.trace]
    · intro tr htr
      simp at htr
      subst htr; simp [Sample.trace]
    · intro v hv
      cases hv
      right
      rw [← Bool.not_eq_true, real_eq]; norm_num
    · intro h; cases h
    · intro _ _; rfl
  obtain ⟨r, hr⟩ := e
  have hp : ((1 : ℝ) / 111 * 6) ^ 2 ≤ (6 / 100) ^ 2 := by norm_num
  obtain ⟨r', h', _, hb⟩ := c118_hk (env' := Sample.env) (Vp' := ⟨.py, 6⟩) (p := 1 / 111 * 6) rfl rfl hr (by
      intro tr htr sl hsl
      simp at htr
      rcases htr with rfl | rfl <;> (cases hsl; simp [Sample.env]))
    (sample_propagates hp (by norm_num) (by norm_num)) (sample_propagates hp (by norm_num) (by norm_num)) (fun _ => rfl)
  exact ⟨r, r', hr, h', hb⟩

/-- `hkSynth`, `hkYu` and `hkSeqSynth`: calls that meet the hypotheses -/
example : (∃ r, SynthAnalysis.hkSynth Sample.env sampleFlt.filteredrf sampleFlt.time ⟨.py, 6 / 100⟩ [30, 35] [17 / 10, 18 / 10]
      (some ⟨.py, 65 / 10⟩) none none none none = .ok r) ∧
    (∃ r, HkYu.hkYu Sample.env sampleFlt ⟨.py, 6 / 100⟩ [30, 35, 40] [17 / 10, 18 / 10] (some ⟨.py, 65 / 10⟩)
      (some ⟨.py, 25 / 10⟩) (some ⟨.py, 1⟩) (some (6 / 10)) (some (3 / 10)) (some (1 / 10)) = .ok r) ∧
    (∃ r, SynthAnalysis.hkSeqSynth Sample.env [0, 1, 3, 2, 0, -1] [0, 1, 2, 2, 0, -1]
      [-1, -1 / 2, 0, 1 / 2, 1, 3 / 2] ⟨.py, 6 / 100⟩ [1, 2] [2, 3] (some ⟨.py, 3⟩) none none none
      [30, 35] [17 / 10, 18 / 10] (some ⟨.py, 65 / 10⟩) (some (6 / 10)) (some (3 / 10)) (some (1 / 10)) = .ok r) ∧
    Propagates (6 / 100) (65 / 10) ∧ Propagates (6 / 100) 6 ∧ Propagates (6 / 100) 3 ∧ Propagates (6 / 100) 2 :=
  ⟨c25_hkSynth_succeeds (by simp [sampleFlt]) (by simp [sampleFlt]) (divisor_real (by norm_num)) (by simp) (by simp)
      (fun _ _ => rfl),
    c25_hkYu_succeeds (by simp [sampleFlt]) (by simp [sampleFlt]) (divisor_real (by norm_num))
      (divisor_real (by norm_num)) (divisor_real (by norm_num)) (by simp) (by simp) (fun _ _ => rfl),
    c25_hkSeqSynth_succeeds (by simp) (by simp) (by simp) (divisor_real (by norm_num)) (divisor_real (by norm_num))
      (by simp) (by simp) (by simp) (by simp) (fun _ _ => rfl),
    sample_propagates le_rfl (by norm_num) (by norm_num), sample_propagates le_rfl (by norm_num) (by norm_num),
    sample_propagates le_rfl (by norm_num) (by norm_num), sample_propagates le_rfl (by norm_num) (by norm_num)⟩

/-- `hkSeq`: the sediment velocity changed from 3 to 2 km/s, the crustal one kept: the two Moho tables are equal. -/
example : ∃ r r', HkSeqYeck.hkSeq Sample.env [Sample.trace [0, 1, 3, 2, 0] 6] [Sample.trace [1, 1, 2, 0, -1] 6] 1 [1, 2] [2, 3]
      (some ⟨.py, 3⟩) none none none [30, 35] [17 / 10, 18 / 10] (some ⟨.py, 65 / 10⟩) (some (6 / 10)) (some (3 / 10))
      (some (1 / 10)) (some false) = .ok r ∧
    HkSeqYeck.hkSeq Sample.env [Sample.trace [0, 1, 3, 2, 0] 6] [Sample.trace [1, 1, 2, 0, -1] 6] 1
      ([1, 2].map (tradeH (1 / 111 * 6) 3 2)) ([2, 3].map (tradeK (1 / 111 * 6) 3 2))
      (some ⟨.py, 2⟩) none none none ([30, 35].map (tradeH (1 / 111 * 6) (65 / 10) (65 / 10)))
      ([17 / 10, 18 / 10].map (tradeK (1 / 111 * 6) (65 / 10) (65 / 10))) (some ⟨.py, 65 / 10⟩) (some (6 / 10))
      (some (3 / 10)) (some (1 / 10)) (some false) = .ok r' ∧
    r'.bestIdxMoho = r.bestIdxMoho ∧ r'.stackvalueMoho.map Row.s = r.stackvalueMoho.map Row.s := by
  obtain ⟨r, hr⟩ := sample_hkSeq (Sample.trace [0, 1, 3, 2, 0] 6) [] (Sample.trace [1, 1, 2, 0, -1] 6) []
    (by simp [Sample.trace]) (by
      intro tr htr
      simp at htr
      rcases htr with rfl | rfl <;> simp [Sample.trace])
    (HS := [1, 2]) (KS := [2, 3]) (HM := [30, 35]) (KM := [17 / 10, 18 / 10]) (by simp) (by simp)
    (by simp) (by simp) (Vp := 3) (vm := 65 / 10) (by norm_num) (by norm_num) 1 none none none
    (6 / 10) (3 / 10) (1 / 10) (some false)
  have hp : ((1 : ℝ) / 111 * 6) ^ 2 ≤ (6 / 100) ^ 2 := by norm_num
  obtain ⟨r', h', _, _, hm, hb⟩ := c118_hkSeq (env' := Sample.env) (VS' := ⟨.py, 2⟩) (VM' := ⟨.py, 65 / 10⟩)
    (p := 1 / 111 * 6) rfl rfl rfl hr (by
      intro tr htr sl hsl
      simp at htr
      rcases htr with rfl | rfl <;> (cases hsl; simp [Sample.env]))
    (sample_propagates hp (by norm_num) (by norm_num)) (sample_propagates hp (by norm_num) (by norm_num))
    (sample_propagates hp (by norm_num) (by norm_num)) (sample_propagates hp (by norm_num) (by norm_num)) (fun _ => rfl)
  exact ⟨r, r', hr, h', hb, by rw [hm, relabelled_s]⟩

end Rfsed.Props
