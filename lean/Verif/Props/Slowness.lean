import Verif.Spec.Slowness
import Verif.Props.Tradeoff
import Verif.Proofs.Window
import Verif.Props.HkZhu2

/-!
# C123: the assumed slowness

Exact reals.  All P waves propagate (`Propagates`); S waves are assumed to (real numbers have no NaN).
-/

namespace Rfsed.Props
open PyFloat Rfsed.Spec Rfsed.Proofs Rfsed.HkZhu

theorem etaS_slow {p p' V : ℝ} (h' : Propagates p' V) (K : ℝ) :
    eta p' (V / slowK p p' V K) = eta p (V / K) * (eta p' V / eta p V) := by
  have e : (slowK p p' V K / V) ^ 2 - p' ^ 2 = (eta p (V / K) * (eta p' V / eta p V)) ^ 2 := by
    have h0 := h'.1.ne'
    have : slowK p p' V K / V = Real.sqrt (p' ^ 2 + (eta p (V / K) * (eta p' V / eta p V)) ^ 2) := by
      unfold slowK; field_simp
    rw [this, Real.sq_sqrt (by positivity)]; ring
  have := eta_nonneg p (V / K)
  have := eta_nonneg p V
  have := eta_nonneg p' V
  rw [eta_ratio, e, Real.sqrt_sq_eq_abs, abs_of_nonneg (by positivity)]

theorem slow_S {p p' V : ℝ} (h : Propagates p V) (h' : Propagates p' V) (H K : ℝ) :
    slowH p p' V H * eta p' (V / slowK p p' V K) = H * eta p (V / K) := by
  rw [etaS_slow h', slowH]
  have := (eta_pos h).ne'
  have := (eta_pos h').ne'
  field_simp

theorem slow_P {p p' V : ℝ} (h' : Propagates p' V) (H : ℝ) : slowH p p' V H * eta p' V = H * eta p V := by
  rw [slowH]
  have := (eta_pos h').ne'
  field_simp

/-- **C123**: every other ray parameter has a layer with the same three delay times. -/
theorem c123_times {p p' V : ℝ} (h : Propagates p V) (h' : Propagates p' V) (H K : ℝ) :
    tPs p' V (slowH p p' V H) (slowK p p' V K) = tPs p V H K ∧
    tPpPs p' V (slowH p p' V H) (slowK p p' V K) = tPpPs p V H K ∧
    tPsPs p' V (slowH p p' V H) (slowK p p' V K) = tPsPs p V H K := by
  have hS := slow_S h h' H K
  have hP := slow_P (p := p) h' H
  unfold tPs tPpPs tPsPs
  refine ⟨?_, ?_, ?_⟩
  · rw [mul_sub, mul_sub, hS, hP]
  · rw [mul_add, mul_add, hS, hP]
  · rw [mul_assoc, mul_assoc, hS]

/-- **C123**: it is the only one. -/
theorem c123_unique {p p' V H K H' K' : ℝ} (h : Propagates p V) (h' : Propagates p' V) (hH : 0 < H)
    (hK' : 0 < K') (hH' : 0 < H') (hpK : p ^ 2 < (K / V) ^ 2) (hpK' : p' ^ 2 ≤ (K' / V) ^ 2)
    (e1 : tPs p' V H' K' = tPs p V H K) (e2 : tPpPs p' V H' K' = tPpPs p V H K) :
    H' = slowH p p' V H ∧ K' = slowK p p' V K := by
  obtain ⟨t1, t2, _⟩ := c123_times h h' H K
  have hs : 0 < eta p (V / K) := by rw [eta_ratio]; exact Real.sqrt_pos.2 (by linarith)
  have hp1 := eta_pos h
  have hp2 := eta_pos h'
  have hV := h'.1
  have hk : 0 < slowK p p' V K := by
    unfold slowK
    exact mul_pos hV (Real.sqrt_pos.2 (by positivity))
  have hsq : p' ^ 2 ≤ (slowK p p' V K / V) ^ 2 := by
    have : slowK p p' V K / V = Real.sqrt (p' ^ 2 + (eta p (V / K) * (eta p' V / eta p V)) ^ 2) := by
      unfold slowK; field_simp
    rw [this, Real.sq_sqrt (by positivity)]
    have : 0 ≤ (eta p (V / K) * (eta p' V / eta p V)) ^ 2 := by positivity
    linarith
  have hh : 0 < slowH p p' V H := by unfold slowH; positivity
  exact c09_unique p' V H' K' _ _ hV hH' hK' hh hk h'.2 hpK' hsq (e1.trans t1.symm) (e2.trans t2.symm)

/-- **C123**: a slowness that is too large gives a layer that is too thick and a velocity ratio that is too low. -/
theorem c123_bias {p p' V H K : ℝ} (h' : Propagates p' V) (hp : 0 ≤ p) (hpp : p < p') (hH : 0 < H) (hK : 1 < K) :
    H < slowH p p' V H ∧ slowK p p' V K < K ∧
    K ^ 2 - (slowK p p' V K) ^ 2 = (p' ^ 2 - p ^ 2) * (K ^ 2 - 1) / ((1 / V) ^ 2 - p ^ 2) := by
  have hV := h'.1
  have hq : p ^ 2 < p' ^ 2 := by nlinarith
  have h : Propagates p V := ⟨hV, hq.trans h'.2⟩
  have hp1 := eta_pos h
  have hp2 := eta_pos h'
  have he : eta p' V < eta p V := by
    rw [eta_one, eta_one]
    exact Real.sqrt_lt_sqrt (by linarith [h'.2]) (by linarith)
  have s1 : (eta p V) ^ 2 = (1 / V) ^ 2 - p ^ 2 := by rw [eta_one, Real.sq_sqrt (by linarith [h.2])]
  have s2 : (eta p' V) ^ 2 = (1 / V) ^ 2 - p' ^ 2 := by rw [eta_one, Real.sq_sqrt (by linarith [h'.2])]
  have hk1 : p ^ 2 ≤ (K / V) ^ 2 := by
    have : (1 / V) ^ 2 ≤ (K / V) ^ 2 := by
      rw [div_pow, div_pow]
      gcongr
    linarith [h.2]
  have s3 : (eta p (V / K)) ^ 2 = (K / V) ^ 2 - p ^ 2 := by rw [eta_ratio, Real.sq_sqrt (by linarith)]
  have hsq : (slowK p p' V K) ^ 2
      = V ^ 2 * (p' ^ 2 + ((K / V) ^ 2 - p ^ 2) * (((1 / V) ^ 2 - p' ^ 2) / ((1 / V) ^ 2 - p ^ 2))) := by
    unfold slowK
    rw [mul_pow, Real.sq_sqrt (by positivity), mul_pow, div_pow, s1, s2, s3]
  have hd : 0 < (1 / V) ^ 2 - p ^ 2 := by linarith [h.2]
  have key : K ^ 2 - (slowK p p' V K) ^ 2 = (p' ^ 2 - p ^ 2) * (K ^ 2 - 1) / ((1 / V) ^ 2 - p ^ 2) := by
    rw [hsq]
    have e : ((1 / V) ^ 2 - p' ^ 2) / ((1 / V) ^ 2 - p ^ 2) = 1 - (p' ^ 2 - p ^ 2) / ((1 / V) ^ 2 - p ^ 2) := by
      rw [eq_sub_iff_add_eq, ← add_div, div_eq_one_iff_eq hd.ne']; ring
    rw [e]
    generalize hD : (1 / V) ^ 2 - p ^ 2 = D at *
    have hp2 : p ^ 2 = (1 / V) ^ 2 - D := by linarith
    rw [hp2]
    have := hd.ne'
    field_simp
    ring
  refine ⟨?_, ?_, key⟩
  · unfold slowH
    have : 1 < eta p V / eta p' V := by rwa [one_lt_div hp2]
    nlinarith
  · have hk0 : 0 ≤ slowK p p' V K := by unfold slowK; positivity
    have hk2 : 0 < K ^ 2 - 1 := by nlinarith
    have : 0 < (p' ^ 2 - p ^ 2) * (K ^ 2 - 1) / ((1 / V) ^ 2 - p ^ 2) :=
      div_pos (mul_pos (by linarith) hk2) hd
    nlinarith

theorem bestTimes_slow {Vp : Scalar ℝ} {kd kd' : Kind} {p p' : ℝ} (h : Propagates p Vp.val)
    (h' : Propagates p' Vp.val) (x k : ℝ) :
    bestTimes Vp kd' p' (slowH p p' Vp.val x) (slowK p p' Vp.val k) = bestTimes Vp kd p x k := by
  rw [bestTimes_real h.1.ne' h.2.le, bestTimes_real h'.1.ne' h'.2.le]
  obtain ⟨e1, e2, e3⟩ := c123_times h h' x k
  unfold zkMarks
  rw [e1, e2, e3]

theorem mohoTimes_slow {VS VM : Scalar ℝ} {kd kd' : Kind} {p p' : ℝ} (hS : Propagates p VS.val)
    (hM : Propagates p VM.val) (hS' : Propagates p' VS.val) (hM' : Propagates p' VM.val) (H1 K1 x k : ℝ) :
    HkSeqYeck.mohoTimes VS (some VM) kd' p' (slowH p p' VS.val H1) (slowK p p' VS.val K1)
      (slowH p p' VM.val x) (slowK p p' VM.val k) = HkSeqYeck.mohoTimes VS (some VM) kd p H1 K1 x k := by
  rw [mohoTimes_real hS.1.ne' hM.1.ne' hS.2.le hM.2.le, mohoTimes_real hS'.1.ne' hM'.1.ne' hS'.2.le hM'.2.le]
  obtain ⟨e1, e2, e3⟩ := c123_times hS hS' H1 K1
  obtain ⟨g1, g2, g3⟩ := c123_times hM hM' x k
  rw [e1, e2, e3, g1, g2, g3]

/-- **C123** `hkSynth`: with another ray parameter and the corresponding grid the table has the same values at the
corresponding grid points, and the best models correspond. -/
theorem c123_hkSynth {env env' : Env ℝ} {d t : List ℝ} {rp rp' Vp : Scalar ℝ}
    {H K : List ℝ} {w1 w2 w3 : Option ℝ} {layer : Option String} {r : SynthAnalysis.SynthResult ℝ}
    (h : SynthAnalysis.hkSynth env d t rp H K (some Vp) w1 w2 w3 layer = .ok r)
    (hV : Propagates rp.val Vp.val) (hV' : Propagates rp'.val Vp.val)
    (hdraw : ∀ tb, env'.draw tb = .ok ()) :
    ∃ r', SynthAnalysis.hkSynth env' d t rp' (H.map (slowH rp.val rp'.val Vp.val))
        (K.map (slowK rp.val rp'.val Vp.val)) (some Vp) w1 w2 w3 layer = .ok r' ∧
      r'.stackvalues = relabelled (slowH rp.val rp'.val Vp.val) (slowK rp.val rp'.val Vp.val) r.stackvalues ∧
      r'.bestIdx = r.bestIdx := by
  have f := hkSynth_inv h
  have hg := gridLoop_relabel (f := slowH rp.val rp'.val Vp.val) (g := slowK rp.val rp'.val Vp.val)
    (v' := SynthAnalysis.cell d t rp' Vp (w1.getD (dec 6 1)) (w2.getD (dec 3 1)) (w3.getD (dec 1 1))) f.hgrid
    (fun k _ x _ => by
      simp only [Option.getD_some]
      rw [synthCell_eq, synthCell_eq, bestTimes_slow (kd := rp.kind) hV hV'])
  exact ⟨_, hkSynth_of (Vp := some Vp) hg ((relabelled_s _ _ _).symm ▸ f.hbest) (hdraw _), rfl, rfl⟩

/-- **C123** `hkYu`. -/
theorem c123_hkYu {env env' : Env ℝ} {flt : HkYu.FltInput ℝ} {rp rp' Vp : Scalar ℝ} {H K : List ℝ}
    {VpSed VsSed : Option (Scalar ℝ)} {w1 w2 w3 : ℝ} {r : HkYu.YuResult ℝ}
    (h : HkYu.hkYu env flt rp H K (some Vp) VpSed VsSed (some w1) (some w2) (some w3) = .ok r)
    (hV : Propagates rp.val Vp.val) (hV' : Propagates rp'.val Vp.val) (hdraw : ∀ tb, env'.draw tb = .ok ()) :
    ∃ r', HkYu.hkYu env' flt rp' (H.map (slowH rp.val rp'.val Vp.val)) (K.map (slowK rp.val rp'.val Vp.val)) (some Vp)
        VpSed VsSed (some w1) (some w2) (some w3) = .ok r' ∧
      r'.stackvaluesSubSed =
        relabelled (slowH rp.val rp'.val Vp.val) (slowK rp.val rp'.val Vp.val) r.stackvaluesSubSed ∧
      r'.bestIdx = r.bestIdx ∧ r'.SubSedThick = slowH rp.val rp'.val Vp.val r.SubSedThick ∧
      r'.SubSedVpVs = slowK rp.val rp'.val Vp.val r.SubSedVpVs ∧ r'.SedThick = r.SedThick ∧ r'.Pdelay = r.Pdelay := by
  obtain ⟨vs, qa, qb, bmod, f⟩ := hkYu_inv h
  have hvs := f.hvs
  subst hvs
  have hVpM : r.VpMoho = Vp := f.hVp
  have ha := f.ha
  have hb := f.hb
  rw [f.hSed] at ha hb
  rw [f.hVpSed] at hb
  have hg := gridLoop_relabel (f := slowH rp.val rp'.val Vp.val) (g := slowK rp.val rp'.val Vp.val)
    (v' := HkYu.cell flt rp' Vp r.Pdelay (some w1) (some w2) (some w3)) f.hgrid (fun k _ x _ => by
      rw [yuCell_eq, yuCell_eq, hVpM, bestTimes_slow (kd := rp.kind) hV hV'])
  rw [f.hPd] at hg
  have hrow : (relabelled (slowH rp.val rp'.val Vp.val) (slowK rp.val rp'.val Vp.val) r.stackvaluesSubSed)[r.bestIdx]?
      = some ⟨slowH rp.val rp'.val Vp.val bmod.h, slowK rp.val rp'.val Vp.val bmod.k, bmod.s⟩ := by
    rw [relabelled_get, f.hrow]; rfl
  have hbest := f.hbest
  rw [← relabelled_s (slowH rp.val rp'.val Vp.val) (slowK rp.val rp'.val Vp.val)] at hbest
  have main : HkYu.hkYu env' flt rp' (H.map (slowH rp.val rp'.val Vp.val)) (K.map (slowK rp.val rp'.val Vp.val)) (some Vp)
      VpSed (some vs) (some w1) (some w2) (some w3) = .ok
      { FltRF := flt.filteredrf, time := flt.time, tlag := flt.tlag, Pdelay := qa.val - qb.val, rayp := rp',
        bestIdx := r.bestIdx, VpMoho := Vp, VpSed := VpSed.getD ⟨.py, dec 25 1⟩,
        stackvaluesSubSed := relabelled (slowH rp.val rp'.val Vp.val) (slowK rp.val rp'.val Vp.val) r.stackvaluesSubSed,
        HMoho := H.map (slowH rp.val rp'.val Vp.val), KMoho := K.map (slowK rp.val rp'.val Vp.val),
        SubSedThick := slowH rp.val rp'.val Vp.val bmod.h, SubSedVpVs := slowK rp.val rp'.val Vp.val bmod.k,
        SedThick := flt.tlag.val * vs.val / two } := by
    unfold HkYu.hkYu
    simp only [Option.getD_some, HkYu.need, except_ok_bind]
    rw [ha, except_ok_bind, hb, except_ok_bind]
    simp only [hg, except_ok_bind, hbest, hdraw, item_ok.2 hrow, except_pure]
  exact ⟨_, main, rfl, rfl, by rw [f.hthick], by rw [f.hvpvs], f.hSed.symm, f.hPd.symm⟩

/-- **C123** `hkSeqSynth`: both layers are shifted. -/
theorem c123_hkSeqSynth {env env' : Env ℝ} {dS dM t : List ℝ} {rp rp' VS VM : Scalar ℝ} {HS KS HM KM : List ℝ}
    {w1S w2S w3S : Option ℝ} {w1M w2M w3M : ℝ} {r : SynthAnalysis.SeqSynthResult ℝ}
    (h : SynthAnalysis.hkSeqSynth env dS dM t rp HS KS (some VS) w1S w2S w3S HM KM (some VM) (some w1M) (some w2M)
      (some w3M) = .ok r)
    (hS : Propagates rp.val VS.val) (hM : Propagates rp.val VM.val) (hS' : Propagates rp'.val VS.val)
    (hM' : Propagates rp'.val VM.val) (hdraw : ∀ tb, env'.draw tb = .ok ()) :
    ∃ r', SynthAnalysis.hkSeqSynth env' dS dM t rp' (HS.map (slowH rp.val rp'.val VS.val))
        (KS.map (slowK rp.val rp'.val VS.val)) (some VS) w1S w2S w3S (HM.map (slowH rp.val rp'.val VM.val))
        (KM.map (slowK rp.val rp'.val VM.val)) (some VM) (some w1M) (some w2M) (some w3M) = .ok r' ∧
      r'.stackvalueSed = relabelled (slowH rp.val rp'.val VS.val) (slowK rp.val rp'.val VS.val) r.stackvalueSed ∧
      r'.bestIdxSed = r.bestIdxSed ∧
      r'.stackvalueMoho = relabelled (slowH rp.val rp'.val VM.val) (slowK rp.val rp'.val VM.val) r.stackvalueMoho ∧
      r'.bestIdxMoho = r.bestIdxMoho := by
  obtain ⟨bmod, raw, f⟩ := hkSeqSynth_inv h
  have hV : r.VpSed = VS := f.hVpSed
  have gS := gridLoop_relabel (f := slowH rp.val rp'.val VS.val) (g := slowK rp.val rp'.val VS.val)
    (v' := SynthAnalysis.seqSedCell dS t rp' VS (w1S.getD (dec 6 1)) (w2S.getD (dec 3 1)) (w3S.getD (dec 1 1)))
    f.hgridS (fun k _ x _ => by
      rw [seqSedCell_eq, seqSedCell_eq, synthCell_eq, synthCell_eq, hV, bestTimes_slow (kd := rp.kind) hS hS'])
  have gM := gridLoop_relabel (f := slowH rp.val rp'.val VM.val) (g := slowK rp.val rp'.val VM.val)
    (v' := SynthAnalysis.seqMohoCell dM t rp' VS (slowH rp.val rp'.val VS.val bmod.h) (slowK rp.val rp'.val VS.val bmod.k)
      (some VM) (some w1M) (some w2M) (some w3M))
    f.hgridM (fun k _ x _ => by
      rw [seqMohoCell_eq, seqMohoCell_eq, hV, mohoTimes_slow (kd := rp.kind) hS hM hS' hM'])
  have hrow : (relabelled (slowH rp.val rp'.val VS.val) (slowK rp.val rp'.val VS.val) r.stackvalueSed)[r.bestIdxSed]?
      = some ⟨slowH rp.val rp'.val VS.val bmod.h, slowK rp.val rp'.val VS.val bmod.k, bmod.s⟩ := by
    rw [relabelled_get, f.hrowS]; rfl
  refine ⟨_, hkSeqSynth_of (VpSed := some VS) (VpMoho := some VM) gS
    ((relabelled_s _ _ _).symm ▸ f.hbestS) (hdraw _) hrow gM ((relabelled_s _ _ _).symm ▸ f.hbestM) (hdraw _),
    rfl, rfl, ?_, rfl⟩
  simp only [f.hclip, relabelled_clip]

/-! ## The mean slowness of `stack=True` -/

theorem eta_sq {p V : ℝ} (h : p ^ 2 ≤ (1 / V) ^ 2) : eta p V ^ 2 = (1 / V) ^ 2 - p ^ 2 := by
  rw [eta_one, Real.sq_sqrt (by linarith)]

/-- the circle lies below its tangents -/
theorem eta_tangent {p q V : ℝ} (hp : p ^ 2 ≤ (1 / V) ^ 2) (hq : q ^ 2 ≤ (1 / V) ^ 2) :
    eta p V * eta q V ≤ (1 / V) ^ 2 - p * q ∧ (p ≠ q → V ≠ 0 → eta p V * eta q V < (1 / V) ^ 2 - p * q) := by
  have h1 := eta_sq hp
  have h2 := eta_sq hq
  have h0 : 0 ≤ (1 / V) ^ 2 - p * q := by nlinarith [sq_nonneg (p - q)]
  have e : (eta p V * eta q V) ^ 2 = ((1 / V) ^ 2 - p * q) ^ 2 - (1 / V) ^ 2 * (p - q) ^ 2 := by
    rw [mul_pow, h1, h2]; ring
  have ha := mul_nonneg (eta_nonneg p V) (eta_nonneg q V)
  constructor
  · apply le_of_sq_le_sq _ h0
    have : 0 ≤ (1 / V) ^ 2 * (p - q) ^ 2 := by positivity
    linarith
  · intro hne hV
    apply lt_of_pow_lt_pow_left₀ 2 h0
    have h3 : 0 < (p - q) ^ 2 := by
      have := sub_ne_zero.2 hne
      positivity
    have : 0 < (1 / V) ^ 2 * (p - q) ^ 2 := by positivity
    linarith

theorem sum_le_line {a c : ℝ} {f : ℝ → ℝ} : ∀ {ps : List ℝ}, (∀ p ∈ ps, f p ≤ a - c * p) →
    (ps.map f).sum ≤ ps.length * a - c * ps.sum
  | [], _ => by simp
  | p :: ps, h => by
    have h1 := h p (by simp)
    have h2 := sum_le_line (fun q hq => h q (List.mem_cons_of_mem _ hq))
    simp only [List.map_cons, List.sum_cons, List.length_cons, Nat.cast_add, Nat.cast_one]
    linarith

theorem sum_lt_line {a c : ℝ} {f : ℝ → ℝ} : ∀ {ps : List ℝ}, (∀ p ∈ ps, f p ≤ a - c * p) →
    (∃ p ∈ ps, f p < a - c * p) → (ps.map f).sum < ps.length * a - c * ps.sum
  | [], _, h => by simp at h
  | p :: ps, h, h' => by
    have h1 := h p (by simp)
    have h2 := sum_le_line (fun q hq => h q (List.mem_cons_of_mem _ hq))
    simp only [List.map_cons, List.sum_cons, List.length_cons, Nat.cast_add, Nat.cast_one]
    obtain ⟨q, hq, hlt⟩ := h'
    rcases List.mem_cons.1 hq with rfl | hq
    · linarith
    · have := sum_lt_line (fun q hq => h q (List.mem_cons_of_mem _ hq)) ⟨q, hq, hlt⟩
      linarith

/-- a function below a line is on average below the line at the average -/
theorem average_line {f : ℝ → ℝ} {m c : ℝ} {ps : List ℝ} (hne : ps ≠ [])
    (h : ∀ p ∈ ps, f p ≤ m + c * (average ps - p)) :
    average (ps.map f) ≤ m ∧ ((∃ p ∈ ps, f p < m + c * (average ps - p)) → average (ps.map f) < m) := by
  have hn : (0 : ℝ) < ps.length := by exact_mod_cast List.length_pos_iff.2 hne
  have hs : ps.sum = ps.length * average ps := by unfold average; field_simp
  have key : ∀ x : ℝ, average (ps.map f) = (ps.map f).sum / ps.length := fun _ => by
    unfold average; rw [List.length_map]
  rw [key 0]
  constructor
  · rw [div_le_iff₀ hn]
    have := sum_le_line (a := m + c * average ps) (c := c) (f := f) (ps := ps) (fun p hp => by linarith [h p hp])
    rw [hs] at this
    linarith
  · rintro ⟨q, hq, hlt⟩
    rw [div_lt_iff₀ hn]
    have := sum_lt_line (a := m + c * average ps) (c := c) (f := f) (ps := ps) (fun p hp => by linarith [h p hp])
      ⟨q, hq, by linarith⟩
    rw [hs] at this
    linarith

theorem average_abs {ps : List ℝ} {B : ℝ} (hne : ps ≠ []) (h : ∀ p ∈ ps, |p| < B) : |average ps| < B := by
  have hn : (0 : ℝ) < ps.length := by exact_mod_cast List.length_pos_iff.2 hne
  have e : ∀ s : ℝ, ps.sum = ps.length * average ps := fun _ => by unfold average; field_simp
  rw [abs_lt]
  obtain ⟨p, hp⟩ := List.exists_mem_of_ne_nil ps hne
  constructor
  · have := sum_lt_line (f := fun p => -1 * p) (a := B) (c := 0) (ps := ps) (fun q hq => by
      have := (abs_lt.1 (h q hq)).1
      linarith) ⟨p, hp, by have := (abs_lt.1 (h p hp)).1; linarith⟩
    rw [List.sum_map_mul_left, List.map_id', e 0] at this
    nlinarith
  · have := sum_lt_line (f := fun p => p) (a := B) (c := 0) (ps := ps) (fun q hq => by
      have := (abs_lt.1 (h q hq)).2
      linarith) ⟨p, hp, by have := (abs_lt.1 (h p hp)).2; linarith⟩
    rw [List.map_id', e 0] at this
    nlinarith

/-- slope of the tangent of the vertical slowness -/
theorem eta_line {p q V : ℝ} (hp : p ^ 2 ≤ (1 / V) ^ 2) (hq : q ^ 2 < (1 / V) ^ 2) :
    eta p V ≤ eta q V + q / eta q V * (q - p) ∧ (p ≠ q → V ≠ 0 → eta p V < eta q V + q / eta q V * (q - p)) := by
  have h0 : 0 < eta q V := by rw [eta_one]; exact Real.sqrt_pos.2 (by linarith)
  have h2 := eta_sq hq.le
  have e : eta q V + q / eta q V * (q - p) = ((1 / V) ^ 2 - p * q) / eta q V := by
    field_simp
    rw [h2]; field_simp; ring
  obtain ⟨h, h'⟩ := eta_tangent hp hq.le
  rw [e]
  exact ⟨(le_div_iff₀ h0).2 h, fun a b => (lt_div_iff₀ h0).2 (h' a b)⟩

/-- **C123**: averaging slownesses overestimates the delay times of the multiples and underestimates that of Ps
(compared with the average of the delay times), strictly so if the slownesses are not all equal. -/
theorem c123_mean {ps : List ℝ} {V H K : ℝ} (hne : ps ≠ []) (hV : ∀ p ∈ ps, Propagates p V) (hH : 0 < H) (hK : 1 < K) :
    (tPs (average ps) V H K ≤ average (ps.map (fun p => tPs p V H K)) ∧
      average (ps.map (fun p => tPpPs p V H K)) ≤ tPpPs (average ps) V H K ∧
      average (ps.map (fun p => tPsPs p V H K)) ≤ tPsPs (average ps) V H K) ∧
    ((∃ p ∈ ps, ∃ q ∈ ps, p ≠ q) →
      tPs (average ps) V H K < average (ps.map (fun p => tPs p V H K)) ∧
      average (ps.map (fun p => tPpPs p V H K)) < tPpPs (average ps) V H K ∧
      average (ps.map (fun p => tPsPs p V H K)) < tPsPs (average ps) V H K) := by
  obtain ⟨p0, hp0⟩ := List.exists_mem_of_ne_nil ps hne
  have hV0 : 0 < V := (hV p0 hp0).1
  have hVK : 0 < V / K := by positivity
  have hbig : (1 / V) ^ 2 < (1 / (V / K)) ^ 2 := by
    have : 1 / V < 1 / (V / K) := one_div_lt_one_div_of_lt hVK (div_lt_self hV0 hK)
    have h0 : 0 < 1 / V := by positivity
    nlinarith
  set q := average ps with hq
  have hq2 : q ^ 2 < (1 / V) ^ 2 := by
    rw [sq_lt_sq, abs_of_pos (show 0 < 1 / V by positivity)]
    refine average_abs hne (fun p hp => ?_)
    have := (hV p hp).2
    rwa [sq_lt_sq, abs_of_pos (show 0 < 1 / V by positivity)] at this
  have lP : ∀ p ∈ ps, eta p V ≤ eta q V + q / eta q V * (q - p) ∧
      (p ≠ q → eta p V < eta q V + q / eta q V * (q - p)) := fun p hp =>
    ⟨(eta_line (hV p hp).2.le hq2).1, fun h => (eta_line (hV p hp).2.le hq2).2 h hV0.ne'⟩
  have lS : ∀ p ∈ ps, eta p (V / K) ≤ eta q (V / K) + q / eta q (V / K) * (q - p) ∧
      (p ≠ q → eta p (V / K) < eta q (V / K) + q / eta q (V / K) * (q - p)) := fun p hp =>
    ⟨(eta_line ((hV p hp).2.trans hbig).le (hq2.trans hbig)).1,
      fun h => (eta_line ((hV p hp).2.trans hbig).le (hq2.trans hbig)).2 h hVK.ne'⟩
  have hG : ∀ p : ℝ, p ^ 2 < (1 / V) ^ 2 →
      (eta p (V / K) - eta p V) * (eta p (V / K) + eta p V) = (1 / (V / K)) ^ 2 - (1 / V) ^ 2 := by
    intro p hp
    have h1 := eta_sq hp.le
    have h2 := eta_sq (hp.trans hbig).le
    nlinarith
  have hpos : ∀ p : ℝ, p ^ 2 < (1 / V) ^ 2 → 0 < eta p (V / K) + eta p V := fun p hp => by
    have h1 : 0 < eta p V := by rw [eta_one]; exact Real.sqrt_pos.2 (by linarith)
    have := eta_nonneg p (V / K)
    linarith
  set a := eta q V
  set b := eta q (V / K)
  set G := (1 / (V / K)) ^ 2 - (1 / V) ^ 2 with hGdef
  have hG0 : 0 < G := by rw [hGdef]; linarith
  have hy := hpos q hq2
  have hdiff : ∀ p ∈ ps, b - a - G * ((q / a + q / b) * (q - p)) / (b + a) ^ 2 ≤ eta p (V / K) - eta p V ∧
      (p ≠ q → b - a - G * ((q / a + q / b) * (q - p)) / (b + a) ^ 2 < eta p (V / K) - eta p V) := by
    intro p hp
    have hx := hpos p (hV p hp).2
    have ex : eta p (V / K) - eta p V = G / (eta p (V / K) + eta p V) := by
      rw [eq_div_iff hx.ne']; exact hG p (hV p hp).2
    have ey : b - a = G / (b + a) := by
      rw [eq_div_iff hy.ne']; exact hG q hq2
    have e2 : b - a - G * ((q / a + q / b) * (q - p)) / (b + a) ^ 2
        = G * (2 * (b + a) - (b + a + (q / a + q / b) * (q - p))) / (b + a) ^ 2 := by
      rw [ey]; field_simp; ring
    have step : G * (2 * (b + a) - (eta p (V / K) + eta p V)) / (b + a) ^ 2 ≤ G / (eta p (V / K) + eta p V) := by
      rw [div_le_div_iff₀ (by positivity) hx]
      have : 0 ≤ G * ((b + a) - (eta p (V / K) + eta p V)) ^ 2 := by positivity
      nlinarith
    rw [e2, ex]
    constructor
    · refine le_trans ?_ step
      have h1 := (lP p hp).1
      have h2 := (lS p hp).1
      exact div_le_div_of_nonneg_right (mul_le_mul_of_nonneg_left (by linarith) hG0.le) (by positivity)
    · intro hpq
      refine lt_of_lt_of_le ?_ step
      have h1 := (lP p hp).2 hpq
      have h2 := (lS p hp).2 hpq
      exact div_lt_div_of_pos_right (mul_lt_mul_of_pos_left (by linarith) hG0) (by positivity)
  have hnegavg : average (ps.map (fun p => -1 * tPs p V H K)) = -average (ps.map (fun p => tPs p V H K)) := by
    unfold average
    rw [List.sum_map_mul_left]; simp [neg_div]
  have c1 := average_line (f := fun p => -1 * tPs p V H K) (m := -tPs q V H K)
    (c := H * (G * (q / a + q / b) / (b + a) ^ 2)) hne (fun p hp => by
      have := mul_le_mul_of_nonneg_left (hdiff p hp).1 hH.le
      unfold tPs
      have e : H * (b - a - G * ((q / a + q / b) * (q - p)) / (b + a) ^ 2)
        = H * (b - a) - H * (G * (q / a + q / b) / (b + a) ^ 2) * (q - p) := by ring
      rw [e] at this
      linarith)
  have c2 := average_line (f := fun p => tPpPs p V H K) (m := tPpPs q V H K)
    (c := H * (q / a + q / b)) hne (fun p hp => by
      have := mul_le_mul_of_nonneg_left (add_le_add (lS p hp).1 (lP p hp).1) hH.le
      unfold tPpPs
      linarith)
  have c3 := average_line (f := fun p => tPsPs p V H K) (m := tPsPs q V H K)
    (c := 2 * H * (q / b)) hne (fun p hp => by
      have := mul_le_mul_of_nonneg_left (lS p hp).1 (by positivity : 0 ≤ 2 * H)
      unfold tPsPs
      linarith)
  rw [hnegavg] at c1
  refine ⟨⟨by linarith [c1.1], c2.1, c3.1⟩, ?_⟩
  rintro ⟨x, hx, y, hy', hxy⟩
  obtain ⟨p, hp, hpq⟩ : ∃ p ∈ ps, p ≠ q := by
    by_cases h : x = q
    · exact ⟨y, hy', fun h' => hxy (h.trans h'.symm)⟩
    · exact ⟨x, hx, h⟩
  refine ⟨?_, c2.2 ⟨p, hp, ?_⟩, c3.2 ⟨p, hp, ?_⟩⟩
  · have := c1.2 ⟨p, hp, by
      have := mul_lt_mul_of_pos_left ((hdiff p hp).2 hpq) hH
      unfold tPs
      have e : H * (b - a - G * ((q / a + q / b) * (q - p)) / (b + a) ^ 2)
        = H * (b - a) - H * (G * (q / a + q / b) / (b + a) ^ 2) * (q - p) := by ring
      rw [e] at this
      linarith⟩
    linarith
  · have := mul_lt_mul_of_pos_left (add_lt_add ((lS p hp).2 hpq) ((lP p hp).2 hpq)) hH
    unfold tPpPs
    linarith
  · have := mul_lt_mul_of_pos_left ((lS p hp).2 hpq) (by positivity : 0 < 2 * H)
    unfold tPsPs
    linarith

theorem average_scale (c : ℝ) (xs : List ℝ) : average (xs.map (fun x => c * x)) = c * average xs := by
  unfold average
  rw [List.sum_map_mul_left, List.map_id', List.length_map, mul_div_assoc]

/-- **C123** `hk` with `stack=True`: the delay times used for a grid point, compared with the average over the traces of
their own delay times. -/
theorem c123_hk_stack {env : Env ℝ} {st : List (Trace ℝ)} {preonset : ℝ} {H K : List ℝ}
    {Vp : Scalar ℝ} {w1 w2 w3 : ℝ} {layer : Option String} {r : HKResult ℝ}
    (h : hk env st preonset H K (some Vp) (some w1) (some w2) (some w3) layer (some true) = .ok r)
    (hV : ∀ tr ∈ st, Propagates (env.km2deg1 * slownessOf tr) Vp.val) (hH : ∀ x ∈ H, 0 < x) (hK : ∀ k ∈ K, 1 < k) :
    ∀ row ∈ r.stackvalues, ∃ t1 t2 t3 a1 a2 a3 : ℝ,
      ReadsNearest r.RFStack r.time t1 a1 ∧ ReadsNearest r.RFStack r.time t2 a2 ∧
      ReadsNearest r.RFStack r.time t3 a3 ∧ row.s = st.length * (w1 * a1 + w2 * a2 - w3 * a3) ∧
      t1 ≤ average (st.map (fun tr => tPs (env.km2deg1 * slownessOf tr) Vp.val row.h row.k)) ∧
      average (st.map (fun tr => tPpPs (env.km2deg1 * slownessOf tr) Vp.val row.h row.k)) ≤ t2 ∧
      average (st.map (fun tr => tPsPs (env.km2deg1 * slownessOf tr) Vp.val row.h row.k)) ≤ t3 ∧
      ((∃ a ∈ st, ∃ b ∈ st, env.km2deg1 * slownessOf a ≠ env.km2deg1 * slownessOf b) →
        t1 < average (st.map (fun tr => tPs (env.km2deg1 * slownessOf tr) Vp.val row.h row.k)) ∧
        average (st.map (fun tr => tPpPs (env.km2deg1 * slownessOf tr) Vp.val row.h row.k)) < t2 ∧
        average (st.map (fun tr => tPsPs (env.km2deg1 * slownessOf tr) Vp.val row.h row.k)) < t3) := by
  intro row hrow
  obtain ⟨tr0, rest, slows, f⟩ := hk_inv h
  have hne : st ≠ [] := by rw [f.hst]; simp
  have hV0 : 0 < Vp.val := (hV tr0 (by rw [f.hst]; simp)).1
  have hmem : row.k ∈ K ∧ row.h ∈ H := by
    obtain ⟨n, hn, hrow'⟩ := List.getElem_of_mem hrow
    obtain ⟨i, j, _, hk, hx, _⟩ := (gridLoop_ok f.hgrid).2.2 n row (by simp [hn, hrow'])
    exact ⟨List.mem_of_getElem? hk, List.mem_of_getElem? hx⟩
  have hps : ∀ p ∈ st.map (fun tr => env.km2deg1 * slownessOf tr), Propagates p Vp.val := by
    intro p hp
    obtain ⟨tr, htr, rfl⟩ := List.mem_map.1 hp
    exact hV tr htr
  have eavg : env.km2deg1 * ((st.map slownessOf).sum / st.length)
      = average (st.map (fun tr => env.km2deg1 * slownessOf tr)) := by
    have := average_scale env.km2deg1 (st.map slownessOf)
    rw [List.map_map] at this
    rw [show (fun tr => env.km2deg1 * slownessOf tr) = (fun x => env.km2deg1 * x) ∘ slownessOf from rfl, this]
    unfold average
    rw [List.length_map]
  have hq : |average (st.map (fun tr => env.km2deg1 * slownessOf tr))| < 1 / Vp.val :=
    average_abs (by simpa using hne) (fun p hp => by
      have := (hps p hp).2
      rwa [sq_lt_sq, abs_of_pos (show 0 < 1 / Vp.val by positivity)] at this)
  have hq2 : average (st.map (fun tr => env.km2deg1 * slownessOf tr)) ^ 2 < (1 / Vp.val) ^ 2 := by
    rw [sq_lt_sq, abs_of_pos (show 0 < 1 / Vp.val by positivity)]; exact hq
  have hpre : ∀ k ∈ K, PreCritical (average (st.map (fun tr => env.km2deg1 * slownessOf tr))) Vp.val k := by
    intro k hk
    refine ⟨?_, hq2.le⟩
    have hk1 := hK k hk
    have : (1 / Vp.val) ^ 2 ≤ (k / Vp.val) ^ 2 := by
      rw [div_pow, div_pow]
      gcongr
    linarith
  obtain ⟨a1, a2, a3, r1, r2, r3, hs⟩ := c06_stack_value h hV0.ne' _ eavg.symm hpre row hrow
  obtain ⟨⟨m1, m2, m3⟩, hstrict⟩ := c123_mean (ps := st.map (fun tr => env.km2deg1 * slownessOf tr))
    (by simpa using hne) hps (hH _ hmem.2) (hK _ hmem.1)
  rw [List.map_map] at m1 m2 m3
  refine ⟨_, _, _, a1, a2, a3, r1, r2, r3, hs, m1, m2, m3, ?_⟩
  rintro ⟨a, ha, b, hb, hab⟩
  have := hstrict ⟨_, List.mem_map_of_mem ha, _, List.mem_map_of_mem hb, hab⟩
  rw [List.map_map, List.map_map, List.map_map] at this
  exact this

/-- **C123** `hk`: if at every grid point the delay times for a trace's own slowness and for the mean slowness have the
same nearest sample, and the stacked trace is the mean of the traces, `stack=True` and `stack=False` give the same
table and the same best model. -/
theorem c123_hk_same {env : Env ℝ} {st : List (Trace ℝ)} {preonset : ℝ} {H K : List ℝ}
    {Vp : Scalar ℝ} {w1 w2 w3 : ℝ} {layer layer' : Option String} {r r' : HKResult ℝ}
    (h : hk env st preonset H K (some Vp) (some w1) (some w2) (some w3) layer (some false) = .ok r)
    (h' : hk env st preonset H K (some Vp) (some w1) (some w2) (some w3) layer' (some true) = .ok r')
    (hVp : Vp.val ≠ 0)
    (hpre : ∀ tr ∈ st, ∀ k ∈ K, PreCritical (env.km2deg1 * slownessOf tr) Vp.val k)
    (q : ℝ) (hq : q = env.km2deg1 * average (st.map slownessOf))
    (hpreq : ∀ k ∈ K, PreCritical q Vp.val k)
    (hmean : ∀ (i : Nat) (v : ℝ), r'.RFStack[i]? = some v → v = average (st.map (fun tr => tr.data.getD i 0)))
    (hsame : ∀ tr ∈ st, ∀ x ∈ H, ∀ k ∈ K, ∀ T ∈ [tPs, tPpPs, tPsPs], ∀ i : Nat,
      NearestSample r.time (T (env.km2deg1 * slownessOf tr) Vp.val x k) i → NearestSample r.time (T q Vp.val x k) i) :
    r'.stackvalues = r.stackvalues ∧ r'.bestIdx = r.bestIdx := by
  obtain ⟨tr0, rest, slows, f⟩ := hk_inv h
  obtain ⟨tr0', rest', slows', f'⟩ := hk_inv h'
  have hne : st ≠ [] := by rw [f.hst]; simp
  have hn : (st.length : ℝ) ≠ 0 := by exact_mod_cast (List.length_pos_iff.2 hne).ne'
  have htime : r'.time = r.time := by
    have e := f.hst.symm.trans f'.hst
    cases e
    rw [f.htime, f'.htime]
  have hq' : q = env.km2deg1 * ((st.map slownessOf).sum / st.length) := by
    rw [hq]; unfold average; rw [List.length_map]
  obtain ⟨l1, g1, d1, -⟩ := c03_table_shape h
  obtain ⟨l2, g2, d2, -⟩ := c03_table_shape h'
  have hrow : ∀ row ∈ r.stackvalues, ∀ row' ∈ r'.stackvalues, row'.h = row.h → row'.k = row.k → row.h ∈ H → row.k ∈ K →
      row'.s = row.s := by
    intro row hr row' hr' eh ek hx hk
    obtain ⟨A, hA, hs⟩ := c04_stack_value h hVp hpre row hr
    obtain ⟨a1, a2, a3, q1, q2, q3, hs'⟩ := c06_stack_value h' hVp q hq' hpreq row' hr'
    rw [eh, ek] at q1 q2 q3
    have key : ∀ T ∈ [tPs, tPpPs, tPsPs], ∀ a : ℝ, ReadsNearest r'.RFStack r'.time (T q Vp.val row.h row.k) a →
        (∀ tr ∈ st, ReadsNearest tr.data r.time (T (env.km2deg1 * slownessOf tr) Vp.val row.h row.k)
          (A tr (T (env.km2deg1 * slownessOf tr) Vp.val row.h row.k))) →
        st.length * a = (st.map (fun tr => A tr (T (env.km2deg1 * slownessOf tr) Vp.val row.h row.k))).sum := by
      intro T hT a ⟨i, hi, hv⟩ hread
      rw [htime] at hi
      rw [hmean i a hv]
      have e : st.map (fun tr => A tr (T (env.km2deg1 * slownessOf tr) Vp.val row.h row.k))
          = st.map (fun tr => tr.data.getD i 0) := by
        apply List.map_congr_left
        intro tr htr
        obtain ⟨j, hj, hjv⟩ := hread tr htr
        have := NearestSample.unique (hsame tr htr _ hx _ hk T hT j hj) hi
        subst this
        rw [List.getD_eq_getElem?_getD, hjv]; rfl
      rw [e]
      unfold average
      rw [List.length_map]
      field_simp
    have k1 := key tPs (by simp) a1 q1 (fun tr htr => hA tr htr _ (by simp))
    have k2 := key tPpPs (by simp) a2 q2 (fun tr htr => hA tr htr _ (by simp))
    have k3 := key tPsPs (by simp) a3 q3 (fun tr htr => hA tr htr _ (by simp))
    have e : ∀ (u v w : Trace ℝ → ℝ), (st.map (fun tr => w1 * u tr + w2 * v tr - w3 * w tr)).sum
        = w1 * (st.map u).sum + w2 * (st.map v).sum - w3 * (st.map w).sum := by
      intro u v w
      generalize st = l
      induction l with
      | nil => simp
      | cons a l ih => simp only [List.map_cons, List.sum_cons, ih]; ring
    rw [hs, hs', e, ← k1, ← k2, ← k3]
    ring
  have htab : r'.stackvalues = r.stackvalues := by
    apply List.ext_getElem?
    intro n
    by_cases hlt : n < K.length * H.length
    · have hn1 : n < r.stackvalues.length := by omega
      have hn2 : n < r'.stackvalues.length := by omega
      rw [List.getElem?_eq_getElem hn1, List.getElem?_eq_getElem hn2]
      obtain ⟨i, j, hj, en, hk, hx⟩ := d1 n _ (List.getElem?_eq_getElem hn1)
      obtain ⟨i', j', hj', en', hk', hx'⟩ := d2 n _ (List.getElem?_eq_getElem hn2)
      have hi : i = i' ∧ j = j' := by
        have h1 : n / H.length = i := by
          rw [en, Nat.mul_comm, Nat.mul_add_div (by omega), Nat.div_eq_of_lt hj, Nat.add_zero]
        have h2 : n / H.length = i' := by
          rw [en', Nat.mul_comm, Nat.mul_add_div (by omega), Nat.div_eq_of_lt hj', Nat.add_zero]
        have hii := h1.symm.trans h2
        subst hii
        exact ⟨rfl, by omega⟩
      obtain ⟨rfl, rfl⟩ := hi
      have ek := Option.some.inj (hk'.symm.trans hk)
      have eh := Option.some.inj (hx'.symm.trans hx)
      have es := hrow _ (List.getElem_mem hn1) _ (List.getElem_mem hn2) eh ek (List.mem_of_getElem? hx)
        (List.mem_of_getElem? hk)
      congr 1
      generalize r.stackvalues[n] = a at *
      generalize r'.stackvalues[n] = b at *
      cases a; cases b
      simp only at ek eh es
      subst ek eh es
      rfl
    · rw [List.getElem?_eq_none (by omega), List.getElem?_eq_none (by omega)]
  refine ⟨htab, ?_⟩
  have := f'.hbest
  rw [htab, f.hbest] at this
  exact (Except.ok.inj this).symm

/-! ## Concrete cases -/

/-- a crust of 35 km with `Vp/Vs = 1.75`, `Vp = 6.5`, analysed with 0.06 s/km instead of 0.05: too thick, ratio too low -/
example : 35 < slowH (5 / 100) (6 / 100) 6.5 35 ∧ slowK (5 / 100) (6 / 100) 6.5 1.75 < 1.75 := by
  obtain ⟨h1, h2, _⟩ := c123_bias (p := 5 / 100) (p' := 6 / 100) (V := 6.5) (H := 35) (K := 1.75)
    (sample_propagates le_rfl (by norm_num) (by norm_num))
    (by norm_num) (by norm_num) (by norm_num) (by norm_num)
  exact ⟨h1, h2⟩

/-- the only other layer: hypotheses of `c123_unique`, met by the corresponding layer -/
example : 0 < slowH (5 / 100) (6 / 100) 6.5 35 ∧ ((5 : ℝ) / 100) ^ 2 < (1.75 / 6.5) ^ 2 :=
  ⟨by
    have := (c123_bias (p := 5 / 100) (p' := 6 / 100) (V := 6.5) (H := 35) (K := 1.75)
      (sample_propagates le_rfl (by norm_num) (by norm_num)) (by norm_num) (by norm_num) (by norm_num) (by norm_num)).1
    linarith, by norm_num⟩

/-- two events with 0.04 and 0.06 s/km: with the mean slowness Ps is expected too early, the multiples too late -/
example : tPs (average [4 / 100, 6 / 100]) 6.5 35 1.75 < average ([4 / 100, 6 / 100].map (fun p => tPs p 6.5 35 1.75)) ∧
    average ([4 / 100, 6 / 100].map (fun p => tPpPs p 6.5 35 1.75)) < tPpPs (average [4 / 100, 6 / 100]) 6.5 35 1.75 ∧
    average ([4 / 100, 6 / 100].map (fun p => tPsPs p 6.5 35 1.75)) < tPsPs (average [4 / 100, 6 / 100]) 6.5 35 1.75 :=
  (c123_mean (ps := [4 / 100, 6 / 100]) (V := 6.5) (H := 35) (K := 1.75) (by simp) (by
    intro p hp
    refine sample_propagates ?_ (by norm_num) (by norm_num)
    simp at hp
    rcases hp with rfl | rfl <;> norm_num) (by norm_num) (by norm_num)).2
    ⟨4 / 100, by simp, 6 / 100, by simp, by norm_num⟩

/-- `hkSynth`, `hkYu` and `hkSeqSynth`: calls that meet the hypotheses -/
example : (∃ r, SynthAnalysis.hkSynth Sample.env sampleFlt.filteredrf sampleFlt.time ⟨.py, 6 / 100⟩ [30, 35] [17 / 10, 18 / 10]
      (some ⟨.py, 65 / 10⟩) none none none none = .ok r) ∧
    (∃ r, HkYu.hkYu Sample.env sampleFlt ⟨.py, 6 / 100⟩ [30, 35, 40] [17 / 10, 18 / 10] (some ⟨.py, 65 / 10⟩)
      (some ⟨.py, 25 / 10⟩) (some ⟨.py, 1⟩) (some (6 / 10)) (some (3 / 10)) (some (1 / 10)) = .ok r) ∧
    (∃ r, SynthAnalysis.hkSeqSynth Sample.env [0, 1, 3, 2, 0, -1] [0, 1, 2, 2, 0, -1]
      [-1, -1 / 2, 0, 1 / 2, 1, 3 / 2] ⟨.py, 6 / 100⟩ [1, 2] [2, 3] (some ⟨.py, 3⟩) none none none
      [30, 35] [17 / 10, 18 / 10] (some ⟨.py, 65 / 10⟩) (some (6 / 10)) (some (3 / 10)) (some (1 / 10)) = .ok r) ∧
    Propagates (6 / 100) (65 / 10) ∧ Propagates (5 / 100) (65 / 10) ∧ Propagates (6 / 100) 3 ∧ Propagates (5 / 100) 3 :=
  ⟨c25_hkSynth_succeeds (by simp [sampleFlt]) (by simp [sampleFlt]) (divisor_real (by norm_num)) (by simp) (by simp)
      (fun _ _ => rfl),
    c25_hkYu_succeeds (by simp [sampleFlt]) (by simp [sampleFlt]) (divisor_real (by norm_num))
      (divisor_real (by norm_num)) (divisor_real (by norm_num)) (by simp) (by simp) (fun _ _ => rfl),
    c25_hkSeqSynth_succeeds (by simp) (by simp) (by simp) (divisor_real (by norm_num)) (divisor_real (by norm_num))
      (by simp) (by simp) (by simp) (by simp) (fun _ _ => rfl),
    sample_propagates le_rfl (by norm_num) (by norm_num), sample_propagates (by norm_num) (by norm_num) (by norm_num),
    sample_propagates le_rfl (by norm_num) (by norm_num), sample_propagates (by norm_num) (by norm_num) (by norm_num)⟩

/-- `hk` with `stack=True` on two traces of slowness 6 and 5 s/deg -/
example : ∃ r, hk Sample.env [Sample.trace [0, 1, 3, 2, 0] 6, Sample.trace [1, 1, 2, 0, -1] 5] 1 [30, 35] [1.7, 1.8]
      (some ⟨.py, 6.5⟩) (some 0.6) (some 0.3) (some 0.1) none (some true) = .ok r ∧
    ∀ row ∈ r.stackvalues, ∃ t1 a1 : ℝ, ReadsNearest r.RFStack r.time t1 a1 ∧
      t1 < average ([Sample.trace [0, 1, 3, 2, 0] 6, Sample.trace [1, 1, 2, 0, -1] 5].map
        (fun tr => tPs (1 / 111 * slownessOf tr) 6.5 row.h row.k)) := by
  have e : ∃ r, hk Sample.env [Sample.trace [0, 1, 3, 2, 0] 6, Sample.trace [1, 1, 2, 0, -1] 5] 1 [30, 35] [1.7, 1.8]
      (some ⟨.py, 6.5⟩) (some 0.6) (some 0.3) (some 0.1) none (some true) = .ok r := by
    refine c03_succeeds (sd := _) (more := []) rfl ?_ ?_ ?_ ?_ ?_ ?_ (by simp) (by simp) ?_
    · intro _; simp [Sample.trace]
    · simp [Sample.trace]
    · intro tr htr
      simp at htr
      rcases htr with rfl | rfl <;> simp [Sample.trace]
    · intro tr htr
      simp at htr
      subst htr; simp [Sample.trace]
    · intro v hv
      cases hv
      right
      rw [← Bool.not_eq_true, real_eq]; norm_num
    · intro h; cases h
    · intro _ _; rfl
  obtain ⟨r, hr⟩ := e
  refine ⟨r, hr, fun row hrow => ?_⟩
  obtain ⟨t1, t2, t3, a1, a2, a3, h1, _, _, _, _, _, _, hs⟩ := c123_hk_stack hr (by
    intro tr htr
    refine sample_propagates ?_ (by norm_num) (by norm_num)
    simp at htr
    rcases htr with rfl | rfl <;> norm_num [Sample.env, slownessOf, Sample.trace]) (by
    intro x hx
    simp at hx
    rcases hx with rfl | rfl <;> norm_num) (by
    intro x hx
    simp at hx
    rcases hx with rfl | rfl <;> norm_num) row hrow
  exact ⟨t1, a1, h1, (hs ⟨_, List.mem_cons_self .., _, List.mem_cons_of_mem _ (List.mem_cons_self ..), by
    norm_num [Sample.env, slownessOf, Sample.trace]⟩).1⟩

/-- one-second samples, arrivals near 1, 3 and 4 s -/
noncomputable def moveTrace (sl : ℝ) : Trace ℝ := { Sample.trace [0, 1, 0, 1, -1, 0] sl with delta := 1 }

theorem eta_tenth {p : ℝ} (h : p ^ 2 ≤ 1 / 100) :
    99 / 100 ≤ eta p 1 ∧ eta p 1 ≤ 1 ∧ 199 / 100 ≤ eta p (1 / 2) ∧ eta p (1 / 2) ≤ 2 := by
  have hp := sq_nonneg p
  unfold eta
  refine ⟨Real.le_sqrt_of_sq_le ?_, Real.sqrt_le_iff.2 ⟨by norm_num, ?_⟩, Real.le_sqrt_of_sq_le ?_,
    Real.sqrt_le_iff.2 ⟨by norm_num, ?_⟩⟩ <;> norm_num <;> linarith

theorem pre_tenth {p : ℝ} (h : p ^ 2 ≤ 1 / 100) : PreCritical p 1 2 := by
  have h1 : (1 : ℝ) / 100 ≤ (2 / 1) ^ 2 := by norm_num
  have h2 : (1 : ℝ) / 100 ≤ (1 / 1) ^ 2 := by norm_num
  exact ⟨h.trans h1, h.trans h2⟩

theorem move_nearest {p : ℝ} (h : p ^ 2 ≤ 1 / 100) (i : Nat) :
    (NearestSample (timeAxis (1 : ℝ) 0 6) (tPs p 1 1 2) i ↔ i = 1) ∧
    (NearestSample (timeAxis (1 : ℝ) 0 6) (tPpPs p 1 1 2) i ↔ i = 3) ∧
    (NearestSample (timeAxis (1 : ℝ) 0 6) (tPsPs p 1 1 2) i ↔ i = 4) := by
  obtain ⟨h1, h2, h3, h4⟩ := eta_tenth h
  have hc : CoversTo (1 : ℝ) 0 4 6 := by constructor <;> norm_num
  have key : ∀ (t : ℝ) (n : Nat), 0 ≤ t → t ≤ 4 → |t - n| < 1 / 2 → (NearestSample (timeAxis (1 : ℝ) 0 6) t i ↔ i = n) := by
    intro t n h0 h4 hn
    rw [nearest_timeAxis (by norm_num) hc h0 h4]
    have hn' := abs_lt.1 hn
    constructor
    · rintro ⟨ha, hb⟩
      have e1 : (i : ℝ) < n + 1 := by linarith
      have e2 : (n : ℝ) < i + 1 := by linarith
      norm_cast at e1 e2
      omega
    · rintro rfl
      constructor <;> linarith
  unfold tPs tPpPs tPsPs
  refine ⟨key _ 1 ?_ ?_ ?_, key _ 3 ?_ ?_ ?_, key _ 4 ?_ ?_ ?_⟩
  all_goals first
    | (rw [abs_lt]; constructor <;> push_cast <;> linarith)
    | linarith

/-- hypotheses of `c123_hk_same`: slownesses 0 and 11.1 s/deg -/
example : ∃ r r', hk Sample.env [moveTrace 0, moveTrace 11.1] 0 [1] [2] (some ⟨.py, 1⟩) (some 0.6) (some 0.3) (some 0.1) none
      (some false) = .ok r ∧
    hk Sample.env [moveTrace 0, moveTrace 11.1] 0 [1] [2] (some ⟨.py, 1⟩) (some 0.6) (some 0.3) (some 0.1) none
      (some true) = .ok r' ∧ r'.stackvalues = r.stackvalues := by
  have e : ∀ b, ∃ r, hk Sample.env [moveTrace 0, moveTrace 11.1] 0 [1] [2] (some ⟨.py, 1⟩) (some 0.6) (some 0.3) (some 0.1)
      none (some b) = .ok r := by
    intro b
    refine c03_succeeds (sd := _) (more := []) rfl ?_ ?_ ?_ ?_ ?_ ?_ (by simp) (by simp) ?_
    · intro _; simp [moveTrace, Sample.trace]
    · simp [moveTrace, Sample.trace]
    · intro tr htr
      simp at htr
      rcases htr with rfl | rfl <;> simp [moveTrace, Sample.trace]
    · intro tr htr
      simp at htr
      subst htr; simp [moveTrace, Sample.trace]
    · intro v hv
      cases hv
      right
      rw [← Bool.not_eq_true, real_eq]; norm_num
    · intro h; cases h
    · intro _ _; rfl
  obtain ⟨r, hr⟩ := e false
  obtain ⟨r', hr'⟩ := e true
  refine ⟨r, r', hr, hr', ?_⟩
  have ht : r.time = timeAxis (1 : ℝ) 0 6 := by
    obtain ⟨tr0, rest, slows, f⟩ := hk_inv hr
    cases f.hst
    rw [f.htime]; rfl
  have hp : ∀ tr ∈ [moveTrace 0, moveTrace 11.1], (Sample.env.km2deg1 * slownessOf tr) ^ 2 ≤ 1 / 100 := by
    intro tr htr
    simp at htr
    rcases htr with rfl | rfl <;> norm_num [Sample.env, slownessOf, moveTrace, Sample.trace]
  have hq : (Sample.env.km2deg1 * average ([moveTrace 0, moveTrace 11.1].map slownessOf)) ^ 2 ≤ 1 / 100 := by
    norm_num [Sample.env, slownessOf, moveTrace, Sample.trace, average]
  refine (c123_hk_same hr hr' (by norm_num) (fun tr htr k hk => ?_) _ rfl (fun k hk => ?_) ?_ ?_).1
  · simp at hk
    subst hk
    exact pre_tenth (hp tr htr)
  · simp at hk
    subst hk
    exact pre_tenth hq
  · obtain ⟨tr0, rest, slows, f⟩ := hk_inv hr'
    obtain ⟨more, hm⟩ := f.hstack
    have e : r'.RFStack = (List.range 6).map (fun i : Nat =>
        ([moveTrace 0, moveTrace 11.1].map (fun tr => tr.data.getD i 0)).sum / ((2 : Nat) : ℝ)) := by
      injection hm with hm
      injection hm with hm _
      exact hm.symm
    intro i v hv
    rw [e, List.getElem?_map] at hv
    obtain ⟨j, hj, rfl⟩ := Option.map_eq_some_iff.1 hv
    have := List.getElem?_eq_some_iff.1 hj
    obtain ⟨_, hji⟩ := this
    rw [List.getElem_range] at hji
    subst hji
    rfl
  · intro tr htr x hx k hk T hT i
    simp at hx hk
    subst hx hk
    rw [ht]
    have a := move_nearest (hp tr htr) i
    have b := move_nearest hq i
    simp only [List.mem_cons, List.not_mem_nil, or_false] at hT
    rcases hT with rfl | rfl | rfl
    · exact fun h => b.1.2 (a.1.1 h)
    · exact fun h => b.2.1.2 (a.2.1.1 h)
    · exact fun h => b.2.2.2 (a.2.2.1 h)

end Rfsed.Props
