import Verif.Props.SedimentError
import Verif.Props.WindowMore

/-!
# C124: the two sediment corrections compared

`hkYu` corrects the delay times for the sediment with its reverberation period, `hkSeqSynth` with the layer found by its
first stage.  Exact reals; P waves propagate.
-/

namespace Rfsed.Props
open PyFloat Rfsed.Spec Rfsed.Proofs Rfsed.HkZhu

/-- **C124**: the corrections `hkYu` adds to the three delay times are the delay times of the sediment (thickness
`SedThick`, velocity ratio `VpSed/VsSed`) at vertical incidence, whatever the ray parameter. -/
theorem c124_yu_correction {env : Env ℝ} {flt : HkYu.FltInput ℝ} {rp : Scalar ℝ} {H K : List ℝ}
    {VpMoho : Option (Scalar ℝ)} {VpSed VsSed : Scalar ℝ} {w1 w2 w3 : Option ℝ} {r : HkYu.YuResult ℝ}
    (h : HkYu.hkYu env flt rp H K VpMoho (some VpSed) (some VsSed) w1 w2 w3 = .ok r)
    (hVs : 0 < VsSed.val) (hVp : 0 < VpSed.val) :
    r.Pdelay = tPs 0 VpSed.val r.SedThick (VpSed.val / VsSed.val) ∧
    flt.tlag.val - r.Pdelay = tPpPs 0 VpSed.val r.SedThick (VpSed.val / VsSed.val) ∧
    flt.tlag.val = tPsPs 0 VpSed.val r.SedThick (VpSed.val / VsSed.val) := by
  obtain ⟨vs, a, b, _, f⟩ := hkYu_inv h
  have e : VsSed = vs := Option.some.inj f.hvs
  subst e
  have hVpS : r.VpSed = VpSed := f.hVpSed
  have h1 : r.SedThick = flt.tlag.val * VsSed.val / 2 := by rw [f.hSed, real_two]
  have h2 : r.Pdelay = r.SedThick / VsSed.val - r.SedThick / VpSed.val := by
    rw [f.hPd, scalarDiv_real f.ha, scalarDiv_real f.hb, hVpS]
  have eS : VpSed.val / (VpSed.val / VsSed.val) = VsSed.val := by field_simp
  unfold tPs tPpPs tPsPs
  rw [eS, eta_zero hVs, eta_zero hVp, h2, h1]
  refine ⟨?_, ?_, ?_⟩ <;> field_simp <;> ring

/-- the vertical slowness is at most the slowness, and the difference is known -/
theorem obliquity {p V : ℝ} (h : Propagates p V) :
    p ^ 2 * V / 2 ≤ 1 / V - eta p V ∧ 1 / V - eta p V ≤ p ^ 2 * V := by
  have hV := h.1
  have h0 := eta_nonneg p V
  have hsq : eta p V ^ 2 = (1 / V) ^ 2 - p ^ 2 := by rw [eta_one, Real.sq_sqrt (by linarith [h.2])]
  have hle : eta p V ≤ 1 / V := by
    apply le_of_sq_le_sq _ (by positivity)
    rw [hsq]; nlinarith [sq_nonneg p]
  have e : (1 / V - eta p V) * (1 / V + eta p V) = p ^ 2 := by
    have : (1 / V - eta p V) * (1 / V + eta p V) = (1 / V) ^ 2 - eta p V ^ 2 := by ring
    rw [this, hsq]; ring
  have e1 : (1 / V) * V = 1 := by field_simp
  have hd : 0 ≤ 1 / V - eta p V := by linarith
  constructor
  · rw [← e]
    have : (1 / V + eta p V) * V ≤ 2 := by nlinarith
    nlinarith
  · rw [← e]
    have : 1 ≤ (1 / V + eta p V) * V := by nlinarith [mul_nonneg h0 hV.le]
    nlinarith

theorem obliquity_mono {p V W : ℝ} (hV : 0 < V) (hW : Propagates p W) (hVW : V ≤ W) :
    1 / V - eta p V ≤ 1 / W - eta p W := by
  have hw := hW.1
  have i : 1 / W ≤ 1 / V := one_div_le_one_div_of_le hV hVW
  have hw0 : 0 < 1 / W := by positivity
  have hi2 : (1 / W) ^ 2 ≤ (1 / V) ^ 2 := by nlinarith
  have hPV : Propagates p V := ⟨hV, lt_of_lt_of_le hW.2 hi2⟩
  have s1 : eta p V ^ 2 = (1 / V) ^ 2 - p ^ 2 := by rw [eta_one, Real.sq_sqrt (by linarith [hPV.2])]
  have s2 : eta p W ^ 2 = (1 / W) ^ 2 - p ^ 2 := by rw [eta_one, Real.sq_sqrt (by linarith [hW.2])]
  have p1 := eta_pos hPV
  have p2 := eta_pos hW
  have le1 : eta p V ≤ 1 / V := by
    apply le_of_sq_le_sq _ (by positivity)
    rw [s1]; nlinarith [sq_nonneg p]
  have le2 : eta p W ≤ 1 / W := by
    apply le_of_sq_le_sq _ (by positivity)
    rw [s2]; nlinarith [sq_nonneg p]
  have lee : eta p W ≤ eta p V := by
    apply le_of_sq_le_sq _ p1.le
    rw [s1, s2]; linarith
  -- both differences times their sums are `p ^ 2`
  have e1 : (1 / V - eta p V) * (1 / V + eta p V) = p ^ 2 := by
    have : (1 / V - eta p V) * (1 / V + eta p V) = (1 / V) ^ 2 - eta p V ^ 2 := by ring
    rw [this, s1]; ring
  have e2 : (1 / W - eta p W) * (1 / W + eta p W) = p ^ 2 := by
    have : (1 / W - eta p W) * (1 / W + eta p W) = (1 / W) ^ 2 - eta p W ^ 2 := by ring
    rw [this, s2]; ring
  by_contra hc
  push Not at hc
  have : (1 / W - eta p W) * (1 / W + eta p W) < (1 / V - eta p V) * (1 / V + eta p V) := by
    have a1 : 0 < 1 / W + eta p W := by linarith
    have a2 : 1 / W + eta p W ≤ 1 / V + eta p V := by linarith
    have a3 : 0 ≤ 1 / V - eta p V := by linarith
    nlinarith
  linarith

/-- **C124**: what neglecting the obliquity of the rays in the sediment costs: the Ps correction is too small, those of the
multiples are too large, by at most `p² Vp H`, `2 p² Vp H` and `2 p² (Vp/K) H`. -/
theorem c124_obliquity {p V H K : ℝ} (h : Propagates p V) (hH : 0 ≤ H) (hK : 1 ≤ K) :
    0 ≤ tPs p V H K - tPs 0 V H K ∧ tPs p V H K - tPs 0 V H K ≤ p ^ 2 * V * H ∧
    0 ≤ tPpPs 0 V H K - tPpPs p V H K ∧ tPpPs 0 V H K - tPpPs p V H K ≤ 2 * (p ^ 2 * V * H) ∧
    0 ≤ tPsPs 0 V H K - tPsPs p V H K ∧ tPsPs 0 V H K - tPsPs p V H K ≤ 2 * (p ^ 2 * (V / K) * H) := by
  have hV := h.1
  have hVK : 0 < V / K := by positivity
  have hle : V / K ≤ V := div_le_self hV.le hK
  have hS : Propagates p (V / K) := by
    refine ⟨hVK, lt_of_lt_of_le h.2 ?_⟩
    have : 1 / V ≤ 1 / (V / K) := one_div_le_one_div_of_le hVK hle
    have h0 : 0 < 1 / V := by positivity
    nlinarith
  obtain ⟨a1, a2⟩ := obliquity h
  obtain ⟨b1, b2⟩ := obliquity hS
  have m := obliquity_mono hVK h hle
  have pa : 0 ≤ p ^ 2 * V / 2 := by positivity
  have pb : 0 ≤ p ^ 2 * (V / K) / 2 := by positivity
  have pv : p ^ 2 * (V / K) ≤ p ^ 2 * V := mul_le_mul_of_nonneg_left hle (sq_nonneg p)
  unfold tPs tPpPs tPsPs
  rw [eta_zero hV, eta_zero hVK]
  refine ⟨?_, ?_, ?_, ?_, ?_, ?_⟩ <;> nlinarith

/-- **C124**: `hkYu` and the second stage of `hkSeqSynth` on the same record: if at every grid point the corrected delay
times have the same nearest samples, the sequential table is the other one without its negative values and the best
models are the same. -/
theorem c124_same_samples {env env' : Env ℝ} {flt : HkYu.FltInput ℝ} {dS : List ℝ} {rp Vp VS : Scalar ℝ}
    {H K HS KS : List ℝ} {VpSed VsSed : Option (Scalar ℝ)} {w1S w2S w3S : Option ℝ} {w1 w2 w3 : ℝ} {r : HkYu.YuResult ℝ}
    {r' : SynthAnalysis.SeqSynthResult ℝ} {bS : Row ℝ}
    (h : HkYu.hkYu env flt rp H K (some Vp) VpSed VsSed (some w1) (some w2) (some w3) = .ok r)
    (h' : SynthAnalysis.hkSeqSynth env' dS flt.filteredrf flt.time rp HS KS (some VS) w1S w2S w3S H K (some Vp)
      (some w1) (some w2) (some w3) = .ok r')
    (hV : Propagates rp.val Vp.val) (hVS : Propagates rp.val VS.val) (hb : r'.bestmodelSed = some bS)
    (h1 : ∀ x ∈ H, ∀ k ∈ K, ∀ i : Nat, NearestSample flt.time (tPs rp.val Vp.val x k + r.Pdelay) i →
      NearestSample flt.time (tPs rp.val VS.val bS.h bS.k + tPs rp.val Vp.val x k) i)
    (h2 : ∀ x ∈ H, ∀ k ∈ K, ∀ i : Nat, NearestSample flt.time (tPpPs rp.val Vp.val x k + (flt.tlag.val - r.Pdelay)) i →
      NearestSample flt.time (tPpPs rp.val VS.val bS.h bS.k + tPpPs rp.val Vp.val x k) i)
    (h3 : ∀ x ∈ H, ∀ k ∈ K, ∀ i : Nat, NearestSample flt.time (tPsPs rp.val Vp.val x k + flt.tlag.val) i →
      NearestSample flt.time (tPsPs rp.val VS.val bS.h bS.k + tPsPs rp.val Vp.val x k) i) :
    ClippedFrom r.stackvaluesSubSed r'.stackvalueMoho ∧ r'.bestIdxMoho = r.bestIdx := by
  obtain ⟨_, _, _, _, f⟩ := hkYu_inv h
  obtain ⟨bmod, raw, f'⟩ := hkSeqSynth_inv h'
  have eb : bmod = bS := Option.some.inj (f'.hrowS.symm.trans hb)
  subst eb
  have e : raw = r.stackvaluesSubSed := by
    refine gridLoop_same f.hgrid f'.hgridM (fun k hk x hx s hs => ?_)
    rw [f.hVp, Option.getD_some, yuCell_eq, bestTimes_real hV.1.ne' hV.2.le, except_ok_bind, yuShift_zk] at hs
    obtain ⟨v, hv, hs⟩ := bind_eq_ok.1 hs
    rw [f'.hVpSed, Option.getD_some, seqMohoCell_eq, mohoTimes_real hVS.1.ne' hV.1.ne' hVS.2.le hV.2.le, except_ok_bind]
    refine bind_eq_ok.2 ⟨v, ?_, hs⟩
    rw [weigh_real] at hv ⊢
    obtain ⟨a1, a2, a3, ⟨i1, n1, q1⟩, ⟨i2, n2, q2⟩, ⟨i3, n3, q3⟩, hsum⟩ := hv
    rw [add_sub_assoc] at n2
    exact ⟨a1, a2, a3, ⟨i1, h1 x hx k hk _ n1, q1⟩, ⟨i2, h2 x hx k hk _ n2, q2⟩, ⟨i3, h3 x hx k hk _ n3, q3⟩, hsum⟩
  have hbest := f'.hbestM
  rw [e, f.hbest] at hbest
  exact ⟨clippedFrom_iff.2 (e ▸ f'.hclip), (Except.ok.inj hbest).symm⟩

/-- **C124**: vertical incidence.  If the sediment of the first stage is the one of `hkYu` (thickness `SedThick`, ratio
`VpSed/VsSed`, for example because it is the only candidate), the two methods agree exactly. -/
theorem c124_vertical {env env' : Env ℝ} {flt : HkYu.FltInput ℝ} {dS : List ℝ} {rp Vp VpSed VsSed : Scalar ℝ}
    {H K HS KS : List ℝ} {w1S w2S w3S : Option ℝ} {w1 w2 w3 : ℝ} {r : HkYu.YuResult ℝ}
    {r' : SynthAnalysis.SeqSynthResult ℝ} {bS : Row ℝ}
    (h : HkYu.hkYu env flt rp H K (some Vp) (some VpSed) (some VsSed) (some w1) (some w2) (some w3) = .ok r)
    (h' : SynthAnalysis.hkSeqSynth env' dS flt.filteredrf flt.time rp HS KS (some VpSed) w1S w2S w3S H K (some Vp)
      (some w1) (some w2) (some w3) = .ok r')
    (hrp : rp.val = 0) (hV : 0 < Vp.val) (hVp : 0 < VpSed.val) (hVs : 0 < VsSed.val)
    (hb : r'.bestmodelSed = some bS) (hh : bS.h = r.SedThick) (hk : bS.k = VpSed.val / VsSed.val) :
    ClippedFrom r.stackvaluesSubSed r'.stackvalueMoho ∧ r'.bestIdxMoho = r.bestIdx := by
  obtain ⟨e1, e2, e3⟩ := c124_yu_correction h hVs hVp
  refine c124_same_samples h h' (hrp ▸ propagates_zero hV) (hrp ▸ propagates_zero hVp) hb ?_ ?_ ?_
  · intro x _ k _ i hi
    rw [e1, add_comm] at hi
    rw [hh, hk, hrp]; rw [hrp] at hi; exact hi
  · intro x _ k _ i hi
    rw [e2, add_comm] at hi
    rw [hh, hk, hrp]; rw [hrp] at hi; exact hi
  · intro x _ k _ i hi
    rw [e3, add_comm] at hi
    rw [hh, hk, hrp]; rw [hrp] at hi; exact hi

/-- a sediment grid with one point has that point as its best model -/
theorem single_sediment {env : Env ℝ} {dS dM t : List ℝ} {rp : Scalar ℝ} {H1 K1 : ℝ} {VS : Option (Scalar ℝ)}
    {w1S w2S w3S : Option ℝ} {HM KM : List ℝ} {VM : Option (Scalar ℝ)} {w1M w2M w3M : Option ℝ}
    {r : SynthAnalysis.SeqSynthResult ℝ}
    (h : SynthAnalysis.hkSeqSynth env dS dM t rp [H1] [K1] VS w1S w2S w3S HM KM VM w1M w2M w3M = .ok r) :
    ∃ bS, r.bestmodelSed = some bS ∧ bS.h = H1 ∧ bS.k = K1 := by
  obtain ⟨bmod, raw, f⟩ := hkSeqSynth_inv h
  refine ⟨bmod, f.hrowS, ?_, ?_⟩
  · have := (gridLoop_row f.hgridS (List.mem_of_getElem? f.hrowS)).2.1
    simpa using this
  · have := (gridLoop_row f.hgridS (List.mem_of_getElem? f.hrowS)).1
    simpa using this

/-- **C124**: a sediment of thickness zero: the second stage is plain H-k stacking of the second record. -/
theorem c124_no_sediment {env env' : Env ℝ} {dS dM t : List ℝ} {rp Vp VS : Scalar ℝ}
    {H K HS KS : List ℝ} {w1S w2S w3S : Option ℝ} {w1 w2 w3 : ℝ} {layer : Option String} {r : SynthAnalysis.SynthResult ℝ}
    {r' : SynthAnalysis.SeqSynthResult ℝ} {bS : Row ℝ}
    (h : SynthAnalysis.hkSynth env dM t rp H K (some Vp) (some w1) (some w2) (some w3) layer = .ok r)
    (h' : SynthAnalysis.hkSeqSynth env' dS dM t rp HS KS (some VS) w1S w2S w3S H K (some Vp)
      (some w1) (some w2) (some w3) = .ok r')
    (hV : Propagates rp.val Vp.val) (hVS : Propagates rp.val VS.val) (hb : r'.bestmodelSed = some bS) (hh : bS.h = 0) :
    ClippedFrom r.stackvalues r'.stackvalueMoho ∧ r'.bestIdxMoho = r.bestIdx := by
  have f := hkSynth_inv h
  obtain ⟨bmod, raw, f'⟩ := hkSeqSynth_inv h'
  have eb : bmod = bS := Option.some.inj (f'.hrowS.symm.trans hb)
  subst eb
  have e : raw = r.stackvalues := by
    refine gridLoop_same f.hgrid f'.hgridM (fun k hk x hx s hs => ?_)
    simp only [Option.getD_some] at hs
    rw [synthCell_eq, bestTimes_real hV.1.ne' hV.2.le, except_ok_bind] at hs
    rw [f'.hVpSed, Option.getD_some, seqMohoCell_eq, mohoTimes_real hVS.1.ne' hV.1.ne' hVS.2.le hV.2.le, except_ok_bind,
      hh]
    obtain ⟨-, z1, z2, z3⟩ := c20_times rp.val VS.val bmod.k 0 Vp.val x k
    rw [z1, z2, z3]
    exact hs
  have hbest := f'.hbestM
  rw [e, f.hbest] at hbest
  exact ⟨clippedFrom_iff.2 (e ▸ f'.hclip), (Except.ok.inj hbest).symm⟩

/-! ## Concrete cases -/

/-- 1 km of sediment with `Vp = 2.5` km/s, ray parameter 0.06 s/km: at most 9 ms of error in Ps -/
example : tPs (6 / 100) 2.5 1 2 - tPs 0 2.5 1 2 ≤ 9 / 1000 := by
  have := (c124_obliquity (p := 6 / 100) (V := 2.5) (H := 1) (K := 2)
    (sample_propagates le_rfl (by norm_num) (by norm_num)) (by norm_num) (by norm_num)).2.1
  norm_num at this ⊢
  linarith

/-- `c124_vertical`, `c124_yu_correction` and `single_sediment` on a vertical ray, one candidate sediment -/
example : ∃ r r', HkYu.hkYu Sample.env sampleFlt ⟨.py, 0⟩ [30, 35, 40] [17 / 10, 18 / 10] (some ⟨.py, 65 / 10⟩)
      (some ⟨.py, 25 / 10⟩) (some ⟨.py, 1⟩) (some (6 / 10)) (some (3 / 10)) (some (1 / 10)) = .ok r ∧
    SynthAnalysis.hkSeqSynth Sample.env sampleFlt.filteredrf sampleFlt.filteredrf sampleFlt.time ⟨.py, 0⟩ [r.SedThick]
      [25 / 10 / 1] (some ⟨.py, 25 / 10⟩) none none none [30, 35, 40] [17 / 10, 18 / 10] (some ⟨.py, 65 / 10⟩)
      (some (6 / 10)) (some (3 / 10)) (some (1 / 10)) = .ok r' ∧
    ClippedFrom r.stackvaluesSubSed r'.stackvalueMoho ∧ r'.bestIdxMoho = r.bestIdx := by
  obtain ⟨r, hr⟩ : ∃ r, HkYu.hkYu Sample.env sampleFlt ⟨.py, 0⟩ [30, 35, 40] [17 / 10, 18 / 10] (some ⟨.py, 65 / 10⟩)
      (some ⟨.py, 25 / 10⟩) (some ⟨.py, 1⟩) (some (6 / 10)) (some (3 / 10)) (some (1 / 10)) = .ok r :=
    c25_hkYu_succeeds (by simp [sampleFlt]) (by simp [sampleFlt]) (divisor_real (by norm_num))
      (divisor_real (by norm_num)) (divisor_real (by norm_num)) (by simp) (by simp) (fun _ _ => rfl)
  obtain ⟨r', hr'⟩ : ∃ r', SynthAnalysis.hkSeqSynth Sample.env sampleFlt.filteredrf sampleFlt.filteredrf sampleFlt.time
      ⟨.py, 0⟩ [r.SedThick] [25 / 10 / 1] (some ⟨.py, 25 / 10⟩) none none none [30, 35, 40] [17 / 10, 18 / 10]
      (some ⟨.py, 65 / 10⟩) (some (6 / 10)) (some (3 / 10)) (some (1 / 10)) = .ok r' :=
    c25_hkSeqSynth_succeeds (by simp [sampleFlt]) (by simp [sampleFlt]) (by simp [sampleFlt]) (divisor_real (by norm_num))
      (divisor_real (by norm_num)) (by simp) (by simp) (by simp) (by simp) (fun _ _ => rfl)
  obtain ⟨bS, hb, hh, hk⟩ := single_sediment hr'
  exact ⟨r, r', hr, hr', c124_vertical hr hr' rfl (by norm_num) (by norm_num) (by norm_num) hb hh hk⟩

/-- `c124_no_sediment`: the only candidate sediment has thickness 0 -/
example : ∃ r r', SynthAnalysis.hkSynth Sample.env sampleFlt.filteredrf sampleFlt.time ⟨.py, 6 / 100⟩ [30, 35]
      [17 / 10, 18 / 10] (some ⟨.py, 65 / 10⟩) (some (6 / 10)) (some (3 / 10)) (some (1 / 10)) none = .ok r ∧
    SynthAnalysis.hkSeqSynth Sample.env sampleFlt.filteredrf sampleFlt.filteredrf sampleFlt.time ⟨.py, 6 / 100⟩ [0] [2]
      (some ⟨.py, 3⟩) none none none [30, 35] [17 / 10, 18 / 10] (some ⟨.py, 65 / 10⟩)
      (some (6 / 10)) (some (3 / 10)) (some (1 / 10)) = .ok r' ∧
    ClippedFrom r.stackvalues r'.stackvalueMoho ∧ r'.bestIdxMoho = r.bestIdx := by
  obtain ⟨r, hr⟩ : ∃ r, SynthAnalysis.hkSynth Sample.env sampleFlt.filteredrf sampleFlt.time ⟨.py, 6 / 100⟩ [30, 35]
      [17 / 10, 18 / 10] (some ⟨.py, 65 / 10⟩) (some (6 / 10)) (some (3 / 10)) (some (1 / 10)) none = .ok r :=
    c25_hkSynth_succeeds (by simp [sampleFlt]) (by simp [sampleFlt]) (divisor_real (by norm_num)) (by simp) (by simp)
      (fun _ _ => rfl)
  obtain ⟨r', hr'⟩ : ∃ r', SynthAnalysis.hkSeqSynth Sample.env sampleFlt.filteredrf sampleFlt.filteredrf sampleFlt.time
      ⟨.py, 6 / 100⟩ [0] [2] (some ⟨.py, 3⟩) none none none [30, 35] [17 / 10, 18 / 10] (some ⟨.py, 65 / 10⟩)
      (some (6 / 10)) (some (3 / 10)) (some (1 / 10)) = .ok r' :=
    c25_hkSeqSynth_succeeds (by simp [sampleFlt]) (by simp [sampleFlt]) (by simp [sampleFlt]) (divisor_real (by norm_num))
      (divisor_real (by norm_num)) (by simp) (by simp) (by simp) (by simp) (fun _ _ => rfl)
  obtain ⟨bS, hb, hh, hk⟩ := single_sediment hr'
  exact ⟨r, r', hr, hr', c124_no_sediment hr hr' (sample_propagates le_rfl (by norm_num) (by norm_num))
    (sample_propagates le_rfl (by norm_num) (by norm_num)) hb hh⟩

end Rfsed.Props
