import Verif.Spec.SedimentError
import Verif.Spec.Rounding2
import Verif.Props.Tradeoff
import Verif.Props.Accuracy

/-!
# C121: errors in the sediment pass into the Moho

Exact reals; P waves propagate in both layers.
-/

namespace Rfsed.Props
open PyFloat Rfsed.Spec Rfsed.Proofs Rfsed.HkZhu

/-! ## Delay times -/

/-- **C121** A crust below an assumed sediment explains the Ps and PpPs times of the true crust below the true sediment
exactly if its one-way P and S times differ from the true ones by what is missing in the sediment; PsPs then agrees
too. -/
theorem c121_times {p VS VS' V H1 K1 H1' K1' H K H' K' : ℝ} :
    (mohoPs p VS' H1' K1' V H' K' = mohoPs p VS H1 K1 V H K ∧
      mohoPpPs p VS' H1' K1' V H' K' = mohoPpPs p VS H1 K1 V H K) ↔
    (H' * eta p V = H * eta p V + (H1 * eta p VS - H1' * eta p VS') ∧
      H' * eta p (V / K') = H * eta p (V / K) + (H1 * eta p (VS / K1) - H1' * eta p (VS' / K1'))) := by
  unfold mohoPs mohoPpPs tPs tPpPs
  constructor
  · rintro ⟨h1, h2⟩
    constructor <;> linarith
  · rintro ⟨h1, h2⟩
    constructor <;> linarith

theorem c121_third {p VS VS' V H1 K1 H1' K1' H K H' K' : ℝ}
    (h1 : mohoPs p VS' H1' K1' V H' K' = mohoPs p VS H1 K1 V H K)
    (h2 : mohoPpPs p VS' H1' K1' V H' K' = mohoPpPs p VS H1 K1 V H K) :
    mohoPsPs p VS' H1' K1' V H' K' = mohoPsPs p VS H1 K1 V H K := by
  unfold mohoPs mohoPpPs mohoPsPs tPs tPpPs tPsPs at *
  linarith

/-- **C121** the thickness of such a crust -/
theorem c121_thickness {p VS VS' V H1 K1 H1' K1' H K H' K' : ℝ} (hV : Propagates p V)
    (h1 : mohoPs p VS' H1' K1' V H' K' = mohoPs p VS H1 K1 V H K)
    (h2 : mohoPpPs p VS' H1' K1' V H' K' = mohoPpPs p VS H1 K1 V H K) :
    H' = biasedH p V H (H1 * eta p VS - H1' * eta p VS') := by
  have h := (c121_times.1 ⟨h1, h2⟩).1
  have h0 := (eta_pos hV).ne'
  unfold biasedH
  field_simp
  linarith

theorem biased_S {p V H K dP dS : ℝ} (hV : Propagates p V) (hH : 0 < biasedH p V H dP)
    (hS : 0 ≤ H * eta p (V / K) + dS) :
    biasedH p V H dP * eta p (V / biasedK p V H K dP dS) = H * eta p (V / K) + dS := by
  have hV0 := hV.1
  have e : biasedK p V H K dP dS / V = Real.sqrt (p ^ 2 + ((H * eta p (V / K) + dS) / biasedH p V H dP) ^ 2) := by
    unfold biasedK; field_simp
  rw [eta_ratio, e, Real.sq_sqrt (by positivity),
    show p ^ 2 + ((H * eta p (V / K) + dS) / biasedH p V H dP) ^ 2 - p ^ 2
      = ((H * eta p (V / K) + dS) / biasedH p V H dP) ^ 2 by ring, Real.sqrt_sq (by positivity)]
  field_simp

theorem biased_P {p V H dP : ℝ} (hV : Propagates p V) : biasedH p V H dP * eta p V = H * eta p V + dP := by
  have h0 := (eta_pos hV).ne'
  unfold biasedH
  field_simp

/-- **C121** such a crust exists as long as the assumed sediment is not so thick that nothing is left for the crust -/
theorem c121_exists {p VS VS' V H1 K1 H1' K1' H K : ℝ} (hV : Propagates p V)
    (hH : 0 < biasedH p V H (H1 * eta p VS - H1' * eta p VS'))
    (hS : 0 ≤ H * eta p (V / K) + (H1 * eta p (VS / K1) - H1' * eta p (VS' / K1'))) :
    let dP := H1 * eta p VS - H1' * eta p VS'
    let dS := H1 * eta p (VS / K1) - H1' * eta p (VS' / K1')
    mohoPs p VS' H1' K1' V (biasedH p V H dP) (biasedK p V H K dP dS) = mohoPs p VS H1 K1 V H K ∧
    mohoPpPs p VS' H1' K1' V (biasedH p V H dP) (biasedK p V H K dP dS) = mohoPpPs p VS H1 K1 V H K ∧
    mohoPsPs p VS' H1' K1' V (biasedH p V H dP) (biasedK p V H K dP dS) = mohoPsPs p VS H1 K1 V H K := by
  intro dP dS
  obtain ⟨h1, h2⟩ := c121_times.2 ⟨biased_P (H := H) (dP := dP) hV, biased_S (K := K) (dS := dS) hV hH hS⟩
  exact ⟨h1, h2, c121_third h1 h2⟩

/-- **C121** it is the only one -/
theorem c121_unique {p VS VS' V H1 K1 H1' K1' H K H' K' : ℝ} (hV : Propagates p V) (hH' : 0 < H') (hK' : 0 < K')
    (hpK : p ^ 2 ≤ (K' / V) ^ 2)
    (h1 : mohoPs p VS' H1' K1' V H' K' = mohoPs p VS H1 K1 V H K)
    (h2 : mohoPpPs p VS' H1' K1' V H' K' = mohoPpPs p VS H1 K1 V H K) :
    H' = biasedH p V H (H1 * eta p VS - H1' * eta p VS') ∧
    K' = biasedK p V H K (H1 * eta p VS - H1' * eta p VS') (H1 * eta p (VS / K1) - H1' * eta p (VS' / K1')) := by
  have e := c121_thickness hV h1 h2
  refine ⟨e, ?_⟩
  have hs := (c121_times.1 ⟨h1, h2⟩).2
  have hV0 := hV.1
  unfold biasedK
  rw [← e, ← hs, mul_div_cancel_left₀ _ hH'.ne', eta_ratio, Real.sq_sqrt (by linarith),
    show p ^ 2 + ((K' / V) ^ 2 - p ^ 2) = (K' / V) ^ 2 by ring, Real.sqrt_sq (by positivity)]
  field_simp

/-- **C121** With a sediment slower than the crust, an overestimated sediment thickness makes the crust too thin by more
than the error, so that the total depth of the Moho is underestimated too, and an underestimated one the reverse. -/
theorem c121_bias {p VS V H1 H1' H : ℝ} (hS : 0 < VS) (hSV : VS < V) (hV : Propagates p V) (h : H1 < H1') :
    biasedH p V H (H1 * eta p VS - H1' * eta p VS) + H1' < H + H1 ∧
    H + H1' < biasedH p V H (H1' * eta p VS - H1 * eta p VS) + H1 := by
  have h0 := eta_pos hV
  have i1 : (1 / V) ^ 2 < (1 / VS) ^ 2 := by
    have : 1 / V < 1 / VS := one_div_lt_one_div_of_lt hS hSV
    have h0 : 0 < 1 / V := one_div_pos.2 hV.1
    nlinarith
  have he : eta p V < eta p VS := by
    rw [eta_one, eta_one]
    exact Real.sqrt_lt_sqrt (by linarith [hV.2]) (by linarith)
  have hr : 1 < eta p VS / eta p V := by rwa [one_lt_div h0]
  have hd : 0 < H1' - H1 := by linarith
  unfold biasedH
  rw [show (H1 * eta p VS - H1' * eta p VS) / eta p V = -((H1' - H1) * (eta p VS / eta p V)) by ring,
    show (H1' * eta p VS - H1 * eta p VS) / eta p V = (H1' - H1) * (eta p VS / eta p V) by ring]
  constructor <;> nlinarith

/-! ## The stacking functions -/

theorem clip_mem {raw : List (Row ℝ)} {row : Row ℝ} (h : row ∈ clipLoop raw) :
    ∃ s, (⟨row.h, row.k, s⟩ : Row ℝ) ∈ raw ∧ row.s = max s 0 := by
  rw [clipLoop_eq] at h
  obtain ⟨q, hq, rfl⟩ := List.mem_map.1 h
  exact ⟨q.s, by simpa [clipRow_real] using hq, by rw [clipRow_real]⟩

/-- **C121** `hkSeqSynth`: two analyses of the same Moho receiver function after different sediment stages (other data,
grid or velocity).  Grid points whose Ps and PpPs times agree have the same stack value. -/
theorem c121_hkSeqSynth {env env' : Env ℝ} {dS dS' dM t : List ℝ} {rp VS VS' VM : Scalar ℝ}
    {HS KS HM KM HS' KS' HM' KM' : List ℝ} {w1S w2S w3S w1S' w2S' w3S' : Option ℝ} {w1M w2M w3M : ℝ}
    {r r' : SynthAnalysis.SeqSynthResult ℝ}
    (h : SynthAnalysis.hkSeqSynth env dS dM t rp HS KS (some VS) w1S w2S w3S HM KM (some VM) (some w1M) (some w2M)
      (some w3M) = .ok r)
    (h' : SynthAnalysis.hkSeqSynth env' dS' dM t rp HS' KS' (some VS') w1S' w2S' w3S' HM' KM' (some VM) (some w1M)
      (some w2M) (some w3M) = .ok r')
    (hS : Propagates rp.val VS.val) (hS' : Propagates rp.val VS'.val) (hM : Propagates rp.val VM.val)
    {b b' : Row ℝ} (hb : r.bestmodelSed = some b) (hb' : r'.bestmodelSed = some b')
    {row row' : Row ℝ} (hrow : row ∈ r.stackvalueMoho) (hrow' : row' ∈ r'.stackvalueMoho)
    (e1 : mohoPs rp.val VS'.val b'.h b'.k VM.val row'.h row'.k = mohoPs rp.val VS.val b.h b.k VM.val row.h row.k)
    (e2 : mohoPpPs rp.val VS'.val b'.h b'.k VM.val row'.h row'.k = mohoPpPs rp.val VS.val b.h b.k VM.val row.h row.k) :
    row'.s = row.s := by
  have e3 := c121_third e1 e2
  unfold mohoPs at e1
  unfold mohoPpPs at e2
  unfold mohoPsPs at e3
  obtain ⟨bm, raw, f⟩ := hkSeqSynth_inv h
  obtain ⟨bm', raw', f'⟩ := hkSeqSynth_inv h'
  cases (show some bm = some b from f.hrowS.symm.trans hb)
  cases (show some bm' = some b' from f'.hrowS.symm.trans hb')
  rw [f.hclip] at hrow
  rw [f'.hclip] at hrow'
  obtain ⟨s, q1, q2⟩ := clip_mem hrow
  obtain ⟨s', q1', q2'⟩ := clip_mem hrow'
  have g := (gridLoop_row f.hgridM q1).2.2
  have g' := (gridLoop_row f'.hgridM q1').2.2
  rw [f.hVpSed, seqMohoCell_eq, Option.getD_some, mohoTimes_real hS.1.ne' hM.1.ne' hS.2.le hM.2.le] at g
  rw [f'.hVpSed, seqMohoCell_eq, Option.getD_some, mohoTimes_real hS'.1.ne' hM.1.ne' hS'.2.le hM.2.le, e1, e2, e3] at g'
  simp only at g g'
  rw [g] at g'
  rw [q2, q2', Except.ok.inj g']

/-- **C121** `hkSeq`, the same Moho stream after different sediment stages; `p` is the ray parameter used in the Moho
stage (of the last trace, or the mean with `stack=True`). -/
theorem c121_hkSeq {env env' : Env ℝ} {stS stS' init : List (Trace ℝ)} {last : Trace ℝ} {sl : Scalar ℝ}
    {preonset preonset' : ℝ} {VS VS' VM : Scalar ℝ}
    {HS KS HM KM HS' KS' HM' KM' : List ℝ} {w1S w2S w3S w1S' w2S' w3S' : Option ℝ} {w1M w2M w3M : ℝ} {stack : Bool}
    {r r' : HkSeqYeck.SeqResult ℝ} {p : ℝ}
    (h : HkSeqYeck.hkSeq env stS (init ++ [last]) preonset HS KS (some VS) w1S w2S w3S HM KM (some VM) (some w1M)
      (some w2M) (some w3M) (some stack) = .ok r)
    (h' : HkSeqYeck.hkSeq env' stS' (init ++ [last]) preonset' HS' KS' (some VS') w1S' w2S' w3S' HM' KM' (some VM)
      (some w1M) (some w2M) (some w3M) (some stack) = .ok r')
    (hkm : env'.km2deg1 = env.km2deg1) (hstack : env'.stack (init ++ [last]) = env.stack (init ++ [last]))
    (ht : r'.time = r.time) (hsl : last.slowness = some sl)
    (hp : p = if stack then env.km2deg1 * r.AvgSlow else env.km2deg1 * sl.val)
    (hS : Propagates p VS.val) (hS' : Propagates p VS'.val) (hM : Propagates p VM.val)
    {b b' : Row ℝ} (hb : r.bestmodelSed = some b) (hb' : r'.bestmodelSed = some b')
    {row row' : Row ℝ} (hrow : row ∈ r.stackvalueMoho) (hrow' : row' ∈ r'.stackvalueMoho)
    (e1 : mohoPs p VS'.val b'.h b'.k VM.val row'.h row'.k = mohoPs p VS.val b.h b.k VM.val row.h row.k)
    (e2 : mohoPpPs p VS'.val b'.h b'.k VM.val row'.h row'.k = mohoPpPs p VS.val b.h b.k VM.val row.h row.k) :
    row'.s = row.s := by
  have e3 := c121_third e1 e2
  unfold mohoPs at e1
  unfold mohoPpPs at e2
  unfold mohoPsPs at e3
  obtain ⟨_, _, slows, bm, raw, f⟩ := hkSeq_inv h
  obtain ⟨_, _, slows', bm', raw', f'⟩ := hkSeq_inv h'
  cases (show some bm = some b from f.hrowS.symm.trans hb)
  cases (show some bm' = some b' from f'.hrowS.symm.trans hb')
  have havg : r'.AvgSlow = r.AvgSlow := by
    have := f'.hslow
    rw [f.hslow] at this
    rw [f.havg, f'.havg, Except.ok.inj this]
  have hst : r'.RFMohoStack = r.RFMohoStack := by
    obtain ⟨_, q⟩ := f.hstackM
    obtain ⟨_, q'⟩ := f'.hstackM
    rw [hstack, q] at q'
    injection Except.ok.inj q' with a _
    exact a.symm
  rw [f.hclip] at hrow
  rw [f'.hclip] at hrow'
  obtain ⟨s, q1, q2⟩ := clip_mem hrow
  obtain ⟨s', q1', q2'⟩ := clip_mem hrow'
  have g := (gridLoop_row f.hgridM q1).2.2
  have g' := (gridLoop_row f'.hgridM q1').2.2
  obtain ⟨i, l, hl, -, g⟩ := lastTrace_ok.1 g
  obtain ⟨i', l', hl', -, g'⟩ := lastTrace_ok.1 g'
  obtain ⟨-, hl⟩ := List.append_inj' hl rfl
  obtain ⟨-, hl'⟩ := List.append_inj' hl' rfl
  cases hl
  cases hl'
  rw [f.hVpSed, f.hstk, mohoTerm_eq] at g
  rw [f'.hVpSed, f'.hstk, mohoTerm_eq] at g'
  simp only [Option.getD_some] at g g'
  obtain ⟨tr0, i1, g⟩ := bind_eq_ok.1 g
  obtain ⟨o, i2, g⟩ := bind_eq_ok.1 g
  obtain ⟨sl1, i3, g⟩ := bind_eq_ok.1 g
  obtain ⟨tr0', -, g'⟩ := bind_eq_ok.1 g'
  obtain ⟨o', -, g'⟩ := bind_eq_ok.1 g'
  obtain ⟨sl1', i3', g'⟩ := bind_eq_ok.1 g'
  rw [getSlowness_ok, hsl] at i3 i3'
  cases i3
  cases i3'
  rw [hkm, havg, ← hp, hst, ht, mohoTimes_real hS'.1.ne' hM.1.ne' hS'.2.le hM.2.le, e1, e2, e3] at g'
  rw [← hp, mohoTimes_real hS.1.ne' hM.1.ne' hS.2.le hM.2.le] at g
  rw [g] at g'
  rw [q2, q2', Except.ok.inj g']

/-! ### hkYu -/

/-- **C121** `hkYu`: the two analyses explain the same filtered receiver function.  Candidates whose delay times, shifted
by the respective sediment, agree have the same stack value. -/
theorem c121_hkYu {env env' : Env ℝ} {flt flt' : HkYu.FltInput ℝ} {rp Vp : Scalar ℝ} {H K H' K' : List ℝ}
    {VpSed VsSed VpSed' VsSed' : Option (Scalar ℝ)} {w1 w2 w3 : ℝ} {r r' : HkYu.YuResult ℝ}
    (h : HkYu.hkYu env flt rp H K (some Vp) VpSed VsSed (some w1) (some w2) (some w3) = .ok r)
    (h' : HkYu.hkYu env' flt' rp H' K' (some Vp) VpSed' VsSed' (some w1) (some w2) (some w3) = .ok r')
    (hrf : flt'.filteredrf = flt.filteredrf) (ht : flt'.time = flt.time) (hV : Propagates rp.val Vp.val)
    {row row' : Row ℝ} (hrow : row ∈ r.stackvaluesSubSed) (hrow' : row' ∈ r'.stackvaluesSubSed)
    (eP : row'.h * eta rp.val Vp.val =
      row.h * eta rp.val Vp.val + ((flt.tlag.val / 2 - r.Pdelay) - (flt'.tlag.val / 2 - r'.Pdelay)))
    (eS : row'.h * eta rp.val (Vp.val / row'.k) =
      row.h * eta rp.val (Vp.val / row.k) + (flt.tlag.val / 2 - flt'.tlag.val / 2)) :
    row'.s = row.s := by
  obtain ⟨_, _, _, _, f⟩ := hkYu_inv h
  obtain ⟨_, _, _, _, f'⟩ := hkYu_inv h'
  have g := (gridLoop_row f.hgrid hrow).2.2
  have g' := (gridLoop_row f'.hgrid hrow').2.2
  rw [f.hVp, Option.getD_some, yuCell_eq, bestTimes_real hV.1.ne' hV.2.le, except_ok_bind, yuShift_zk] at g
  rw [f'.hVp, Option.getD_some, yuCell_eq, bestTimes_real hV.1.ne' hV.2.le, except_ok_bind, yuShift_zk, hrf, ht] at g'
  have t1 : tPs rp.val Vp.val row'.h row'.k + r'.Pdelay = tPs rp.val Vp.val row.h row.k + r.Pdelay := by
    unfold tPs; linarith
  have t2 : tPpPs rp.val Vp.val row'.h row'.k + flt'.tlag.val - r'.Pdelay =
      tPpPs rp.val Vp.val row.h row.k + flt.tlag.val - r.Pdelay := by
    unfold tPpPs; linarith
  have t3 : tPsPs rp.val Vp.val row'.h row'.k + flt'.tlag.val = tPsPs rp.val Vp.val row.h row.k + flt.tlag.val := by
    unfold tPsPs; linarith
  rw [t1, t2, t3, g] at g'
  exact (Except.ok.inj g').symm

/-- one-way P time of the sediment in `hkYu` -/
theorem yu_oneway {env : Env ℝ} {flt : HkYu.FltInput ℝ} {rp Vp : Scalar ℝ} {H K : List ℝ} {VpSed VsSed : Scalar ℝ}
    {w1 w2 w3 : ℝ} {r : HkYu.YuResult ℝ}
    (h : HkYu.hkYu env flt rp H K (some Vp) (some VpSed) (some VsSed) (some w1) (some w2) (some w3) = .ok r)
    (hVs : 0 < VsSed.val) (hle : VsSed.val ≤ VpSed.val) :
    flt.tlag.val / 2 - r.Pdelay = flt.tlag.val / 2 * (VsSed.val / VpSed.val) := by
  rw [(c23_thickness_delay h hVs hle).2.1]; ring

/-- **C121** `hkYu`: the candidate that explains the data with the wrong sediment velocities (the same reverberation
period) is thicker than the true one if the assumed sediment is faster in P relative to S, by
`tlag / 2 * (VsSed / VpSed - VsSed' / VpSed') / eta`; its S time through the crust is the true one. -/
theorem c121_hkYu_bias {env env' : Env ℝ} {flt : HkYu.FltInput ℝ} {rp Vp : Scalar ℝ} {H K H' K' : List ℝ}
    {VpSed VsSed VpSed' VsSed' : Scalar ℝ} {w1 w2 w3 : ℝ} {r r' : HkYu.YuResult ℝ}
    (h : HkYu.hkYu env flt rp H K (some Vp) (some VpSed) (some VsSed) (some w1) (some w2) (some w3) = .ok r)
    (h' : HkYu.hkYu env' flt rp H' K' (some Vp) (some VpSed') (some VsSed') (some w1) (some w2) (some w3) = .ok r')
    (hV : Propagates rp.val Vp.val) (hVs : 0 < VsSed.val) (hle : VsSed.val ≤ VpSed.val) (hVs' : 0 < VsSed'.val)
    (hle' : VsSed'.val ≤ VpSed'.val) {row row' : Row ℝ} (hrow : row ∈ r.stackvaluesSubSed)
    (hrow' : row' ∈ r'.stackvaluesSubSed)
    (eH : row'.h = biasedH rp.val Vp.val row.h
      (flt.tlag.val / 2 * (VsSed.val / VpSed.val) - flt.tlag.val / 2 * (VsSed'.val / VpSed'.val)))
    (eK : row'.k = biasedK rp.val Vp.val row.h row.k
      (flt.tlag.val / 2 * (VsSed.val / VpSed.val) - flt.tlag.val / 2 * (VsSed'.val / VpSed'.val)) 0)
    (hpos : 0 < row.h) (hpos' : 0 < row'.h) :
    row'.s = row.s ∧ (0 < flt.tlag.val → VsSed'.val / VpSed'.val < VsSed.val / VpSed.val → row.h < row'.h) := by
  have y := yu_oneway h hVs hle
  have y' := yu_oneway h' hVs' hle'
  have h0 := eta_pos hV
  constructor
  · refine c121_hkYu h h' rfl rfl hV hrow hrow' ?_ ?_
    · rw [y, y', eH, biased_P hV]
    · rw [sub_self, add_zero, eH, eK, biased_S hV (eH ▸ hpos') (by
        have := eta_nonneg rp.val (Vp.val / row.k)
        rw [add_zero]; positivity), add_zero]
  · intro ht hr
    rw [eH]
    unfold biasedH
    have : 0 < flt.tlag.val / 2 * (VsSed.val / VpSed.val) - flt.tlag.val / 2 * (VsSed'.val / VpSed'.val) := by
      rw [← mul_sub]
      exact mul_pos (by linarith) (by linarith)
    have := div_pos this h0
    linarith

/-- **C121** `hkYu`: only the ratio of the assumed sediment velocities matters to the crust; the sediment thickness is
proportional to `VsSed`. -/
theorem c121_hkYu_ratio {env env' : Env ℝ} {flt : HkYu.FltInput ℝ} {rp Vp : Scalar ℝ} {H K : List ℝ}
    {VpSed VsSed VpSed' VsSed' : Scalar ℝ} {w1 w2 w3 : ℝ} {r r' : HkYu.YuResult ℝ}
    (h : HkYu.hkYu env flt rp H K (some Vp) (some VpSed) (some VsSed) (some w1) (some w2) (some w3) = .ok r)
    (h' : HkYu.hkYu env' flt rp H K (some Vp) (some VpSed') (some VsSed') (some w1) (some w2) (some w3) = .ok r')
    (hVs : 0 < VsSed.val) (hle : VsSed.val ≤ VpSed.val) (hVs' : 0 < VsSed'.val)
    (hle' : VsSed'.val ≤ VpSed'.val) (hr : VsSed'.val / VpSed'.val = VsSed.val / VpSed.val) :
    r'.stackvaluesSubSed = r.stackvaluesSubSed ∧ r'.bestIdx = r.bestIdx ∧ r'.SubSedThick = r.SubSedThick ∧
    r'.SubSedVpVs = r.SubSedVpVs ∧ r'.Pdelay = r.Pdelay ∧ r'.SedThick * VsSed.val = r.SedThick * VsSed'.val := by
  obtain ⟨a1, a2, -⟩ := c23_thickness_delay h hVs hle
  obtain ⟨b1, b2, -⟩ := c23_thickness_delay h' hVs' hle'
  have hP : r'.Pdelay = r.Pdelay := by rw [a2, b2, hr]
  obtain ⟨_, _, _, bm, f⟩ := hkYu_inv h
  obtain ⟨_, _, _, bm', f'⟩ := hkYu_inv h'
  have g := f.hgrid
  have g' := f'.hgrid
  rw [f'.hVp, hP] at g'
  rw [f.hVp, g'] at g
  have e := Except.ok.inj g
  have hb := f.hbest
  have hb' := f'.hbest
  rw [← e, hb'] at hb
  have hi := Except.ok.inj hb
  have hrw := f.hrow
  have hrw' := f'.hrow
  rw [← e, ← hi, hrw'] at hrw
  cases Option.some.inj hrw
  refine ⟨e, hi, by rw [f.hthick, f'.hthick], by rw [f.hvpvs, f'.hvpvs], hP, ?_⟩
  rw [a1, b1]; ring

/-! ## Concrete cases -/

theorem eta_zero {V : ℝ} (hV : 0 < V) : eta 0 V = 1 / V := by
  rw [eta_one, show (1 / V) ^ 2 - 0 ^ 2 = (1 / V) ^ 2 by ring, Real.sqrt_sq (by positivity)]

theorem propagates_zero {V : ℝ} (hV : 0 < V) : Propagates 0 V := ⟨hV, by
  rw [zero_pow two_ne_zero]; positivity⟩

/-- sediment of 1 km (2 km/s, `Vp/Vs = 2`) taken for 1.5 km, crust of 30 km (6 km/s, `Vp/Vs = 1.5`): the crust found is
28.5 km thick, with `Vp/Vs = 28/19` -/
theorem thick_sed_example : biasedH 0 6 30 (1 * eta 0 2 - 1.5 * eta 0 2) = 28.5 ∧
    biasedK 0 6 30 1.5 (1 * eta 0 2 - 1.5 * eta 0 2) (1 * eta 0 (2 / 2) - 1.5 * eta 0 (2 / 2)) = 28 / 19 := by
  have h1 : biasedH 0 6 30 (1 * eta 0 2 - 1.5 * eta 0 2) = 28.5 := by
    unfold biasedH
    rw [eta_zero (by norm_num), eta_zero (by norm_num)]
    norm_num
  refine ⟨h1, ?_⟩
  unfold biasedK
  rw [h1, eta_zero (V := 6 / 1.5) (by norm_num), eta_zero (V := 2 / 2) (by norm_num),
    show (0 : ℝ) ^ 2 + ((30 * (1 / (6 / 1.5)) + (1 * (1 / (2 / 2)) - 1.5 * (1 / (2 / 2)))) / 28.5) ^ 2 = (14 / 57) ^ 2 by
      norm_num, Real.sqrt_sq (by norm_num)]
  norm_num

theorem thick_sed_times : mohoPs 0 2 1.5 2 6 28.5 (28 / 19) = mohoPs 0 2 1 2 6 30 1.5 ∧
    mohoPpPs 0 2 1.5 2 6 28.5 (28 / 19) = mohoPpPs 0 2 1 2 6 30 1.5 := by
  have h := c121_exists (p := 0) (VS := 2) (VS' := 2) (V := 6) (H1 := 1) (K1 := 2) (H1' := 1.5) (K1' := 2) (H := 30)
    (K := 1.5) (propagates_zero (by norm_num)) (by rw [thick_sed_example.1]; norm_num) (by
      rw [eta_zero (by norm_num), eta_zero (by norm_num)]; norm_num)
  simp only [thick_sed_example.1, thick_sed_example.2] at h
  exact ⟨h.1, h.2.1⟩

/-- the total depth of the Moho comes out as 30 km instead of 31 km -/
example : (28.5 : ℝ) + 1.5 < 30 + 1 := by
  have h := (c121_bias (p := 0) (VS := 2) (V := 6) (H1 := 1) (H1' := 1.5) (H := 30) (by norm_num) (by norm_num)
    (propagates_zero (by norm_num)) (by norm_num)).1
  rwa [thick_sed_example.1] at h

/-- the alternative crust is the only one -/
example {H' K' : ℝ} (hH : 0 < H') (hK : 0 < K')
    (h1 : mohoPs 0 2 1.5 2 6 H' K' = mohoPs 0 2 1 2 6 30 1.5)
    (h2 : mohoPpPs 0 2 1.5 2 6 H' K' = mohoPpPs 0 2 1 2 6 30 1.5) : H' = 28.5 ∧ K' = 28 / 19 := by
  have h := c121_unique (propagates_zero (by norm_num)) hH hK (by rw [zero_pow two_ne_zero]; positivity) h1 h2
  rwa [thick_sed_example.1, thick_sed_example.2] at h

/-- `hkSeqSynth`: the two analyses exist, and the two crusts have the same stack value -/
example : ∃ r r', ∃ row ∈ r.stackvalueMoho, ∃ row' ∈ r'.stackvalueMoho,
    SynthAnalysis.hkSeqSynth Sample.env [0, 1, 3, 2, 0, -1] [0, 1, 2, 2, 0, -1] [0, 1, 2, 3, 4, 5] ⟨.py, 0⟩ [1] [2]
      (some ⟨.py, 2⟩) none none none [20, 30] [1.5, 2] (some ⟨.py, 6⟩) (some 1) (some 2) (some 3) = .ok r ∧
    SynthAnalysis.hkSeqSynth Sample.env [0, 2, 3, 2, 0, -1] [0, 1, 2, 2, 0, -1] [0, 1, 2, 3, 4, 5] ⟨.py, 0⟩ [1.5] [2]
      (some ⟨.py, 2⟩) none none none [28.5, 40] [28 / 19, 3] (some ⟨.py, 6⟩) (some 1) (some 2) (some 3) = .ok r' ∧
    row.h = 30 ∧ row.k = 1.5 ∧ row'.h = 28.5 ∧ row'.k = 28 / 19 ∧ row'.s = row.s := by
  obtain ⟨r, hr⟩ := c25_hkSeqSynth_succeeds (F := ℝ) (env := Sample.env) (dS := [0, 1, 3, 2, 0, -1])
    (dM := [0, 1, 2, 2, 0, -1]) (t := [0, 1, 2, 3, 4, 5]) (rp := ⟨.py, 0⟩) (HS := [1]) (KS := [2]) (HM := [20, 30])
    (KM := [1.5, 2]) (VpSed := ⟨.py, 2⟩) (VpMoho := ⟨.py, 6⟩) (w1S := none) (w2S := none) (w3S := none) (w1M := 1)
    (w2M := 2) (w3M := 3) (by simp) (by simp) (by simp) (divisor_real (by norm_num)) (divisor_real (by norm_num))
    (by simp) (by simp) (by simp) (by simp) (fun _ _ => rfl)
  obtain ⟨r', hr'⟩ := c25_hkSeqSynth_succeeds (F := ℝ) (env := Sample.env) (dS := [0, 2, 3, 2, 0, -1])
    (dM := [0, 1, 2, 2, 0, -1]) (t := [0, 1, 2, 3, 4, 5]) (rp := ⟨.py, 0⟩) (HS := [1.5]) (KS := [2]) (HM := [28.5, 40])
    (KM := [28 / 19, 3]) (VpSed := ⟨.py, 2⟩) (VpMoho := ⟨.py, 6⟩) (w1S := none) (w2S := none) (w3S := none) (w1M := 1)
    (w2M := 2) (w3M := 3) (by simp) (by simp) (by simp) (divisor_real (by norm_num)) (divisor_real (by norm_num))
    (by simp) (by simp) (by simp) (by simp) (fun _ _ => rfl)
  obtain ⟨gS, gM⟩ := c25_hkSeqSynth_grid hr
  obtain ⟨gS', gM'⟩ := c25_hkSeqSynth_grid hr'
  obtain ⟨b, hb, bb⟩ := c25_hkSeqSynth_best hr (fun _ _ => rfl)
  obtain ⟨b', hb', bb'⟩ := c25_hkSeqSynth_best hr' (fun _ _ => rfl)
  have m := gridTable_mem gS (List.mem_of_getElem? bb.1)
  have m' := gridTable_mem gS' (List.mem_of_getElem? bb'.1)
  rw [List.mem_singleton, List.mem_singleton] at m m'
  obtain ⟨row, hrow, e1, e2⟩ := gridTable_row gM (x := 30) (k := 1.5) (by simp) (by simp)
  obtain ⟨row', hrow', e1', e2'⟩ := gridTable_row gM' (x := 28.5) (k := 28 / 19) (by simp) (by simp)
  refine ⟨r, r', row, hrow, row', hrow', hr, hr', e1, e2, e1', e2', ?_⟩
  exact c121_hkSeqSynth hr hr' (propagates_zero (by norm_num)) (propagates_zero (by norm_num))
    (propagates_zero (by norm_num)) hb hb' hrow hrow'
    (by rw [m.1, m.2, m'.1, m'.2, e1, e2, e1', e2']; exact thick_sed_times.1)
    (by rw [m.1, m.2, m'.1, m'.2, e1, e2, e1', e2']; exact thick_sed_times.2)

/-- `hkSeq` likewise, with vertical incidence -/
example : ∃ r r', ∃ row ∈ r.stackvalueMoho, ∃ row' ∈ r'.stackvalueMoho,
    HkSeqYeck.hkSeq Sample.env [Sample.trace [0, 1, 3, 2, 0] 0] [Sample.trace [1, 1, 2, 0, -1] 0] 1 [1] [2]
      (some ⟨.py, 2⟩) none none none [20, 30] [1.5, 2] (some ⟨.py, 6⟩) (some 1) (some 2) (some 3) (some false) = .ok r ∧
    HkSeqYeck.hkSeq Sample.env [Sample.trace [0, 1, 3, 2, 0] 0] [Sample.trace [1, 1, 2, 0, -1] 0] 1 [1.5] [2]
      (some ⟨.py, 2⟩) none none none [28.5, 40] [28 / 19, 3] (some ⟨.py, 6⟩) (some 1) (some 2) (some 3) (some false)
      = .ok r' ∧
    row.h = 30 ∧ row.k = 1.5 ∧ row'.h = 28.5 ∧ row'.k = 28 / 19 ∧ row'.s = row.s := by
  have hh : ∀ tr ∈ [Sample.trace [0, 1, 3, 2, 0] 0] ++ [Sample.trace [1, 1, 2, 0, -1] 0], (∃ o, tr.onset = some o) ∧
      (∃ s, tr.slowness = some s) ∧ tr.data.length = (Sample.trace [0, 1, 3, 2, 0] 0).data.length := by
    intro tr htr
    simp at htr
    rcases htr with rfl | rfl <;> simp [Sample.trace]
  obtain ⟨r, hr⟩ := sample_hkSeq (Sample.trace [0, 1, 3, 2, 0] 0) [] (Sample.trace [1, 1, 2, 0, -1] 0) []
    (by simp [Sample.trace]) hh (HS := [1]) (KS := [2]) (HM := [20, 30]) (KM := [1.5, 2]) (by simp) (by simp) (by simp)
    (by simp) (Vp := 2) (vm := 6) (by norm_num) (by norm_num) 1 none none none 1 2 3 (some false)
  obtain ⟨r', hr'⟩ := sample_hkSeq (Sample.trace [0, 1, 3, 2, 0] 0) [] (Sample.trace [1, 1, 2, 0, -1] 0) []
    (by simp [Sample.trace]) hh (HS := [1.5]) (KS := [2]) (HM := [28.5, 40]) (KM := [28 / 19, 3]) (by simp) (by simp)
    (by simp) (by simp) (Vp := 2) (vm := 6) (by norm_num) (by norm_num) 1 none none none 1 2 3 (some false)
  obtain ⟨gS, gM⟩ := c25_hkSeq_grid hr
  obtain ⟨gS', gM'⟩ := c25_hkSeq_grid hr'
  obtain ⟨b, hb, bb⟩ := c25_hkSeq_best hr (fun _ _ => rfl)
  obtain ⟨b', hb', bb'⟩ := c25_hkSeq_best hr' (fun _ _ => rfl)
  have m := gridTable_mem gS (List.mem_of_getElem? bb.1)
  have m' := gridTable_mem gS' (List.mem_of_getElem? bb'.1)
  rw [List.mem_singleton, List.mem_singleton] at m m'
  obtain ⟨row, hrow, e1, e2⟩ := gridTable_row gM (x := 30) (k := 1.5) (by simp) (by simp)
  obtain ⟨row', hrow', e1', e2'⟩ := gridTable_row gM' (x := 28.5) (k := 28 / 19) (by simp) (by simp)
  refine ⟨r, r', row, hrow, row', hrow', hr, hr', e1, e2, e1', e2', ?_⟩
  have ht : r'.time = r.time := by
    obtain ⟨_, _, _, _, _, f⟩ := hkSeq_inv hr
    obtain ⟨_, _, _, _, _, f'⟩ := hkSeq_inv hr'
    have e := f.htime
    have e' := f'.htime
    obtain ⟨i, j⟩ := List.cons.inj f.hst
    obtain ⟨i', j'⟩ := List.cons.inj f'.hst
    rw [e, e', ← i, ← i']
  exact c121_hkSeq (init := []) (last := Sample.trace [1, 1, 2, 0, -1] 0) (sl := ⟨.py, 0⟩) (p := 0) hr hr' rfl rfl ht rfl
    (by simp) (propagates_zero (by norm_num)) (propagates_zero (by norm_num))
    (propagates_zero (by norm_num)) hb hb' hrow hrow'
    (by rw [m.1, m.2, m'.1, m'.2, e1, e2, e1', e2']; exact thick_sed_times.1)
    (by rw [m.1, m.2, m'.1, m'.2, e1, e2, e1', e2']; exact thick_sed_times.2)

/-- `hkYu`: `VpSed` taken as 2 instead of 2.5 km/s: the crust comes out 0.3 km too thin -/
example : ∃ r r', ∃ row ∈ r.stackvaluesSubSed, ∃ row' ∈ r'.stackvaluesSubSed,
    HkYu.hkYu Sample.env sampleFlt ⟨.py, 0⟩ [30, 35, 40] [1.5, 1.8] (some ⟨.py, 6⟩)
      (some ⟨.py, 2.5⟩) (some ⟨.py, 1⟩) (some 1) (some 2) (some 3) = .ok r ∧
    HkYu.hkYu Sample.env sampleFlt ⟨.py, 0⟩ [29.7, 40] [50 / 33, 1.8] (some ⟨.py, 6⟩)
      (some ⟨.py, 2⟩) (some ⟨.py, 1⟩) (some 1) (some 2) (some 3) = .ok r' ∧
    row.h = 30 ∧ row.k = 1.5 ∧ row'.h = 29.7 ∧ row'.k = 50 / 33 ∧ row'.s = row.s := by
  obtain ⟨r, hr⟩ := c25_hkYu_succeeds (F := ℝ) (env := Sample.env) (flt := sampleFlt) (rp := ⟨.py, 0⟩) (H := [30, 35, 40])
    (K := [1.5, 1.8]) (VpMoho := ⟨.py, 6⟩) (VpSed := ⟨.py, 2.5⟩) (VsSed := ⟨.py, 1⟩) (w1 := 1) (w2 := 2) (w3 := 3)
    (by simp [sampleFlt]) (by simp [sampleFlt]) (divisor_real (by norm_num))
    (divisor_real (by norm_num)) (divisor_real (by norm_num)) (by simp) (by simp) (fun _ _ => rfl)
  obtain ⟨r', hr'⟩ := c25_hkYu_succeeds (F := ℝ) (env := Sample.env) (flt := sampleFlt) (rp := ⟨.py, 0⟩) (H := [29.7, 40])
    (K := [50 / 33, 1.8]) (VpMoho := ⟨.py, 6⟩) (VpSed := ⟨.py, 2⟩) (VsSed := ⟨.py, 1⟩) (w1 := 1) (w2 := 2) (w3 := 3)
    (by simp [sampleFlt]) (by simp [sampleFlt]) (divisor_real (by norm_num))
    (divisor_real (by norm_num)) (divisor_real (by norm_num)) (by simp) (by simp) (fun _ _ => rfl)
  obtain ⟨row, hrow, e1, e2⟩ := gridTable_row (c25_hkYu_grid hr) (x := 30) (k := 1.5) (by simp) (by simp)
  obtain ⟨row', hrow', e1', e2'⟩ := gridTable_row (c25_hkYu_grid hr') (x := 29.7) (k := 50 / 33) (by simp) (by simp)
  refine ⟨r, r', row, hrow, row', hrow', hr, hr', e1, e2, e1', e2', ?_⟩
  have hH : biasedH 0 6 30 (1 / 2 * (1 / 2.5) - 1 / 2 * (1 / 2)) = 29.7 := by
    unfold biasedH
    rw [eta_zero (by norm_num)]
    norm_num
  refine (c121_hkYu_bias hr hr' (propagates_zero (by norm_num)) (by norm_num) (by norm_num) (by norm_num) (by norm_num)
    hrow hrow' ?_ ?_ (by rw [e1]; norm_num) (by rw [e1']; norm_num)).1
  · rw [e1, e1']
    exact hH.symm
  · rw [e1, e2, e2']
    show _ = biasedK 0 6 30 1.5 (1 / 2 * (1 / 2.5) - 1 / 2 * (1 / 2)) 0
    unfold biasedK
    rw [hH, eta_zero (by norm_num), show (0 : ℝ) ^ 2 + ((30 * (1 / (6 / 1.5)) + 0) / 29.7) ^ 2 = (25 / 99) ^ 2 by
      norm_num, Real.sqrt_sq (by norm_num)]
    norm_num

end Rfsed.Props
