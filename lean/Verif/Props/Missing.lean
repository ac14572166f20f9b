import Verif.Proofs.Missing
import Verif.Spec.Rounding2
import Verif.Props.Variants
import Verif.Props.Seq
import Verif.Proofs.Rounded2

/-!
# C117: missing samples (NaN) in the data of the stacking functions
-/

namespace Rfsed.Props
open Rfsed.Spec Rfsed.Proofs Rfsed.HkZhu PyFloat
open NReal hiding isNaN powHalf

/-- **C117**, `hk`: at a grid point below the critical slownesses the stack value is NaN exactly if, for one of the
traces (the stacked trace if `stack` is true), the sample nearest to one of the three delay times is NaN, whatever
the weights (also for weight 0). -/
theorem c117_hk {env : Env NReal} {st : List (Trace NReal)} {preonset : NReal} {H K : List NReal}
    {Vp : Scalar NReal} {w1 w2 w3 : NReal} {layer : Option String} {stack : Bool} {r : HKResult NReal} {vp : ℝ}
    (h : hk env st preonset H K (some Vp) (some w1) (some w2) (some w3) layer (some stack) = .ok r)
    (hax : ∀ a ∈ r.time, IsNum a) (h1 : IsNum w1) (h2 : IsNum w2) (h3 : IsNum w3)
    (hvp : Vp.val = num vp) (h0 : vp ≠ 0) (ray : Trace NReal → ℝ)
    (hray : ∀ tr ∈ st, ∀ sl, tr.slowness = some sl →
      (if stack then env.km2deg1 * r.AvgSlow else env.km2deg1 * sl.val) = num (ray tr))
    {x k : ℝ} {s : NReal} (hrow : (⟨num x, num k, s⟩ : Row NReal) ∈ r.stackvalues)
    (hpre : ∀ tr ∈ st, PreCritical (ray tr) vp k) :
    isNaN s = true ↔ ∃ tr ∈ st, ReadsMissing (if stack then r.RFStack else tr.data) r.time
      (tPs (ray tr) vp x k) (tPpPs (ray tr) vp x k) (tPsPs (ray tr) vp x k) := by
  obtain ⟨tr0, rest, slows, f⟩ := hk_inv h
  obtain ⟨n, hn, hrow'⟩ := List.getElem_of_mem hrow
  obtain ⟨i, j, _, _, _, hv⟩ := (gridLoop_ok f.hgrid).2.2 n _ (by simp [hn, hrow']; rfl)
  rw [f.hstk, f.hVp] at hv
  simp only [Option.getD_some] at hv
  rw [cell_eq] at hv
  obtain ⟨xs, hxs, hv⟩ := bind_eq_ok.1 hv
  rw [← Except.ok.inj hv, foldl_missing]
  have hz : isNaN (zero : NReal) = true ↔ False := by simp
  rw [hz, false_or]
  have key : ∀ tr ∈ st, ∀ v, traceTerm env r.time r.RFStack r.AvgSlow Vp w1 w2 w3 stack (num k) (num x) tr = .ok v →
      (isNaN v = true ↔ ReadsMissing (if stack then r.RFStack else tr.data) r.time
      (tPs (ray tr) vp x k) (tPpPs (ray tr) vp x k) (tPsPs (ray tr) vp x k)) := by
    intro tr htr v hterm
    obtain ⟨o, sl, ts, _, hsl, hts, hw⟩ := traceTerm_ok.1 hterm
    rw [hray tr htr sl hsl] at hts
    rw [bestTimes_num hvp h0 hts (hpre tr htr)] at hw
    exact weigh_missing hax h1 h2 h3 hw
  constructor
  · rintro ⟨v, hv, hnan⟩
    obtain ⟨tr, htr, hterm⟩ := mapM_ok_mem_out hxs hv
    exact ⟨tr, htr, (key tr htr _ hterm).1 hnan⟩
  · rintro ⟨tr, htr, hmiss⟩
    obtain ⟨m, hm, hm'⟩ := List.getElem_of_mem htr
    obtain ⟨y, hy, hterm⟩ := mapM_getElem hxs (i := m) (x := tr) (by simp [hm, hm'])
    exact ⟨y, List.mem_of_getElem? hy, (key tr htr _ hterm).2 hmiss⟩

/-- **C117**, `hk`: if the value of any grid point is NaN, the best model is the first such grid point, however large the
values elsewhere. -/
theorem c117_hk_best {F : Type} [PyFloat F] [IEEEOrder F] {env : Env F} {st : List (Trace F)} {preonset : F} {H K : List F}
    {Vp : Option (Scalar F)} {w1 w2 w3 : Option F} {layer : Option String} {stack : Option Bool} {r : HKResult F}
    (h : hk env st preonset H K Vp w1 w2 w3 layer stack = .ok r) (hnan : ∃ row ∈ r.stackvalues, isNaN row.s = true) :
    ∃ best, r.bestmodel = some best ∧ FirstMissing r.stackvalues r.bestIdx best := by
  obtain ⟨tr0, rest, slows, f⟩ := hk_inv h
  obtain ⟨best, hb⟩ := firstMissing_of f.hbest hnan
  exact ⟨best, hb.1, hb⟩

/-- **C117**, `hkSynth`: the stack value is NaN exactly if one of the three samples read is. -/
theorem c117_hkSynth {env : Env NReal} {d t : List NReal} {rp Vp : Scalar NReal} {H K : List NReal}
    {w1 w2 w3 : NReal} {layer : Option String} {r : SynthAnalysis.SynthResult NReal} {p vp : ℝ}
    (h : SynthAnalysis.hkSynth env d t rp H K (some Vp) (some w1) (some w2) (some w3) layer = .ok r)
    (hax : ∀ a ∈ t, IsNum a) (h1 : IsNum w1) (h2 : IsNum w2) (h3 : IsNum w3)
    (hvp : Vp.val = num vp) (h0 : vp ≠ 0) (hrp : rp.val = num p)
    {x k : ℝ} {s : NReal} (hrow : (⟨num x, num k, s⟩ : Row NReal) ∈ r.stackvalues) (hpre : PreCritical p vp k) :
    isNaN s = true ↔ ReadsMissing d t (tPs p vp x k) (tPpPs p vp x k) (tPsPs p vp x k) := by
  have f := hkSynth_inv h
  obtain ⟨n, hn, hrow'⟩ := List.getElem_of_mem hrow
  obtain ⟨i, j, _, _, _, hv⟩ := (gridLoop_ok f.hgrid).2.2 n _ (by simp [hn, hrow']; rfl)
  rw [synthCell_eq, hrp] at hv
  obtain ⟨ts, hts, hv⟩ := bind_eq_ok.1 hv
  obtain ⟨v, hw, hv⟩ := bind_eq_ok.1 hv
  rw [bestTimes_num hvp h0 hts hpre] at hw
  have hs : s = v + zero := (Except.ok.inj hv).symm
  rw [hs, add_zero_missing]
  exact weigh_missing hax h1 h2 h3 hw

/-- **C117**, `hkSynth`: the first NaN wins. -/
theorem c117_hkSynth_best {F : Type} [PyFloat F] [IEEEOrder F] {env : Env F} {d t : List F} {rp : Scalar F} {H K : List F}
    {Vp : Option (Scalar F)} {w1 w2 w3 : Option F} {layer : Option String} {r : SynthAnalysis.SynthResult F}
    (h : SynthAnalysis.hkSynth env d t rp H K Vp w1 w2 w3 layer = .ok r)
    (hnan : ∃ row ∈ r.stackvalues, isNaN row.s = true) :
    ∃ best, r.bestmodel = some best ∧ FirstMissing r.stackvalues r.bestIdx best := by
  obtain ⟨best, hb⟩ := firstMissing_of (hkSynth_inv h).hbest hnan
  exact ⟨best, hb.1, hb⟩

/-- **C117**, `hkYu`: the same for the times shifted by the sediment's delays. -/
theorem c117_hkYu {env : Env NReal} {flt : HkYu.FltInput NReal} {rp VpM : Scalar NReal} {H K : List NReal}
    {VpSed VsSed : Option (Scalar NReal)} {w1 w2 w3 : NReal} {r : HkYu.YuResult NReal} {p vp tlag delay : ℝ}
    (h : HkYu.hkYu env flt rp H K (some VpM) VpSed VsSed (some w1) (some w2) (some w3) = .ok r)
    (hax : ∀ a ∈ flt.time, IsNum a) (h1 : IsNum w1) (h2 : IsNum w2) (h3 : IsNum w3)
    (hvp : VpM.val = num vp) (h0 : vp ≠ 0) (hrp : rp.val = num p) (htl : flt.tlag.val = num tlag)
    (hdel : r.Pdelay = num delay)
    {x k : ℝ} {s : NReal} (hrow : (⟨num x, num k, s⟩ : Row NReal) ∈ r.stackvaluesSubSed) (hpre : PreCritical p vp k) :
    isNaN s = true ↔ ReadsMissing flt.filteredrf flt.time (tPs p vp x k + delay)
      (tPpPs p vp x k + tlag - delay) (tPsPs p vp x k + tlag) := by
  obtain ⟨vs, a, b, bm, f⟩ := hkYu_inv h
  obtain ⟨n, hn, hrow'⟩ := List.getElem_of_mem hrow
  obtain ⟨i, j, _, _, _, hv⟩ := (gridLoop_ok f.hgrid).2.2 n _ (by simp [hn, hrow']; rfl)
  rw [f.hVp] at hv
  simp only [Option.getD_some] at hv
  rw [yuCell_eq, hrp, hdel, htl] at hv
  obtain ⟨ts, hts, hv⟩ := bind_eq_ok.1 hv
  obtain ⟨v, hw, hv⟩ := bind_eq_ok.1 hv
  rw [bestTimes_num hvp h0 hts hpre] at hw
  simp only [yuShift, PyNum.addr, PyNum.subr, nreal_add, nreal_sub] at hw
  have hs : s = v + zero := (Except.ok.inj hv).symm
  rw [hs, add_zero_missing]
  exact weigh_missing hax h1 h2 h3 hw

/-- **C117**, `hkYu`: the first NaN wins, and `SubSedThick` and `SubSedVpVs` are its. -/
theorem c117_hkYu_best {F : Type} [PyFloat F] [IEEEOrder F] {env : Env F} {flt : HkYu.FltInput F} {rp : Scalar F}
    {H K : List F} {VpMoho VpSed VsSed : Option (Scalar F)} {w1 w2 w3 : Option F} {r : HkYu.YuResult F}
    (h : HkYu.hkYu env flt rp H K VpMoho VpSed VsSed w1 w2 w3 = .ok r)
    (hnan : ∃ row ∈ r.stackvaluesSubSed, isNaN row.s = true) :
    ∃ best, r.bestmodel = some best ∧ FirstMissing r.stackvaluesSubSed r.bestIdx best ∧
      r.SubSedThick = best.h ∧ r.SubSedVpVs = best.k := by
  obtain ⟨_, _, _, bm, f⟩ := hkYu_inv h
  obtain ⟨best, hb⟩ := firstMissing_of f.hbest hnan
  have : best = bm := by
    have h1 := hb.1; rw [f.hrow] at h1; exact (Option.some.inj h1).symm
  subst this
  exact ⟨best, hb.1, hb, f.hthick, f.hvpvs⟩

/-- clipping keeps NaN -/
theorem clip_missing {raw : List (Row NReal)} {n : Nat} {best : Row NReal} (h : FirstMissing raw n best) :
    FirstMissing (clipLoop raw) n best := by
  have hclip : ∀ row : Row NReal, isNaN (clipRow row).s = isNaN row.s := by
    rintro ⟨a, b, s⟩
    unfold clipRow
    cases s with
    | nan => simp
    | num s => split <;> simp
  obtain ⟨h1, h2, h3⟩ := h
  rw [FirstMissing, clipLoop_eq]
  refine ⟨?_, h2, ?_⟩
  · rw [List.getElem?_map, h1, Option.map_some]
    obtain ⟨a, b, s⟩ := best
    rw [isNaN_num] at h2
    simp only at h2
    subst h2
    simp [clipRow]
  · intro m row hm hrow
    rw [List.getElem?_map, Option.map_eq_some_iff] at hrow
    obtain ⟨row', hrow', rfl⟩ := hrow
    rw [hclip]; exact h3 m row' hm hrow'

/-- a NaN in the clipped table was there before -/
theorem unclip_missing {raw : List (Row NReal)} (h : ∃ row ∈ clipLoop raw, isNaN row.s = true) :
    ∃ row ∈ raw, isNaN row.s = true := by
  obtain ⟨row, hrow, hs⟩ := h
  rw [clipLoop_eq] at hrow
  obtain ⟨⟨a, b, s⟩, hr, rfl⟩ := List.mem_map.1 hrow
  refine ⟨_, hr, ?_⟩
  cases s with
  | nan => simp
  | num s =>
    exfalso
    unfold clipRow at hs
    split at hs <;> simp at hs

theorem clip_row_missing {raw : List (Row NReal)} {x k : NReal} {s : NReal}
    (h : (⟨x, k, s⟩ : Row NReal) ∈ clipLoop raw) :
    ∃ s', (⟨x, k, s'⟩ : Row NReal) ∈ raw ∧ isNaN s = isNaN s' := by
  rw [clipLoop_eq] at h
  obtain ⟨⟨a, b, s'⟩, hr, he⟩ := List.mem_map.1 h
  unfold clipRow at he
  cases s' with
  | nan =>
    simp at he
    obtain ⟨rfl, rfl, rfl⟩ := he
    exact ⟨_, hr, rfl⟩
  | num y =>
    split at he <;> (cases he; exact ⟨_, hr, by simp⟩)

/-- **C117**, `hkSeqSynth`, sediment stage. -/
theorem c117_hkSeqSynth_sed {env : Env NReal} {dS dM t : List NReal} {rp VpS : Scalar NReal} {HS KS HM KM : List NReal}
    {w1 w2 w3 : NReal} {VpMoho : Option (Scalar NReal)} {w1M w2M w3M : Option NReal}
    {r : SynthAnalysis.SeqSynthResult NReal} {p vs : ℝ}
    (h : SynthAnalysis.hkSeqSynth env dS dM t rp HS KS (some VpS) (some w1) (some w2) (some w3) HM KM VpMoho w1M w2M w3M
      = .ok r)
    (hax : ∀ a ∈ t, IsNum a) (h1 : IsNum w1) (h2 : IsNum w2) (h3 : IsNum w3)
    (hvp : VpS.val = num vs) (h0 : vs ≠ 0) (hrp : rp.val = num p)
    {x k : ℝ} {s : NReal} (hrow : (⟨num x, num k, s⟩ : Row NReal) ∈ r.stackvalueSed) (hpre : PreCritical p vs k) :
    isNaN s = true ↔ ReadsMissing dS t (tPs p vs x k) (tPpPs p vs x k) (tPsPs p vs x k) := by
  obtain ⟨bmod, raw, f⟩ := hkSeqSynth_inv h
  obtain ⟨n, hn, hrow'⟩ := List.getElem_of_mem hrow
  obtain ⟨i, j, _, _, _, hv⟩ := (gridLoop_ok f.hgridS).2.2 n _ (by simp [hn, hrow']; rfl)
  rw [f.hVpSed, seqSedCell_eq, synthCell_eq, hrp] at hv
  simp only [Option.getD_some] at hv
  obtain ⟨ts, hts, hv⟩ := bind_eq_ok.1 hv
  obtain ⟨v, hw, hv⟩ := bind_eq_ok.1 hv
  rw [bestTimes_num hvp h0 hts hpre] at hw
  have hs : s = v + zero := (Except.ok.inj hv).symm
  rw [hs, add_zero_missing]
  exact weigh_missing hax h1 h2 h3 hw

/-- **C117**, `hkSeqSynth`, Moho stage: the times are those below the sediment of the best model of the first stage. -/
theorem c117_hkSeqSynth_moho {env : Env NReal} {dS dM t : List NReal} {rp VpS vm : Scalar NReal} {HS KS HM KM : List NReal}
    {w1 w2 w3 : NReal} {w1S w2S w3S : Option NReal} {r : SynthAnalysis.SeqSynthResult NReal} {p vs v : ℝ}
    (h : SynthAnalysis.hkSeqSynth env dS dM t rp HS KS (some VpS) w1S w2S w3S HM KM (some vm) (some w1) (some w2) (some w3)
      = .ok r)
    (hax : ∀ a ∈ t, IsNum a) (h1 : IsNum w1) (h2 : IsNum w2) (h3 : IsNum w3)
    (hvs : VpS.val = num vs) (h0 : vs ≠ 0) (hvm : vm.val = num v) (h0' : v ≠ 0) (hrp : rp.val = num p)
    {H1 K1 : ℝ} {sS : NReal} (hbest : r.bestmodelSed = some ⟨num H1, num K1, sS⟩) (hpreS : PreCritical p vs K1)
    {x k : ℝ} {s : NReal} (hrow : (⟨num x, num k, s⟩ : Row NReal) ∈ r.stackvalueMoho) (hpre : PreCritical p v k) :
    isNaN s = true ↔ ReadsMissing dM t (mohoPs p vs H1 K1 v x k) (mohoPpPs p vs H1 K1 v x k)
      (mohoPsPs p vs H1 K1 v x k) := by
  obtain ⟨bmod, raw, f⟩ := hkSeqSynth_inv h
  have eb : bmod = ⟨num H1, num K1, sS⟩ := by
    have := f.hrowS
    rw [SynthAnalysis.SeqSynthResult.bestmodelSed, this] at hbest
    exact Option.some.inj hbest
  rw [f.hclip] at hrow
  obtain ⟨s', hrow, hss⟩ := clip_row_missing hrow
  rw [hss]
  obtain ⟨n, hn, hrow'⟩ := List.getElem_of_mem hrow
  obtain ⟨i, j, _, _, _, hv⟩ := (gridLoop_ok f.hgridM).2.2 n _ (by simp [hn, hrow']; rfl)
  rw [f.hVpSed, seqMohoCell_eq, hrp, eb] at hv
  simp only [Option.getD_some] at hv
  obtain ⟨ts, hts, hv⟩ := bind_eq_ok.1 hv
  obtain ⟨w, hw, hv⟩ := bind_eq_ok.1 hv
  rw [mohoTimes_num hvs h0 hvm h0' hts hpreS hpre] at hw
  have hs : s' = w + zero := (Except.ok.inj hv).symm
  rw [hs, add_zero_missing]
  exact weigh_missing hax h1 h2 h3 hw

/-- **C117**, `hkSeqSynth`: in each stage the first NaN wins; the sediment with the NaN value is then the one the Moho
stage uses. -/
theorem c117_hkSeqSynth_best {env : Env NReal} {dS dM t : List NReal} {rp : Scalar NReal} {HS KS HM KM : List NReal}
    {VpSed VpMoho : Option (Scalar NReal)} {w1S w2S w3S w1M w2M w3M : Option NReal}
    {r : SynthAnalysis.SeqSynthResult NReal}
    (h : SynthAnalysis.hkSeqSynth env dS dM t rp HS KS VpSed w1S w2S w3S HM KM VpMoho w1M w2M w3M = .ok r) :
    ((∃ row ∈ r.stackvalueSed, isNaN row.s = true) →
      ∃ best, r.bestmodelSed = some best ∧ FirstMissing r.stackvalueSed r.bestIdxSed best) ∧
    ((∃ row ∈ r.stackvalueMoho, isNaN row.s = true) →
      ∃ best, r.bestmodelMoho = some best ∧ FirstMissing r.stackvalueMoho r.bestIdxMoho best) := by
  obtain ⟨bmod, raw, f⟩ := hkSeqSynth_inv h
  refine ⟨fun hn => ?_, fun hn => ?_⟩
  · obtain ⟨best, hb⟩ := firstMissing_of f.hbestS hn
    exact ⟨best, hb.1, hb⟩
  · rw [f.hclip] at hn
    obtain ⟨best, hb⟩ := firstMissing_of f.hbestM (unclip_missing hn)
    have hb' := clip_missing hb
    rw [← f.hclip] at hb'
    exact ⟨best, hb'.1, hb'⟩

/-- **C117**, `hkSeq`, sediment stage: only the last trace of the stream (or the stacked trace) is read. -/
theorem c117_hkSeq_sed {env : Env NReal} {init stM : List (Trace NReal)} {last : Trace NReal} {preonset : NReal}
    {VpS : Scalar NReal} {HS KS HM KM : List NReal}
    {w1 w2 w3 : NReal} {VpMoho : Option (Scalar NReal)} {w1M w2M w3M : Option NReal} {stack : Bool}
    {r : HkSeqYeck.SeqResult NReal} {p vs : ℝ} {sl : Scalar NReal}
    (h : HkSeqYeck.hkSeq env (init ++ [last]) stM preonset HS KS (some VpS) (some w1) (some w2) (some w3) HM KM VpMoho
      w1M w2M w3M (some stack) = .ok r)
    (hax : ∀ a ∈ r.time, IsNum a) (h1 : IsNum w1) (h2 : IsNum w2) (h3 : IsNum w3)
    (hvp : VpS.val = num vs) (h0 : vs ≠ 0) (hsl : last.slowness = some sl)
    (hray : (if stack then env.km2deg1 * r.AvgSlow else env.km2deg1 * sl.val) = num p)
    {x k : ℝ} {s : NReal} (hrow : (⟨num x, num k, s⟩ : Row NReal) ∈ r.stackvalueSed) (hpre : PreCritical p vs k) :
    isNaN s = true ↔ ReadsMissing (if stack then r.RFSedStack else last.data) r.time
      (tPs p vs x k) (tPpPs p vs x k) (tPsPs p vs x k) := by
  obtain ⟨tr0, rest, slows, bmod, raw, f⟩ := hkSeq_inv h
  obtain ⟨n, hn, hrow'⟩ := List.getElem_of_mem hrow
  obtain ⟨i, j, _, _, _, hv⟩ := (gridLoop_ok f.hgridS).2.2 n _ (by simp [hn, hrow']; rfl)
  obtain ⟨init', last', he, _, hv⟩ := lastTrace_ok.1 hv
  obtain ⟨_, he⟩ := List.append_inj' he rfl
  rw [← (List.cons.inj he).1] at hv
  rw [f.hVpSed, f.hstk, sedTerm_eq] at hv
  simp only [Option.getD_some] at hv
  obtain ⟨o, ho, hv⟩ := bind_eq_ok.1 hv
  obtain ⟨sl', hsl', hv⟩ := bind_eq_ok.1 hv
  rw [getSlowness_ok.1 hsl'] at hsl
  cases hsl
  rw [hray] at hv
  obtain ⟨ts, hts, hv⟩ := bind_eq_ok.1 hv
  obtain ⟨v, hw, hv⟩ := bind_eq_ok.1 hv
  rw [bestTimes_num hvp h0 hts hpre] at hw
  have hs : s = v + zero := (Except.ok.inj hv).symm
  rw [hs, add_zero_missing]
  exact weigh_missing hax h1 h2 h3 hw

/-- **C117**, `hkSeq`, Moho stage. -/
theorem c117_hkSeq_moho {env : Env NReal} {stS init : List (Trace NReal)} {last : Trace NReal} {preonset : NReal}
    {VpS vm : Scalar NReal} {HS KS HM KM : List NReal}
    {w1 w2 w3 : NReal} {w1S w2S w3S : Option NReal} {stack : Bool}
    {r : HkSeqYeck.SeqResult NReal} {p vs v : ℝ} {sl : Scalar NReal}
    (h : HkSeqYeck.hkSeq env stS (init ++ [last]) preonset HS KS (some VpS) w1S w2S w3S HM KM (some vm)
      (some w1) (some w2) (some w3) (some stack) = .ok r)
    (hax : ∀ a ∈ r.time, IsNum a) (h1 : IsNum w1) (h2 : IsNum w2) (h3 : IsNum w3)
    (hvs : VpS.val = num vs) (h0 : vs ≠ 0) (hvm : vm.val = num v) (h0' : v ≠ 0) (hsl : last.slowness = some sl)
    (hray : (if stack then env.km2deg1 * r.AvgSlow else env.km2deg1 * sl.val) = num p)
    {H1 K1 : ℝ} {sS : NReal} (hbest : r.bestmodelSed = some ⟨num H1, num K1, sS⟩) (hpreS : PreCritical p vs K1)
    {x k : ℝ} {s : NReal} (hrow : (⟨num x, num k, s⟩ : Row NReal) ∈ r.stackvalueMoho) (hpre : PreCritical p v k) :
    isNaN s = true ↔ ReadsMissing (if stack then r.RFMohoStack else last.data) r.time
      (mohoPs p vs H1 K1 v x k) (mohoPpPs p vs H1 K1 v x k) (mohoPsPs p vs H1 K1 v x k) := by
  obtain ⟨tr0, rest, slows, bmod, raw, f⟩ := hkSeq_inv h
  have eb : bmod = ⟨num H1, num K1, sS⟩ := by
    have := f.hrowS
    rw [HkSeqYeck.SeqResult.bestmodelSed, this] at hbest
    exact Option.some.inj hbest
  rw [f.hclip] at hrow
  obtain ⟨s', hrow, hss⟩ := clip_row_missing hrow
  rw [hss]
  obtain ⟨n, hn, hrow'⟩ := List.getElem_of_mem hrow
  obtain ⟨i, j, _, _, _, hv⟩ := (gridLoop_ok f.hgridM).2.2 n _ (by simp [hn, hrow']; rfl)
  obtain ⟨init', last', he, _, hv⟩ := lastTrace_ok.1 hv
  obtain ⟨_, he⟩ := List.append_inj' he rfl
  rw [← (List.cons.inj he).1] at hv
  rw [f.hVpSed, f.hstk, mohoTerm_eq, eb] at hv
  simp only [Option.getD_some] at hv
  obtain ⟨_, _, hv⟩ := bind_eq_ok.1 hv
  obtain ⟨_, _, hv⟩ := bind_eq_ok.1 hv
  obtain ⟨sl', hsl', hv⟩ := bind_eq_ok.1 hv
  rw [getSlowness_ok.1 hsl'] at hsl
  cases hsl
  rw [hray] at hv
  obtain ⟨ts, hts, hv⟩ := bind_eq_ok.1 hv
  obtain ⟨w, hw, hv⟩ := bind_eq_ok.1 hv
  rw [mohoTimes_num hvs h0 hvm h0' hts hpreS hpre] at hw
  have hs : s' = w + zero := (Except.ok.inj hv).symm
  rw [hs, add_zero_missing]
  exact weigh_missing hax h1 h2 h3 hw

/-- **C117**, `hkSeq`: in each stage the first NaN wins. -/
theorem c117_hkSeq_best {env : Env NReal} {stS stM : List (Trace NReal)} {preonset : NReal} {HS KS HM KM : List NReal}
    {VpSed VpMoho : Option (Scalar NReal)} {w1S w2S w3S w1M w2M w3M : Option NReal} {stack : Option Bool}
    {r : HkSeqYeck.SeqResult NReal}
    (h : HkSeqYeck.hkSeq env stS stM preonset HS KS VpSed w1S w2S w3S HM KM VpMoho w1M w2M w3M stack = .ok r) :
    ((∃ row ∈ r.stackvalueSed, isNaN row.s = true) →
      ∃ best, r.bestmodelSed = some best ∧ FirstMissing r.stackvalueSed r.bestIdxSed best) ∧
    ((∃ row ∈ r.stackvalueMoho, isNaN row.s = true) →
      ∃ best, r.bestmodelMoho = some best ∧ FirstMissing r.stackvalueMoho r.bestIdxMoho best) := by
  obtain ⟨tr0, rest, slows, bmod, raw, f⟩ := hkSeq_inv h
  refine ⟨fun hn => ?_, fun hn => ?_⟩
  · obtain ⟨best, hb⟩ := firstMissing_of f.hbestS hn
    exact ⟨best, hb.1, hb⟩
  · rw [f.hclip] at hn
    obtain ⟨best, hb⟩ := firstMissing_of f.hbestM (unclip_missing hn)
    have hb' := clip_missing hb
    rw [← f.hclip] at hb'
    exact ⟨best, hb'.1, hb'⟩

/-! ## Concrete cases -/

/-- seven samples, one per second -/
noncomputable def gapAxis : List NReal := [num 0, num 1, num 2, num 3, num 4, num 5, num 6]

/-- a strong arrival at 1 s and a missing sample at 2 s -/
noncomputable def gapData : List NReal := [num 0, num 9, nan, num 0, num 0, num 0, num 0]

theorem gapAxis_num : ∀ a ∈ gapAxis, IsNum a := by
  intro a ha
  simp only [gapAxis, List.mem_cons, List.not_mem_nil, or_false] at ha
  rcases ha with rfl | rfl | rfl | rfl | rfl | rfl | rfl <;> rfl

theorem gap_reads : ReadsNearest gapData gapAxis (num 2) nan := by
  refine ⟨2, ⟨num 2, rfl, ?_, ?_⟩, rfl⟩
  · intro j y hy
    obtain ⟨z, rfl⟩ := isNum_iff.1 (gapAxis_num y (List.mem_of_getElem? hy))
    simp
  · intro j y hj hy
    have : j = 0 ∨ j = 1 := by omega
    rcases this with rfl | rfl <;> (cases hy; simp)
    norm_num

theorem gap_divisor (kd : Kind) : Divisor (⟨kd, num 1⟩ : Scalar NReal) := by
  right
  rw [← Bool.not_eq_true, PyFloat.eq, Bool.and_eq_true, nreal_zero, nreal_le, nreal_le]
  norm_num

theorem vertical_pre (k : ℝ) : PreCritical 0 1 k := by
  constructor <;> simp <;> positivity

theorem vertical_tPs : tPs 0 1 1 3 = 2 := by
  have : eta 0 (1 / 3) = 3 := by
    rw [eta, show (1 : ℝ) / (1 / 3) ^ 2 - 0 ^ 2 = 3 ^ 2 by norm_num, Real.sqrt_sq (by norm_num)]
  have h1 : eta 0 1 = 1 := by simp [eta]
  rw [tPs, this, h1]; norm_num

/-- Vertical incidence, `Vp = 1`, `H = 1`: for `K = 2` Ps arrives at 1 s, where the data have their only arrival, for
`K = 3` at 2 s, where the sample is missing.  The best model is `K = 3`, even though Ps has weight 0. -/
example : ∃ r, SynthAnalysis.hkSynth nEnv gapData gapAxis ⟨.py, num 0⟩ [num 1] [num 2, num 3] (some ⟨.py, num 1⟩)
    (some (num 0)) (some (num 1)) (some (num 1)) none = .ok r ∧ r.bestmodel = some ⟨num 1, num 3, nan⟩ := by
  obtain ⟨r, hr⟩ := c25_hkSynth_succeeds (env := nEnv) (d := gapData) (t := gapAxis) (rp := ⟨.py, num 0⟩)
    (H := [num 1]) (K := [num 2, num 3]) (Vp := ⟨.py, num 1⟩) (w1 := some (num 0)) (w2 := some (num 1))
    (w3 := some (num 1)) (layer := none) (by simp [gapAxis]) (by simp [gapAxis, gapData]) (gap_divisor _) (by simp) (by simp)
    (fun _ _ => rfl)
  refine ⟨r, hr, ?_⟩
  obtain ⟨hlen, hg⟩ := c25_hkSynth_grid hr
  obtain ⟨s0, e0⟩ := hg 0 0 _ _ rfl rfl
  obtain ⟨s1, e1⟩ := hg 1 0 _ _ rfl rfl
  have i0 := c117_hkSynth hr gapAxis_num rfl rfl rfl rfl one_ne_zero rfl (List.mem_of_getElem? e0) (vertical_pre _)
  have i1 := (c117_hkSynth hr gapAxis_num rfl rfl rfl rfl one_ne_zero rfl (List.mem_of_getElem? e1)
    (vertical_pre _)).2 (.inl (by rw [vertical_tPs]; exact gap_reads))
  have n1 : s1 = nan := isNaN_num.1 i1
  subst n1
  have eta2 : eta 0 (1 / 2) = 2 := by
    rw [eta, show (1 : ℝ) / (1 / 2) ^ 2 - 0 ^ 2 = 2 ^ 2 by norm_num, Real.sqrt_sq (by norm_num)]
  have eta1 : eta 0 1 = 1 := by simp [eta]
  have hit : ∀ (i : Nat) (T : ℝ), gapAxis[i]? = some (num T) → (∀ j y, j < i → gapAxis[j]? = some (num y) → y < T) →
      ∀ a, ReadsNearest gapData gapAxis (num T) a → gapData[i]? = some a := by
    intro i T hi hlt a ha
    have : NearestSample gapAxis (num T) i := by
      refine ⟨_, hi, ?_, ?_⟩
      · intro j y hy
        obtain ⟨z, rfl⟩ := isNum_iff.1 (gapAxis_num y (List.mem_of_getElem? hy))
        simp
      · intro j y hj hy
        obtain ⟨z, rfl⟩ := isNum_iff.1 (gapAxis_num y (List.mem_of_getElem? hy))
        have := hlt j z hj hy
        simp only [nreal_sub, nreal_abs, nreal_lt, sub_self, abs_zero, abs_pos]
        intro h; linarith
    obtain ⟨i', hi', hd⟩ := ha
    have : i' = i := by
      by_contra hne
      rcases Nat.lt_or_gt_of_ne hne with hl | hl
      · obtain ⟨x, hx, _, h2⟩ := this
        obtain ⟨x', hx', h1', _⟩ := hi'
        have a1 := h2 i' x' hl hx'
        have a2 := h1' i x hx
        rw [not_le_of_lt a1] at a2; cases a2
      · obtain ⟨x, hx, h1, _⟩ := this
        obtain ⟨x', hx', _, h2'⟩ := hi'
        have a1 := h2' i x hl hx
        have a2 := h1 i' x' hx'
        rw [not_le_of_lt a1] at a2; cases a2
    rw [← this]; exact hd
  have n0 : isNaN s0 = false := by
    rw [← Bool.not_eq_true]
    intro hn
    rcases i0.1 hn with h | h | h
    · rw [tPs, eta2, eta1, show (1 : ℝ) * (2 - 1) = 1 by norm_num] at h
      have := hit 1 1 rfl (by
        intro j y hj hy
        have : j = 0 := by omega
        subst this; cases hy; norm_num) _ h
      cases this
    · rw [tPpPs, eta2, eta1, show (1 : ℝ) * (2 + 1) = 3 by norm_num] at h
      have := hit 3 3 rfl (by
        intro j y hj hy
        have : j = 0 ∨ j = 1 ∨ j = 2 := by omega
        rcases this with rfl | rfl | rfl <;> cases hy <;> norm_num) _ h
      cases this
    · rw [tPsPs, eta2, show (2 : ℝ) * 1 * 2 = 4 by norm_num] at h
      have := hit 4 4 rfl (by
        intro j y hj hy
        have : j = 0 ∨ j = 1 ∨ j = 2 ∨ j = 3 := by omega
        rcases this with rfl | rfl | rfl | rfl <;> cases hy <;> norm_num) _ h
      cases this
  obtain ⟨best, hb, hf⟩ := c117_hkSynth_best hr ⟨_, List.mem_of_getElem? e1, rfl⟩
  obtain ⟨f1, f2, f3⟩ := hf
  rw [hb]
  have hidx : r.bestIdx < 2 := by
    have := (List.getElem?_eq_some_iff.1 f1).1
    simpa [hlen] using this
  have : r.bestIdx = 0 ∨ r.bestIdx = 1 := by omega
  rcases this with h | h
  · rw [h] at f1
    simp only [List.length_cons, List.length_nil, Nat.zero_mul, Nat.add_zero] at e0
    rw [f1] at e0
    cases e0
    rw [n0] at f2; cases f2
  · rw [h] at f1
    simp only [List.length_cons, List.length_nil, Nat.zero_add, Nat.one_mul, Nat.add_zero] at e1
    rw [f1] at e1
    exact e1

/-- Two stages with the same record: the sediment stage picks the missing sample, the hypotheses of the Moho theorem
hold with the sediment `H = 1`, `K = 3`. -/
example : ∃ r, SynthAnalysis.hkSeqSynth nEnv gapData gapData gapAxis ⟨.py, num 0⟩ [num 1] [num 3] (some ⟨.py, num 1⟩)
    (some (num 0.6)) (some (num 0.3)) (some (num 0.1)) [num 1] [num 2, num 3] (some ⟨.py, num 1⟩)
    (some (num 0.6)) (some (num 0.3)) (some (num 0.1)) = .ok r ∧
    r.bestmodelSed = some ⟨num 1, num 3, nan⟩ ∧ ∃ s, (⟨num 1, num 2, s⟩ : Row NReal) ∈ r.stackvalueMoho := by
  obtain ⟨r, hr⟩ := c25_hkSeqSynth_succeeds (env := nEnv) (dS := gapData) (dM := gapData) (t := gapAxis)
    (rp := ⟨.py, num 0⟩) (HS := [num 1]) (KS := [num 3]) (HM := [num 1]) (KM := [num 2, num 3]) (VpSed := ⟨.py, num 1⟩)
    (VpMoho := ⟨.py, num 1⟩) (w1S := some (num 0.6)) (w2S := some (num 0.3)) (w3S := some (num 0.1))
    (w1M := num 0.6) (w2M := num 0.3) (w3M := num 0.1) (by simp [gapAxis])
    (by simp [gapAxis, gapData]) (by simp [gapAxis, gapData]) (gap_divisor _) (gap_divisor _) (by simp) (by simp) (by simp)
    (by simp) (fun _ _ => rfl)
  obtain ⟨⟨l1, g1⟩, ⟨l2, g2⟩⟩ := c25_hkSeqSynth_grid hr
  obtain ⟨s0, e0⟩ := g1 0 0 _ _ rfl rfl
  obtain ⟨s1, e1⟩ := g2 0 0 _ _ rfl rfl
  have i1 := (c117_hkSeqSynth_sed hr gapAxis_num rfl rfl rfl rfl one_ne_zero rfl (List.mem_of_getElem? e0)
    (vertical_pre _)).2 (.inl (by rw [vertical_tPs]; exact gap_reads))
  have n1 : s0 = nan := isNaN_num.1 i1
  subst n1
  refine ⟨r, hr, ?_, s1, List.mem_of_getElem? e1⟩
  obtain ⟨best, hb, f1, _⟩ := (c117_hkSeqSynth_best hr).1 ⟨_, List.mem_of_getElem? e0, rfl⟩
  have hidx : r.bestIdxSed < 1 := by
    have := (List.getElem?_eq_some_iff.1 f1).1
    simpa [l1] using this
  have : r.bestIdxSed = 0 := by omega
  rw [hb, ← f1, this]
  exact e0

/-- a trace with a missing sample, vertical incidence -/
noncomputable def gapTrace : Trace NReal where
  station := "STA"
  channel := "R"
  data := gapData
  delta := num 1
  starttime := num 0
  onset := some (num 0)
  slowness := some ⟨.np, num 0⟩
  backAzimuth := none
  distance := none

/-- `hk` with one complete and one incomplete trace: the value at `K = 3` is NaN. -/
example : ∃ r, hk nEnv [{ gapTrace with data := gapAxis }, gapTrace] (num 0) [num 1] [num 2, num 3]
    (some ⟨.py, num 1⟩) (some (num 0.6)) (some (num 0.3)) (some (num 0.1)) none (some false) = .ok r ∧
    (⟨num 1, num 3, nan⟩ : Row NReal) ∈ r.stackvalues := by
  have e : ∃ r, hk nEnv [{ gapTrace with data := gapAxis }, gapTrace] (num 0) [num 1] [num 2, num 3]
      (some ⟨.py, num 1⟩) (some (num 0.6)) (some (num 0.3)) (some (num 0.1)) none (some false) = .ok r := by
    refine c03_succeeds (sd := _) (more := _) rfl ?_ ?_ ?_ ?_ ?_ (by simp) (by simp) (by simp) ?_
    · intro h; cases h
    · simp [gapAxis]
    · intro tr htr
      simp at htr
      rcases htr with rfl | rfl <;> simp [gapTrace, gapAxis, gapData]
    · intro tr htr; simp at htr; subst htr; simp [gapTrace, gapAxis, gapData]
    · intro v hv; cases hv; exact gap_divisor _
    · intro _ _; rfl
  obtain ⟨r, hr⟩ := e
  refine ⟨r, hr, ?_⟩
  obtain ⟨_, hgrid, _, tr0, rest, hst, ht⟩ := c03_table_shape hr
  have hax : r.time = gapAxis := by
    cases hst
    rw [ht]
    simp [gapTrace, gapAxis, timeAxis, List.range, List.range.loop]
  obtain ⟨s1, e1⟩ := (gridTable_of (hk_inv hr).choose_spec.choose_spec.choose_spec.hgrid).2 1 0 _ _ rfl rfl
  have i1 := (c117_hk hr (by rw [hax]; exact gapAxis_num) rfl rfl rfl rfl one_ne_zero (fun _ => 0) (by
      intro tr htr sl hsl
      simp at htr
      rcases htr with rfl | rfl <;> (cases hsl; simp [nEnv])) (List.mem_of_getElem? e1)
    (fun _ _ => vertical_pre _)).2 ⟨gapTrace, by simp, .inl (by
      rw [vertical_tPs, hax]; exact gap_reads)⟩
  rw [isNaN_num.1 i1] at e1
  exact List.mem_of_getElem? e1

/-- `hkYu` on a filtered record with a missing sample and `tlag = 0`: `SubSedVpVs` is the value of the missing sample. -/
example : ∃ r, HkYu.hkYu nEnv ⟨gapData, gapAxis, ⟨.py, num 0⟩⟩ ⟨.py, num 0⟩ [num 1] [num 3] (some ⟨.py, num 1⟩)
    (some ⟨.py, num 1⟩) (some ⟨.py, num 1⟩) (some (num 0)) (some (num 1)) (some (num 1)) = .ok r ∧
    r.Pdelay = num 0 ∧ (⟨num 1, num 3, nan⟩ : Row NReal) ∈ r.stackvaluesSubSed ∧ r.SubSedVpVs = num 3 := by
  obtain ⟨r, hr⟩ := c25_hkYu_succeeds (env := nEnv) (flt := ⟨gapData, gapAxis, ⟨.py, num 0⟩⟩) (rp := ⟨.py, num 0⟩)
    (H := [num 1]) (K := [num 3]) (VpMoho := ⟨.py, num 1⟩) (VpSed := ⟨.py, num 1⟩) (VsSed := ⟨.py, num 1⟩)
    (w1 := num 0) (w2 := num 1) (w3 := num 1) (by simp [gapAxis]) (by simp [gapAxis, gapData]) (gap_divisor _)
    (gap_divisor _) (gap_divisor _) (by simp) (by simp) (fun _ _ => rfl)
  obtain ⟨l1, g1⟩ := c25_hkYu_grid hr
  obtain ⟨s0, e0⟩ := g1 0 0 _ _ rfl rfl
  have hdel : r.Pdelay = num 0 := by
    obtain ⟨vs, a, b, bm, f⟩ := hkYu_inv hr
    have hvs := Option.some.inj f.hvs
    subst hvs
    have ha := f.ha
    have hb := f.hb
    rw [f.hSed] at ha hb
    rw [f.hVpSed] at hb
    simp only [Option.getD_some] at hb
    rw [ha] at hb
    have : a = b := Except.ok.inj hb
    subst this
    rw [f.hPd]
    rw [scalarDiv_val ha]
    simp [nreal_div]
  have i1 := (c117_hkYu hr gapAxis_num rfl rfl rfl rfl one_ne_zero rfl rfl hdel (List.mem_of_getElem? e0)
    (vertical_pre _)).2 (.inl (by rw [vertical_tPs, add_zero]; exact gap_reads))
  have n1 : s0 = nan := isNaN_num.1 i1
  subst n1
  refine ⟨r, hr, hdel, List.mem_of_getElem? e0, ?_⟩
  obtain ⟨best, hb, ⟨f1, _⟩, _, f4⟩ := c117_hkYu_best hr ⟨_, List.mem_of_getElem? e0, rfl⟩
  have hidx : r.bestIdx < 1 := by
    have := (List.getElem?_eq_some_iff.1 f1).1
    simpa [l1] using this
  have : r.bestIdx = 0 := by omega
  rw [this] at f1
  simp only [List.length_cons, List.length_nil, Nat.zero_add, Nat.zero_mul, Nat.add_zero] at e0
  rw [f1] at e0
  rw [f4, Option.some.inj e0]

/-- `hkSeq` on streams whose last trace has a missing sample. -/
example : ∃ r, HkSeqYeck.hkSeq nEnv ([{ gapTrace with data := gapAxis }] ++ [gapTrace])
    ([{ gapTrace with data := gapAxis }] ++ [gapTrace]) (num 0) [num 1] [num 3] (some ⟨.py, num 1⟩)
    (some (num 0.6)) (some (num 0.3)) (some (num 0.1)) [num 1] [num 2] (some ⟨.py, num 1⟩)
    (some (num 0.6)) (some (num 0.3)) (some (num 0.1)) (some false) = .ok r ∧
    (∀ a ∈ r.time, IsNum a) ∧ r.bestmodelSed = some ⟨num 1, num 3, nan⟩ ∧
    ∃ s, (⟨num 1, num 2, s⟩ : Row NReal) ∈ r.stackvalueMoho := by
  have e : ∃ r, HkSeqYeck.hkSeq nEnv ([{ gapTrace with data := gapAxis }] ++ [gapTrace])
      ([{ gapTrace with data := gapAxis }] ++ [gapTrace]) (num 0) [num 1] [num 3] (some ⟨.py, num 1⟩)
      (some (num 0.6)) (some (num 0.3)) (some (num 0.1)) [num 1] [num 2] (some ⟨.py, num 1⟩)
      (some (num 0.6)) (some (num 0.3)) (some (num 0.1)) (some false) = .ok r := by
    refine c25_hkSeq_succeeds (dS := _) (dM := _) (moreS := _) (moreM := _) rfl rfl (by simp) (by simp [gapAxis]) ?_
      (by simp) (by simp) (gap_divisor _) (gap_divisor _) (by simp) (by simp) (by simp) (by simp) (fun _ _ => rfl)
    intro tr htr
    simp at htr
    rcases htr with rfl | rfl | rfl | rfl <;> simp [gapTrace, gapAxis, gapData]
  obtain ⟨r, hr⟩ := e
  have hax : r.time = gapAxis := by
    obtain ⟨tr0, rest, slows, bmod, raw, f⟩ := hkSeq_inv hr
    have := f.hst
    cases this
    rw [f.htime]
    simp [gapTrace, gapAxis, timeAxis, List.range, List.range.loop]
  obtain ⟨⟨l1, g1⟩, ⟨l2, g2⟩⟩ := c25_hkSeq_grid hr
  obtain ⟨s0, e0⟩ := g1 0 0 _ _ rfl rfl
  obtain ⟨s1, e1⟩ := g2 0 0 _ _ rfl rfl
  have i1 := (c117_hkSeq_sed hr (by rw [hax]; exact gapAxis_num) rfl rfl rfl rfl one_ne_zero rfl
    (by simp [nEnv]) (List.mem_of_getElem? e0) (vertical_pre _)).2 (.inl (by
      rw [vertical_tPs, hax]; exact gap_reads))
  have n1 : s0 = nan := isNaN_num.1 i1
  subst n1
  refine ⟨r, hr, by rw [hax]; exact gapAxis_num, ?_, s1, List.mem_of_getElem? e1⟩
  obtain ⟨best, hb, f1, _⟩ := (c117_hkSeq_best hr).1 ⟨_, List.mem_of_getElem? e0, rfl⟩
  have hidx : r.bestIdxSed < 1 := by
    have := (List.getElem?_eq_some_iff.1 f1).1
    simpa [l1] using this
  have : r.bestIdxSed = 0 := by omega
  rw [hb, ← f1, this]
  exact e0

end Rfsed.Props
