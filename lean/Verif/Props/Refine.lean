import Verif.Proofs.Refine
import Verif.Props.HkZhu
import Verif.Props.HkZhu2

/-!
# Property C91: changing the search grid

Everything here holds for floating-point numbers too (`IEEEOrder`), not only for real numbers.
-/

namespace Rfsed.Props
open Spec PyFloat HkZhu
variable {F : Type} [PyFloat F] [IEEEOrder F]

/-- `tb` is the part of the table `tb'` that belongs to the grid `K × H` -/
def PartOf (K H : List F) (tb tb' : List (Row F)) : Prop :=
  ∀ row, row ∈ tb ↔ row ∈ tb' ∧ row.k ∈ K ∧ row.h ∈ H

/-- The best model `b'` of a finer grid is at least as good as `b`, the one of the grid `K × H`, and not
better if it lies on that grid. -/
def NoWorse (K H : List F) (b b' : Option (Row F)) : Prop :=
  ∃ x x', b = some x ∧ b' = some x' ∧ le x.s x'.s = true ∧ (x'.k ∈ K → x'.h ∈ H → le x'.s x.s = true)

theorem noWorse_of {K H : List F} {tb tb' : List (Row F)} {n n' : Nat} (hp : PartOf K H tb tb')
    (hnum : ∀ row ∈ tb', isNaN row.s = false) (hb : argmax (tb.map Row.s) = .ok n)
    (hb' : argmax (tb'.map Row.s) = .ok n') : NoWorse K H tb[n]? tb'[n']? := by
  have hn : n < tb.length := by simpa using argmax_lt hb
  have hn' : n' < tb'.length := by simpa using argmax_lt hb'
  have e := List.getElem?_eq_getElem hn
  have e' := List.getElem?_eq_getElem hn'
  refine ⟨_, _, e, e', ?_, ?_⟩
  · exact best_le hnum hb' e' (List.mem_of_getElem? e) (fun row hr => ((hp row).1 hr).1)
  · intro hk hh
    have : tb'[n'] ∈ tb := (hp _).2 ⟨List.mem_of_getElem? e', hk, hh⟩
    exact best_le (tb := tb) (fun row hr => hnum row ((hp row).1 hr).1) hb e this (fun row hr => hr)

/-- **C91** `hk`: on a finer grid the values at the old grid points stay, and the best stack value does not
decrease. -/
theorem c91_hk {env : Env F} {st : List (Trace F)} {preonset : F} {H K H' K' : List F} {Vp : Option (Scalar F)}
    {w1 w2 w3 : Option F} {layer : Option String} {stack : Option Bool} {r r' : HKResult F}
    (h : hk env st preonset H K Vp w1 w2 w3 layer stack = .ok r)
    (h' : hk env st preonset H' K' Vp w1 w2 w3 layer stack = .ok r') (hK : K ⊆ K') (hH : H ⊆ H') :
    PartOf K H r.stackvalues r'.stackvalues ∧
    ((∀ row ∈ r'.stackvalues, isNaN row.s = false) → NoWorse K H r.bestmodel r'.bestmodel) := by
  obtain ⟨tr0, rest, slows, f⟩ := hk_inv h
  obtain ⟨tr0', rest', slows', f'⟩ := hk_inv h'
  have e0 : tr0' = tr0 := by have := f.hst.symm.trans f'.hst; simp at this; exact this.1.symm
  have e1 : slows' = slows := Except.ok.inj (f'.hslow.symm.trans f.hslow)
  have e2 : r'.RFStack = r.RFStack := by
    obtain ⟨m, hm⟩ := f.hstack
    obtain ⟨m', hm'⟩ := f'.hstack
    have := Except.ok.inj (hm'.symm.trans hm)
    simp at this
    exact this.1
  have hg := f.hgrid
  have hg' := f'.hgrid
  rw [f'.htime, e0, e2, f'.havg, e1, f'.hVp, f'.hstk] at hg'
  rw [f.htime, f.havg, f.hVp, f.hstk] at hg
  have hp : PartOf K H r.stackvalues r'.stackvalues := gridLoop_sub hg hg' hK hH
  exact ⟨hp, fun hnum => noWorse_of hp hnum f.hbest f'.hbest⟩

/-- **C91** `hk`: a coarser grid never brings a new exception of the stacking. -/
theorem c91_hk_coarser {env : Env F} {st : List (Trace F)} {preonset : F} {H K H' K' : List F}
    {Vp : Option (Scalar F)} {w1 w2 w3 : Option F} {layer : Option String} {stack : Option Bool} {r' : HKResult F}
    (h' : hk env st preonset H' K' Vp w1 w2 w3 layer stack = .ok r') (hK : K ⊆ K') (hH : H ⊆ H')
    (hK0 : K ≠ []) (hH0 : H ≠ []) (hdraw : ∀ tb, env.draw tb = .ok ()) :
    ∃ r, hk env st preonset H K Vp w1 w2 w3 layer stack = .ok r := by
  unfold hk at h' ⊢
  obtain ⟨stk, h1, h'⟩ := bind_eq_ok.1 h'
  obtain ⟨sd, h2, h'⟩ := bind_eq_ok.1 h'
  obtain ⟨slows, h3, h'⟩ := bind_eq_ok.1 h'
  obtain ⟨tr0, h4, h'⟩ := bind_eq_ok.1 h'
  obtain ⟨tb, h5, h'⟩ := bind_eq_ok.1 h'
  obtain ⟨tb0, h6⟩ := gridLoop_sub_ok h5 hK hH
  have hlen := (gridLoop_ok h6).1
  have hpos : 0 < tb0.length := by
    rw [hlen]
    exact Nat.mul_pos (List.length_pos_iff.2 hK0) (List.length_pos_iff.2 hH0)
  obtain ⟨n, hn⟩ : ∃ n, argmax (tb0.map Row.s) = .ok n := by
    cases tb0 with
    | nil => simp at hpos
    | cons x xs => exact ⟨_, rfl⟩
  refine ⟨_, bind_eq_ok.2 ⟨stk, h1, bind_eq_ok.2 ⟨sd, h2, bind_eq_ok.2 ⟨slows, h3, bind_eq_ok.2 ⟨tr0, h4,
    bind_eq_ok.2 ⟨tb0, h6, bind_eq_ok.2 ⟨n, hn, bind_eq_ok.2 ⟨(), hdraw _, rfl⟩⟩⟩⟩⟩⟩⟩⟩

/-- **C91** `hkSynth`. -/
theorem c91_hkSynth {env : Env F} {d t : List F} {rp : Scalar F} {H K H' K' : List F} {Vp : Option (Scalar F)}
    {w1 w2 w3 : Option F} {layer : Option String} {r r' : SynthAnalysis.SynthResult F}
    (h : SynthAnalysis.hkSynth env d t rp H K Vp w1 w2 w3 layer = .ok r)
    (h' : SynthAnalysis.hkSynth env d t rp H' K' Vp w1 w2 w3 layer = .ok r') (hK : K ⊆ K') (hH : H ⊆ H') :
    PartOf K H r.stackvalues r'.stackvalues ∧
    ((∀ row ∈ r'.stackvalues, isNaN row.s = false) → NoWorse K H r.bestmodel r'.bestmodel) := by
  have f := hkSynth_inv h
  have f' := hkSynth_inv h'
  have hp : PartOf K H r.stackvalues r'.stackvalues := gridLoop_sub f.hgrid f'.hgrid hK hH
  exact ⟨hp, fun hnum => noWorse_of hp hnum f.hbest f'.hbest⟩

/-- **C91** `hkYu`. -/
theorem c91_hkYu {env : Env F} {flt : HkYu.FltInput F} {rp : Scalar F} {H K H' K' : List F}
    {VpMoho VpSed VsSed : Option (Scalar F)} {w1 w2 w3 : Option F} {r r' : HkYu.YuResult F}
    (h : HkYu.hkYu env flt rp H K VpMoho VpSed VsSed w1 w2 w3 = .ok r)
    (h' : HkYu.hkYu env flt rp H' K' VpMoho VpSed VsSed w1 w2 w3 = .ok r') (hK : K ⊆ K') (hH : H ⊆ H') :
    r'.SedThick = r.SedThick ∧ r'.Pdelay = r.Pdelay ∧
    PartOf K H r.stackvaluesSubSed r'.stackvaluesSubSed ∧
    ((∀ row ∈ r'.stackvaluesSubSed, isNaN row.s = false) → NoWorse K H r.bestmodel r'.bestmodel) := by
  obtain ⟨vs, a, b, bmod, f⟩ := hkYu_inv h
  obtain ⟨vs', a', b', bmod', f'⟩ := hkYu_inv h'
  have e0 : vs' = vs := Option.some.inj (f'.hvs.symm.trans f.hvs)
  subst e0
  have e1 : r'.SedThick = r.SedThick := f'.hSed.trans f.hSed.symm
  have e2 : r'.VpSed = r.VpSed := f'.hVpSed.trans f.hVpSed.symm
  have e3 : r'.VpMoho = r.VpMoho := f'.hVp.trans f.hVp.symm
  have ea : a' = a := by
    have := f'.ha; rw [e1] at this
    exact Except.ok.inj (this.symm.trans f.ha)
  have eb : b' = b := by
    have := f'.hb; rw [e1, e2] at this
    exact Except.ok.inj (this.symm.trans f.hb)
  have e4 : r'.Pdelay = r.Pdelay := by rw [f'.hPd, f.hPd, ea, eb]
  have hg' := f'.hgrid
  rw [e3, e4] at hg'
  have hp : PartOf K H r.stackvaluesSubSed r'.stackvaluesSubSed := gridLoop_sub f.hgrid hg' hK hH
  exact ⟨e1, e4, hp, fun hnum => noWorse_of hp hnum f.hbest f'.hbest⟩

theorem clip_part {K H : List F} {tb tb' : List (Row F)} (hp : PartOf K H tb tb') :
    PartOf K H (clipLoop tb) (clipLoop tb') := by
  intro row
  have hk : ∀ x : Row F, (clipRow x).k = x.k ∧ (clipRow x).h = x.h := by
    intro x; unfold clipRow; split <;> exact ⟨rfl, rfl⟩
  rw [clipLoop_eq, clipLoop_eq, List.mem_map, List.mem_map]
  constructor
  · rintro ⟨x, hx, rfl⟩
    obtain ⟨a, b, c⟩ := (hp x).1 hx
    exact ⟨⟨x, a, rfl⟩, by rw [(hk x).1]; exact b, by rw [(hk x).2]; exact c⟩
  · rintro ⟨⟨x, hx, rfl⟩, b, c⟩
    rw [(hk x).1] at b
    rw [(hk x).2] at c
    exact ⟨x, (hp x).2 ⟨hx, b, c⟩, rfl⟩

/-- removing negative values keeps the order -/
theorem clip_mono {a b : Row F} (h : le a.s b.s = true) : le (clipRow a).s (clipRow b).s = true := by
  have hnb : isNaN b.s = false := by
    by_contra hc
    rw [IEEEOrder.le_nan_right _ _ (by simpa using hc)] at h
    cases h
  unfold clipRow
  by_cases ha : le a.s zero = true
  · have hz : isNaN (zero : F) = false := by
      by_contra hc
      rw [IEEEOrder.le_nan_right _ _ (by simpa using hc)] at ha
      cases ha
    by_cases hb : le b.s zero = true
    · rw [if_pos ha, if_pos hb]
      rcases IEEEOrder.le_total _ _ hz hz with q | q <;> exact q
    · rw [if_pos ha, if_neg hb]
      rcases IEEEOrder.le_total _ _ hnb hz with q | q
      · exact absurd q hb
      · exact q
  · by_cases hb : le b.s zero = true
    · exact absurd (IEEEOrder.le_trans _ _ _ h hb) ha
    · rw [if_neg ha, if_neg hb]; exact h

/-- the best models of two tables with negative values removed, found in the tables as they were before -/
theorem noWorse_clip {K H : List F} {tb tb' : List (Row F)} {n n' : Nat} (hp : PartOf K H tb tb')
    (hnum : ∀ row ∈ clipLoop tb', isNaN row.s = false) (hb : argmax (tb.map Row.s) = .ok n)
    (hb' : argmax (tb'.map Row.s) = .ok n') : NoWorse K H (clipLoop tb)[n]? (clipLoop tb')[n']? := by
  have hnum' : ∀ row ∈ tb', isNaN row.s = false := by
    intro row hr
    by_contra hc
    have hc : isNaN row.s = true := by simpa using hc
    have := hnum (clipRow row) (by rw [clipLoop_eq]; exact List.mem_map_of_mem hr)
    unfold clipRow at this
    rw [IEEEOrder.le_nan_left _ _ hc] at this
    simp only [Bool.false_eq_true, if_false] at this
    rw [hc] at this
    cases this
  obtain ⟨x, x', e, e', h1, h2⟩ := noWorse_of hp hnum' hb hb'
  have hk : ∀ x : Row F, (clipRow x).k = x.k ∧ (clipRow x).h = x.h := by
    intro x; unfold clipRow; split <;> exact ⟨rfl, rfl⟩
  refine ⟨clipRow x, clipRow x', by rw [clipLoop_eq, List.getElem?_map, e]; rfl,
    by rw [clipLoop_eq, List.getElem?_map, e']; rfl, clip_mono h1, ?_⟩
  intro a b
  rw [(hk x').1] at a
  rw [(hk x').2] at b
  exact clip_mono (h2 a b)

/-- **C91** `hkSeqSynth`: the sediment stage; with the same sediment grid also the Moho stage. -/
theorem c91_hkSeqSynth {env : Env F} {dS dM t : List F} {rp : Scalar F} {HS KS HS' KS' HM KM HM' KM' : List F}
    {VpSed VpMoho : Option (Scalar F)} {w1S w2S w3S w1M w2M w3M : Option F} {r r' : SynthAnalysis.SeqSynthResult F}
    (h : SynthAnalysis.hkSeqSynth env dS dM t rp HS KS VpSed w1S w2S w3S HM KM VpMoho w1M w2M w3M = .ok r)
    (h' : SynthAnalysis.hkSeqSynth env dS dM t rp HS' KS' VpSed w1S w2S w3S HM' KM' VpMoho w1M w2M w3M = .ok r')
    (hKS : KS ⊆ KS') (hHS : HS ⊆ HS') (hKM : KM ⊆ KM') (hHM : HM ⊆ HM') :
    PartOf KS HS r.stackvalueSed r'.stackvalueSed ∧
    ((∀ row ∈ r'.stackvalueSed, isNaN row.s = false) → NoWorse KS HS r.bestmodelSed r'.bestmodelSed) ∧
    (KS' = KS → HS' = HS → PartOf KM HM r.stackvalueMoho r'.stackvalueMoho ∧
      ((∀ row ∈ r'.stackvalueMoho, isNaN row.s = false) → NoWorse KM HM r.bestmodelMoho r'.bestmodelMoho)) := by
  obtain ⟨bmod, raw, f⟩ := hkSeqSynth_inv h
  obtain ⟨bmod', raw', f'⟩ := hkSeqSynth_inv h'
  have e0 : r'.VpSed = r.VpSed := f'.hVpSed.trans f.hVpSed.symm
  have hg' := f'.hgridS
  rw [e0] at hg'
  have hp : PartOf KS HS r.stackvalueSed r'.stackvalueSed := gridLoop_sub f.hgridS hg' hKS hHS
  refine ⟨hp, fun hnum => noWorse_of hp hnum f.hbestS f'.hbestS, ?_⟩
  rintro rfl rfl
  have e1 : r'.stackvalueSed = r.stackvalueSed := Except.ok.inj (hg'.symm.trans f.hgridS)
  have e2 : r'.bestIdxSed = r.bestIdxSed := by
    have := f'.hbestS
    rw [e1] at this
    exact Except.ok.inj (this.symm.trans f.hbestS)
  have e3 : bmod' = bmod := by
    have := f'.hrowS
    rw [e1, e2] at this
    exact Option.some.inj (this.symm.trans f.hrowS)
  have hgM := f'.hgridM
  rw [e0, e3] at hgM
  have hpM := gridLoop_sub f.hgridM hgM hKM hHM
  unfold SynthAnalysis.SeqSynthResult.bestmodelMoho
  rw [f.hclip, f'.hclip]
  exact ⟨clip_part hpM, fun hnum => noWorse_clip hpM hnum f.hbestM f'.hbestM⟩

/-- **C91** `hkSeq`: the sediment stage; with the same sediment grid also the Moho stage. -/
theorem c91_hkSeq {env : Env F} {stS stM : List (Trace F)} {preonset : F} {HS KS HS' KS' HM KM HM' KM' : List F}
    {VpSed VpMoho : Option (Scalar F)} {w1S w2S w3S w1M w2M w3M : Option F} {stack : Option Bool}
    {r r' : HkSeqYeck.SeqResult F}
    (h : HkSeqYeck.hkSeq env stS stM preonset HS KS VpSed w1S w2S w3S HM KM VpMoho w1M w2M w3M stack = .ok r)
    (h' : HkSeqYeck.hkSeq env stS stM preonset HS' KS' VpSed w1S w2S w3S HM' KM' VpMoho w1M w2M w3M stack = .ok r')
    (hKS : KS ⊆ KS') (hHS : HS ⊆ HS') (hKM : KM ⊆ KM') (hHM : HM ⊆ HM') :
    PartOf KS HS r.stackvalueSed r'.stackvalueSed ∧
    ((∀ row ∈ r'.stackvalueSed, isNaN row.s = false) → NoWorse KS HS r.bestmodelSed r'.bestmodelSed) ∧
    (KS' = KS → HS' = HS → PartOf KM HM r.stackvalueMoho r'.stackvalueMoho ∧
      ((∀ row ∈ r'.stackvalueMoho, isNaN row.s = false) → NoWorse KM HM r.bestmodelMoho r'.bestmodelMoho)) := by
  obtain ⟨tr0, rest, slows, bmod, raw, f⟩ := hkSeq_inv h
  obtain ⟨tr0', rest', slows', bmod', raw', f'⟩ := hkSeq_inv h'
  have e0 : r'.VpSed = r.VpSed := f'.hVpSed.trans f.hVpSed.symm
  have t0 : tr0' = tr0 := by have := f.hst.symm.trans f'.hst; simp at this; exact this.1.symm
  have s0 : slows' = slows := Except.ok.inj (f'.hslow.symm.trans f.hslow)
  have a0 : r'.AvgSlow = r.AvgSlow := by rw [f'.havg, f.havg, s0]
  have m0 : r'.time = r.time := by rw [f'.htime, f.htime, t0]
  have k0 : r'.stack = r.stack := f'.hstk.trans f.hstk.symm
  have q1 : r'.RFSedStack = r.RFSedStack := by
    obtain ⟨m, hm⟩ := f.hstackS
    obtain ⟨m', hm'⟩ := f'.hstackS
    have := Except.ok.inj (hm'.symm.trans hm)
    simp at this
    exact this.1
  have q2 : r'.RFMohoStack = r.RFMohoStack := by
    obtain ⟨m, hm⟩ := f.hstackM
    obtain ⟨m', hm'⟩ := f'.hstackM
    have := Except.ok.inj (hm'.symm.trans hm)
    simp at this
    exact this.1
  have hg' := f'.hgridS
  rw [e0, m0, a0, k0, q1] at hg'
  have hp : PartOf KS HS r.stackvalueSed r'.stackvalueSed := gridLoop_sub f.hgridS hg' hKS hHS
  refine ⟨hp, fun hnum => noWorse_of hp hnum f.hbestS f'.hbestS, ?_⟩
  rintro rfl rfl
  have e1 : r'.stackvalueSed = r.stackvalueSed := Except.ok.inj (hg'.symm.trans f.hgridS)
  have e2 : r'.bestIdxSed = r.bestIdxSed := by
    have := f'.hbestS
    rw [e1] at this
    exact Except.ok.inj (this.symm.trans f.hbestS)
  have e3 : bmod' = bmod := by
    have := f'.hrowS
    rw [e1, e2] at this
    exact Option.some.inj (this.symm.trans f.hrowS)
  have hgM := f'.hgridM
  rw [e0, m0, a0, k0, q2, e3] at hgM
  have hpM := gridLoop_sub f.hgridM hgM hKM hHM
  unfold HkSeqYeck.SeqResult.bestmodelMoho
  rw [f.hclip, f'.hclip]
  exact ⟨clip_part hpM, fun hnum => noWorse_clip hpM hnum f.hbestM f'.hbestM⟩

/-- a grid of 2 × 3 models and its part with two models: the stack values of the two models agree, the best one
of the large grid is at least as good -/
example : ∃ r r', hk Sample.env Sample.stream 1 [35] [1.7, 1.9] (some ⟨.py, 6.5⟩) none none none none none = .ok r ∧
    hk Sample.env Sample.stream 1 [30, 35] [1.7, 1.8, 1.9] (some ⟨.py, 6.5⟩) none none none none none = .ok r' ∧
    PartOf [1.7, 1.9] [35] r.stackvalues r'.stackvalues ∧ NoWorse [1.7, 1.9] [35] r.bestmodel r'.bestmodel := by
  obtain ⟨r', h'⟩ := sample_ok none none none none
  have hK : [(1.7 : ℝ), 1.9] ⊆ [1.7, 1.8, 1.9] := by intro x hx; simp at hx ⊢; tauto
  have hH : [(35 : ℝ)] ⊆ [30, 35] := by intro x hx; simp at hx ⊢; tauto
  obtain ⟨r, h⟩ := c91_hk_coarser h' hK hH (by simp) (by simp) (fun _ => rfl)
  obtain ⟨hp, hn⟩ := c91_hk h h' hK hH
  exact ⟨r, r', h, h', hp, hn (fun _ _ => rfl)⟩

end Rfsed.Props
