import Verif.Props.Superpose
import Verif.Props.Total

/-!
# C93: a common factor of the weights, in the other searches
-/

namespace Rfsed.Props
open PyFloat Rfsed.Spec Rfsed.HkZhu

theorem tableClip_scale {c : ℝ} (hc : 0 ≤ c) (tb : List (Row ℝ)) :
    tableClip (tableScale c tb) = tableScale c (tableClip tb) := by
  unfold tableClip tableScale
  rw [List.map_map, List.map_map]
  apply List.map_congr_left
  intro x _
  simp only [Function.comp]
  rw [mul_max_of_nonneg _ _ hc, mul_zero]

/-- **C93** `hkSynth`: multiplying all weights by a positive factor. -/
theorem c93_hkSynth_factor {env : Env ℝ} {d t : List ℝ} {rp : Scalar ℝ} {H K : List ℝ} {Vp : Option (Scalar ℝ)}
    {w1 w2 w3 c : ℝ} (hc : 0 < c) {layer : Option String} {r : SynthAnalysis.SynthResult ℝ}
    (h : SynthAnalysis.hkSynth env d t rp H K Vp (some w1) (some w2) (some w3) layer = .ok r)
    (hdraw : ∀ tb, env.draw tb = .ok ()) :
    ∃ r', SynthAnalysis.hkSynth env d t rp H K Vp (some (c * w1)) (some (c * w2)) (some (c * w3)) layer = .ok r' ∧
      r'.stackvalues = tableScale c r.stackvalues ∧ r'.bestIdx = r.bestIdx := by
  obtain ⟨A, B, C, _, _, _, hv⟩ := c93_hkSynth h hdraw
  obtain ⟨r0, h0, e0⟩ := hv w1 w2 w3
  have q : r0 = r := Except.ok.inj (h0.symm.trans h)
  subst q
  obtain ⟨r', h', e'⟩ := hv (c * w1) (c * w2) (c * w3)
  rw [tableComb_factor, ← e0] at e'
  refine ⟨r', h', e', ?_⟩
  have := (hkSynth_inv h').hbest
  rw [e'] at this
  exact Except.ok.inj (this.symm.trans (argmax_tableScale hc (hkSynth_inv h).hbest))

/-- **C93** `hkYu`: multiplying all weights by a positive factor. -/
theorem c93_hkYu_factor {env : Env ℝ} {flt : HkYu.FltInput ℝ} {rp : Scalar ℝ} {H K : List ℝ}
    {VpMoho VpSed VsSed : Option (Scalar ℝ)} {w1 w2 w3 c : ℝ} (hc : 0 < c) {r : HkYu.YuResult ℝ}
    (h : HkYu.hkYu env flt rp H K VpMoho VpSed VsSed (some w1) (some w2) (some w3) = .ok r)
    (hdraw : ∀ tb, env.draw tb = .ok ()) :
    ∃ r', HkYu.hkYu env flt rp H K VpMoho VpSed VsSed (some (c * w1)) (some (c * w2)) (some (c * w3)) = .ok r' ∧
      r'.stackvaluesSubSed = tableScale c r.stackvaluesSubSed ∧ r'.bestIdx = r.bestIdx ∧
      r'.SedThick = r.SedThick ∧ r'.Pdelay = r.Pdelay := by
  obtain ⟨A, B, C, _, _, _, hv⟩ := c93_hkYu h hdraw
  obtain ⟨r0, h0, e0, _⟩ := hv w1 w2 w3
  have q : r0 = r := Except.ok.inj (h0.symm.trans h)
  subst q
  obtain ⟨r', h', e', e1, e2⟩ := hv (c * w1) (c * w2) (c * w3)
  rw [tableComb_factor, ← e0] at e'
  refine ⟨r', h', e', ?_, e1, e2⟩
  obtain ⟨_, _, _, _, f⟩ := hkYu_inv h
  obtain ⟨_, _, _, _, f'⟩ := hkYu_inv h'
  have := f'.hbest
  rw [e'] at this
  exact Except.ok.inj (this.symm.trans (argmax_tableScale hc f.hbest))

/-- **C93** `hkSeqSynth`: multiplying the weights of the Moho stage by a positive factor. -/
theorem c93_hkSeqSynth_moho_factor {env : Env ℝ} {dS dM t : List ℝ} {rp : Scalar ℝ} {HS KS : List ℝ}
    {VpSed : Option (Scalar ℝ)} {w1S w2S w3S : Option ℝ} {HM KM : List ℝ} {vm : Scalar ℝ} {w1 w2 w3 c : ℝ} (hc : 0 < c)
    {r : SynthAnalysis.SeqSynthResult ℝ}
    (h : SynthAnalysis.hkSeqSynth env dS dM t rp HS KS VpSed w1S w2S w3S HM KM (some vm) (some w1) (some w2)
      (some w3) = .ok r) (hdraw : ∀ tb, env.draw tb = .ok ()) :
    ∃ r', SynthAnalysis.hkSeqSynth env dS dM t rp HS KS VpSed w1S w2S w3S HM KM (some vm) (some (c * w1))
        (some (c * w2)) (some (c * w3)) = .ok r' ∧
      r'.stackvalueMoho = tableScale c r.stackvalueMoho ∧ r'.bestIdxMoho = r.bestIdxMoho ∧
      r'.stackvalueSed = r.stackvalueSed ∧ r'.bestIdxSed = r.bestIdxSed := by
  obtain ⟨A, B, C, _, _, _, hv⟩ := c93_hkSeqSynth_moho h hdraw
  obtain ⟨r0, h0, e0, b0, _⟩ := hv w1 w2 w3
  have q : r0 = r := Except.ok.inj (h0.symm.trans h)
  subst q
  obtain ⟨r', h', e', b', s1, s2⟩ := hv (c * w1) (c * w2) (c * w3)
  rw [tableComb_factor] at e' b'
  refine ⟨r', h', ?_, ?_, s1, s2⟩
  · rw [e', tableClip_scale hc.le, ← e0]
  · exact Except.ok.inj (b'.symm.trans (argmax_tableScale hc b0))

/-- **C93** `hkSeq`: multiplying the weights of the Moho stage by a positive factor. -/
theorem c93_hkSeq_moho_factor {env : Env ℝ} {stS stM : List (Trace ℝ)} {preonset : ℝ} {HS KS : List ℝ}
    {VpSed : Option (Scalar ℝ)} {w1S w2S w3S : Option ℝ} {HM KM : List ℝ} {vm : Scalar ℝ} {w1 w2 w3 c : ℝ} (hc : 0 < c)
    {stack : Option Bool} {r : HkSeqYeck.SeqResult ℝ}
    (h : HkSeqYeck.hkSeq env stS stM preonset HS KS VpSed w1S w2S w3S HM KM (some vm) (some w1) (some w2)
      (some w3) stack = .ok r) (hdraw : ∀ tb, env.draw tb = .ok ()) :
    ∃ r', HkSeqYeck.hkSeq env stS stM preonset HS KS VpSed w1S w2S w3S HM KM (some vm) (some (c * w1))
        (some (c * w2)) (some (c * w3)) stack = .ok r' ∧
      r'.stackvalueMoho = tableScale c r.stackvalueMoho ∧ r'.bestIdxMoho = r.bestIdxMoho ∧
      r'.stackvalueSed = r.stackvalueSed ∧ r'.bestIdxSed = r.bestIdxSed := by
  obtain ⟨A, B, C, _, _, _, hv⟩ := c93_hkSeq_moho h hdraw
  obtain ⟨r0, h0, e0, b0, _⟩ := hv w1 w2 w3
  have q : r0 = r := Except.ok.inj (h0.symm.trans h)
  subst q
  obtain ⟨r', h', e', b', s1, s2⟩ := hv (c * w1) (c * w2) (c * w3)
  rw [tableComb_factor] at e' b'
  refine ⟨r', h', ?_, ?_, s1, s2⟩
  · rw [e', tableClip_scale hc.le, ← e0]
  · exact Except.ok.inj (b'.symm.trans (argmax_tableScale hc b0))

/-- **C93** `hkSeqSynth`: multiplying the weights of the sediment stage by a positive factor; the Moho stage sees
the same sediment. -/
theorem c93_hkSeqSynth_sed_factor {env : Env ℝ} {dS dM t : List ℝ} {rp : Scalar ℝ} {HS KS : List ℝ}
    {VpSed : Option (Scalar ℝ)} {w1S w2S w3S c : ℝ} (hc : 0 < c) {HM KM : List ℝ} {VpMoho : Option (Scalar ℝ)}
    {w1 w2 w3 : Option ℝ} {r : SynthAnalysis.SeqSynthResult ℝ}
    (h : SynthAnalysis.hkSeqSynth env dS dM t rp HS KS VpSed (some w1S) (some w2S) (some w3S) HM KM VpMoho w1 w2 w3
      = .ok r) (hdraw : ∀ tb, env.draw tb = .ok ()) :
    ∃ r', SynthAnalysis.hkSeqSynth env dS dM t rp HS KS VpSed (some (c * w1S)) (some (c * w2S)) (some (c * w3S))
        HM KM VpMoho w1 w2 w3 = .ok r' ∧
      r'.stackvalueSed = tableScale c r.stackvalueSed ∧ r'.bestIdxSed = r.bestIdxSed ∧
      r'.stackvalueMoho = r.stackvalueMoho ∧ r'.bestIdxMoho = r.bestIdxMoho := by
  obtain ⟨bmod, raw, f⟩ := hkSeqSynth_inv h
  have gS := f.hgridS
  rw [f.hVpSed] at gS
  obtain ⟨A, B, C, lA, lB, lC, hv⟩ := linCell_tables (linCell_synth dS t rp _) gS
  have e0 : r.stackvalueSed = tableComb w1S w2S w3S A B C := Except.ok.inj (gS.symm.trans (hv w1S w2S w3S))
  have g := hv (c * w1S) (c * w2S) (c * w3S)
  rw [tableComb_factor, ← e0] at g
  have hb := argmax_tableScale hc f.hbestS
  have hrow : (tableScale c r.stackvalueSed)[r.bestIdxSed]? = some ⟨bmod.h, bmod.k, c * bmod.s⟩ := by
    unfold tableScale
    rw [List.getElem?_map, f.hrowS]; rfl
  have gM := f.hgridM
  rw [f.hVpSed] at gM
  exact ⟨_, hkSeqSynth_of (w1S := some (c * w1S)) (w2S := some (c * w2S)) (w3S := some (c * w3S)) g hb (hdraw _) hrow
    gM f.hbestM (hdraw _), rfl, rfl, f.hclip.symm, rfl⟩

/-- **C93** `hkSeq`: multiplying the weights of the sediment stage by a positive factor; the Moho stage sees the
same sediment. -/
theorem c93_hkSeq_sed_factor {env : Env ℝ} {stS stM : List (Trace ℝ)} {preonset : ℝ} {HS KS : List ℝ}
    {VpSed : Option (Scalar ℝ)} {w1S w2S w3S c : ℝ} (hc : 0 < c) {HM KM : List ℝ} {VpMoho : Option (Scalar ℝ)}
    {w1 w2 w3 : Option ℝ} {stack : Option Bool} {r : HkSeqYeck.SeqResult ℝ}
    (h : HkSeqYeck.hkSeq env stS stM preonset HS KS VpSed (some w1S) (some w2S) (some w3S) HM KM VpMoho w1 w2 w3 stack
      = .ok r) (hdraw : ∀ tb, env.draw tb = .ok ()) :
    ∃ r', HkSeqYeck.hkSeq env stS stM preonset HS KS VpSed (some (c * w1S)) (some (c * w2S)) (some (c * w3S))
        HM KM VpMoho w1 w2 w3 stack = .ok r' ∧
      r'.stackvalueSed = tableScale c r.stackvalueSed ∧ r'.bestIdxSed = r.bestIdxSed ∧
      r'.stackvalueMoho = r.stackvalueMoho ∧ r'.bestIdxMoho = r.bestIdxMoho := by
  obtain ⟨tr0, rest, slows, bmod, raw, f⟩ := hkSeq_inv h
  obtain ⟨A, B, C, lA, lB, lC, hv⟩ := linCell_tables (linCell_last stS (fun tr _ =>
    linCell_sedTerm env r.time r.RFSedStack r.AvgSlow r.VpSed r.stack tr)) f.hgridS
  have e0 : r.stackvalueSed = tableComb w1S w2S w3S A B C := Except.ok.inj (f.hgridS.symm.trans (hv w1S w2S w3S))
  have g := hv (c * w1S) (c * w2S) (c * w3S)
  rw [tableComb_factor, ← e0] at g
  have hb := argmax_tableScale hc f.hbestS
  have hrow : (tableScale c r.stackvalueSed)[r.bestIdxSed]? = some ⟨bmod.h, bmod.k, c * bmod.s⟩ := by
    unfold tableScale
    rw [List.getElem?_map, f.hrowS]; rfl
  have gM := f.hgridM
  obtain ⟨mS, hmS⟩ := f.hstackS
  obtain ⟨mM, hmM⟩ := f.hstackM
  have hst := f.hst
  rw [f.hVpSed, f.htime, f.havg, f.hstk] at g gM
  subst hst
  exact ⟨_, hkSeq_of (w1S := some (c * w1S)) (w2S := some (c * w2S)) (w3S := some (c * w3S)) hmS hmM f.hslow g hb
    (hdraw _) hrow gM f.hbestM (hdraw _), rfl, rfl, f.hclip.symm, rfl⟩

/-- **C93** `hkSeqSynth`: with data as long as the time axis, every choice of sediment weights succeeds. -/
theorem c93_hkSeqSynth_any {env : Env ℝ} {dS dM t : List ℝ} {rp : Scalar ℝ} {HS KS : List ℝ}
    {VpSed : Option (Scalar ℝ)} {w1S w2S w3S : Option ℝ} {HM KM : List ℝ} {VpMoho : Option (Scalar ℝ)}
    {w1 w2 w3 : Option ℝ} {r : SynthAnalysis.SeqSynthResult ℝ}
    (h : SynthAnalysis.hkSeqSynth env dS dM t rp HS KS VpSed w1S w2S w3S HM KM VpMoho w1 w2 w3 = .ok r)
    (hS : t.length ≤ dS.length) (hM : t.length ≤ dM.length) (hdraw : ∀ tb, env.draw tb = .ok ())
    (v1 v2 v3 : Option ℝ) :
    ∃ r', SynthAnalysis.hkSeqSynth env dS dM t rp HS KS VpSed v1 v2 v3 HM KM VpMoho w1 w2 w3 = .ok r' :=
  (c104_hkSeqSynth hS hM (fun tb _ => hdraw tb)).2 ((c104_hkSeqSynth hS hM (fun tb _ => hdraw tb)).1 ⟨r, h⟩)

/-- **C93** `hkSeq`: with traces as long as the first one, every choice of sediment weights succeeds. -/
theorem c93_hkSeq_any {env : Env ℝ} {tr0 : Trace ℝ} {restS stM : List (Trace ℝ)} {preonset : ℝ} {HS KS : List ℝ}
    {VpSed : Option (Scalar ℝ)} {w1S w2S w3S : Option ℝ} {HM KM : List ℝ} {VpMoho : Option (Scalar ℝ)}
    {w1 w2 w3 : Option ℝ} {stack : Option Bool} {r : HkSeqYeck.SeqResult ℝ}
    (h : HkSeqYeck.hkSeq env (tr0 :: restS) stM preonset HS KS VpSed w1S w2S w3S HM KM VpMoho w1 w2 w3 stack = .ok r)
    (hlen : ∀ tr ∈ restS ++ stM, tr0.data.length ≤ tr.data.length)
    (hsd : ∀ st ∈ [tr0 :: restS, stM], ∀ sd more, env.stack st = .ok (sd :: more) → tr0.data.length ≤ sd.length)
    (hdraw : ∀ tb, env.draw tb = .ok ()) (v1 v2 v3 : Option ℝ) :
    ∃ r', HkSeqYeck.hkSeq env (tr0 :: restS) stM preonset HS KS VpSed v1 v2 v3 HM KM VpMoho w1 w2 w3 stack = .ok r' :=
  (c104_hkSeq hlen hsd (fun tb _ => hdraw tb)).2 ((c104_hkSeq hlen hsd (fun tb _ => hdraw tb)).1 ⟨r, h⟩)

/-- the sample call of `hkSeq` with all sediment weights doubled -/
example : ∃ r r', HkSeqYeck.hkSeq Sample.env Sample.stream Sample.stream 1 [1, 2] [1.7, 1.8, 1.9] (some ⟨.py, 2.5⟩) (some 0.6)
      (some 0.3) (some 0.1) [30, 35] [1.7, 1.8] (some ⟨.py, 6.5⟩) (some 0.6) (some 0.3) (some 0.1) none = .ok r ∧
    HkSeqYeck.hkSeq Sample.env Sample.stream Sample.stream 1 [1, 2] [1.7, 1.8, 1.9] (some ⟨.py, 2.5⟩) (some (2 * 0.6))
      (some (2 * 0.3)) (some (2 * 0.1)) [30, 35] [1.7, 1.8] (some ⟨.py, 6.5⟩) (some 0.6) (some 0.3) (some 0.1) none = .ok r' ∧
    r'.stackvalueMoho = r.stackvalueMoho := by
  obtain ⟨r, hr⟩ := sample_hkSeq (Sample.trace [0, 1, 3, 2, 0] 6) [Sample.trace [1, 1, 2, 0, -1] 7]
    (Sample.trace [0, 1, 3, 2, 0] 6) [Sample.trace [1, 1, 2, 0, -1] 7] (by simp [Sample.trace]) (by
      intro tr htr
      simp at htr
      rcases htr with rfl | rfl | rfl | rfl <;> exact ⟨⟨2, rfl⟩, ⟨_, rfl⟩, rfl⟩)
    (HS := [1, 2]) (KS := [1.7, 1.8, 1.9]) (HM := [30, 35]) (KM := [1.7, 1.8]) (Vp := 2.5) (vm := 6.5) (by simp) (by simp)
    (by simp) (by simp) (by norm_num) (by norm_num) 1 (some 0.6) (some 0.3) (some 0.1) 0.6 0.3 0.1 none
  obtain ⟨r', h', _, _, e, _⟩ := c93_hkSeq_sed_factor (c := 2) two_pos hr (fun _ => rfl)
  exact ⟨r, r', hr, h', e⟩

end Rfsed.Props
