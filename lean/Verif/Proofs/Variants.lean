import Verif.Proofs.PostCritical

/-! What successful calls of the other stacking functions tell. -/

namespace Rfsed
open PyFloat Spec
set_option linter.unusedSectionVars false
variable {F : Type} [PyFloat F]

/-! ## hkYu -/

structure YuFacts (env : Env F) (flt : HkYu.FltInput F) (rp : Scalar F) (H K : List F)
    (VpMoho VpSed VsSed : Option (Scalar F)) (w1 w2 w3 : Option F) (r : HkYu.YuResult F)
    (vs : Scalar F) (a b : Scalar F) (bmod : Row F) : Prop where
  hvs : VsSed = some vs
  hVp : r.VpMoho = VpMoho.getD ⟨.py, dec 65 1⟩
  hVpSed : r.VpSed = VpSed.getD ⟨.py, dec 25 1⟩
  hSed : r.SedThick = flt.tlag.val * vs.val / two
  ha : scalarDiv ⟨flt.tlag.kind.join vs.kind, r.SedThick⟩ vs = .ok a
  hb : scalarDiv ⟨flt.tlag.kind.join vs.kind, r.SedThick⟩ r.VpSed = .ok b
  hPd : r.Pdelay = a.val - b.val
  hgrid : gridLoop K H (HkYu.cell flt rp r.VpMoho r.Pdelay w1 w2 w3) = .ok r.stackvaluesSubSed
  hbest : argmax (r.stackvaluesSubSed.map Row.s) = .ok r.bestIdx
  hdraw : env.draw r.stackvaluesSubSed = .ok ()
  hrow : r.stackvaluesSubSed[r.bestIdx]? = some bmod
  hthick : r.SubSedThick = bmod.h
  hvpvs : r.SubSedVpVs = bmod.k
  hrf : r.FltRF = flt.filteredrf
  htime : r.time = flt.time
  htlag : r.tlag = flt.tlag
  hrp : r.rayp = rp
  hH : r.HMoho = H
  hK : r.KMoho = K

theorem hkYu_inv {env : Env F} {flt : HkYu.FltInput F} {rp : Scalar F} {H K : List F}
    {VpMoho VpSed VsSed : Option (Scalar F)} {w1 w2 w3 : Option F} {r : HkYu.YuResult F}
    (h : HkYu.hkYu env flt rp H K VpMoho VpSed VsSed w1 w2 w3 = .ok r) :
    ∃ vs a b bmod, YuFacts env flt rp H K VpMoho VpSed VsSed w1 w2 w3 r vs a b bmod := by
  unfold HkYu.hkYu at h
  obtain ⟨vs, h1, h⟩ := bind_eq_ok.1 h
  obtain ⟨a, h2, h⟩ := bind_eq_ok.1 h
  obtain ⟨b, h3, h⟩ := bind_eq_ok.1 h
  obtain ⟨tb, h4, h⟩ := bind_eq_ok.1 h
  obtain ⟨best, h5, h⟩ := bind_eq_ok.1 h
  obtain ⟨_, h6, h⟩ := bind_eq_ok.1 h
  obtain ⟨bmod, h7, h⟩ := bind_eq_ok.1 h
  cases h
  refine ⟨vs, a, b, bmod, ?_, rfl, rfl, rfl, h2, h3, rfl, h4, h5, h6, item_ok.1 h7, rfl, rfl, rfl,
    rfl, rfl, rfl, rfl, rfl⟩
  cases VsSed with
  | none => cases h1
  | some v => cases h1; rfl

/-! ## hkSeqSynth -/

structure SeqSynthFacts (env : Env F) (dS dM t : List F) (rp : Scalar F)
    (HS KS : List F) (VpSed : Option (Scalar F)) (w1S w2S w3S : Option F)
    (HM KM : List F) (VpMoho : Option (Scalar F)) (w1M w2M w3M : Option F)
    (r : SynthAnalysis.SeqSynthResult F) (bmod : Row F) (raw : List (Row F)) : Prop where
  hVpSed : r.VpSed = VpSed.getD ⟨.py, dec 30 1⟩
  hVpMoho : r.VpMoho = VpMoho
  hgridS : gridLoop KS HS (SynthAnalysis.seqSedCell dS t rp r.VpSed (w1S.getD (dec 6 1))
    (w2S.getD (dec 3 1)) (w3S.getD (dec 1 1))) = .ok r.stackvalueSed
  hbestS : argmax (r.stackvalueSed.map Row.s) = .ok r.bestIdxSed
  hdrawS : env.draw r.stackvalueSed = .ok ()
  hrowS : r.stackvalueSed[r.bestIdxSed]? = some bmod
  hgridM : gridLoop KM HM (SynthAnalysis.seqMohoCell dM t rp r.VpSed bmod.h bmod.k VpMoho
    w1M w2M w3M) = .ok raw
  hbestM : argmax (raw.map Row.s) = .ok r.bestIdxMoho
  hclip : r.stackvalueMoho = clipLoop raw
  hdrawM : env.draw (clipLoop raw) = .ok ()
  hrp : r.RayP = rp
  htime : r.time = t
  hrfS : r.SynthRFSed = dS
  hrfM : r.SynthRFMoho = dM
  hHS : r.HSed = HS
  hKS : r.KSed = KS
  hHM : r.HMoho = HM
  hKM : r.KMoho = KM

theorem hkSeqSynth_inv {env : Env F} {dS dM t : List F} {rp : Scalar F}
    {HS KS : List F} {VpSed : Option (Scalar F)} {w1S w2S w3S : Option F}
    {HM KM : List F} {VpMoho : Option (Scalar F)} {w1M w2M w3M : Option F}
    {r : SynthAnalysis.SeqSynthResult F}
    (h : SynthAnalysis.hkSeqSynth env dS dM t rp HS KS VpSed w1S w2S w3S HM KM VpMoho w1M w2M w3M
      = .ok r) :
    ∃ bmod raw, SeqSynthFacts env dS dM t rp HS KS VpSed w1S w2S w3S HM KM VpMoho w1M w2M w3M
      r bmod raw := by
  unfold SynthAnalysis.hkSeqSynth at h
  obtain ⟨tb, h1, h⟩ := bind_eq_ok.1 h
  obtain ⟨best, h2, h⟩ := bind_eq_ok.1 h
  obtain ⟨_, h3, h⟩ := bind_eq_ok.1 h
  obtain ⟨bmod, h4, h⟩ := bind_eq_ok.1 h
  obtain ⟨raw, h5, h⟩ := bind_eq_ok.1 h
  obtain ⟨bm, h6, h⟩ := bind_eq_ok.1 h
  obtain ⟨_, h7, h⟩ := bind_eq_ok.1 h
  cases h
  exact ⟨bmod, raw, rfl, rfl, h1, h2, h3, item_ok.1 h4, h5, h6, rfl, h7, rfl, rfl, rfl, rfl, rfl, rfl,
    rfl, rfl⟩

theorem hkSeqSynth_of {env : Env F} {dS dM t : List F} {rp : Scalar F}
    {HS KS : List F} {VpSed : Option (Scalar F)} {w1S w2S w3S : Option F}
    {HM KM : List F} {VpMoho : Option (Scalar F)} {w1M w2M w3M : Option F}
    {tb raw : List (Row F)} {best bestM : Nat} {bmod : Row F}
    (h1 : gridLoop KS HS (SynthAnalysis.seqSedCell dS t rp (VpSed.getD ⟨.py, dec 30 1⟩)
      (w1S.getD (dec 6 1)) (w2S.getD (dec 3 1)) (w3S.getD (dec 1 1))) = .ok tb)
    (h2 : argmax (tb.map Row.s) = .ok best) (h3 : env.draw tb = .ok ())
    (h4 : tb[best]? = some bmod)
    (h5 : gridLoop KM HM (SynthAnalysis.seqMohoCell dM t rp (VpSed.getD ⟨.py, dec 30 1⟩)
      bmod.h bmod.k VpMoho w1M w2M w3M) = .ok raw)
    (h6 : argmax (raw.map Row.s) = .ok bestM) (h7 : env.draw (clipLoop raw) = .ok ()) :
    SynthAnalysis.hkSeqSynth env dS dM t rp HS KS VpSed w1S w2S w3S HM KM VpMoho w1M w2M w3M
      = .ok { SynthRFSed := dS, SynthRFMoho := dM, time := t, bestIdxSed := best,
              stackvalueSed := tb, bestIdxMoho := bestM, stackvalueMoho := clipLoop raw,
              RayP := rp, VpSed := VpSed.getD ⟨.py, dec 30 1⟩, VpMoho := VpMoho,
              HSed := HS, KSed := KS, HMoho := HM, KMoho := KM } := by
  unfold SynthAnalysis.hkSeqSynth
  simp only [h1, h2, h3, item_ok.2 h4, h5, h6, h7, except_ok_bind, except_pure]

/-! ## hkSeq -/

structure SeqFacts (env : Env F) (stS stM : List (Trace F)) (preonset : F)
    (HS KS : List F) (VpSed : Option (Scalar F)) (w1S w2S w3S : Option F)
    (HM KM : List F) (VpMoho : Option (Scalar F)) (w1M w2M w3M : Option F) (stack : Option Bool)
    (r : HkSeqYeck.SeqResult F) (tr0 : Trace F) (rest : List (Trace F)) (slows : List (Scalar F))
    (bmod : Row F) (raw : List (Row F)) : Prop where
  hst : stS = tr0 :: rest
  hVpSed : r.VpSed = VpSed.getD ⟨.py, dec 30 1⟩
  hVpMoho : r.VpMoho = VpMoho
  hstk : r.stack = stack.getD false
  hstackS : ∃ more, env.stack stS = .ok (r.RFSedStack :: more)
  hstackM : ∃ more, env.stack stM = .ok (r.RFMohoStack :: more)
  hslow : stM.mapM Trace.getSlowness = .ok slows
  havg : r.AvgSlow = npMean (slows.map Scalar.val)
  htime : r.time = timeAxis tr0.delta preonset tr0.data.length
  hgridS : gridLoop KS HS (fun k x => HkSeqYeck.lastTrace (HkSeqYeck.sedTerm env r.time r.RFSedStack
    r.AvgSlow r.VpSed (w1S.getD (dec 6 1)) (w2S.getD (dec 3 1)) (w3S.getD (dec 1 1)) r.stack k x) stS)
    = .ok r.stackvalueSed
  hbestS : argmax (r.stackvalueSed.map Row.s) = .ok r.bestIdxSed
  hdrawS : env.draw r.stackvalueSed = .ok ()
  hrowS : r.stackvalueSed[r.bestIdxSed]? = some bmod
  hgridM : gridLoop KM HM (fun k x => HkSeqYeck.lastTrace (HkSeqYeck.mohoTerm env stM r.time
    r.RFMohoStack r.AvgSlow r.VpSed bmod.h bmod.k VpMoho w1M w2M w3M r.stack k x) stM) = .ok raw
  hbestM : argmax (raw.map Row.s) = .ok r.bestIdxMoho
  hclip : r.stackvalueMoho = clipLoop raw
  hdrawM : env.draw (clipLoop raw) = .ok ()
  hRFS : r.RFSed = stS
  hRFM : r.RFMoho = stM
  hsta : r.staname = tr0.station
  hcomp : r.comp = tr0.channel
  hHS : r.HSed = HS
  hKS : r.KSed = KS
  hHM : r.HMoho = HM
  hKM : r.KMoho = KM

theorem item_zero_ok {α : Type} {l : List α} {a : α} (h : item l 0 = .ok a) : ∃ rest, l = a :: rest := by
  cases l with
  | nil => simp [item] at h
  | cons x xs => simp [item] at h; exact ⟨xs, by rw [h]⟩

theorem hkSeq_inv {env : Env F} {stS stM : List (Trace F)} {preonset : F}
    {HS KS : List F} {VpSed : Option (Scalar F)} {w1S w2S w3S : Option F}
    {HM KM : List F} {VpMoho : Option (Scalar F)} {w1M w2M w3M : Option F} {stack : Option Bool}
    {r : HkSeqYeck.SeqResult F}
    (h : HkSeqYeck.hkSeq env stS stM preonset HS KS VpSed w1S w2S w3S HM KM VpMoho w1M w2M w3M stack
      = .ok r) :
    ∃ tr0 rest slows bmod raw, SeqFacts env stS stM preonset HS KS VpSed w1S w2S w3S HM KM VpMoho
      w1M w2M w3M stack r tr0 rest slows bmod raw := by
  unfold HkSeqYeck.hkSeq at h
  obtain ⟨sS, h1, h⟩ := bind_eq_ok.1 h
  obtain ⟨dS, h2, h⟩ := bind_eq_ok.1 h
  obtain ⟨sM, h3, h⟩ := bind_eq_ok.1 h
  obtain ⟨dM, h4, h⟩ := bind_eq_ok.1 h
  obtain ⟨tr0, h5, h⟩ := bind_eq_ok.1 h
  obtain ⟨slows, h6, h⟩ := bind_eq_ok.1 h
  obtain ⟨tb, h7, h⟩ := bind_eq_ok.1 h
  obtain ⟨best, h8, h⟩ := bind_eq_ok.1 h
  obtain ⟨_, h9, h⟩ := bind_eq_ok.1 h
  obtain ⟨bmod, h10, h⟩ := bind_eq_ok.1 h
  obtain ⟨raw, h11, h⟩ := bind_eq_ok.1 h
  obtain ⟨bm, h12, h⟩ := bind_eq_ok.1 h
  obtain ⟨_, h13, h⟩ := bind_eq_ok.1 h
  cases h
  obtain ⟨rest, hrest⟩ := item_zero_ok h5
  obtain ⟨m1, hm1⟩ := item_zero_ok h2
  obtain ⟨m2, hm2⟩ := item_zero_ok h4
  exact ⟨tr0, rest, slows, bmod, raw, hrest, rfl, rfl, rfl, ⟨m1, by rw [h1, hm1]⟩,
    ⟨m2, by rw [h3, hm2]⟩, h6, rfl, rfl, h7, h8, h9, item_ok.1 h10, h11, h12, rfl, h13, rfl, rfl,
    rfl, rfl, rfl, rfl, rfl, rfl⟩

/-! ## clipping -/

/-- one row after clipping -/
def clipRow (row : Row F) : Row F := if le row.s zero then { row with s := zero } else row

theorem clip_fold (rows done : List (Row F)) :
    (List.range' done.length rows.length).foldl clipStep (done ++ rows)
      = done ++ rows.map clipRow := by
  induction rows generalizing done with
  | nil => simp
  | cons row rows ih =>
    rw [List.length_cons, List.range'_succ, List.foldl_cons]
    have h2 : clipStep (done ++ row :: rows) done.length = (done ++ [clipRow row]) ++ rows := by
      unfold clipStep clipRow
      simp only [List.getElem?_append_right le_rfl, Nat.sub_self, List.getElem?_cons_zero]
      split <;> simp
    rw [h2]
    have := ih (done ++ [clipRow row])
    rw [List.length_append, List.length_singleton] at this
    rw [this]
    simp

theorem clipLoop_eq (stk : List (Row F)) : clipLoop stk = stk.map clipRow := by
  have := clip_fold stk []
  unfold clipLoop
  rw [List.range_eq_range']
  simpa using this

theorem clipRow_idem (row : Row F) : clipRow (clipRow row) = clipRow row := by
  unfold clipRow
  split
  · split <;> rfl
  · rfl

theorem clipRow_real (row : Row ℝ) : clipRow row = ⟨row.h, row.k, max row.s 0⟩ := by
  unfold clipRow
  split
  · rename_i h
    simp at h
    simp [max_eq_right h]
  · rename_i h
    simp at h
    rw [max_eq_left h.le]

end Rfsed
