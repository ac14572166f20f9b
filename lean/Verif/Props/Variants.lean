import Verif.Proofs.Variants2
import Verif.Props.Plot
import Verif.Spec.Sample
import Verif.Props.PostCritical

/-!
# Properties C13, C14 (hkYu), C23–C27: the other stacking functions
-/

namespace Rfsed.Props
open PyFloat Spec HkZhu
set_option linter.unusedSectionVars false

section generic
variable {F : Type} [PyFloat F]

/-! ## C25: every variant searches its whole grid and returns the first maximum -/

/-- **C25**, `hkSynth`: one row per grid point. -/
theorem c25_hkSynth_grid {env : Env F} {d t : List F} {rp : Scalar F} {H K : List F}
    {Vp : Option (Scalar F)} {w1 w2 w3 : Option F} {layer : Option String}
    {r : SynthAnalysis.SynthResult F}
    (h : SynthAnalysis.hkSynth env d t rp H K Vp w1 w2 w3 layer = .ok r) :
    GridTable K H r.stackvalues := gridTable_of (hkSynth_inv h).hgrid

/-- **C25**, `hkSynth`: `bestmodel` is the first maximum. -/
theorem c25_hkSynth_best [IEEEOrder F] {env : Env F} {d t : List F} {rp : Scalar F} {H K : List F}
    {Vp : Option (Scalar F)} {w1 w2 w3 : Option F} {layer : Option String}
    {r : SynthAnalysis.SynthResult F}
    (h : SynthAnalysis.hkSynth env d t rp H K Vp w1 w2 w3 layer = .ok r)
    (hnum : ∀ row ∈ r.stackvalues, isNaN row.s = false) :
    ∃ best, r.bestmodel = some best ∧ BestRow r.stackvalues r.bestIdx best := by
  obtain ⟨b, hb⟩ := bestRow_of (hkSynth_inv h).hbest hnum
  exact ⟨b, hb.1, hb⟩

/-- **C25**, `hkYu`: one row per grid point. -/
theorem c25_hkYu_grid {env : Env F} {flt : HkYu.FltInput F} {rp : Scalar F} {H K : List F}
    {VpMoho VpSed VsSed : Option (Scalar F)} {w1 w2 w3 : Option F} {r : HkYu.YuResult F}
    (h : HkYu.hkYu env flt rp H K VpMoho VpSed VsSed w1 w2 w3 = .ok r) :
    GridTable K H r.stackvaluesSubSed := by
  obtain ⟨_, _, _, _, f⟩ := hkYu_inv h
  exact gridTable_of f.hgrid

/-- **C25**, `hkYu`: `bestmodelSubSed`, `SubSedThick` and `SubSedVpVs` are the first
maximum. -/
theorem c25_hkYu_best [IEEEOrder F] {env : Env F} {flt : HkYu.FltInput F} {rp : Scalar F}
    {H K : List F} {VpMoho VpSed VsSed : Option (Scalar F)} {w1 w2 w3 : Option F}
    {r : HkYu.YuResult F}
    (h : HkYu.hkYu env flt rp H K VpMoho VpSed VsSed w1 w2 w3 = .ok r)
    (hnum : ∀ row ∈ r.stackvaluesSubSed, isNaN row.s = false) :
    ∃ best, r.bestmodel = some best ∧ BestRow r.stackvaluesSubSed r.bestIdx best ∧
      r.SubSedThick = best.h ∧ r.SubSedVpVs = best.k := by
  obtain ⟨_, _, _, bm, f⟩ := hkYu_inv h
  obtain ⟨b, hb⟩ := bestRow_of f.hbest hnum
  have : b = bm := by
    have h1 := hb.1; rw [f.hrow] at h1; exact (Option.some.inj h1).symm
  subst this
  exact ⟨b, hb.1, hb, f.hthick, f.hvpvs⟩

/-- **C25**, `hkSeqSynth`: both tables have one row per grid point. -/
theorem c25_hkSeqSynth_grid {env : Env F} {dS dM t : List F} {rp : Scalar F}
    {HS KS : List F} {VpSed : Option (Scalar F)} {w1S w2S w3S : Option F}
    {HM KM : List F} {VpMoho : Option (Scalar F)} {w1M w2M w3M : Option F}
    {r : SynthAnalysis.SeqSynthResult F}
    (h : SynthAnalysis.hkSeqSynth env dS dM t rp HS KS VpSed w1S w2S w3S HM KM VpMoho w1M w2M w3M
      = .ok r) :
    GridTable KS HS r.stackvalueSed ∧ GridTable KM HM r.stackvalueMoho := by
  obtain ⟨_, raw, f⟩ := hkSeqSynth_inv h
  exact ⟨gridTable_of f.hgridS, by rw [f.hclip]; exact gridTable_clip (gridTable_of f.hgridM)⟩

/-- **C25**, `hkSeqSynth`: `bestmodelSed` is the first maximum of its table. (For the
Moho stage see `c20_hkSeqSynth_moho`.) -/
theorem c25_hkSeqSynth_best [IEEEOrder F] {env : Env F} {dS dM t : List F} {rp : Scalar F}
    {HS KS : List F} {VpSed : Option (Scalar F)} {w1S w2S w3S : Option F}
    {HM KM : List F} {VpMoho : Option (Scalar F)} {w1M w2M w3M : Option F}
    {r : SynthAnalysis.SeqSynthResult F}
    (h : SynthAnalysis.hkSeqSynth env dS dM t rp HS KS VpSed w1S w2S w3S HM KM VpMoho w1M w2M w3M
      = .ok r)
    (hnum : ∀ row ∈ r.stackvalueSed, isNaN row.s = false) :
    ∃ best, r.bestmodelSed = some best ∧ BestRow r.stackvalueSed r.bestIdxSed best := by
  obtain ⟨_, raw, f⟩ := hkSeqSynth_inv h
  obtain ⟨b, hb⟩ := bestRow_of f.hbestS hnum
  exact ⟨b, hb.1, hb⟩

/-- **C25**, `hkSeq`: both tables have one row per grid point. -/
theorem c25_hkSeq_grid {env : Env F} {stS stM : List (Trace F)} {preonset : F}
    {HS KS : List F} {VpSed : Option (Scalar F)} {w1S w2S w3S : Option F}
    {HM KM : List F} {VpMoho : Option (Scalar F)} {w1M w2M w3M : Option F} {stack : Option Bool}
    {r : HkSeqYeck.SeqResult F}
    (h : HkSeqYeck.hkSeq env stS stM preonset HS KS VpSed w1S w2S w3S HM KM VpMoho w1M w2M w3M stack
      = .ok r) :
    GridTable KS HS r.stackvalueSed ∧ GridTable KM HM r.stackvalueMoho := by
  obtain ⟨_, _, _, _, raw, f⟩ := hkSeq_inv h
  exact ⟨gridTable_of f.hgridS, by rw [f.hclip]; exact gridTable_clip (gridTable_of f.hgridM)⟩

/-- **C25**, `hkSeq`: `bestmodelSed` is the first maximum of its table. -/
theorem c25_hkSeq_best [IEEEOrder F] {env : Env F} {stS stM : List (Trace F)} {preonset : F}
    {HS KS : List F} {VpSed : Option (Scalar F)} {w1S w2S w3S : Option F}
    {HM KM : List F} {VpMoho : Option (Scalar F)} {w1M w2M w3M : Option F} {stack : Option Bool}
    {r : HkSeqYeck.SeqResult F}
    (h : HkSeqYeck.hkSeq env stS stM preonset HS KS VpSed w1S w2S w3S HM KM VpMoho w1M w2M w3M stack
      = .ok r)
    (hnum : ∀ row ∈ r.stackvalueSed, isNaN row.s = false) :
    ∃ best, r.bestmodelSed = some best ∧ BestRow r.stackvalueSed r.bestIdxSed best := by
  obtain ⟨_, _, _, _, raw, f⟩ := hkSeq_inv h
  obtain ⟨b, hb⟩ := bestRow_of f.hbestS hnum
  exact ⟨b, hb.1, hb⟩

/-! ### success -/

/-- a velocity by which the code can divide -/
def Divisor (v : Scalar F) : Prop := v.kind = .np ∨ PyFloat.eq v.val zero = false

theorem divisor_vpOk {v : Scalar F} (h : Divisor v) : VpOk v := by
  unfold VpOk oneOver
  rcases h with h | h
  · rw [h]; exact ⟨_, rfl⟩
  · cases v.kind <;> simp [h]

/-- **C25**, `hkSynth` succeeds, for any ray parameter. -/
theorem c25_hkSynth_succeeds [IEEEOrder F] {env : Env F} {d t : List F} {rp : Scalar F}
    {H K : List F} {Vp : Scalar F} {w1 w2 w3 : Option F} {layer : Option String}
    (ht : t ≠ []) (hd : t.length ≤ d.length) (hVp : Divisor Vp) (hK : K ≠ []) (hH : H ≠ [])
    (hdraw : ∀ tb : List (Row F), tb.length = K.length * H.length → env.draw tb = .ok ()) :
    ∃ r, SynthAnalysis.hkSynth env d t rp H K (some Vp) w1 w2 w3 layer = .ok r := by
  obtain ⟨tb, htb⟩ := gridLoop_total (K := K) (H := H)
    (value := SynthAnalysis.cell d t rp Vp (w1.getD (dec 6 1)) (w2.getD (dec 3 1))
      (w3.getD (dec 1 1))) (by
    intro k _ x _
    rw [synthCell_eq]
    obtain ⟨ts, hts⟩ := bestTimes_total (divisor_vpOk hVp) rp.kind rp.val x k
    obtain ⟨v, hv⟩ := weigh_total (w1 := w1.getD (dec 6 1)) (w2 := w2.getD (dec 3 1))
      (w3 := w3.getD (dec 1 1)) ht hd ts
    rw [hts, except_ok_bind, hv]; exact ⟨_, rfl⟩)
  have hlen := (gridLoop_ok htb).1
  obtain ⟨best, hbest⟩ := argmax_ok (xs := tb.map Row.s) (by
    rw [← List.length_pos_iff, List.length_map, hlen]
    exact Nat.mul_pos (List.length_pos_iff.2 hK) (List.length_pos_iff.2 hH))
  exact ⟨_, hkSynth_of htb hbest (hdraw tb hlen)⟩

theorem scalarDiv_total {a b : Scalar F} (h : Divisor b) : ∃ c, scalarDiv a b = .ok c := by
  unfold scalarDiv
  rcases h with h | h
  · rw [h]
    have : a.kind.join Kind.np = .np := by cases a.kind <;> rfl
    rw [this]; exact ⟨_, rfl⟩
  · cases a.kind.join b.kind <;> simp [h]

/-- **C25**, `hkYu` with weights succeeds, for any ray parameter. -/
theorem c25_hkYu_succeeds [IEEEOrder F] {env : Env F} {flt : HkYu.FltInput F} {rp : Scalar F}
    {H K : List F} {VpMoho VpSed VsSed : Scalar F} {w1 w2 w3 : F}
    (ht : flt.time ≠ []) (hd : flt.time.length ≤ flt.filteredrf.length) (hVp : Divisor VpMoho)
    (hVs : Divisor VsSed) (hVpS : Divisor VpSed) (hK : K ≠ []) (hH : H ≠ [])
    (hdraw : ∀ tb : List (Row F), tb.length = K.length * H.length → env.draw tb = .ok ()) :
    ∃ r, HkYu.hkYu env flt rp H K (some VpMoho) (some VpSed) (some VsSed)
      (some w1) (some w2) (some w3) = .ok r := by
  obtain ⟨a, ha⟩ := scalarDiv_total (a := ⟨flt.tlag.kind.join VsSed.kind,
    flt.tlag.val * VsSed.val / two⟩) hVs
  obtain ⟨b, hb⟩ := scalarDiv_total (a := ⟨flt.tlag.kind.join VsSed.kind,
    flt.tlag.val * VsSed.val / two⟩) hVpS
  obtain ⟨tb, htb⟩ := gridLoop_total (K := K) (H := H)
    (value := HkYu.cell flt rp VpMoho (a.val - b.val) (some w1) (some w2) (some w3)) (by
    intro k _ x _
    rw [yuCell_eq]
    obtain ⟨ts, hts⟩ := bestTimes_total (divisor_vpOk hVp) rp.kind rp.val x k
    obtain ⟨v, hv⟩ := weigh_total (w1 := w1) (w2 := w2) (w3 := w3) ht hd
      (yuShift flt.tlag.val (a.val - b.val) ts)
    rw [hts, except_ok_bind, hv]; exact ⟨_, rfl⟩)
  have hlen := (gridLoop_ok htb).1
  obtain ⟨best, hbest⟩ := argmax_ok (xs := tb.map Row.s) (by
    rw [← List.length_pos_iff, List.length_map, hlen]
    exact Nat.mul_pos (List.length_pos_iff.2 hK) (List.length_pos_iff.2 hH))
  obtain ⟨row, hrow⟩ := argmax_bestmodel hbest
  unfold HkYu.hkYu
  simp only [HkYu.need, except_ok_bind, ha, hb, Option.getD_some, htb, hbest, hdraw tb hlen,
    item_ok.2 hrow]
  exact ⟨_, rfl⟩

/-- **C25**, `hkSeqSynth` with all Moho parameters succeeds. -/
theorem c25_hkSeqSynth_succeeds [IEEEOrder F] {env : Env F} {dS dM t : List F} {rp : Scalar F}
    {HS KS HM KM : List F} {VpSed VpMoho : Scalar F} {w1S w2S w3S : Option F} {w1M w2M w3M : F}
    (ht : t ≠ []) (hdS : t.length ≤ dS.length) (hdM : t.length ≤ dM.length)
    (hVpS : Divisor VpSed) (hVpM : Divisor VpMoho)
    (hKS : KS ≠ []) (hHS : HS ≠ []) (hKM : KM ≠ []) (hHM : HM ≠ [])
    (hdraw : ∀ tb : List (Row F), tb ≠ [] → env.draw tb = .ok ()) :
    ∃ r, SynthAnalysis.hkSeqSynth env dS dM t rp HS KS (some VpSed) w1S w2S w3S HM KM
      (some VpMoho) (some w1M) (some w2M) (some w3M) = .ok r := by
  obtain ⟨tb, htb⟩ := gridLoop_total (K := KS) (H := HS)
    (value := SynthAnalysis.seqSedCell dS t rp VpSed (w1S.getD (dec 6 1)) (w2S.getD (dec 3 1))
      (w3S.getD (dec 1 1))) (by
    intro k _ x _
    rw [seqSedCell_eq, synthCell_eq]
    obtain ⟨ts, hts⟩ := bestTimes_total (divisor_vpOk hVpS) rp.kind rp.val x k
    obtain ⟨v, hv⟩ := weigh_total (w1 := w1S.getD (dec 6 1)) (w2 := w2S.getD (dec 3 1))
      (w3 := w3S.getD (dec 1 1)) ht hdS ts
    rw [hts, except_ok_bind, hv]; exact ⟨_, rfl⟩)
  have hpos : 0 < tb.length := by
    rw [(gridLoop_ok htb).1]
    exact Nat.mul_pos (List.length_pos_iff.2 hKS) (List.length_pos_iff.2 hHS)
  obtain ⟨best, hbest⟩ := argmax_ok (xs := tb.map Row.s) (by
    rw [← List.length_pos_iff, List.length_map]; exact hpos)
  obtain ⟨row, hrow⟩ := argmax_bestmodel hbest
  obtain ⟨raw, hraw⟩ := gridLoop_total (K := KM) (H := HM)
    (value := SynthAnalysis.seqMohoCell dM t rp VpSed row.h row.k (some VpMoho) (some w1M)
      (some w2M) (some w3M)) (by
    intro k _ x _
    rw [seqMohoCell_eq]
    obtain ⟨ts, hts⟩ := mohoTimes_total (divisor_vpOk hVpS) (divisor_vpOk hVpM) rp.kind rp.val
      row.h row.k x k
    obtain ⟨v, hv⟩ := weigh_total (w1 := w1M) (w2 := w2M) (w3 := w3M) ht hdM ts
    rw [hts, except_ok_bind, hv]; exact ⟨_, rfl⟩)
  have hpos2 : 0 < raw.length := by
    rw [(gridLoop_ok hraw).1]
    exact Nat.mul_pos (List.length_pos_iff.2 hKM) (List.length_pos_iff.2 hHM)
  obtain ⟨bestM, hbestM⟩ := argmax_ok (xs := raw.map Row.s) (by
    rw [← List.length_pos_iff, List.length_map]; exact hpos2)
  refine ⟨_, hkSeqSynth_of htb hbest (hdraw tb (List.length_pos_iff.1 hpos)) hrow hraw hbestM
    (hdraw _ ?_)⟩
  rw [← List.length_pos_iff, clipLoop_eq, List.length_map]; exact hpos2

/-! ## C13: `None` arguments of hkYu -/

/-- **C13**: `None` for the two P velocities means 6.5 and 2.5, independently. -/
theorem c13_velocity_defaults (env : Env F) (flt : HkYu.FltInput F) (rp : Scalar F) (H K : List F)
    (VpMoho VpSed VsSed : Option (Scalar F)) (w1 w2 w3 : Option F) :
    HkYu.hkYu env flt rp H K VpMoho VpSed VsSed w1 w2 w3
      = HkYu.hkYu env flt rp H K
          (some (match VpMoho with | some v => v | none => ⟨.py, dec 65 1⟩))
          (some (match VpSed with | some v => v | none => ⟨.py, dec 25 1⟩)) VsSed w1 w2 w3 := by
  cases VpMoho <;> cases VpSed <;> rfl

/-- **C13**, second half negated: with any `None` weight no call on a non-empty grid
succeeds (the documented defaults 0.6, 0.3, 0.1 are not used). -/
theorem c13_none_weight_fails {env : Env F} {flt : HkYu.FltInput F} {rp : Scalar F} {H K : List F}
    {VpMoho VpSed VsSed : Option (Scalar F)} {w1 w2 w3 : Option F}
    (hw : w1 = none ∨ w2 = none ∨ w3 = none) :
    ∀ r, HkYu.hkYu env flt rp H K VpMoho VpSed VsSed w1 w2 w3 ≠ .ok r := by
  intro r h
  obtain ⟨_, _, _, _, f⟩ := hkYu_inv h
  obtain ⟨k, x, s, _, _, hv⟩ := gridLoop_ne f.hgrid f.hbest
  unfold HkYu.cell at hv
  obtain ⟨_, _, hv⟩ := bind_eq_ok.1 hv
  obtain ⟨_, _, hv⟩ := bind_eq_ok.1 hv
  obtain ⟨_, _, hv⟩ := bind_eq_ok.1 hv
  obtain ⟨_, _, hv⟩ := bind_eq_ok.1 hv
  obtain ⟨_, h1, hv⟩ := bind_eq_ok.1 hv
  obtain ⟨_, h2, hv⟩ := bind_eq_ok.1 hv
  obtain ⟨_, h3, hv⟩ := bind_eq_ok.1 hv
  rcases hw with rfl | rfl | rfl
  · cases h1
  · cases h2
  · cases h3

/-- **C13**: if everything else is fine, the exception is `TypeError`. -/
theorem c13_none_weight_typeError [IEEEOrder F] {env : Env F} {flt : HkYu.FltInput F}
    {rp : Scalar F} {H K : List F} {VpMoho VpSed VsSed : Scalar F} {w1 w2 w3 : Option F}
    (hw : w1 = none ∨ w2 = none ∨ w3 = none)
    (ht : flt.time ≠ []) (hd : flt.time.length ≤ flt.filteredrf.length) (hVp : Divisor VpMoho)
    (hVs : Divisor VsSed) (hVpS : Divisor VpSed) (hK : K ≠ []) (hH : H ≠ []) :
    HkYu.hkYu env flt rp H K (some VpMoho) (some VpSed) (some VsSed) w1 w2 w3
      = .error .typeError := by
  obtain ⟨a, ha⟩ := scalarDiv_total (a := ⟨flt.tlag.kind.join VsSed.kind,
    flt.tlag.val * VsSed.val / two⟩) hVs
  obtain ⟨b, hb⟩ := scalarDiv_total (a := ⟨flt.tlag.kind.join VsSed.kind,
    flt.tlag.val * VsSed.val / two⟩) hVpS
  have hcell : ∀ k x, HkYu.cell flt rp VpMoho (a.val - b.val) w1 w2 w3 k x = .error .typeError := by
    intro k x
    obtain ⟨v, hv⟩ := divisor_vpOk hVp
    unfold HkYu.cell
    simp only [hv, except_ok_bind, yu_getamp_eq]
    obtain ⟨_, a1, _, _, h1⟩ := getamp_total (t := PyNum.addr (PyNum.rmul x (PyNum.rsub (powHalf (square (k / VpMoho.val) - square rp.val))
      (powHalfK (VpMoho.kind.join rp.kind) (square v - square rp.val)))) (a.val - b.val)) ht hd
    obtain ⟨_, a2, _, _, h2⟩ := getamp_total (t := PyNum.subr (PyNum.addr (PyNum.rmul x (PyNum.radd (powHalf (square (k / VpMoho.val) - square rp.val))
      (powHalfK (VpMoho.kind.join rp.kind) (square v - square rp.val)))) flt.tlag.val) (a.val - b.val)) ht hd
    obtain ⟨_, a3, _, _, h3⟩ := getamp_total (t := PyNum.addr (PyNum.real (x * two * powHalf (square (k / VpMoho.val) - square rp.val))) flt.tlag.val) ht hd
    rw [h1, h2, h3]
    simp only [except_ok_bind]
    cases w1 with
    | none => rfl
    | some w1 =>
      cases w2 with
      | none => rfl
      | some w2 =>
        cases w3 with
        | none => rfl
        | some w3 => simp at hw
  have hg : gridLoop K H (HkYu.cell flt rp VpMoho (a.val - b.val) w1 w2 w3) = .error .typeError := by
    cases hgl : gridLoop K H (HkYu.cell flt rp VpMoho (a.val - b.val) w1 w2 w3) with
    | error e =>
      obtain ⟨k, _, x, _, hv⟩ := gridLoop_error hgl
      rw [hcell] at hv
      cases hv; rfl
    | ok tb =>
      obtain ⟨k, hk⟩ := List.exists_mem_of_ne_nil K hK
      obtain ⟨x, hx⟩ := List.exists_mem_of_ne_nil H hH
      obtain ⟨s, hs⟩ := gridLoop_value_ok hgl hk hx
      rw [hcell] at hs; cases hs
  unfold HkYu.hkYu
  simp only [HkYu.need, except_ok_bind, ha, hb, Option.getD_some, hg]
  rfl

end generic

/-! ## C14, hkYu part -/

section c14
variable {F : Type} [PyFloat F] [IEEENaN F]

theorem yu_row {env : Env F} {flt : HkYu.FltInput F} {rp : Scalar F} {H K : List F}
    {Vp : Scalar F} {VpSed VsSed : Option (Scalar F)} {w1 w2 w3 : F} {r : HkYu.YuResult F}
    (h : HkYu.hkYu env flt rp H K (some Vp) VpSed VsSed (some w1) (some w2) (some w3) = .ok r)
    {row : Row F} (hrow : row ∈ r.stackvaluesSubSed) :
    ∃ ts v, bestTimes Vp rp.kind rp.val row.h row.k = .ok ts ∧
      weigh w1 w2 w3 flt.filteredrf flt.time (yuShift flt.tlag.val r.Pdelay ts) = .ok v ∧
      row.s = v + zero := by
  obtain ⟨_, _, _, _, f⟩ := hkYu_inv h
  obtain ⟨_, _, hv⟩ := gridLoop_row f.hgrid hrow
  rw [f.hVp, Option.getD_some, yuCell_eq] at hv
  obtain ⟨ts, hts, hv⟩ := bind_eq_ok.1 hv
  obtain ⟨v, hw, hv⟩ := bind_eq_ok.1 hv
  exact ⟨ts, v, hts, hw, (Except.ok.inj hv).symm⟩

/-- **C14**, `hkYu`, S leg post-critical: the first sample is read three times. -/
theorem c14_hkYu_S_postcritical {env : Env F} {flt : HkYu.FltInput F} {rp : Scalar F}
    {H K : List F} {Vp : Scalar F} {VpSed VsSed : Option (Scalar F)} {w1 w2 w3 : F}
    {r : HkYu.YuResult F}
    (h : HkYu.hkYu env flt rp H K (some Vp) VpSed VsSed (some w1) (some w2) (some w3) = .ok r) :
    ∀ row ∈ r.stackvaluesSubSed, lt (square (row.k / Vp.val) - square rp.val) zero = true →
      ∃ d0, flt.filteredrf[0]? = some d0 ∧ row.s = w1 * d0 + w2 * d0 - w3 * d0 + zero := by
  intro row hrow hpost
  obtain ⟨ts, v, hts, hw, hs⟩ := yu_row h hrow
  obtain ⟨n1, n2, n3⟩ := bestTimes_postS hts hpost
  obtain ⟨d0, hd0, hval⟩ := weigh_nan (weigh_axis_ne hw) hw (nanTime_addr n1)
    (nanTime_subr (nanTime_addr n2)) (nanTime_addr n3)
  exact ⟨d0, hd0, by rw [hs, hval]⟩

end c14

open NReal in
/-- **C14**, `hkYu`: no NaN appears. -/
theorem c14_hkYu_no_nan {env : Env NReal} {flt : HkYu.FltInput NReal} {rp : Scalar NReal}
    {H K : List NReal} {Vp : Scalar NReal} {VpSed VsSed : Option (Scalar NReal)}
    {w1 w2 w3 : NReal} {r : HkYu.YuResult NReal}
    (h : HkYu.hkYu env flt rp H K (some Vp) VpSed VsSed (some w1) (some w2) (some w3) = .ok r)
    (h1 : IsNum w1) (h2 : IsNum w2) (h3 : IsNum w3) (hd : ∀ a ∈ flt.filteredrf, IsNum a) :
    ∀ row ∈ r.stackvaluesSubSed, IsNum row.s := by
  intro row hrow
  obtain ⟨ts, v, hts, hw, hs⟩ := yu_row h hrow
  rw [hs]
  exact (weigh_isNum hw h1 h2 h3 hd).add isNum_zero

open NReal in
/-- **C14**, `hkYu`, only the P leg post-critical.  With numpy numbers Ps and PpPs read
the first sample; with Python floats they read the samples nearest to the real parts
`H·η_S + Pdelay` and `H·η_S + tlag - Pdelay`. -/
theorem c14_hkYu_P_postcritical {env : Env NReal} {flt : HkYu.FltInput NReal}
    {rp Vp : Scalar NReal} {H K : List NReal} {VpSed VsSed : Option (Scalar NReal)}
    {w1 w2 w3 : NReal} {r : HkYu.YuResult NReal} {p vp tlag pd : ℝ}
    (h : HkYu.hkYu env flt rp H K (some Vp) VpSed VsSed (some w1) (some w2) (some w3) = .ok r)
    (hax : ∀ a ∈ flt.time, IsNum a) (hvp : Vp.val = num vp) (h0 : vp ≠ 0) (hrp : rp.val = num p)
    (htl : flt.tlag.val = num tlag) (hpd : r.Pdelay = num pd)
    (hP : (1 / vp) ^ 2 < p ^ 2) :
    ∀ (x k : ℝ) (s : NReal), (⟨num x, num k, s⟩ : Row NReal) ∈ r.stackvaluesSubSed →
      p ^ 2 ≤ (k / vp) ^ 2 →
      (Vp.kind = .np ∨ rp.kind = .np → ∃ d0 a3, flt.filteredrf[0]? = some d0 ∧
        ReadsNearest flt.filteredrf flt.time (num (tPsPs p vp x k + tlag)) a3 ∧
        s = w1 * d0 + w2 * d0 - w3 * a3 + num 0) ∧
      (Vp.kind = .py ∧ rp.kind = .py → ∃ a1 a2 a3,
        ReadsNearest flt.filteredrf flt.time (num (x * eta p (vp / k) + pd)) a1 ∧
        ReadsNearest flt.filteredrf flt.time (num (x * eta p (vp / k) + tlag - pd)) a2 ∧
        ReadsNearest flt.filteredrf flt.time (num (tPsPs p vp x k + tlag)) a3 ∧
        s = w1 * a1 + w2 * a2 - w3 * a3 + num 0) := by
  intro x k s hrow hS
  obtain ⟨ts, v, hts, hw, hs⟩ := yu_row h hrow
  rw [hrp] at hts
  simp only at hts hs
  have heta : eta p (vp / k) = Real.sqrt ((k / vp) ^ 2 - p ^ 2) := eta_ratio _ _ _
  have hPs : tPsPs p vp x k = x * 2 * eta p (vp / k) := by rw [tPsPs]; ring
  rw [htl, hpd] at hw
  constructor
  · intro hnp
    obtain ⟨n1, n2, e3⟩ := bestTimes_postP hts hnp (by
      rw [hvp, nreal_one, nreal_div _ _ h0, nreal_square, nreal_square, nreal_sub, nreal_zero,
        nreal_lt]
      linarith)
    obtain ⟨d0, a3, hd0, ha3, hval⟩ := weigh_nan2 (weigh_axis_ne hw) hw (nanTime_addr n1)
      (nanTime_subr (nanTime_addr n2))
    refine ⟨d0, a3, hd0, ?_, by rw [hs, hval, nreal_zero]⟩
    simp only [yuShift, e3, PyNum.addr] at ha3
    rw [hvp, nreal_div _ _ h0, nreal_square, nreal_square, nreal_sub,
      nreal_powHalf _ (by linarith), nreal_two, nreal_mul, nreal_mul, nreal_add, ← heta,
      ← hPs] at ha3
    exact getamp_num hax ha3
  · intro hpy
    have he := bestTimes_ok hts
    obtain ⟨a1, a2, a3, e1, e2, e3, hval⟩ := weigh_ok.1 hw
    have hlt : PyFloat.lt (num ((1 / vp) ^ 2 - p ^ 2)) (PyFloat.zero : NReal) = true := by
      rw [nreal_zero, nreal_lt]; linarith
    rw [hpy.1, hpy.2, hvp, nreal_one, nreal_div _ _ h0, nreal_div _ _ h0, nreal_square,
      nreal_square, nreal_square, nreal_sub, nreal_sub, nreal_powHalf _ (by linarith)] at he
    simp only [Kind.join, powHalfK, hlt, if_true, nreal_powHalfCplx, PyNum.rsub, PyNum.radd,
      PyNum.rmul, nreal_sub, nreal_add, nreal_mul, sub_zero, add_zero, nreal_two] at he
    subst he
    have neg : ∀ y : ℝ, (-(num y) : NReal) = num (-y) := fun _ => rfl
    simp only [yuShift, PyNum.addr, PyNum.subr, neg, nreal_mul, nreal_add, nreal_sub,
      ← heta] at e1 e2 e3
    rw [← hPs] at e3
    exact ⟨a1, a2, a3, getamp_cplx hax e1, getamp_cplx hax e2, getamp_num hax e3,
      by rw [hs, hval, nreal_zero]⟩

/-! ## C23: sediment thickness, delay and adjusted times of hkYu -/

/-- a delay-time triple shifted for a sediment layer with two-way S time `tlag` and
P delay `pd` -/
theorem yuShift_zk (tlag pd p Vp H K : ℝ) :
    yuShift tlag pd (zkMarks p Vp H K)
      = (.real (tPs p Vp H K + pd), .real (tPpPs p Vp H K + tlag - pd),
         .real (tPsPs p Vp H K + tlag)) := rfl

theorem scalarDiv_real {a b c : Scalar ℝ} (h : scalarDiv a b = .ok c) : c.val = a.val / b.val := by
  unfold scalarDiv at h
  split at h
  · cases h; rfl
  · split at h
    · cases h
    · cases h; rfl

/-- **C23**: reported sediment thickness and P delay. -/
theorem c23_thickness_delay {env : Env ℝ} {flt : HkYu.FltInput ℝ} {rp : Scalar ℝ} {H K : List ℝ}
    {VpMoho : Option (Scalar ℝ)} {VpSed VsSed : Scalar ℝ} {w1 w2 w3 : Option ℝ}
    {r : HkYu.YuResult ℝ}
    (h : HkYu.hkYu env flt rp H K VpMoho (some VpSed) (some VsSed) w1 w2 w3 = .ok r)
    (hVs : 0 < VsSed.val) (hle : VsSed.val ≤ VpSed.val) :
    r.SedThick = flt.tlag.val * VsSed.val / 2 ∧
    r.Pdelay = flt.tlag.val / 2 * (1 - VsSed.val / VpSed.val) ∧
    (0 ≤ flt.tlag.val → 0 ≤ r.Pdelay ∧ r.Pdelay ≤ flt.tlag.val / 2) := by
  obtain ⟨vs, a, b, _, f⟩ := hkYu_inv h
  have e : VsSed = vs := Option.some.inj f.hvs
  subst e
  have hVpS : r.VpSed = VpSed := f.hVpSed
  have h1 : r.SedThick = flt.tlag.val * VsSed.val / 2 := by rw [f.hSed, real_two]
  have h2 : r.Pdelay = flt.tlag.val / 2 * (1 - VsSed.val / VpSed.val) := by
    rw [f.hPd, scalarDiv_real f.ha, scalarDiv_real f.hb, hVpS, h1]
    have : VpSed.val ≠ 0 := by linarith
    field_simp
  refine ⟨h1, h2, ?_⟩
  intro ht
  have hq : VsSed.val / VpSed.val ≤ 1 := by rw [div_le_one (by linarith)]; exact hle
  have hq0 : 0 ≤ VsSed.val / VpSed.val := div_nonneg hVs.le (by linarith)
  rw [h2]
  constructor
  · exact mul_nonneg (by linarith) (by linarith)
  · nlinarith

/-- **C23**: every value of the table is the weighted sum of the filtered RF at the
adjusted times. -/
theorem c23_stack_value {env : Env ℝ} {flt : HkYu.FltInput ℝ} {rp : Scalar ℝ} {H K : List ℝ}
    {Vp : Scalar ℝ} {VpSed VsSed : Option (Scalar ℝ)} {w1 w2 w3 : ℝ} {r : HkYu.YuResult ℝ}
    (h : HkYu.hkYu env flt rp H K (some Vp) VpSed VsSed (some w1) (some w2) (some w3) = .ok r)
    (hVp : Vp.val ≠ 0) (hpre : rp.val ^ 2 ≤ (1 / Vp.val) ^ 2) :
    ∀ row ∈ r.stackvaluesSubSed, StackValue w1 w2 w3 flt.filteredrf flt.time
      (tPs rp.val Vp.val row.h row.k + r.Pdelay)
      (tPpPs rp.val Vp.val row.h row.k + flt.tlag.val - r.Pdelay)
      (tPsPs rp.val Vp.val row.h row.k + flt.tlag.val) row.s := by
  intro row hrow
  obtain ⟨_, _, _, _, f⟩ := hkYu_inv h
  obtain ⟨_, _, hv⟩ := gridLoop_row f.hgrid hrow
  rw [f.hVp, Option.getD_some, yuCell_eq, bestTimes_real hVp hpre, except_ok_bind, yuShift_zk] at hv
  obtain ⟨v, hw, hv⟩ := bind_eq_ok.1 hv
  have : row.s = v := by rw [← Except.ok.inj hv, real_zero, add_zero]
  rw [this]
  exact weigh_real.1 hw

/-- **C23**: the adjusted times add up and, for `0 ≤ Pdelay ≤ tlag/2`, keep their
order. -/
theorem c23_adjusted_times {p Vp H K tlag pd : ℝ} (hH : 0 ≤ H) (hVp : 0 < Vp) (hK : 1 ≤ K)
    (hpd : 0 ≤ pd) (hpd2 : pd ≤ tlag / 2) :
    let t1 := tPs p Vp H K + pd
    let t2 := tPpPs p Vp H K + tlag - pd
    let t3 := tPsPs p Vp H K + tlag
    t1 + t2 = t3 ∧ 0 ≤ t1 ∧ t1 ≤ t2 ∧ t2 ≤ t3 := by
  intro t1 t2 t3
  have e1 : 0 ≤ eta p Vp := Real.sqrt_nonneg _
  have e2 : eta p Vp ≤ eta p (Vp / K) := by
    rw [eta_ratio, eta_one]
    apply Real.sqrt_le_sqrt
    have : (1 / Vp) ^ 2 ≤ (K / Vp) ^ 2 := by
      apply pow_le_pow_left₀ (by positivity)
      exact div_le_div_of_nonneg_right hK hVp.le
    linarith
  have m1 := mul_nonneg hH e1
  have m2 := mul_nonneg hH (sub_nonneg.2 e2)
  refine ⟨?_, ?_, ?_, ?_⟩ <;> simp only [t1, t2, t3, tPs, tPpPs, tPsPs] <;> nlinarith

/-! ## C24: without reverberation hkYu is plain H-k stacking -/

theorem pynum_add_zero (x : PyNum ℝ) : PyNum.addr x 0 = x := by cases x <;> simp [PyNum.addr]
theorem pynum_sub_zero (x : PyNum ℝ) : PyNum.subr x 0 = x := by cases x <;> simp [PyNum.subr]

/-- **C24**: with `tlag = 0`, `hkYu` succeeds exactly as `hkSynth` does (same data, time
axis, ray parameter, grid, velocity and weights) and returns the same table and best
model, and zero sediment thickness and delay. -/
theorem c24_no_reverberation {env : Env ℝ} {flt : HkYu.FltInput ℝ} {rp : Scalar ℝ} {H K : List ℝ}
    {VpMoho : Option (Scalar ℝ)} {VpSed VsSed : Scalar ℝ} {w1 w2 w3 : ℝ} {layer : Option String}
    (hlag : flt.tlag.val = 0) (hVs : VsSed.val ≠ 0) (hVpS : VpSed.val ≠ 0)
    (tb : List (Row ℝ)) (i : Nat) :
    (∃ r, HkYu.hkYu env flt rp H K VpMoho (some VpSed) (some VsSed) (some w1) (some w2) (some w3)
        = .ok r ∧ r.stackvaluesSubSed = tb ∧ r.bestIdx = i ∧ r.SedThick = 0 ∧ r.Pdelay = 0) ↔
    (∃ r, SynthAnalysis.hkSynth env flt.filteredrf flt.time rp H K VpMoho (some w1) (some w2)
        (some w3) layer = .ok r ∧ r.stackvalues = tb ∧ r.bestIdx = i) := by
  have hcell : HkYu.cell flt rp (VpMoho.getD ⟨.py, dec 65 1⟩) 0 (some w1) (some w2) (some w3)
      = SynthAnalysis.cell flt.filteredrf flt.time rp (VpMoho.getD ⟨.py, dec 65 1⟩) w1 w2 w3 := by
    funext k x
    rw [yuCell_eq, synthCell_eq, hlag]
    have : ∀ ts, yuShift (0 : ℝ) 0 ts = ts := by
      intro ts
      simp only [yuShift, pynum_add_zero, pynum_sub_zero]
    simp only [this]
  have hdiv : ∀ (kd : Kind) (b : Scalar ℝ), b.val ≠ 0 →
      ∃ c, scalarDiv ⟨kd, 0⟩ b = .ok c ∧ c.val = 0 := by
    intro kd b hb
    obtain ⟨c, hc⟩ := scalarDiv_total (a := (⟨kd, 0⟩ : Scalar ℝ)) (b := b) (Or.inr (by
      rw [← Bool.not_eq_true, real_eq]; simpa using hb))
    exact ⟨c, hc, by rw [scalarDiv_real hc]; simp⟩
  obtain ⟨a, ha, ha0⟩ := hdiv (flt.tlag.kind.join VsSed.kind) VsSed hVs
  obtain ⟨b, hb, hb0⟩ := hdiv (flt.tlag.kind.join VsSed.kind) VpSed hVpS
  have hSed : flt.tlag.val * VsSed.val / two = 0 := by rw [hlag]; simp
  constructor
  · rintro ⟨r, hr, rfl, rfl, _, _⟩
    obtain ⟨vs, a', b', bm, f⟩ := hkYu_inv hr
    have hPd : r.Pdelay = 0 := by
      have e : VsSed = vs := Option.some.inj f.hvs
      subst e
      rw [f.hPd, scalarDiv_real f.ha, scalarDiv_real f.hb, f.hSed, hSed]; simp
    have hg := f.hgrid
    rw [f.hVp, hPd, hcell] at hg
    exact ⟨_, hkSynth_of hg f.hbest f.hdraw, rfl, rfl⟩
  · rintro ⟨r, hr, rfl, rfl⟩
    have f := hkSynth_inv hr
    obtain ⟨row, hrow⟩ := argmax_bestmodel f.hbest
    have hg := f.hgrid
    simp only [Option.getD_some] at hg
    rw [← hcell] at hg
    unfold HkYu.hkYu
    simp only [HkYu.need, except_ok_bind, hSed, ha, hb, ha0, hb0, sub_zero, Option.getD_some, hg,
      f.hbest, f.hdraw, item_ok.2 hrow]
    exact ⟨_, rfl, rfl, rfl, rfl, rfl⟩

/-! ## C26: hk on one trace agrees with hkSynth (for every number type) -/

/-- **C26**. -/
theorem c26_single_trace {F : Type} [PyFloat F] {env : Env F} {tr : Trace F} {preonset : F}
    {H K : List F} {Vp : Option (Scalar F)} {w1 w2 w3 : Option F} {layer : Option String}
    {o : F} {sl : Scalar F} {sd : List F} {more : List (List F)}
    (ho : tr.onset = some o) (hsl : tr.slowness = some sl)
    (hstack : env.stack [tr] = .ok (sd :: more)) (tb : List (Row F)) (i : Nat) :
    (∃ r, hk env [tr] preonset H K Vp w1 w2 w3 layer (some false) = .ok r ∧
        r.stackvalues = tb ∧ r.bestIdx = i) ↔
    (∃ r, SynthAnalysis.hkSynth env tr.data
        ((List.range tr.data.length).map (fun n => tr.delta * ofNat n - preonset))
        ⟨sl.kind, env.km2deg1 * sl.val⟩ H K Vp w1 w2 w3 layer = .ok r ∧
        r.stackvalues = tb ∧ r.bestIdx = i) := by
  have hcell : ∀ (avg : F) (V : Scalar F) (a b c : F),
      cell env [tr] (timeAxis tr.delta preonset tr.data.length) sd avg V a b c false
      = SynthAnalysis.cell tr.data (timeAxis tr.delta preonset tr.data.length)
          ⟨sl.kind, env.km2deg1 * sl.val⟩ V a b c := by
    intro avg V a b c
    funext k x
    rw [synthCell_eq]
    unfold cell
    rw [List.foldlM_cons, traceTerm_eq]
    simp only [Trace.getOnset, ho, getSlowness_ok.2 hsl, except_ok_bind, Bool.false_eq_true,
      if_false, List.foldlM_nil, except_pure]
    cases bestTimes V sl.kind (env.km2deg1 * sl.val) x k with
    | error e => rfl
    | ok ts =>
      simp only [except_ok_bind]
      cases weigh a b c tr.data (timeAxis tr.delta preonset tr.data.length) ts <;> rfl
  have hsl1 : [tr].mapM Trace.getSlowness = .ok [sl] := by
    rw [List.mapM_cons, getSlowness_ok.2 hsl]; rfl
  constructor
  · rintro ⟨r, hr, rfl, rfl⟩
    obtain ⟨tr0, rest, slows, f⟩ := hk_inv hr
    obtain ⟨m, hm⟩ := f.hstack
    rw [hstack] at hm; cases hm
    have hst := f.hst; cases hst
    have hg := f.hgrid
    rw [f.htime, f.hstk, f.hVp, Option.getD_some, hcell] at hg
    exact ⟨_, hkSynth_of hg f.hbest f.hdraw, rfl, rfl⟩
  · rintro ⟨r, hr, rfl, rfl⟩
    have f := hkSynth_inv hr
    have hg := f.hgrid
    rw [show (List.range tr.data.length).map (fun n => tr.delta * ofNat n - preonset)
      = timeAxis tr.delta preonset tr.data.length from rfl, ← hcell (npMean [sl.val])] at hg
    exact ⟨_, hk_of_facts hstack hsl1 hg f.hbest f.hdraw, rfl, rfl⟩

/-! ## Concrete calls meeting the hypotheses -/

theorem divisor_real {v : ℝ} {k : Kind} (h : v ≠ 0) : Divisor (⟨k, v⟩ : Scalar ℝ) :=
  Or.inr (by rw [← Bool.not_eq_true, real_eq]; simpa using h)

/-- filtered receiver function used in the examples: six samples, time axis with step 1/2,
reverberation of 1 s -/
noncomputable def sampleFlt : HkYu.FltInput ℝ where
  filteredrf := [0, 1, 3, 2, 0, -1]
  time := [-1, -1 / 2, 0, 1 / 2, 1, 3 / 2]
  tlag := ⟨.py, 1⟩

/-- `hkYu` runs on the sample data with a pre-critical ray parameter and realistic
velocities (hypotheses of C23, C25). -/
example : ∃ r, HkYu.hkYu Sample.env sampleFlt ⟨.py, 6 / 100⟩ [30, 35, 40] [17 / 10, 18 / 10]
      (some ⟨.py, 65 / 10⟩) (some ⟨.py, 25 / 10⟩) (some ⟨.py, 1⟩)
      (some (6 / 10)) (some (3 / 10)) (some (1 / 10)) = .ok r ∧
    (0 : ℝ) < 1 ∧ (1 : ℝ) ≤ 25 / 10 ∧ ((6 : ℝ) / 100) ^ 2 ≤ (1 / (65 / 10)) ^ 2 := by
  obtain ⟨r, hr⟩ := c25_hkYu_succeeds (env := Sample.env) (flt := sampleFlt) (rp := ⟨.py, 6 / 100⟩)
    (H := [30, 35, 40]) (K := [17 / 10, 18 / 10]) (VpMoho := ⟨.py, 65 / 10⟩)
    (VpSed := ⟨.py, 25 / 10⟩) (VsSed := ⟨.py, 1⟩) (w1 := 6 / 10) (w2 := 3 / 10) (w3 := 1 / 10)
    (by simp [sampleFlt]) (by simp [sampleFlt]) (divisor_real (by norm_num))
    (divisor_real (by norm_num)) (divisor_real (by norm_num)) (by simp) (by simp) (fun _ _ => rfl)
  exact ⟨r, hr, by norm_num, by norm_num, by norm_num⟩

/-- and for the reported thickness: `tlag = 1`, `VsSed = 1`, `VpSed = 2.5` give a sediment
of 0.5 km and a P delay of 0.3 s. -/
example : ∃ r, HkYu.hkYu Sample.env sampleFlt ⟨.py, 6 / 100⟩ [30, 35, 40] [17 / 10, 18 / 10]
      (some ⟨.py, 65 / 10⟩) (some ⟨.py, 25 / 10⟩) (some ⟨.py, 1⟩)
      (some (6 / 10)) (some (3 / 10)) (some (1 / 10)) = .ok r ∧
      r.SedThick = 1 / 2 ∧ r.Pdelay = 3 / 10 := by
  obtain ⟨r, hr⟩ := c25_hkYu_succeeds (env := Sample.env) (flt := sampleFlt) (rp := ⟨.py, 6 / 100⟩)
    (H := [30, 35, 40]) (K := [17 / 10, 18 / 10]) (VpMoho := ⟨.py, 65 / 10⟩)
    (VpSed := ⟨.py, 25 / 10⟩) (VsSed := ⟨.py, 1⟩) (w1 := 6 / 10) (w2 := 3 / 10) (w3 := 1 / 10)
    (by simp [sampleFlt]) (by simp [sampleFlt]) (divisor_real (by norm_num))
    (divisor_real (by norm_num)) (divisor_real (by norm_num)) (by simp) (by simp) (fun _ _ => rfl)
  obtain ⟨h1, h2, _⟩ := c23_thickness_delay hr (by norm_num) (by norm_num)
  refine ⟨r, hr, ?_, ?_⟩
  · rw [h1]; norm_num [sampleFlt]
  · rw [h2]; norm_num [sampleFlt]

/-- hypotheses of `c24_no_reverberation`: a filter result without reverberation -/
example : ({ sampleFlt with tlag := ⟨.py, 0⟩ } : HkYu.FltInput ℝ).tlag.val = 0 ∧
    (1 : ℝ) ≠ 0 ∧ (5 / 2 : ℝ) ≠ 0 := ⟨rfl, by norm_num, by norm_num⟩

/-- hypotheses of `c25_hkSeqSynth_succeeds` and of the C20/C21 theorems for `hkSeqSynth` -/
example : ∃ r, SynthAnalysis.hkSeqSynth Sample.env [0, 1, 3, 2, 0, -1] [0, 1, 2, 2, 0, -1]
      [-1, -1 / 2, 0, 1 / 2, 1, 3 / 2] ⟨.py, 6 / 100⟩ [1, 2] [2, 3] (some ⟨.py, 3⟩) none none none
      [30, 35] [17 / 10, 18 / 10] (some ⟨.py, 65 / 10⟩) (some (6 / 10)) (some (3 / 10))
      (some (1 / 10)) = .ok r ∧ ((6 : ℝ) / 100) ^ 2 ≤ (1 / 3) ^ 2 ∧
      ((6 : ℝ) / 100) ^ 2 ≤ (1 / (65 / 10)) ^ 2 := by
  obtain ⟨r, hr⟩ := c25_hkSeqSynth_succeeds (env := Sample.env) (dS := [0, 1, 3, 2, 0, -1])
    (dM := [0, 1, 2, 2, 0, -1]) (t := [-1, -1 / 2, 0, 1 / 2, 1, 3 / 2]) (rp := ⟨.py, 6 / 100⟩)
    (HS := [1, 2]) (KS := [2, 3]) (HM := [30, 35]) (KM := [17 / 10, 18 / 10])
    (VpSed := ⟨.py, 3⟩) (VpMoho := ⟨.py, 65 / 10⟩) (w1S := none) (w2S := none) (w3S := none)
    (w1M := 6 / 10) (w2M := 3 / 10) (w3M := 1 / 10)
    (by simp) (by simp) (by simp) (divisor_real (by norm_num)) (divisor_real (by norm_num))
    (by simp) (by simp) (by simp) (by simp) (fun _ _ => rfl)
  exact ⟨r, hr, by norm_num, by norm_num⟩

open NReal in
/-- hypotheses of the C14 theorems for `hkYu`: `Vp = 6.5`, ray parameter 0.2 s/km is
post-critical for P (`0.2 > 1/6.5`) and pre-critical for S at `K = 1.7`; the call
succeeds. -/
example : ∃ (env : Env NReal) (flt : HkYu.FltInput NReal) (r : HkYu.YuResult NReal),
    HkYu.hkYu env flt ⟨.py, num (2 / 10)⟩ [num 30] [num (17 / 10)] (some ⟨.py, num (65 / 10)⟩)
      (some ⟨.py, num (25 / 10)⟩) (some ⟨.py, num 1⟩) (some (num (6 / 10))) (some (num (3 / 10)))
      (some (num (1 / 10))) = .ok r ∧ (∀ a ∈ flt.time, IsNum a) ∧ (∀ a ∈ flt.filteredrf, IsNum a) ∧
      ((1 : ℝ) / (65 / 10)) ^ 2 < (2 / 10) ^ 2 ∧ ((2 : ℝ) / 10) ^ 2 ≤ (17 / 10 / (65 / 10)) ^ 2 := by
  have hz : ∀ x : ℝ, x ≠ 0 → Divisor (⟨.py, num x⟩ : Scalar NReal) := by
    intro x hx
    refine Or.inr ?_
    rw [← Bool.not_eq_true]
    intro h
    rw [PyFloat.eq, Bool.and_eq_true, nreal_zero, nreal_le, nreal_le] at h
    exact hx (le_antisymm h.1 h.2)
  obtain ⟨r, hr⟩ := c25_hkYu_succeeds (F := NReal)
    (env := { km2deg1 := num (1 / 111), stack := fun _ => .ok [], draw := fun _ => .ok () })
    (flt := { filteredrf := [num 0, num 1], time := [num 0, num 1], tlag := ⟨.py, num 1⟩ })
    (rp := ⟨.py, num (2 / 10)⟩) (H := [num 30]) (K := [num (17 / 10)])
    (VpMoho := ⟨.py, num (65 / 10)⟩) (VpSed := ⟨.py, num (25 / 10)⟩) (VsSed := ⟨.py, num 1⟩)
    (w1 := num (6 / 10)) (w2 := num (3 / 10)) (w3 := num (1 / 10))
    (by simp) (by simp) (hz _ (by norm_num)) (hz _ (by norm_num)) (hz _ (by norm_num)) (by simp)
    (by simp) (fun _ _ => rfl)
  refine ⟨_, _, r, hr, ?_, ?_, by norm_num, by norm_num⟩
  · intro a ha
    simp only [List.mem_cons, List.not_mem_nil, or_false] at ha
    rcases ha with rfl | rfl <;> rfl
  · intro a ha
    simp only [List.mem_cons, List.not_mem_nil, or_false] at ha
    rcases ha with rfl | rfl <;> rfl

/-- hypotheses of `c26_single_trace` -/
example : ∃ r, hk Sample.env [Sample.trace [0, 1, 3, 2, 0] 6] 1 [30, 35] [17 / 10, 18 / 10]
    (some ⟨.py, 65 / 10⟩) none none none none (some false) = .ok r := by
  obtain ⟨r, hr⟩ := c25_hkSynth_succeeds (env := Sample.env)
    (d := (Sample.trace [0, 1, 3, 2, 0] 6).data)
    (t := (List.range 5).map (fun n => (1 / 2 : ℝ) * ofNat n - 1))
    (rp := ⟨.py, Sample.env.km2deg1 * 6⟩) (H := [30, 35]) (K := [17 / 10, 18 / 10])
    (Vp := ⟨.py, 65 / 10⟩) (w1 := none) (w2 := none) (w3 := none) (layer := none)
    (by simp [List.range_succ]) (by simp [Sample.trace]) (divisor_real (by norm_num)) (by simp)
    (by simp) (fun _ _ => rfl)
  obtain ⟨r', hr', _⟩ := (c26_single_trace (env := Sample.env)
    (tr := Sample.trace [0, 1, 3, 2, 0] 6) (preonset := 1) (sl := ⟨.py, 6⟩) (o := 2) rfl rfl
    rfl r.stackvalues r.bestIdx).2 ⟨r, hr, rfl, rfl⟩
  exact ⟨r', hr'⟩

end Rfsed.Props
