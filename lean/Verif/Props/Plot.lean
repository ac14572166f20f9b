import Verif.Proofs.Plot
import Verif.Props.HkZhu2

/-!
# Properties C16, C17, C18: what the plotting functions change and show
-/

namespace Rfsed.Props
open PyFloat Spec HkZhu
set_option linter.unusedSectionVars false

/-! ## C16: removing negative values only clips -/

section generic
variable {F : Type} [PyFloat F]

/-- the table after plotting: clipped or untouched -/
def AfterPlot (rmneg : Bool) (old new : List (Row F)) : Prop :=
  (rmneg = true → ClippedFrom old new) ∧ (rmneg = false → new = old)

theorem afterPlot_iff {rmneg : Bool} {old new : List (Row F)} :
    AfterPlot rmneg old new ↔ new = (if rmneg then clipLoop old else old) := by
  unfold AfterPlot
  cases rmneg <;> simp [clippedFrom_iff]

theorem plottable_after {env : Env F} {r : HKResult F} (hp : Plottable r) (savepath : String)
    (g : Option (List F)) (rmneg : Option Bool) (format : Option String) :
    Plottable (plothk env r savepath g rmneg format).1 := by
  obtain ⟨b, times, hb, _, he⟩ := plothk_eq env r hp savepath g rmneg format
  rw [he]
  refine ⟨?_, hp.vp, ?_⟩
  · unfold HKResult.bestmodel at hb ⊢
    simp only
    cases rmneg.getD true
    · simp [hb]
    · simp [clipLoop_getElem? hb]
  · simp only
    cases r.stack
    · have := (annotate_ok (env := env) (x := b.h) (k := b.k) hp.vp r.RF hp.slow).2
      simp only [Bool.false_eq_true, if_false]
      intro tr htr
      obtain ⟨m, hm, rfl⟩ := List.getElem_of_mem htr
      have hm' : m < r.RF.length := by rw [this.length_eq]; exact hm
      obtain ⟨ts, _, h2⟩ := List.Forall₂.get this hm' hm
      simp only [List.get_eq_getElem] at h2
      rw [h2, stamp_slowness]
      exact hp.slow _ (List.getElem_mem _)
    · simpa using hp.slow

/-- **C16**, `plothk` (`rmneg` defaults to `True`): for every result of `hk` and all
plotting options, whether or not drawing fails, the table is clipped (or untouched
with `rmneg=False`), the other entries except the streams's trace headers are
unchanged, and plotting again with any options and the same `rmneg` changes the table
no more. -/
theorem c16_plothk {env env' : Env F} {st : List (Trace F)} {preonset : F} {H K : List F}
    {Vp : Option (Scalar F)} {w1 w2 w3 : Option F} {layer : Option String}
    {stack : Option Bool} {r : HKResult F}
    (h : hk env st preonset H K Vp w1 w2 w3 layer stack = .ok r)
    (savepath : String) (g : Option (List F)) (rmneg : Option Bool) (format : Option String) :
    let r' := (plothk env' r savepath g rmneg format).1
    AfterPlot (rmneg.getD true) r.stackvalues r'.stackvalues ∧
    r' = { r with stackvalues := r'.stackvalues, RF := r'.RF } ∧
    ∀ (env'' : Env F) (savepath' : String) (g' : Option (List F)) (format' : Option String),
      (plothk env'' r' savepath' g' rmneg format').1.stackvalues = r'.stackvalues := by
  intro r'
  have hp := hk_plottable h
  have hp' : Plottable r' := plottable_after (env := env') hp savepath g rmneg format
  obtain ⟨b, times, hb, _, he⟩ := plothk_eq env' r hp savepath g rmneg format
  have hr' : r' = { r with
          RF := if r.stack then r.RF else (annotate env' r.Vp b.h b.k r.RF).1,
          stackvalues := if rmneg.getD true then clipLoop r.stackvalues else r.stackvalues } := by
    show (plothk env' r savepath g rmneg format).1 = _
    rw [he]
  refine ⟨?_, ?_, ?_⟩
  · rw [afterPlot_iff, hr']
  · rw [hr']
  · intro env'' sp g' fmt'
    obtain ⟨b', times', hb', _, he'⟩ := plothk_eq env'' r' hp' sp g' rmneg fmt'
    rw [he']
    have : r'.stackvalues = if rmneg.getD true then clipLoop r.stackvalues else r.stackvalues := by
      rw [hr']
    simp only [this]
    cases rmneg.getD true <;> simp [clipLoop_idem]

/-- **C16**, `plothkYu` (`rmneg` defaults to `False`). -/
theorem c16_plothkYu {env env' : Env F} {flt : HkYu.FltInput F} {rp : Scalar F} {H K : List F}
    {VpMoho VpSed VsSed : Option (Scalar F)} {w1 w2 w3 : Option F} {r : HkYu.YuResult F}
    (h : HkYu.hkYu env flt rp H K VpMoho VpSed VsSed w1 w2 w3 = .ok r)
    (savepath : String) (g : Option (List F)) (rmneg : Option Bool) (format : Option String) :
    let r' := (HkYu.plothkYu env' r savepath g rmneg format).1
    AfterPlot (rmneg.getD false) r.stackvaluesSubSed r'.stackvaluesSubSed ∧
    r' = { r with stackvaluesSubSed := r'.stackvaluesSubSed } ∧
    ∀ (env'' : Env F) (savepath' : String) (g' : Option (List F)) (format' : Option String),
      (HkYu.plothkYu env'' r' savepath' g' rmneg format').1 = r' := by
  intro r'
  obtain ⟨hv, hb⟩ := yu_vpOk h
  have hr' := plothkYu_fst env' r hv hb savepath g rmneg format
  refine ⟨?_, ?_, ?_⟩
  · rw [afterPlot_iff]; show (HkYu.plothkYu env' r savepath g rmneg format).1.stackvaluesSubSed = _
    rw [hr']
  · show (HkYu.plothkYu env' r savepath g rmneg format).1 = { r with stackvaluesSubSed := (HkYu.plothkYu env' r savepath g rmneg format).1.stackvaluesSubSed }
    rw [hr']
  · intro env'' sp g' fmt'
    have e : r' = { r with stackvaluesSubSed :=
        (if rmneg.getD false then clipLoop r.stackvaluesSubSed else r.stackvaluesSubSed) } := hr'
    have hb' : r'.bestmodel.isSome := by
      obtain ⟨b, hb⟩ := Option.isSome_iff_exists.1 hb
      unfold HkYu.YuResult.bestmodel at hb ⊢
      rw [e]
      cases rmneg.getD false
      · simp [hb]
      · simp [clipLoop_getElem? hb]
    rw [plothkYu_fst env'' r' (by rw [e]; exact hv) hb' sp g' rmneg fmt']
    rw [e]
    cases rmneg.getD false <;> simp [clipLoop_idem]

/-- **C16**, `plothkSynth` (`rmneg` defaults to `False`). -/
theorem c16_plothkSynth {env env' : Env F} {d t : List F} {rp : Scalar F} {H K : List F}
    {Vp : Option (Scalar F)} {w1 w2 w3 : Option F} {layer : Option String}
    {r : SynthAnalysis.SynthResult F}
    (h : SynthAnalysis.hkSynth env d t rp H K Vp w1 w2 w3 layer = .ok r)
    (savepath : String) (g : Option (List F)) (rmneg : Option Bool) (format : Option String) :
    let r' := (SynthAnalysis.plothkSynth env' r savepath g rmneg format).1
    AfterPlot (rmneg.getD false) r.stackvalues r'.stackvalues ∧
    r' = { r with stackvalues := r'.stackvalues } ∧
    ∀ (env'' : Env F) (savepath' : String) (g' : Option (List F)) (format' : Option String),
      (SynthAnalysis.plothkSynth env'' r' savepath' g' rmneg format').1 = r' := by
  intro r'
  obtain ⟨hv, hb⟩ := synth_vpOk h
  have hr' := plothkSynth_fst env' r hv hb savepath g rmneg format
  have e : r' = { r with stackvalues :=
        (if rmneg.getD false then clipLoop r.stackvalues else r.stackvalues) } := hr'
  refine ⟨?_, ?_, ?_⟩
  · rw [afterPlot_iff, e]
  · rw [e]
  · intro env'' sp g' fmt'
    have hb' : r'.bestmodel.isSome := by
      obtain ⟨b, hb⟩ := Option.isSome_iff_exists.1 hb
      unfold SynthAnalysis.SynthResult.bestmodel at hb ⊢
      rw [e]
      cases rmneg.getD false
      · simp [hb]
      · simp [clipLoop_getElem? hb]
    rw [plothkSynth_fst env'' r' (by rw [e]; exact hv) hb' sp g' rmneg fmt']
    rw [e]
    cases rmneg.getD false <;> simp [clipLoop_idem]

/-- **C16**, `plothkSeqSynth` (`rmneg` defaults to `False`): the sediment table is
clipped on request; the Moho table, clipped already by `hkSeqSynth`, never changes. -/
theorem c16_plothkSeqSynth {env env' : Env F} {dS dM t : List F} {rp : Scalar F}
    {HS KS : List F} {VpSed : Option (Scalar F)} {w1S w2S w3S : Option F}
    {HM KM : List F} {VpMoho : Option (Scalar F)} {w1M w2M w3M : Option F}
    {r : SynthAnalysis.SeqSynthResult F}
    (h : SynthAnalysis.hkSeqSynth env dS dM t rp HS KS VpSed w1S w2S w3S HM KM VpMoho w1M w2M w3M
      = .ok r)
    (savepath : String) (g : Option (List F)) (rmneg : Option Bool) (format : Option String) :
    let r' := (SynthAnalysis.plothkSeqSynth env' r savepath g rmneg format).1
    AfterPlot (rmneg.getD false) r.stackvalueSed r'.stackvalueSed ∧
    AfterPlot (rmneg.getD false) r.stackvalueMoho r'.stackvalueMoho ∧
    r' = { r with stackvalueSed := r'.stackvalueSed } ∧
    ∀ (env'' : Env F) (savepath' : String) (g' : Option (List F)) (format' : Option String),
      (SynthAnalysis.plothkSeqSynth env'' r' savepath' g' rmneg format').1 = r' := by
  intro r'
  obtain ⟨hv, _, hb, hb2, hcl⟩ := seqSynth_facts h
  have e : r' = { r with stackvalueSed :=
      (if rmneg.getD false then clipLoop r.stackvalueSed else r.stackvalueSed) } :=
    plothkSeqSynth_fst env' r hv hb hb2 hcl savepath g rmneg format
  refine ⟨?_, ?_, ?_, ?_⟩
  · rw [afterPlot_iff, e]
  · rw [afterPlot_iff, e]
    cases rmneg.getD false <;> simp [hcl]
  · rw [e]
  · intro env'' sp g' fmt'
    have hb' : r'.bestmodelSed.isSome := by
      obtain ⟨b, hb⟩ := Option.isSome_iff_exists.1 hb
      unfold SynthAnalysis.SeqSynthResult.bestmodelSed at hb ⊢
      rw [e]
      cases rmneg.getD false
      · simp [hb]
      · simp [clipLoop_getElem? hb]
    rw [plothkSeqSynth_fst env'' r' (by rw [e]; exact hv) hb' (by rw [e]; exact hb2)
      (by rw [e]; exact hcl) sp g' rmneg fmt']
    rw [e]
    cases rmneg.getD false <;> simp [clipLoop_idem]

theorem slow_of_forall2 {st st' : List (Trace F)}
    {P : Trace F → Trace F → Prop} (h : List.Forall₂ P st st')
    (hP : ∀ a b, P a b → b.slowness = a.slowness) (hs : ∀ tr ∈ st, tr.slowness.isSome) :
    ∀ tr ∈ st', tr.slowness.isSome := by
  induction h with
  | nil => simp
  | cons h1 _ ih =>
    intro tr htr
    rcases List.mem_cons.1 htr with rfl | htr
    · rw [hP _ _ h1]; exact hs _ (by simp)
    · exact ih (fun a ha => hs a (by simp [ha])) tr htr

theorem plotSeqhk_fst (env' : Env F) (r : HkSeqYeck.SeqResult F) (hp : SeqPlottable r)
    (savepath : String) (g : Option (List F)) (rmneg : Option Bool) (format : Option String) :
    SeqPlottable (HkSeqYeck.plotSeqhk env' r savepath g rmneg format).1 ∧
    ∃ rs rm, (HkSeqYeck.plotSeqhk env' r savepath g rmneg format).1 = { r with
      stackvalueSed := (if rmneg.getD true then clipLoop r.stackvalueSed else r.stackvalueSed),
      RFSed := rs, RFMoho := rm } := by
  obtain ⟨b, hb⟩ := Option.isSome_iff_exists.1 hp.bestS
  obtain ⟨b2, hb2⟩ := Option.isSome_iff_exists.1 hp.bestM
  unfold HkSeqYeck.plotSeqhk
  simp only [hb, hb2]
  have h1 := plotSed_fst env' r b hp savepath
    (g.getD [ofNat 75, ofNat 10, ofNat 15, dec 25 1]) (rmneg.getD true) (format.getD "pdf")
  generalize HkSeqYeck.plotSed env' r b savepath
    (g.getD [ofNat 75, ofNat 10, ofNat 15, dec 25 1]) (rmneg.getD true) (format.getD "pdf")
    = p1 at h1
  obtain ⟨r1, o1⟩ := p1
  simp only at h1
  have hp1 : SeqPlottable r1 := by
    subst h1
    refine ⟨?_, hp.bestM, hp.vpS, hp.vpM, ?_, hp.slowM, hp.clip⟩
    · unfold HkSeqYeck.SeqResult.bestmodelSed at hb ⊢
      cases rmneg.getD true
      · simp [hb]
      · simp [clipLoop_getElem? hb]
    · simp only
      cases r.stack
      · have := (seq_annotate_snd (env := env')
          (times := fun kd rp => HkSeqYeck.sedTimes r.VpSed kd rp b.h b.k)
          (k1 := "tpsSed") (k2 := "tpppsSed") (k3 := "tpspsSed") r.RFSed (by
            intro tr htr
            obtain ⟨sl, hsl⟩ := Option.isSome_iff_exists.1 (hp.slowS tr htr)
            obtain ⟨ts, hts⟩ := sedTimes_total hp.vpS sl.kind (env'.km2deg1 * sl.val) b.h b.k
            exact ⟨sl, ts, hsl, hts⟩)).2
        refine slow_of_forall2 this ?_ hp.slowS
        rintro a b ⟨sl, ts, _, _, rfl⟩
        exact stamp_slowness ..
      · simpa using hp.slowS
  cases o1 with
  | error e => exact ⟨hp1, _, _, h1⟩
  | ok fig =>
    simp only
    have h2 := plotMoho_fst env' r1 b b2 hp1 savepath
      (g.getD [ofNat 75, ofNat 10, ofNat 15, dec 25 1]) (rmneg.getD true) (format.getD "pdf")
    generalize HkSeqYeck.plotMoho env' r1 b b2 savepath
      (g.getD [ofNat 75, ofNat 10, ofNat 15, dec 25 1]) (rmneg.getD true) (format.getD "pdf")
      = p2 at h2
    obtain ⟨r2, o2⟩ := p2
    simp only at h2
    have hp2 : SeqPlottable r2 := by
      obtain ⟨vm, hvm, hvok⟩ := hp1.vpM
      subst h2
      refine ⟨hp1.bestS, hp1.bestM, hp1.vpS, hp1.vpM, hp1.slowS, ?_, hp1.clip⟩
      simp only
      cases r1.stack
      · have := (seq_annotate_snd (env := env')
          (times := fun kd rp => HkSeqYeck.mohoTimes r1.VpSed r1.VpMoho kd rp b.h b.k b2.h b2.k)
          (k1 := "tpsMoho") (k2 := "tpppsMoho") (k3 := "tpspsMoho") r1.RFMoho (by
            intro tr htr
            obtain ⟨sl, hsl⟩ := Option.isSome_iff_exists.1 (hp1.slowM tr htr)
            obtain ⟨ts, hts⟩ := mohoTimes_total hp1.vpS hvok sl.kind (env'.km2deg1 * sl.val)
              b.h b.k b2.h b2.k
            exact ⟨sl, ts, hsl, by rw [hvm]; exact hts⟩)).2
        refine slow_of_forall2 this ?_ hp1.slowM
        rintro a b ⟨sl, ts, _, _, rfl⟩
        exact stamp_slowness ..
      · simpa using hp1.slowM
    have : ∃ rs rm, r2 = { r with
        stackvalueSed := (if rmneg.getD true then clipLoop r.stackvalueSed else r.stackvalueSed),
        RFSed := rs, RFMoho := rm } := by
      rw [h2, h1]; exact ⟨_, _, rfl⟩
    cases o2 <;> exact ⟨hp2, this⟩

/-- **C16**, `plotSeqhk` (`rmneg` defaults to `True`). -/
theorem c16_plotSeqhk {env env' : Env F} {stS stM : List (Trace F)} {preonset : F}
    {HS KS : List F} {VpSed : Option (Scalar F)} {w1S w2S w3S : Option F}
    {HM KM : List F} {VpMoho : Option (Scalar F)} {w1M w2M w3M : Option F} {stack : Option Bool}
    {r : HkSeqYeck.SeqResult F}
    (h : HkSeqYeck.hkSeq env stS stM preonset HS KS VpSed w1S w2S w3S HM KM VpMoho w1M w2M w3M stack
      = .ok r)
    (savepath : String) (g : Option (List F)) (rmneg : Option Bool) (format : Option String) :
    let r' := (HkSeqYeck.plotSeqhk env' r savepath g rmneg format).1
    AfterPlot (rmneg.getD true) r.stackvalueSed r'.stackvalueSed ∧
    AfterPlot (rmneg.getD true) r.stackvalueMoho r'.stackvalueMoho ∧
    r' = { r with stackvalueSed := r'.stackvalueSed, RFSed := r'.RFSed, RFMoho := r'.RFMoho } ∧
    ∀ (env'' : Env F) (savepath' : String) (g' : Option (List F)) (format' : Option String),
      let r'' := (HkSeqYeck.plotSeqhk env'' r' savepath' g' rmneg format').1
      r''.stackvalueSed = r'.stackvalueSed ∧ r''.stackvalueMoho = r'.stackvalueMoho := by
  have hp := hkSeq_plottable h
  intro r'
  obtain ⟨hp', rs, rm, e⟩ := plotSeqhk_fst env' r hp savepath g rmneg format
  have e : r' = _ := e
  refine ⟨?_, ?_, ?_, ?_⟩
  · rw [afterPlot_iff, e]
  · rw [afterPlot_iff, e]
    cases rmneg.getD true <;> simp [hp.clip]
  · rw [e]
  · intro env'' sp g' fmt'
    obtain ⟨_, rs', rm', e'⟩ := plotSeqhk_fst env'' r' hp' sp g' rmneg fmt'
    simp only
    rw [e', e]
    cases rmneg.getD true <;> simp [clipLoop_idem]

end generic

/-- **C16**, best model: the entry `bestmodel`, being a view of its row, keeps `H` and
`K`; its value becomes `max(S, 0)`, and no row of the clipped table exceeds it. -/
theorem c16_bestmodel {env env' : Env ℝ} {st : List (Trace ℝ)} {preonset : ℝ} {H K : List ℝ}
    {Vp : Option (Scalar ℝ)} {w1 w2 w3 : Option ℝ} {layer : Option String}
    {stack : Option Bool} {r : HKResult ℝ}
    (h : hk env st preonset H K Vp w1 w2 w3 layer stack = .ok r)
    (savepath : String) (g : Option (List ℝ)) (format : Option String) :
    let r' := (plothk env' r savepath g (some true) format).1
    ∃ b, r.bestmodel = some b ∧ r'.bestmodel = some ⟨b.h, b.k, max b.s 0⟩ ∧
      ∀ row ∈ r'.stackvalues, row.s ≤ max b.s 0 := by
  intro r'
  obtain ⟨h1, h2, _⟩ := c16_plothk (env' := env') h savepath g (some true) format
  obtain ⟨tr0, rest, slows, f⟩ := hk_inv h
  have hm := argmax_firstMax (fun _ _ => rfl) f.hbest
  obtain ⟨x, hx, hmax, _⟩ := hm
  rw [List.getElem?_map, Option.map_eq_some_iff] at hx
  obtain ⟨b, hb, rfl⟩ := hx
  have hc : r'.stackvalues = clipLoop r.stackvalues := clippedFrom_iff.1 (h1.1 rfl)
  have hi : r'.bestIdx = r.bestIdx := by
    have h2 : r' = _ := h2
    rw [h2]
  refine ⟨b, hb, ?_, ?_⟩
  · show r'.stackvalues[r'.bestIdx]? = _
    rw [hi, hc, clipLoop_getElem? hb, clipRow_real]
  · intro row hrow
    rw [hc, clipLoop_eq] at hrow
    obtain ⟨old, hold, rfl⟩ := List.mem_map.1 hrow
    rw [clipRow_real]
    obtain ⟨n, hn, rfl⟩ := List.getElem_of_mem hold
    have := hmax n (r.stackvalues[n]).s (by simp [hn])
    rw [real_le] at this
    exact max_le_max_right 0 this

/-! ## C17: plotted arrival times -/

/-- the three Zhu & Kanamori delay times, as drawn -/
noncomputable def zkMarks (p Vp H K : ℝ) : PyNum ℝ × PyNum ℝ × PyNum ℝ :=
  (.real (tPs p Vp H K), .real (tPpPs p Vp H K), .real (tPsPs p Vp H K))

theorem bestTimes_real {Vp : Scalar ℝ} {kd : Kind} {p x k : ℝ} (hVp : Vp.val ≠ 0)
    (hpre : p ^ 2 ≤ (1 / Vp.val) ^ 2) : bestTimes Vp kd p x k = .ok (zkMarks p Vp.val x k) := by
  unfold bestTimes zkMarks
  simp only [oneOver_real hVp, except_ok_bind, except_pure]
  rw [powHalfK_real_nonneg (by simpa using hpre)]
  simp only [PyNum.rmul, PyNum.rsub, PyNum.radd, tPs, tPpPs, tPsPs, eta_ratio, eta_one _ Vp.val,
    real_powHalf, real_square, real_two]
  rw [mul_comm x 2]

theorem stamp_get {F : Type} [PyFloat F] {k1 k2 k3 : String} (h12 : k1 ≠ k2) (h13 : k1 ≠ k3)
    (h23 : k2 ≠ k3) (ts : PyNum F × PyNum F × PyNum F) (tr : Trace F) :
    (stamp k1 k2 k3 ts tr).extra k1 = some ts.1 ∧ (stamp k1 k2 k3 ts tr).extra k2 = some ts.2.1 ∧
    (stamp k1 k2 k3 ts tr).extra k3 = some ts.2.2 ∧
    ∀ k, k ≠ k1 → k ≠ k2 → k ≠ k3 → (stamp k1 k2 k3 ts tr).extra k = tr.extra k := by
  unfold stamp Trace.setStat
  refine ⟨by simp [h12, h13], by simp [h23], by simp, ?_⟩
  intro k a b c
  simp [a, b, c]

/-- **C17**, without stacking: after `plothk` (whether or not drawing fails) every
trace of the user's stream carries the delay times of the best model for its own ray
parameter in `tps`, `tppps`, `tpsps`; nothing else in it changed; and if a figure is
produced, its second and third panel show these times for every trace, at the trace's
back azimuth and distance. -/
theorem c17_unstacked {env : Env ℝ} {st : List (Trace ℝ)} {preonset : ℝ} {H K : List ℝ}
    {Vp : Scalar ℝ} {w1 w2 w3 : Option ℝ} {layer : Option String} {r : HKResult ℝ}
    (h : hk env st preonset H K (some Vp) w1 w2 w3 layer (some false) = .ok r)
    (hVp : Vp.val ≠ 0)
    (hpre : ∀ tr ∈ st, ∀ sl, tr.slowness = some sl →
      (env.km2deg1 * sl.val) ^ 2 ≤ (1 / Vp.val) ^ 2)
    (savepath : String) (g : Option (List ℝ)) (rmneg : Option Bool) (format : Option String) :
    let r' := (plothk env r savepath g rmneg format).1
    ∃ b, r.bestmodel = some b ∧ r'.RF.length = st.length ∧
      (∀ (m : Nat) (tr : Trace ℝ) (sl : Scalar ℝ), st[m]? = some tr → tr.slowness = some sl →
        let marks := zkMarks (env.km2deg1 * sl.val) Vp.val b.h b.k
        (∃ tr', r'.RF[m]? = some tr' ∧
          tr'.extra "tps" = some marks.1 ∧ tr'.extra "tppps" = some marks.2.1 ∧
          tr'.extra "tpsps" = some marks.2.2 ∧
          (∀ key, key ≠ "tps" → key ≠ "tppps" → key ≠ "tpsps" → tr'.extra key = tr.extra key) ∧
          { tr' with extra := tr.extra } = tr) ∧
        ∀ fig, (plothk env r savepath g rmneg format).2 = .ok fig →
          fig.panel2.length = st.length ∧ fig.panel3.length = st.length ∧
          fig.bestH = b.h ∧ fig.bestK = b.k ∧ fig.table = r'.stackvalues ∧
          ∃ c2 c3, fig.panel2[m]? = some c2 ∧ fig.panel3[m]? = some c3 ∧
            c2.marks = marks ∧ c3.marks = marks ∧
            tr.backAzimuth = some c2.level ∧ tr.distance = some c3.level) := by
  intro r'
  have hp := hk_plottable h
  obtain ⟨tr0, rest, slows, f⟩ := hk_inv h
  obtain ⟨b, times, hb, _, he⟩ := plothk_eq env r hp savepath g rmneg format
  have hstk : r.stack = false := f.hstk
  have hVp' : r.Vp = Vp := f.hVp
  have hann := annotate_ok (env := env) (x := b.h) (k := b.k) hp.vp r.RF hp.slow
  have hRF : r'.RF = (annotate env r.Vp b.h b.k r.RF).1 := by
    show (plothk env r savepath g rmneg format).1.RF = _
    rw [he]; simp [hstk]
  refine ⟨b, hb, ?_, ?_⟩
  · rw [hRF, ← hann.2.length_eq, f.hRF]
  · intro m tr sl hm hsl marks
    have hfa := hann.2
    rw [← hRF, f.hRF] at hfa
    have hmlt : m < st.length := (List.getElem?_eq_some_iff.1 hm).1
    have hmlt' : m < r'.RF.length := by rw [← hfa.length_eq]; exact hmlt
    have htrm : st[m] = tr := (List.getElem?_eq_some_iff.1 hm).2
    obtain ⟨ts, hts, hst⟩ := List.Forall₂.get hfa hmlt hmlt'
    simp only [List.get_eq_getElem, htrm] at hts hst
    have hts2 : ts = marks := by
      unfold timesOf at hts
      rw [getSlowness_ok.2 hsl, except_ok_bind, hVp',
        bestTimes_real hVp (hpre tr (List.mem_of_getElem? hm) sl hsl)] at hts
      exact (Except.ok.inj hts).symm
    subst hts2
    obtain ⟨g1, g2, g3, g4⟩ := stamp_get (k1 := "tps") (k2 := "tppps") (k3 := "tpsps")
      (by decide) (by decide) (by decide) marks tr
    refine ⟨⟨r'.RF[m], by simp [hmlt'], by rw [hst]; exact g1, by rw [hst]; exact g2,
      by rw [hst]; exact g3, by rw [hst]; exact g4, by rw [hst]; rfl⟩, ?_⟩
    intro fig hfig
    have hr' : (plothk env r savepath g rmneg format).2 = figure env r' b none savepath
        (g.getD [ofNat 75, ofNat 10, ofNat 15, dec 25 1]) (format.getD "pdf") := by
      show _ = figure env (plothk env r savepath g rmneg format).1 b none savepath
        (g.getD [ofNat 75, ofNat 10, ofNat 15, dec 25 1]) (format.getD "pdf")
      rw [he]; simp [hstk]
    rw [hr'] at hfig
    unfold figure at hfig
    obtain ⟨_, _, hfig⟩ := bind_eq_ok.1 hfig
    obtain ⟨_, _, hfig⟩ := bind_eq_ok.1 hfig
    obtain ⟨_, _, hfig⟩ := bind_eq_ok.1 hfig
    simp only at hfig
    obtain ⟨p2, hp2, hfig⟩ := bind_eq_ok.1 hfig
    split at hfig
    · cases hfig
    · cases hfig
    · rename_i lim hlim hl
      obtain ⟨p3, hp3, hfig⟩ := bind_eq_ok.1 hfig
      obtain ⟨_, _, hfig⟩ := bind_eq_ok.1 hfig
      cases hfig
      have hm' : r'.RF[m]? = some r'.RF[m] := by simp [hmlt']
      obtain ⟨c2, hc2, hd2⟩ := mapM_getElem hp2 hm'
      obtain ⟨c3, hc3, hd3⟩ := mapM_getElem hp3 hm'
      have drawn : ∀ (lim : Option (Int × Int)) (level : Option ℝ) (g : List ℝ) (i j : Nat)
          (c : Curve ℝ), drawTrace lim level g i j r'.RF[m] = .ok c →
          c.marks = marks ∧ level = some c.level := by
        intro lim level g i j c hc
        unfold drawTrace at hc
        obtain ⟨lev, hlev, hc⟩ := bind_eq_ok.1 hc
        obtain ⟨_, _, hc⟩ := bind_eq_ok.1 hc
        obtain ⟨t1, ht1, hc⟩ := bind_eq_ok.1 hc
        obtain ⟨t2, ht2, hc⟩ := bind_eq_ok.1 hc
        obtain ⟨t3, ht3, hc⟩ := bind_eq_ok.1 hc
        obtain ⟨g0, hg0, hc⟩ := bind_eq_ok.1 hc
        rw [hst] at ht1 ht2 ht3
        simp only [Trace.getStat, g1, g2, g3] at ht1 ht2 ht3
        cases ht1; cases ht2; cases ht3
        cases lim with
        | none => cases hc
        | some lim =>
          simp only [except_pure] at hc
          obtain ⟨g1', hg1', hc⟩ := bind_eq_ok.1 hc
          cases hc
          refine ⟨rfl, ?_⟩
          cases level with
          | none => cases hlev
          | some l => cases hlev; rfl
      obtain ⟨a1, a2⟩ := drawn _ _ _ _ _ _ hd2
      obtain ⟨b1, b2⟩ := drawn _ _ _ _ _ _ hd3
      refine ⟨?_, ?_, rfl, rfl, rfl, c2, c3, hc2, hc3, a1, b1, ?_, ?_⟩
      · show p2.length = _
        rw [mapM_length hp2, ← hfa.length_eq]
      · show p3.length = _
        rw [mapM_length hp3, ← hfa.length_eq]
      · rw [← a2, hst]; rfl
      · rw [← b2, hst]; rfl

/-- **C17**, with stacking: the user's traces are not touched, and a figure shows one
curve with the delay times of the best model for the mean slowness. -/
theorem c17_stacked {env : Env ℝ} {st : List (Trace ℝ)} {preonset : ℝ} {H K : List ℝ}
    {Vp : Scalar ℝ} {w1 w2 w3 : Option ℝ} {layer : Option String} {r : HKResult ℝ}
    (h : hk env st preonset H K (some Vp) w1 w2 w3 layer (some true) = .ok r)
    (hVp : Vp.val ≠ 0)
    (savepath : String) (g : Option (List ℝ)) (rmneg : Option Bool) (format : Option String) :
    (plothk env r savepath g rmneg format).1.RF = st ∧
    ∃ b avg, r.bestmodel = some b ∧ avg = (st.map slownessOf).sum / st.length ∧
      ((env.km2deg1 * avg) ^ 2 ≤ (1 / Vp.val) ^ 2 →
        ∀ fig, (plothk env r savepath g rmneg format).2 = .ok fig →
          fig.bestH = b.h ∧ fig.bestK = b.k ∧ fig.panel3 = [] ∧
          ∃ c, fig.panel2 = [c] ∧ c.axis = r.time ∧
            c.marks = zkMarks (env.km2deg1 * avg) Vp.val b.h b.k) := by
  have hp := hk_plottable h
  obtain ⟨tr0, rest, slows, f⟩ := hk_inv h
  obtain ⟨b, times, hb, ht, he⟩ := plothk_eq env r hp savepath g rmneg format
  have hstk : r.stack = true := f.hstk
  have hVp' : r.Vp = Vp := f.hVp
  refine ⟨by rw [he]; simp [hstk, f.hRF], b, _, hb, rfl, ?_⟩
  intro hpre fig hfig
  have havg : r.AvgSlow = (st.map slownessOf).sum / st.length := by
    rw [f.havg]; exact avgSlow_eq f.hslow
  rw [hVp', havg, bestTimes_real hVp hpre] at ht
  cases ht
  rw [he] at hfig
  simp only [hstk, if_true] at hfig
  unfold figure at hfig
  obtain ⟨_, _, hfig⟩ := bind_eq_ok.1 hfig
  obtain ⟨_, _, hfig⟩ := bind_eq_ok.1 hfig
  obtain ⟨_, _, hfig⟩ := bind_eq_ok.1 hfig
  simp only at hfig
  obtain ⟨g0, _, hfig⟩ := bind_eq_ok.1 hfig
  split at hfig
  · cases hfig
  · obtain ⟨_, _, hfig⟩ := bind_eq_ok.1 hfig
    obtain ⟨g1, _, hfig⟩ := bind_eq_ok.1 hfig
    obtain ⟨_, _, hfig⟩ := bind_eq_ok.1 hfig
    cases hfig
    exact ⟨rfl, rfl, rfl, _, rfl, rfl, rfl⟩

/-! ## C18: unknown layer names fail late -/

section c18
variable {F : Type} [PyFloat F]

/-- **C18**: the layer name has no influence on `hk` beyond being stored. -/
theorem c18_hk_accepts_any {env : Env F} {st : List (Trace F)} {preonset : F} {H K : List F}
    {Vp : Option (Scalar F)} {w1 w2 w3 : Option F} {layer : Option String}
    {stack : Option Bool} {r : HKResult F}
    (h : hk env st preonset H K Vp w1 w2 w3 layer stack = .ok r) (name : String) :
    hk env st preonset H K Vp w1 w2 w3 (some name) stack = .ok { r with layer := name } := by
  unfold hk at h ⊢
  obtain ⟨stk, h1, h⟩ := bind_eq_ok.1 h
  obtain ⟨sd, h2, h⟩ := bind_eq_ok.1 h
  obtain ⟨slows, h3, h⟩ := bind_eq_ok.1 h
  obtain ⟨tr0, h4, h⟩ := bind_eq_ok.1 h
  obtain ⟨tb, h5, h⟩ := bind_eq_ok.1 h
  obtain ⟨best, h6, h⟩ := bind_eq_ok.1 h
  obtain ⟨u, h7, h⟩ := bind_eq_ok.1 h
  cases h
  simp only [h1, h2, h3, h4, h5, h6, h7, except_ok_bind, except_pure]
  rfl

/-- **C18**: `plothk` produces a figure only for the two known layers. -/
theorem c18_only_known_layers {env : Env F} {r : HKResult F} {savepath : String}
    {g : Option (List F)} {rmneg : Option Bool} {format : Option String} {fig : Figure F}
    (h : (plothk env r savepath g rmneg format).2 = .ok fig) :
    r.layer = "Moho" ∨ r.layer = "Sed" := by
  by_contra hne
  rw [not_or] at hne
  have hl : layerLimits r.layer = none := by simp [layerLimits, hne.1, hne.2]
  have hfig : ∀ (r2 : HKResult F) b ts sp g fmt, r2.layer = r.layer →
      figure env r2 b ts sp g fmt ≠ .ok fig := by
    intro r2 b ts sp g fmt hlay hf
    unfold figure at hf
    rw [hlay, hl] at hf
    obtain ⟨_, _, hf⟩ := bind_eq_ok.1 hf
    obtain ⟨_, _, hf⟩ := bind_eq_ok.1 hf
    obtain ⟨_, _, hf⟩ := bind_eq_ok.1 hf
    simp only at hf
    cases ts with
    | some ts =>
      obtain ⟨_, _, hf⟩ := bind_eq_ok.1 hf
      cases hf
    | none =>
      obtain ⟨_, _, hf⟩ := bind_eq_ok.1 hf
      split at hf <;> simp_all
  unfold plothk at h
  simp only at h
  split at h
  · cases h
  · rename_i bmod hb
    split at h
    · cases h
    · rename_i r2 ts hr2
      refine hfig _ _ _ _ _ _ ?_ h
      have : r2.layer = r.layer := by
        split at hr2
        · have := congrArg Prod.fst hr2; simp only at this; rw [← this]
        · have := congrArg Prod.fst hr2; simp only at this; rw [← this]
      split <;> exact this

/-- **C18**: for every other layer name `plothk`, if the contour plot can be drawn and
the first trace has a back azimuth, raises `UnboundLocalError`; the table is clipped
and the traces are annotated by then. -/
theorem c18_unknown_layer {env env' : Env F} {st : List (Trace F)} {preonset : F} {H K : List F}
    {Vp : Option (Scalar F)} {w1 w2 w3 : Option F} {name : String}
    {stack : Option Bool} {r : HKResult F}
    (h : hk env st preonset H K Vp w1 w2 w3 (some name) stack = .ok r)
    (hname : name ≠ "Moho" ∧ name ≠ "Sed")
    (hdraw : ∀ tb, env'.draw tb = .ok ())
    (hbaz : ∀ tr ∈ st, tr.backAzimuth.isSome)
    (savepath : String) (rmneg : Option Bool) (format : Option String) :
    let out := plothk env' r savepath none rmneg format
    out.2 = .error .unboundLocalError ∧
    AfterPlot (rmneg.getD true) r.stackvalues out.1.stackvalues ∧
    (r.stack = false → ∀ tr ∈ out.1.RF,
      (tr.extra "tps").isSome ∧ (tr.extra "tppps").isSome ∧ (tr.extra "tpsps").isSome) := by
  intro out
  have hp := hk_plottable h
  obtain ⟨tr0, rest, slows, f⟩ := hk_inv h
  obtain ⟨b, times, hb, ht, he⟩ := plothk_eq env' r hp savepath none rmneg format
  have hl : layerLimits r.layer = none := by
    rw [f.hlayer]; simp [layerLimits, hname.1, hname.2]
  have hann := annotate_ok (env := env') (x := b.h) (k := b.k) hp.vp r.RF hp.slow
  have hons : ∀ tr ∈ r.RF, tr.onset.isSome := by
    obtain ⟨k, x, s, _, _, hv⟩ := gridLoop_ne f.hgrid f.hbest
    rw [cell_eq] at hv
    obtain ⟨xs, hxs, _⟩ := bind_eq_ok.1 hv
    intro tr htr
    rw [f.hRF] at htr
    obtain ⟨m, hm, rfl⟩ := List.getElem_of_mem htr
    obtain ⟨y, _, hy⟩ := mapM_getElem hxs (i := m) (x := st[m]) (by simp [hm])
    obtain ⟨o, _, ho, _⟩ := traceTerm_ok_header hy
    simp [ho]
  refine ⟨?_, (c16_plothk (env' := env') h savepath none rmneg format).1, ?_⟩
  · show (plothk env' r savepath none rmneg format).2 = _
    rw [he]
    simp only
    obtain ⟨lh, hlh⟩ : ∃ l, axisLimits r.H = .ok l := by
      obtain ⟨k, x, s, _, hx, _⟩ := gridLoop_ne f.hgrid f.hbest
      rw [f.hH]
      exact axisLimits_total hx
    obtain ⟨lk, hlk⟩ : ∃ l, axisLimits r.K = .ok l := by
      obtain ⟨k, x, s, hk, _, _⟩ := gridLoop_ne f.hgrid f.hbest
      rw [f.hK]
      exact axisLimits_total hk
    unfold figure
    simp only [hdraw, except_ok_bind, hl, hlh, hlk]
    cases hs : r.stack
    · simp only [Bool.false_eq_true, if_false]
      rw [f.hRF, f.hst] at hann ⊢
      have ht0 : ∃ rest', (annotate env' r.Vp b.h b.k (tr0 :: rest)).1
          = (annotate env' r.Vp b.h b.k [tr0]).1 ++ rest' ∧
          ∃ ts, (annotate env' r.Vp b.h b.k [tr0]).1 = [stamp "tps" "tppps" "tpsps" ts tr0] := by
        obtain ⟨sl, hsl⟩ := Option.isSome_iff_exists.1
          (hp.slow tr0 (by rw [f.hRF, f.hst]; simp))
        obtain ⟨ts, hts⟩ : ∃ ts, timesOf env' r.Vp b.h b.k tr0 = .ok ts := by
          unfold timesOf
          rw [getSlowness_ok.2 hsl, except_ok_bind]
          exact bestTimes_total hp.vp ..
        unfold timesOf at hts
        simp only [annotate, hts]
        exact ⟨_, rfl, ts, rfl⟩
      obtain ⟨rest', e1, ts, e2⟩ := ht0
      rw [e1, e2]
      have hmem0 : tr0 ∈ r.RF := by rw [f.hRF, f.hst]; simp
      obtain ⟨o, ho⟩ := Option.isSome_iff_exists.1 (hons tr0 hmem0)
      obtain ⟨z, hz⟩ := Option.isSome_iff_exists.1 (hbaz tr0 (by rw [f.hst]; simp))
      obtain ⟨g1, g2, g3, _⟩ := stamp_get (k1 := "tps") (k2 := "tppps") (k3 := "tpsps")
        (by decide) (by decide) (by decide) ts tr0
      have hd : drawTrace none (stamp "tps" "tppps" "tpsps" ts tr0).backAzimuth
          [ofNat 75, ofNat 10, ofNat 15, dec 25 1] 0 1 (stamp "tps" "tppps" "tpsps" ts tr0)
          = .error .unboundLocalError := by
        unfold drawTrace
        have a1 : (stamp "tps" "tppps" "tpsps" ts tr0).backAzimuth = some z := hz
        have a2 : (stamp "tps" "tppps" "tpsps" ts tr0).onset = some o := ho
        simp only [a1, a2, getAttr, except_ok_bind, Trace.getStat, g1, g2, g3, item]
        rfl
      simp only [Option.getD_none, List.cons_append, List.nil_append, List.mapM_cons, hd]
      rfl
    · simp only [if_true, Option.getD_none]
      rfl
  · intro hs tr htr
    have e : out.1.RF = (annotate env' r.Vp b.h b.k r.RF).1 := by
      show (plothk env' r savepath none rmneg format).1.RF = _
      rw [he]; simp [hs]
    rw [e] at htr
    obtain ⟨m, hm, rfl⟩ := List.getElem_of_mem htr
    have hm' : m < r.RF.length := by rw [hann.2.length_eq]; exact hm
    obtain ⟨ts, _, h2⟩ := List.Forall₂.get hann.2 hm' hm
    simp only [List.get_eq_getElem] at h2
    obtain ⟨g1, g2, g3, _⟩ := stamp_get (k1 := "tps") (k2 := "tppps") (k3 := "tpsps")
      (by decide) (by decide) (by decide) ts r.RF[m]
    rw [h2, g1, g2, g3]
    exact ⟨rfl, rfl, rfl⟩

end c18

/-! ## Non-vacuity: a concrete run meets the hypotheses -/

/-- the two-trace sample stream is plotted, unstacked, with pre-critical times -/
example : ∃ r fig, hk Sample.env Sample.stream 1 [30, 35] [1.7, 1.8, 1.9]
      (some ⟨.py, 6.5⟩) none none none none (some false) = .ok r ∧
    (plothk Sample.env r "fig" none none none).2 = .ok fig ∧ fig.panel2.length = 2 ∧
    (∀ tr ∈ Sample.stream, ∀ sl, tr.slowness = some sl →
      (Sample.env.km2deg1 * sl.val) ^ 2 ≤ (1 / (6.5 : ℝ)) ^ 2) := by
  obtain ⟨r, hr⟩ := sample_ok none none none (some false)
  have hpre : ∀ tr ∈ Sample.stream, ∀ sl, tr.slowness = some sl →
      (Sample.env.km2deg1 * sl.val) ^ 2 ≤ (1 / (6.5 : ℝ)) ^ 2 := by
    intro tr htr sl hsl
    simp [Sample.stream] at htr
    rcases htr with rfl | rfl <;> simp [Sample.trace] at hsl <;> subst hsl <;>
      norm_num [Sample.env]
  have hp := hk_plottable hr
  obtain ⟨tr0, rest, slows, f⟩ := hk_inv hr
  obtain ⟨b, times, hb, ht, he⟩ := plothk_eq Sample.env r hp "fig" none none none
  have hstk : r.stack = false := f.hstk
  have hRF : r.RF = Sample.stream := f.hRF
  have hlay : r.layer = "Moho" := f.hlayer
  have hfig : ∃ fig, (plothk Sample.env r "fig" none none none).2 = .ok fig := by
    rw [he]
    obtain ⟨ts1, h1⟩ : ∃ ts, timesOf Sample.env r.Vp b.h b.k (Sample.trace [0, 1, 3, 2, 0] 6) = .ok ts := by
      unfold timesOf
      exact bestTimes_total hp.vp ..
    obtain ⟨ts2, h2⟩ : ∃ ts, timesOf Sample.env r.Vp b.h b.k (Sample.trace [1, 1, 2, 0, -1] 7) = .ok ts := by
      unfold timesOf
      exact bestTimes_total hp.vp ..
    have e : (annotate Sample.env r.Vp b.h b.k Sample.stream).1
        = [stamp "tps" "tppps" "tpsps" ts1 (Sample.trace [0, 1, 3, 2, 0] 6),
           stamp "tps" "tppps" "tpsps" ts2 (Sample.trace [1, 1, 2, 0, -1] 7)] := by
      unfold timesOf at h1 h2
      simp only [Sample.stream, annotate, h1, h2]
      rfl
    simp only [hstk, hRF, e, Bool.false_eq_true, if_false]
    unfold figure
    simp only [hlay, f.hH, f.hK]
    exact ⟨_, rfl⟩
  obtain ⟨fig, hfig⟩ := hfig
  refine ⟨r, fig, hr, hfig, ?_, hpre⟩
  obtain ⟨b', _, _, h3⟩ := c17_unstacked hr (by norm_num) hpre "fig" none none none
  exact ((h3 0 (Sample.trace [0, 1, 3, 2, 0] 6) ⟨.py, 6⟩ rfl rfl).2 fig hfig).1

/-- an unknown layer name with all the hypotheses of `c18_unknown_layer` -/
example : ∃ r, hk Sample.env Sample.stream 1 [30, 35] [1.7, 1.8, 1.9]
      (some ⟨.py, 6.5⟩) none none none (some "Conrad") none = .ok r ∧
    (plothk Sample.env r "fig" none none none).2 = .error .unboundLocalError := by
  obtain ⟨r, hr⟩ := sample_ok none none none none
  refine ⟨_, c18_hk_accepts_any hr "Conrad", ?_⟩
  refine (c18_unknown_layer (env' := Sample.env) (c18_hk_accepts_any hr "Conrad") ?_ ?_ ?_
    "fig" none none).1
  · decide
  · intro tb; rfl
  · intro tr htr
    simp [Sample.stream] at htr
    rcases htr with rfl | rfl <;> rfl

end Rfsed.Props
