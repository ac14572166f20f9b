import Mathlib.Tactic.IntervalCases
import Verif.Proofs.Seq
import Verif.Spec.Clip
import Verif.Spec.Sample

/-!
# Properties C19–C22, C25 (hkSeq) and C27: sequential stacking
-/

namespace Rfsed.Props
open PyFloat Spec HkZhu HkSeqYeck
set_option linter.unusedSectionVars false

/-! ## C19: what the sequential stack sums over -/

/-- **C19**, what the code computes without stacking: every value of the sediment table
is the weighted sum of the amplitudes of the **last** sediment trace alone. -/
theorem c19_sed_last_trace {env : Env ℝ} {init stM : List (Trace ℝ)} {last : Trace ℝ}
    {preonset : ℝ} {HS KS HM KM : List ℝ} {Vp : Scalar ℝ} {w1 w2 w3 : ℝ}
    {VpMoho : Option (Scalar ℝ)} {w1M w2M w3M : Option ℝ} {sl : Scalar ℝ} {r : SeqResult ℝ}
    (h : hkSeq env (init ++ [last]) stM preonset HS KS (some Vp) (some w1) (some w2) (some w3)
      HM KM VpMoho w1M w2M w3M (some false) = .ok r)
    (hsl : last.slowness = some sl) (hVp : Vp.val ≠ 0)
    (hpre : (env.km2deg1 * sl.val) ^ 2 ≤ (1 / Vp.val) ^ 2) :
    ∀ row ∈ r.stackvalueSed, StackValue w1 w2 w3 last.data r.time
      (tPs (env.km2deg1 * sl.val) Vp.val row.h row.k)
      (tPpPs (env.km2deg1 * sl.val) Vp.val row.h row.k)
      (tPsPs (env.km2deg1 * sl.val) Vp.val row.h row.k) row.s := by
  intro row hrow
  obtain ⟨tr0, rest, slows, bmod, raw, f⟩ := hkSeq_inv h
  obtain ⟨_, _, hv⟩ := gridLoop_row f.hgridS hrow
  have hv := lastTrace_last hv
  obtain ⟨⟨o, ho⟩, _⟩ : (∃ o, last.onset = some o) ∧ True := by
    refine ⟨?_, trivial⟩
    rw [sedTerm_eq] at hv
    obtain ⟨o, h1, _⟩ := bind_eq_ok.1 hv
    unfold Trace.getOnset at h1
    cases ho : last.onset with
    | none => rw [ho] at h1; cases h1
    | some o => exact ⟨o, rfl⟩
  rw [f.hVpSed, f.hstk] at hv
  exact (sedTerm_real (stack := false) ho hsl hVp rfl hpre).1 hv

/-- **C19**, with stacking: every value of the sediment table is the weighted sum of the
stacked sediment receiver function, counted once, at the mean slowness of the
**Moho** stream. -/
theorem c19_sed_stacked {env : Env ℝ} {stS stM : List (Trace ℝ)}
    {preonset : ℝ} {HS KS HM KM : List ℝ} {Vp : Scalar ℝ} {w1 w2 w3 : ℝ}
    {VpMoho : Option (Scalar ℝ)} {w1M w2M w3M : Option ℝ} {r : SeqResult ℝ}
    (h : hkSeq env stS stM preonset HS KS (some Vp) (some w1) (some w2) (some w3)
      HM KM VpMoho w1M w2M w3M (some true) = .ok r)
    (hVp : Vp.val ≠ 0) (hpre : (env.km2deg1 * r.AvgSlow) ^ 2 ≤ (1 / Vp.val) ^ 2) :
    (∃ more, env.stack stS = .ok (r.RFSedStack :: more)) ∧
    ∀ row ∈ r.stackvalueSed, StackValue w1 w2 w3 r.RFSedStack r.time
      (tPs (env.km2deg1 * r.AvgSlow) Vp.val row.h row.k)
      (tPpPs (env.km2deg1 * r.AvgSlow) Vp.val row.h row.k)
      (tPsPs (env.km2deg1 * r.AvgSlow) Vp.val row.h row.k) row.s := by
  obtain ⟨tr0, rest, slows, bmod, raw, f⟩ := hkSeq_inv h
  refine ⟨f.hstackS, ?_⟩
  intro row hrow
  obtain ⟨_, _, hv⟩ := gridLoop_row f.hgridS hrow
  obtain ⟨init, last, _, _, hv⟩ := lastTrace_ok.1 hv
  obtain ⟨o, sl, ho, hsl⟩ : ∃ o sl, last.onset = some o ∧ last.slowness = some sl := by
    rw [sedTerm_eq] at hv
    obtain ⟨o, h1, hv⟩ := bind_eq_ok.1 hv
    obtain ⟨sl, h2, _⟩ := bind_eq_ok.1 hv
    unfold Trace.getOnset at h1
    cases ho : last.onset with
    | none => rw [ho] at h1; cases h1
    | some o => exact ⟨o, sl, rfl, getSlowness_ok.1 h2⟩
  rw [f.hVpSed, f.hstk] at hv
  exact (sedTerm_real (stack := true) ho hsl hVp rfl hpre).1 hv

section generic
variable {F : Type} [PyFloat F]

/-- **C19**: without stacking nothing of the earlier traces matters (for every number
type): two calls whose streams end with the same traces, and whose first sediment
traces give the same time axis, return the same tables and best models. -/
theorem c19_only_last_traces_count {env : Env F} {initS initS' initM initM' : List (Trace F)}
    {lastS lastM : Trace F} {preonset : F} {HS KS : List F} {VpSed : Option (Scalar F)}
    {w1S w2S w3S : Option F} {HM KM : List F} {VpMoho : Option (Scalar F)}
    {w1M w2M w3M : Option F} {r r' : SeqResult F}
    (h : hkSeq env (initS ++ [lastS]) (initM ++ [lastM]) preonset HS KS VpSed w1S w2S w3S HM KM
      VpMoho w1M w2M w3M (some false) = .ok r)
    (h' : hkSeq env (initS' ++ [lastS]) (initM' ++ [lastM]) preonset HS KS VpSed w1S w2S w3S HM KM
      VpMoho w1M w2M w3M (some false) = .ok r')
    (ht : r.time = r'.time) :
    r.stackvalueSed = r'.stackvalueSed ∧ r.bestIdxSed = r'.bestIdxSed ∧
    r.stackvalueMoho = r'.stackvalueMoho ∧ r.bestIdxMoho = r'.bestIdxMoho := by
  obtain ⟨tr0, rest, slows, bmod, raw, f⟩ := hkSeq_inv h
  obtain ⟨tr0', rest', slows', bmod', raw', f'⟩ := hkSeq_inv h'
  have tables : ∀ {K H : List F} {v v' : F → F → Except PyErr F} {tb tb' : List (Row F)},
      gridLoop K H v = .ok tb → gridLoop K H v' = .ok tb' →
      (∀ k x s s', v k x = .ok s → v' k x = .ok s' → s = s') → tb = tb' := by
    intro K H v v' tb tb' g g' hs
    have hcongr : gridLoop K H v = gridLoop K H v' := by
      apply gridLoop_congr
      intro k hk x hx
      obtain ⟨s, e⟩ := gridLoop_value_ok g hk hx
      obtain ⟨s', e'⟩ := gridLoop_value_ok g' hk hx
      rw [e, e', hs k x s s' e e']
    rw [hcongr, g'] at g
    exact (Except.ok.inj g).symm
  have eS : r.stackvalueSed = r'.stackvalueSed := by
    refine tables f.hgridS f'.hgridS ?_
    intro k x s s' e e'
    have e := lastTrace_last e
    have e' := lastTrace_last e'
    rw [sedTerm_eq, f.hstk, f.hVpSed] at e
    rw [sedTerm_eq, f'.hstk, f'.hVpSed, ← ht] at e'
    simp only [Option.getD_some, Bool.false_eq_true, if_false] at e e'
    rw [e] at e'; exact Except.ok.inj e'
  have eI : r.bestIdxSed = r'.bestIdxSed := by
    have h1 := f.hbestS
    rw [eS, f'.hbestS] at h1; exact (Except.ok.inj h1).symm
  have eB : bmod = bmod' := by
    have h1 := f.hrowS
    rw [eS, eI, f'.hrowS] at h1; exact (Option.some.inj h1).symm
  subst eB
  have eM : raw = raw' := by
    refine tables f.hgridM f'.hgridM ?_
    intro k x s s' e e'
    have e := lastTrace_last e
    have e' := lastTrace_last e'
    have key : ∀ (st : List (Trace F)) (sd : List F) (avg : F) (s : F),
        mohoTerm env st r.time sd avg (VpSed.getD ⟨.py, dec 30 1⟩) bmod.h bmod.k VpMoho w1M w2M w3M
          false k x lastM = .ok s →
        mohoTerm env [{ lastM with onset := some zero }] r.time sd zero
          (VpSed.getD ⟨.py, dec 30 1⟩) bmod.h bmod.k VpMoho w1M w2M w3M
          false k x lastM = .ok s := by
      intro st sd avg s hs
      unfold mohoTerm at hs ⊢
      obtain ⟨a, _, hs⟩ := bind_eq_ok.1 hs
      obtain ⟨b, _, hs⟩ := bind_eq_ok.1 hs
      exact hs
    rw [f.hstk, f.hVpSed] at e
    rw [f'.hstk, f'.hVpSed, ← ht] at e'
    have e := key _ _ _ _ e
    have e' := key _ _ _ _ e'
    have hsd : ∀ sd sd' : List F,
        mohoTerm env [{ lastM with onset := some zero }] r.time sd zero
          (VpSed.getD ⟨.py, dec 30 1⟩) bmod.h bmod.k VpMoho w1M w2M w3M false k x lastM
        = mohoTerm env [{ lastM with onset := some zero }] r.time sd' zero
          (VpSed.getD ⟨.py, dec 30 1⟩) bmod.h bmod.k VpMoho w1M w2M w3M false k x lastM := by
      intro sd sd'; rfl
    rw [hsd _ r.RFMohoStack, e] at e'
    exact Except.ok.inj e'
  refine ⟨eS, eI, by rw [f.hclip, f'.hclip, eM], ?_⟩
  have h1 := f.hbestM
  rw [eM, f'.hbestM] at h1; exact (Except.ok.inj h1).symm

end generic

/-! ## C20: Moho times include the sediment delay -/

/-- **C20**: the sums of single-layer delay times satisfy `tPs + tPpPs = tPsPs`, and
reduce to the single-layer times when the sediment has no thickness. -/
theorem c20_times (p VpS K1 H1 VpM x k : ℝ) :
    (tPs p VpS H1 K1 + tPs p VpM x k) + (tPpPs p VpS H1 K1 + tPpPs p VpM x k)
      = tPsPs p VpS H1 K1 + tPsPs p VpM x k ∧
    tPs p VpS 0 K1 + tPs p VpM x k = tPs p VpM x k ∧
    tPpPs p VpS 0 K1 + tPpPs p VpM x k = tPpPs p VpM x k ∧
    tPsPs p VpS 0 K1 + tPsPs p VpM x k = tPsPs p VpM x k := by
  refine ⟨?_, ?_, ?_, ?_⟩ <;> simp only [tPs, tPpPs, tPsPs] <;> ring

/-- Specification of the Moho stage: there is a raw table over the whole Moho grid whose
values are the weighted sums of `data` at the summed delay times of the sediment
model `bS` and the candidate crust; `best` is its first maximum and the returned
table is the raw one with the values `≤ 0` set to `0`. -/
def MohoStage (p VpS VpM w1 w2 w3 : ℝ) (data axis : List ℝ) (bS : Row ℝ) (KM HM : List ℝ)
    (bestIdx : Nat) (table : List (Row ℝ)) : Prop :=
  ∃ raw best, GridTable KM HM raw ∧ BestRow raw bestIdx best ∧ ClippedFrom raw table ∧
    ∀ row ∈ raw, StackValue w1 w2 w3 data axis
      (tPs p VpS bS.h bS.k + tPs p VpM row.h row.k)
      (tPpPs p VpS bS.h bS.k + tPpPs p VpM row.h row.k)
      (tPsPs p VpS bS.h bS.k + tPsPs p VpM row.h row.k) row.s

/-- **C20** (and C19, Moho stage), `hkSeq` without stacking: sums of the delay times of
the best sediment model and the candidate crust, read from the last Moho trace. -/
theorem c20_hkSeq_moho {env : Env ℝ} {stS init : List (Trace ℝ)} {last : Trace ℝ}
    {preonset : ℝ} {HS KS HM KM : List ℝ} {Vp vm : Scalar ℝ} {w1S w2S w3S : Option ℝ}
    {w1 w2 w3 : ℝ} {sl : Scalar ℝ} {r : SeqResult ℝ}
    (h : hkSeq env stS (init ++ [last]) preonset HS KS (some Vp) w1S w2S w3S
      HM KM (some vm) (some w1) (some w2) (some w3) (some false) = .ok r)
    (hsl : last.slowness = some sl) (hVp : Vp.val ≠ 0) (hvm : vm.val ≠ 0)
    (hpre : (env.km2deg1 * sl.val) ^ 2 ≤ (1 / Vp.val) ^ 2)
    (hpre2 : (env.km2deg1 * sl.val) ^ 2 ≤ (1 / vm.val) ^ 2) :
    ∃ bS, r.bestmodelSed = some bS ∧
      MohoStage (env.km2deg1 * sl.val) Vp.val vm.val w1 w2 w3 last.data r.time bS KM HM
        r.bestIdxMoho r.stackvalueMoho := by
  obtain ⟨tr0, rest, slows, bmod, raw, f⟩ := hkSeq_inv h
  obtain ⟨best, hbest⟩ := bestRow_of f.hbestM (fun _ _ => rfl)
  refine ⟨bmod, f.hrowS, raw, best, gridTable_of f.hgridM, hbest,
    clippedFrom_iff.2 f.hclip, ?_⟩
  intro row hrow
  obtain ⟨_, _, hv⟩ := gridLoop_row f.hgridM hrow
  have hv := lastTrace_last hv
  rw [f.hVpSed, f.hstk] at hv
  obtain ⟨m0, o, h0, ho⟩ : ∃ m0 o, (init ++ [last])[0]? = some m0 ∧ m0.onset = some o := by
    rw [mohoTerm_eq] at hv
    obtain ⟨m0, h0, hv⟩ := bind_eq_ok.1 hv
    obtain ⟨o, h1, _⟩ := bind_eq_ok.1 hv
    unfold Trace.getOnset at h1
    cases ho : m0.onset with
    | none => rw [ho] at h1; cases h1
    | some o => exact ⟨m0, o, item_ok.1 h0, ho⟩
  exact (mohoTerm_real (stack := false) h0 ho hsl hVp hvm rfl hpre hpre2).1 hv

/-- **C20**, `hkSeq` with stacking: the stacked Moho receiver function is read at the
times for the mean slowness. -/
theorem c20_hkSeq_moho_stacked {env : Env ℝ} {stS stM : List (Trace ℝ)}
    {preonset : ℝ} {HS KS HM KM : List ℝ} {Vp vm : Scalar ℝ} {w1S w2S w3S : Option ℝ}
    {w1 w2 w3 : ℝ} {r : SeqResult ℝ}
    (h : hkSeq env stS stM preonset HS KS (some Vp) w1S w2S w3S
      HM KM (some vm) (some w1) (some w2) (some w3) (some true) = .ok r)
    (hVp : Vp.val ≠ 0) (hvm : vm.val ≠ 0)
    (hpre : (env.km2deg1 * r.AvgSlow) ^ 2 ≤ (1 / Vp.val) ^ 2)
    (hpre2 : (env.km2deg1 * r.AvgSlow) ^ 2 ≤ (1 / vm.val) ^ 2) :
    (∃ more, env.stack stM = .ok (r.RFMohoStack :: more)) ∧
    ∃ bS, r.bestmodelSed = some bS ∧
      MohoStage (env.km2deg1 * r.AvgSlow) Vp.val vm.val w1 w2 w3 r.RFMohoStack r.time bS KM HM
        r.bestIdxMoho r.stackvalueMoho := by
  obtain ⟨tr0, rest, slows, bmod, raw, f⟩ := hkSeq_inv h
  obtain ⟨best, hbest⟩ := bestRow_of f.hbestM (fun _ _ => rfl)
  refine ⟨f.hstackM, bmod, f.hrowS, raw, best, gridTable_of f.hgridM, hbest,
    clippedFrom_iff.2 f.hclip, ?_⟩
  intro row hrow
  obtain ⟨_, _, hv⟩ := gridLoop_row f.hgridM hrow
  obtain ⟨init, last, _, _, hv⟩ := lastTrace_ok.1 hv
  rw [f.hVpSed, f.hstk] at hv
  obtain ⟨m0, o, sl, h0, ho, hsl⟩ : ∃ m0 o sl, stM[0]? = some m0 ∧ m0.onset = some o ∧
      last.slowness = some sl := by
    rw [mohoTerm_eq] at hv
    obtain ⟨m0, h0, hv⟩ := bind_eq_ok.1 hv
    obtain ⟨o, h1, hv⟩ := bind_eq_ok.1 hv
    obtain ⟨sl, h2, _⟩ := bind_eq_ok.1 hv
    unfold Trace.getOnset at h1
    cases ho : m0.onset with
    | none => rw [ho] at h1; cases h1
    | some o => exact ⟨m0, o, sl, item_ok.1 h0, ho, getSlowness_ok.1 h2⟩
  exact (mohoTerm_real (stack := true) h0 ho hsl hVp hvm rfl hpre hpre2).1 hv

/-- **C20**, `hkSeqSynth`. -/
theorem c20_hkSeqSynth_moho {env : Env ℝ} {dS dM t : List ℝ} {rp : Scalar ℝ}
    {HS KS HM KM : List ℝ} {Vp vm : Scalar ℝ} {w1S w2S w3S : Option ℝ} {w1 w2 w3 : ℝ}
    {r : SynthAnalysis.SeqSynthResult ℝ}
    (h : SynthAnalysis.hkSeqSynth env dS dM t rp HS KS (some Vp) w1S w2S w3S HM KM
      (some vm) (some w1) (some w2) (some w3) = .ok r)
    (hVp : Vp.val ≠ 0) (hvm : vm.val ≠ 0)
    (hpre : rp.val ^ 2 ≤ (1 / Vp.val) ^ 2) (hpre2 : rp.val ^ 2 ≤ (1 / vm.val) ^ 2) :
    ∃ bS, r.bestmodelSed = some bS ∧
      MohoStage rp.val Vp.val vm.val w1 w2 w3 dM t bS KM HM r.bestIdxMoho r.stackvalueMoho := by
  obtain ⟨bmod, raw, f⟩ := hkSeqSynth_inv h
  obtain ⟨best, hbest⟩ := bestRow_of f.hbestM (fun _ _ => rfl)
  refine ⟨bmod, f.hrowS, raw, best, gridTable_of f.hgridM, hbest,
    clippedFrom_iff.2 f.hclip, ?_⟩
  intro row hrow
  obtain ⟨_, _, hv⟩ := gridLoop_row f.hgridM hrow
  rw [f.hVpSed, Option.getD_some, seqMohoCell_eq, mohoTimes_real hVp hvm hpre hpre2,
    except_ok_bind] at hv
  obtain ⟨v, hw, hv⟩ := bind_eq_ok.1 hv
  have : row.s = v := by rw [← Except.ok.inj hv, real_zero, add_zero]
  rw [this]
  exact weigh_real.1 hw

/-- **C20**, sediment stage of `hkSeqSynth`: single-layer stack. -/
theorem c20_hkSeqSynth_sed {env : Env ℝ} {dS dM t : List ℝ} {rp : Scalar ℝ}
    {HS KS HM KM : List ℝ} {Vp : Scalar ℝ} {VpMoho : Option (Scalar ℝ)} {w1 w2 w3 : ℝ}
    {w1M w2M w3M : Option ℝ} {r : SynthAnalysis.SeqSynthResult ℝ}
    (h : SynthAnalysis.hkSeqSynth env dS dM t rp HS KS (some Vp) (some w1) (some w2) (some w3) HM KM
      VpMoho w1M w2M w3M = .ok r)
    (hVp : Vp.val ≠ 0) (hpre : rp.val ^ 2 ≤ (1 / Vp.val) ^ 2) :
    ∀ row ∈ r.stackvalueSed, StackValue w1 w2 w3 dS t (tPs rp.val Vp.val row.h row.k)
      (tPpPs rp.val Vp.val row.h row.k) (tPsPs rp.val Vp.val row.h row.k) row.s := by
  intro row hrow
  obtain ⟨bmod, raw, f⟩ := hkSeqSynth_inv h
  obtain ⟨_, _, hv⟩ := gridLoop_row f.hgridS hrow
  rw [f.hVpSed, Option.getD_some, seqSedCell_eq, synthCell_eq, bestTimes_real hVp hpre,
    except_ok_bind] at hv
  obtain ⟨v, hw, hv⟩ := bind_eq_ok.1 hv
  have : row.s = v := by rw [← Except.ok.inj hv]; simp
  rw [this]
  exact weigh_real.1 hw

/-! ## C21: the returned Moho table -/

/-- **C21**: the Moho table `hkSeq` returns has no negative value (for every stack mode
and all weights); `bestmodelMoho` carries the H and K of the first maximum of an
unclipped table and the value `max(S, 0)`. -/
theorem c21_hkSeq {env : Env ℝ} {stS stM : List (Trace ℝ)} {preonset : ℝ}
    {HS KS : List ℝ} {VpSed : Option (Scalar ℝ)} {w1S w2S w3S : Option ℝ}
    {HM KM : List ℝ} {VpMoho : Option (Scalar ℝ)} {w1M w2M w3M : Option ℝ} {stack : Option Bool}
    {r : SeqResult ℝ}
    (h : hkSeq env stS stM preonset HS KS VpSed w1S w2S w3S HM KM VpMoho w1M w2M w3M stack = .ok r) :
    (∀ row ∈ r.stackvalueMoho, 0 ≤ row.s) ∧
    ∃ raw best, ClippedFrom raw r.stackvalueMoho ∧ BestRow raw r.bestIdxMoho best ∧
      r.bestmodelMoho = some ⟨best.h, best.k, max best.s 0⟩ := by
  obtain ⟨tr0, rest, slows, bmod, raw, f⟩ := hkSeq_inv h
  obtain ⟨best, hbest⟩ := bestRow_of f.hbestM (fun _ _ => rfl)
  refine ⟨?_, raw, best, clippedFrom_iff.2 f.hclip, hbest, ?_⟩
  · intro row hrow
    rw [f.hclip, clipLoop_eq] at hrow
    obtain ⟨row', _, rfl⟩ := List.mem_map.1 hrow
    rw [clipRow_real]; exact le_max_right _ _
  · unfold SeqResult.bestmodelMoho
    rw [f.hclip, clipLoop_getElem? hbest.1, clipRow_real]

/-- **C21**, `hkSeqSynth`. -/
theorem c21_hkSeqSynth {env : Env ℝ} {dS dM t : List ℝ} {rp : Scalar ℝ}
    {HS KS : List ℝ} {VpSed : Option (Scalar ℝ)} {w1S w2S w3S : Option ℝ}
    {HM KM : List ℝ} {VpMoho : Option (Scalar ℝ)} {w1M w2M w3M : Option ℝ}
    {r : SynthAnalysis.SeqSynthResult ℝ}
    (h : SynthAnalysis.hkSeqSynth env dS dM t rp HS KS VpSed w1S w2S w3S HM KM VpMoho w1M w2M w3M
      = .ok r) :
    (∀ row ∈ r.stackvalueMoho, 0 ≤ row.s) ∧
    ∃ raw best, ClippedFrom raw r.stackvalueMoho ∧ BestRow raw r.bestIdxMoho best ∧
      r.bestmodelMoho = some ⟨best.h, best.k, max best.s 0⟩ := by
  obtain ⟨bmod, raw, f⟩ := hkSeqSynth_inv h
  obtain ⟨best, hbest⟩ := bestRow_of f.hbestM (fun _ _ => rfl)
  refine ⟨?_, raw, best, clippedFrom_iff.2 f.hclip, hbest, ?_⟩
  · intro row hrow
    rw [f.hclip, clipLoop_eq] at hrow
    obtain ⟨row', _, rfl⟩ := List.mem_map.1 hrow
    rw [clipRow_real]; exact le_max_right _ _
  · unfold SynthAnalysis.SeqSynthResult.bestmodelMoho
    rw [f.hclip, clipLoop_getElem? hbest.1, clipRow_real]

/-! ## C22: one time axis, one mean slowness -/

theorem mapM_slowness {F : Type} [PyFloat F] {st : List (Trace F)} {slows : List (Scalar F)}
    (hs : st.mapM Trace.getSlowness = .ok slows) :
    st.map (fun tr => tr.slowness.map Scalar.val) = (slows.map Scalar.val).map some := by
  induction st generalizing slows with
  | nil => simp at hs; subst hs; rfl
  | cons tr st ih =>
    rw [List.mapM_cons] at hs
    obtain ⟨s, h1, hs⟩ := bind_eq_ok.1 hs
    obtain ⟨ss, h2, hs⟩ := bind_eq_ok.1 hs
    cases hs
    simp only [List.map_cons, getSlowness_ok.1 h1, Option.map_some, ih h2]

/-- **C22**: the time axis is that of the first sediment trace; the mean slowness is that
of the Moho stream. -/
theorem c22_axis_and_mean {env : Env ℝ} {stS stM : List (Trace ℝ)} {preonset : ℝ}
    {HS KS : List ℝ} {VpSed : Option (Scalar ℝ)} {w1S w2S w3S : Option ℝ}
    {HM KM : List ℝ} {VpMoho : Option (Scalar ℝ)} {w1M w2M w3M : Option ℝ} {stack : Option Bool}
    {r : SeqResult ℝ}
    (h : hkSeq env stS stM preonset HS KS VpSed w1S w2S w3S HM KM VpMoho w1M w2M w3M stack = .ok r) :
    (∃ tr0 rest, stS = tr0 :: rest ∧
      r.time = (List.range tr0.data.length).map (fun i : Nat => tr0.delta * (i : ℝ) - preonset)) ∧
    (∃ slows : List ℝ, stM.map (fun tr => tr.slowness.map Scalar.val) = slows.map some ∧
      r.AvgSlow = slows.sum / slows.length) := by
  obtain ⟨tr0, rest, slows, bmod, raw, f⟩ := hkSeq_inv h
  refine ⟨⟨tr0, rest, f.hst, ?_⟩, slows.map Scalar.val, ?_, ?_⟩
  · rw [f.htime]; simp [timeAxis]
  · exact mapM_slowness f.hslow
  · rw [f.havg, npMean_real]

/-! ## C25: hkSeq succeeds -/

section generic
variable {F : Type} [PyFloat F]

/-- **C25**: `hkSeq` succeeds for any ray parameters when both streams are non-empty and
stackable, all traces have onset and slowness, the data (or the stacks) are at least as
long as the first sediment trace, velocities are divisors, the Moho parameters are
given, grids are non-empty and the preview figures can be drawn. -/
theorem c25_hkSeq_succeeds [IEEEOrder F] {env : Env F} {tr0 : Trace F}
    {rest stM : List (Trace F)} {preonset : F} {HS KS HM KM : List F} {VpSed VpMoho : Scalar F}
    {w1S w2S w3S : Option F} {w1M w2M w3M : F} {stack : Option Bool}
    {dS dM : List F} {moreS moreM : List (List F)}
    (hS : env.stack (tr0 :: rest) = .ok (dS :: moreS)) (hM : env.stack stM = .ok (dM :: moreM))
    (hMne : stM ≠ []) (hlen : tr0.data ≠ [])
    (hhead : ∀ tr ∈ tr0 :: rest ++ stM, (∃ o, tr.onset = some o) ∧ (∃ s, tr.slowness = some s) ∧
      tr0.data.length ≤ tr.data.length)
    (hdS : tr0.data.length ≤ dS.length) (hdM : tr0.data.length ≤ dM.length)
    (hVpS : Divisor VpSed) (hVpM : Divisor VpMoho)
    (hKS : KS ≠ []) (hHS : HS ≠ []) (hKM : KM ≠ []) (hHM : HM ≠ [])
    (hdraw : ∀ tb : List (Row F), tb ≠ [] → env.draw tb = .ok ()) :
    ∃ r, hkSeq env (tr0 :: rest) stM preonset HS KS (some VpSed) w1S w2S w3S HM KM
      (some VpMoho) (some w1M) (some w2M) (some w3M) stack = .ok r := by
  obtain ⟨slows, hslows⟩ := mapM_ok_of_forall (f := Trace.getSlowness) (xs := stM) (by
    intro tr htr
    obtain ⟨_, ⟨s, hs⟩, _⟩ := hhead tr (by simp [htr])
    exact ⟨s, getSlowness_ok.2 hs⟩)
  set t := timeAxis tr0.delta preonset tr0.data.length with ht
  have htlen : t.length = tr0.data.length := timeAxis_length _ _ _
  have htne : t ≠ [] := by
    rw [← List.length_pos_iff, htlen]; exact List.length_pos_iff.2 hlen
  have last : ∀ {term : Trace F → Except PyErr F} {st : List (Trace F)}, st ≠ [] →
      (∀ tr ∈ st, ∃ v, term tr = .ok v) → ∃ v, lastTrace term st = .ok v := by
    intro term st hne hall
    obtain ⟨v, hv⟩ := hall _ (List.getLast_mem hne)
    exact ⟨v, lastTrace_ok.2 ⟨st.dropLast, st.getLast hne, (List.dropLast_append_getLast hne).symm,
      fun tr htr => hall tr (List.dropLast_subset _ htr), hv⟩⟩
  obtain ⟨tb, htb⟩ := gridLoop_total (K := KS) (H := HS)
    (value := fun k x => lastTrace (sedTerm env t dS (npMean (slows.map Scalar.val)) VpSed
      (w1S.getD (dec 6 1)) (w2S.getD (dec 3 1)) (w3S.getD (dec 1 1)) (stack.getD false) k x)
      (tr0 :: rest)) (by
    intro k _ x _
    refine last (by simp) ?_
    intro tr htr
    obtain ⟨⟨o, ho⟩, ⟨s, hs⟩, hl⟩ := hhead tr (List.mem_append_left _ htr)
    rw [sedTerm_eq]
    simp only [Trace.getOnset, ho, getSlowness_ok.2 hs, except_ok_bind]
    obtain ⟨ts, hts⟩ := bestTimes_total (divisor_vpOk hVpS)
      (if stack.getD false then Kind.np else s.kind)
      (if stack.getD false then env.km2deg1 * npMean (slows.map Scalar.val)
        else env.km2deg1 * s.val) x k
    obtain ⟨v, hv⟩ := weigh_total (w1 := w1S.getD (dec 6 1)) (w2 := w2S.getD (dec 3 1))
      (w3 := w3S.getD (dec 1 1)) (d := if stack.getD false then dS else tr.data) htne
      (by split <;> omega) ts
    rw [hts, except_ok_bind, hv]; exact ⟨_, rfl⟩)
  have hpos : 0 < tb.length := by
    rw [(gridLoop_ok htb).1]
    exact Nat.mul_pos (List.length_pos_iff.2 hKS) (List.length_pos_iff.2 hHS)
  obtain ⟨best, hbest⟩ := argmax_ok (xs := tb.map Row.s) (by
    rw [← List.length_pos_iff, List.length_map]; exact hpos)
  obtain ⟨row, hrow⟩ := argmax_bestmodel hbest
  obtain ⟨raw, hraw⟩ := gridLoop_total (K := KM) (H := HM)
    (value := fun k x => lastTrace (mohoTerm env stM t dM (npMean (slows.map Scalar.val)) VpSed
      row.h row.k (some VpMoho) (some w1M) (some w2M) (some w3M) (stack.getD false) k x) stM) (by
    intro k _ x _
    refine last hMne ?_
    intro tr htr
    obtain ⟨m0, rm, rfl⟩ := List.exists_cons_of_ne_nil hMne
    obtain ⟨_, ⟨s, hs⟩, hl⟩ := hhead tr (List.mem_append_right _ htr)
    obtain ⟨⟨o, ho⟩, _, _⟩ := hhead m0 (by simp)
    rw [mohoTerm_eq]
    simp only [item, List.getElem?_cons_zero, Trace.getOnset, ho, getSlowness_ok.2 hs,
      except_ok_bind]
    obtain ⟨ts, hts⟩ := mohoTimes_total (divisor_vpOk hVpS) (divisor_vpOk hVpM)
      (if stack.getD false then Kind.np else s.kind)
      (if stack.getD false then env.km2deg1 * npMean (slows.map Scalar.val)
        else env.km2deg1 * s.val) row.h row.k x k
    obtain ⟨v, hv⟩ := weigh_total (w1 := w1M) (w2 := w2M)
      (w3 := w3M) (d := if stack.getD false then dM else tr.data) htne
      (by split <;> omega) ts
    rw [hts, except_ok_bind, hv]; exact ⟨_, rfl⟩)
  have hpos2 : 0 < raw.length := by
    rw [(gridLoop_ok hraw).1]
    exact Nat.mul_pos (List.length_pos_iff.2 hKM) (List.length_pos_iff.2 hHM)
  obtain ⟨bestM, hbestM⟩ := argmax_ok (xs := raw.map Row.s) (by
    rw [← List.length_pos_iff, List.length_map]; exact hpos2)
  refine ⟨_, hkSeq_of hS hM hslows htb hbest (hdraw tb (List.length_pos_iff.1 hpos)) hrow hraw
    hbestM (hdraw _ ?_)⟩
  rw [← List.length_pos_iff, clipLoop_eq, List.length_map]; exact hpos2

/-! ## C27: one trace per stream -/

/-- **C27** (every number type): with one trace per stream and equal slowness, `hkSeq`
without stacking succeeds with given tables and best models exactly when `hkSeqSynth`
does on the two data arrays, the first trace's time axis and the ray parameter
`kilometer2degrees(1) * slowness`. -/
theorem c27_single_traces {env : Env F} {trS trM : Trace F} {preonset : F}
    {HS KS HM KM : List F} {VpSed VpMoho : Option (Scalar F)}
    {w1S w2S w3S w1M w2M w3M : Option F} {oS oM : F} {sl : Scalar F}
    {dS dM : List F} {moreS moreM : List (List F)}
    (hoS : trS.onset = some oS) (hoM : trM.onset = some oM)
    (hslS : trS.slowness = some sl) (hslM : trM.slowness = some sl)
    (hS : env.stack [trS] = .ok (dS :: moreS)) (hM : env.stack [trM] = .ok (dM :: moreM))
    (tbS tbM : List (Row F)) (iS iM : Nat) :
    (∃ r, hkSeq env [trS] [trM] preonset HS KS VpSed w1S w2S w3S HM KM VpMoho w1M w2M w3M
        (some false) = .ok r ∧ r.stackvalueSed = tbS ∧ r.bestIdxSed = iS ∧
        r.stackvalueMoho = tbM ∧ r.bestIdxMoho = iM) ↔
    (∃ r, SynthAnalysis.hkSeqSynth env trS.data trM.data
        ((List.range trS.data.length).map (fun n => trS.delta * ofNat n - preonset))
        ⟨sl.kind, env.km2deg1 * sl.val⟩ HS KS VpSed w1S w2S w3S HM KM VpMoho w1M w2M w3M = .ok r ∧
        r.stackvalueSed = tbS ∧ r.bestIdxSed = iS ∧
        r.stackvalueMoho = tbM ∧ r.bestIdxMoho = iM) := by
  set t := timeAxis trS.delta preonset trS.data.length with ht
  have ht' : (List.range trS.data.length).map (fun n => trS.delta * ofNat n - preonset) = t := rfl
  rw [ht']
  have one : ∀ (term : Trace F → Except PyErr F) (tr : Trace F),
      lastTrace term [tr] = term tr := by
    intro term tr
    have := lastTrace_snoc term [] tr
    simpa using this
  have cS : ∀ (sd : List F) (avg : F) (V : Scalar F) (a b c : F),
      (fun k x => lastTrace (sedTerm env t sd avg V a b c false k x) [trS])
        = SynthAnalysis.seqSedCell trS.data t ⟨sl.kind, env.km2deg1 * sl.val⟩ V a b c := by
    intro sd avg V a b c
    funext k x
    rw [one, sedTerm_eq, seqSedCell_eq, synthCell_eq]
    simp only [Trace.getOnset, hoS, getSlowness_ok.2 hslS, except_ok_bind, Bool.false_eq_true,
      if_false]
  have cM : ∀ (sd : List F) (avg : F) (V : Scalar F) (x1 k1 : F),
      (fun k x => lastTrace (mohoTerm env [trM] t sd avg V x1 k1 VpMoho w1M w2M w3M false k x) [trM])
        = SynthAnalysis.seqMohoCell trM.data t ⟨sl.kind, env.km2deg1 * sl.val⟩ V x1 k1 VpMoho
            w1M w2M w3M := by
    intro sd avg V x1 k1
    funext k x
    rw [one]
    unfold mohoTerm SynthAnalysis.seqMohoCell
    simp only [item, List.getElem?_cons_zero, Trace.getOnset, hoM, getSlowness_ok.2 hslM,
      except_ok_bind, Bool.false_eq_true, if_false]
    rfl
  have hsl1 : [trM].mapM Trace.getSlowness = .ok [sl] := by
    rw [List.mapM_cons, getSlowness_ok.2 hslM]; rfl
  constructor
  · rintro ⟨r, hr, rfl, rfl, rfl, rfl⟩
    obtain ⟨tr0, rest, slows, bmod, raw, f⟩ := hkSeq_inv hr
    have hst := f.hst; cases hst
    have h1 := f.hgridS
    have h2 := f.hgridM
    rw [f.htime, f.hstk, f.hVpSed, Option.getD_some, cS] at h1
    rw [f.htime, f.hstk, f.hVpSed, Option.getD_some, cM] at h2
    refine ⟨_, hkSeqSynth_of h1 f.hbestS f.hdrawS f.hrowS h2 f.hbestM f.hdrawM, rfl, rfl, ?_, rfl⟩
    rw [f.hclip]
  · rintro ⟨r, hr, rfl, rfl, rfl, rfl⟩
    obtain ⟨bmod, raw, f⟩ := hkSeqSynth_inv hr
    have h1 := f.hgridS
    have h2 := f.hgridM
    rw [f.hVpSed, ← cS dS (npMean [sl.val])] at h1
    rw [f.hVpSed, ← cM dM (npMean [sl.val])] at h2
    refine ⟨_, hkSeq_of hS hM hsl1 (stack := some false) h1 f.hbestS f.hdrawS f.hrowS h2 f.hbestM
      f.hdrawM, rfl, rfl, ?_, rfl⟩
    rw [f.hclip]

/-! ## `None` for the Moho parameters -/

/-- **C25**: `VpMoho` and the Moho weights of `hkSeq` have no default although they are
keyword arguments with default `None`: no call without them succeeds. -/
theorem c25_hkSeq_moho_parameters_required {env : Env F} {stS stM : List (Trace F)} {preonset : F}
    {HS KS : List F} {VpSed : Option (Scalar F)} {w1S w2S w3S : Option F}
    {HM KM : List F} {VpMoho : Option (Scalar F)} {w1M w2M w3M : Option F} {stack : Option Bool}
    (hn : VpMoho = none ∨ w1M = none ∨ w2M = none ∨ w3M = none) :
    ∀ r, hkSeq env stS stM preonset HS KS VpSed w1S w2S w3S HM KM VpMoho w1M w2M w3M stack
      ≠ .ok r := by
  intro r h
  obtain ⟨tr0, rest, slows, bmod, raw, f⟩ := hkSeq_inv h
  obtain ⟨k, x, s, _, _, hv⟩ := gridLoop_ne f.hgridM f.hbestM
  obtain ⟨init, last, _, _, hv⟩ := lastTrace_ok.1 hv
  unfold mohoTerm at hv
  obtain ⟨_, _, hv⟩ := bind_eq_ok.1 hv
  obtain ⟨_, _, hv⟩ := bind_eq_ok.1 hv
  obtain ⟨_, _, hv⟩ := bind_eq_ok.1 hv
  obtain ⟨_, _, hv⟩ := bind_eq_ok.1 hv
  obtain ⟨_, e1, hv⟩ := bind_eq_ok.1 hv
  obtain ⟨_, _, hv⟩ := bind_eq_ok.1 hv
  obtain ⟨_, _, hv⟩ := bind_eq_ok.1 hv
  obtain ⟨_, _, hv⟩ := bind_eq_ok.1 hv
  obtain ⟨_, _, hv⟩ := bind_eq_ok.1 hv
  obtain ⟨_, e2, hv⟩ := bind_eq_ok.1 hv
  obtain ⟨_, e3, hv⟩ := bind_eq_ok.1 hv
  obtain ⟨_, e4, hv⟩ := bind_eq_ok.1 hv
  rcases hn with rfl | rfl | rfl | rfl
  · cases e1
  · cases e2
  · cases e3
  · cases e4

end generic

/-! ## Concrete calls -/

open Sample in
/-- the sample streams: `hkSeq` runs on them in both modes (so the hypotheses `= .ok r`
above are met), pre-critical as required -/
theorem sample_hkSeq (trS : Trace ℝ) (restS : List (Trace ℝ)) (trM : Trace ℝ)
    (restM : List (Trace ℝ)) (hlen : trS.data ≠ [])
    (hh : ∀ tr ∈ trS :: restS ++ trM :: restM, (∃ o, tr.onset = some o) ∧
      (∃ s, tr.slowness = some s) ∧ tr.data.length = trS.data.length)
    {HS KS HM KM : List ℝ} (h1 : KS ≠ []) (h2 : HS ≠ []) (h3 : KM ≠ []) (h4 : HM ≠ [])
    {Vp vm : ℝ} (hVp : Vp ≠ 0) (hvm : vm ≠ 0) (preonset : ℝ) (w1 w2 w3 : Option ℝ) (a b c : ℝ)
    (stack : Option Bool) :
    ∃ r, hkSeq env (trS :: restS) (trM :: restM) preonset HS KS (some ⟨.py, Vp⟩) w1 w2 w3 HM KM
      (some ⟨.py, vm⟩) (some a) (some b) (some c) stack = .ok r := by
  have hM : trM.data.length = trS.data.length := (hh trM (by simp)).2.2
  refine c25_hkSeq_succeeds (dS := _) (dM := _) (moreS := []) (moreM := []) rfl rfl (by simp) hlen
    ?_ (by simp) (by simp [hM]) (Or.inr ?_) (Or.inr ?_) h1 h2 h3 h4 (fun _ _ => rfl)
  · intro tr htr
    obtain ⟨a, b, c⟩ := hh tr htr
    exact ⟨a, b, c.ge⟩
  · rw [← Bool.not_eq_true, real_eq]; simpa using hVp
  · rw [← Bool.not_eq_true, real_eq]; simpa using hvm

theorem readsNearest_const {n : Nat} {c a t : ℝ} {axis : List ℝ}
    (h : ReadsNearest (List.replicate n c) axis t a) : a = c := by
  obtain ⟨i, _, hi⟩ := h
  exact List.eq_of_mem_replicate (List.mem_of_getElem? hi)

theorem stackValue_const {n : Nat} {c w1 w2 w3 t1 t2 t3 s : ℝ} {axis : List ℝ}
    (h : StackValue w1 w2 w3 (List.replicate n c) axis t1 t2 t3 s) :
    s = w1 * c + w2 * c - w3 * c := by
  obtain ⟨a1, a2, a3, h1, h2, h3, hs⟩ := h
  rw [hs, readsNearest_const h1, readsNearest_const h2, readsNearest_const h3]

theorem gridTable_nonempty {K H : List ℝ} {tb : List (Row ℝ)} (h : GridTable K H tb)
    {k x : ℝ} (hk : K[0]? = some k) (hx : H[0]? = some x) : ∃ s, (⟨x, k, s⟩ : Row ℝ) ∈ tb := by
  obtain ⟨s, hs⟩ := h.2 0 0 k x hk hx
  exact ⟨s, List.mem_of_getElem? hs⟩

open Sample in
/-- **C19**, the documented behaviour negated: there are two traces and a call of `hkSeq`
such that the value at a grid point is not the sum over both traces of the weighted
amplitudes (neither in the sediment nor in the Moho stage). -/
theorem c19_not_the_sum :
    ∃ (tr1 tr2 : Trace ℝ) (r : SeqResult ℝ) (p : ℝ) (rowS rowM bS : Row ℝ),
      hkSeq env [tr1, tr2] [tr1, tr2] 0 [1, 2] [2] (some ⟨.py, 3⟩) (some 1) (some 1) (some 1)
        [3, 4] [2] (some ⟨.py, 6⟩) (some 1) (some 1) (some 1) (some false) = .ok r ∧
      tr1.slowness.map (fun s => env.km2deg1 * s.val) = some p ∧
      tr2.slowness.map (fun s => env.km2deg1 * s.val) = some p ∧
      rowS ∈ r.stackvalueSed ∧ rowM ∈ r.stackvalueMoho ∧ r.bestmodelSed = some bS ∧
      (∀ s1 s2, StackValue 1 1 1 tr1.data r.time (tPs p 3 rowS.h rowS.k) (tPpPs p 3 rowS.h rowS.k)
          (tPsPs p 3 rowS.h rowS.k) s1 →
        StackValue 1 1 1 tr2.data r.time (tPs p 3 rowS.h rowS.k) (tPpPs p 3 rowS.h rowS.k)
          (tPsPs p 3 rowS.h rowS.k) s2 → rowS.s ≠ s1 + s2) ∧
      (∀ s1 s2, StackValue 1 1 1 tr1.data r.time (tPs p 3 bS.h bS.k + tPs p 6 rowM.h rowM.k)
          (tPpPs p 3 bS.h bS.k + tPpPs p 6 rowM.h rowM.k)
          (tPsPs p 3 bS.h bS.k + tPsPs p 6 rowM.h rowM.k) s1 →
        StackValue 1 1 1 tr2.data r.time (tPs p 3 bS.h bS.k + tPs p 6 rowM.h rowM.k)
          (tPpPs p 3 bS.h bS.k + tPpPs p 6 rowM.h rowM.k)
          (tPsPs p 3 bS.h bS.k + tPsPs p 6 rowM.h rowM.k) s2 → rowM.s ≠ s1 + s2) := by
  set tr1 := trace (List.replicate 5 1) 6 with h1
  set tr2 := trace (List.replicate 5 2) 6 with h2
  obtain ⟨r, hr⟩ := sample_hkSeq tr1 [tr2] tr1 [tr2] (by simp [h1, trace]) (by
    intro tr htr
    have : tr = tr1 ∨ tr = tr2 := by simpa [or_assoc, or_comm, or_left_comm] using htr
    rcases this with rfl | rfl
    · exact ⟨⟨2, rfl⟩, ⟨_, rfl⟩, rfl⟩
    · exact ⟨⟨2, rfl⟩, ⟨_, rfl⟩, by simp [h1, h2, trace]⟩)
    (HS := [1, 2]) (KS := [2]) (HM := [3, 4]) (KM := [2]) (Vp := 3) (vm := 6) (by simp) (by simp)
    (by simp) (by simp) (by norm_num) (by norm_num) 0 (some 1) (some 1) (some 1) 1 1 1 (some false)
  obtain ⟨gS, gM⟩ := c25_hkSeq_grid hr
  obtain ⟨sS, hS⟩ := gridTable_nonempty gS (k := 2) (x := 1) rfl rfl
  obtain ⟨sM, hM⟩ := gridTable_nonempty gM (k := 2) (x := 3) rfl rfl
  have p1 : (env.km2deg1 * 6) ^ 2 ≤ (1 / (3 : ℝ)) ^ 2 := by norm_num [env]
  have p2 : (env.km2deg1 * 6) ^ 2 ≤ (1 / (6 : ℝ)) ^ 2 := by norm_num [env]
  obtain ⟨bS, hbS, raw, best, _, _, hclip, hraw⟩ := c20_hkSeq_moho (stS := [tr1, tr2])
    (init := [tr1]) (last := tr2) (Vp := ⟨.py, 3⟩) (vm := ⟨.py, 6⟩) (sl := ⟨.py, 6⟩) hr rfl
    (by norm_num) (by norm_num) p1 p2
  have eS := stackValue_const (c19_sed_last_trace (init := [tr1]) (last := tr2) (sl := ⟨.py, 6⟩)
    (Vp := ⟨.py, 3⟩) hr rfl (by norm_num) p1 _ hS)
  have eM : sM = 2 := by
    obtain ⟨n, hn, e⟩ := List.getElem_of_mem hM
    have hn' : n < raw.length := by rw [← hclip.1]; exact hn
    have hc := hclip.2 n raw[n] (by simp [hn'])
    rw [List.getElem?_eq_getElem hn, e] at hc
    have hv := stackValue_const (hraw raw[n] (List.getElem_mem hn'))
    have := congrArg Row.s (Option.some.inj hc)
    simp only at this
    rw [this, hv]
    norm_num
  refine ⟨tr1, tr2, r, env.km2deg1 * 6, _, _, bS, hr, rfl, rfl, hS, hM, hbS, ?_, ?_⟩
  · intro s1 s2 e1 e2
    have e1 := stackValue_const e1
    have e2 := stackValue_const e2
    simp only at eS ⊢
    rw [eS, e1, e2]; norm_num
  · intro s1 s2 e1 e2
    have e1 := stackValue_const e1
    have e2 := stackValue_const e2
    simp only
    rw [eM, e1, e2]; norm_num

open Sample in
/-- **C22**: with different sampling intervals in the two streams the Moho stage reads the
wrong sample: here the value at the grid point is the amplitude at index 1 (time 1/2
of the Moho trace), not the amplitude of the sample at the delay time 1. -/
theorem c22_wrong_sample :
    ∃ (trS trM : Trace ℝ) (r : SeqResult ℝ) (row : Row ℝ),
      hkSeq env [trS] [trM] 0 [0] [2] (some ⟨.py, 1⟩) (some 1) (some 0) (some 0)
        [1] [2] (some ⟨.py, 1⟩) (some 1) (some 0) (some 0) (some false) = .ok r ∧
      trM.slowness = some ⟨.py, 0⟩ ∧ trS.data.length = trM.data.length ∧
      row ∈ r.stackvalueMoho ∧
      (∀ bS, r.bestmodelSed = some bS → tPs 0 1 bS.h bS.k + tPs 0 1 row.h row.k = 1) ∧
      ReadsNearest trM.data ((List.range trM.data.length).map (fun i : Nat => trM.delta * (i : ℝ)))
        (1 / 2) row.s ∧
      ¬ ReadsNearest trM.data ((List.range trM.data.length).map (fun i : Nat => trM.delta * (i : ℝ)))
        1 row.s := by
  set trS : Trace ℝ := { trace [0, 0, 0, 0, 0] 0 with delta := 1 } with hS
  set trM := trace [5, 6, 7, 8, 9] 0 with hM
  obtain ⟨r, hr⟩ := sample_hkSeq trS [] trM [] (by simp [hS, trace]) (by
    intro tr htr
    have : tr = trS ∨ tr = trM := by simpa using htr
    rcases this with rfl | rfl
    · exact ⟨⟨2, rfl⟩, ⟨_, rfl⟩, rfl⟩
    · exact ⟨⟨2, rfl⟩, ⟨_, rfl⟩, rfl⟩)
    (HS := [0]) (KS := [2]) (HM := [1]) (KM := [2]) (Vp := 1) (vm := 1) (by simp) (by simp)
    (by simp) (by simp) (by norm_num) (by norm_num) 0 (some 1) (some 0) (some 0) 1 0 0 (some false)
  obtain ⟨gS, gM⟩ := c25_hkSeq_grid hr
  obtain ⟨sM, hMem⟩ := gridTable_nonempty gM (k := 2) (x := 1) rfl rfl
  obtain ⟨bS, hbS, raw, best, gR, _, hclip, hraw⟩ := c20_hkSeq_moho (stS := [trS])
    (init := []) (last := trM) (Vp := ⟨.py, 1⟩) (vm := ⟨.py, 1⟩) (sl := ⟨.py, 0⟩) hr rfl
    (by norm_num) (by norm_num) (by norm_num) (by norm_num)
  have hbs0 : bS.h = 0 ∧ bS.k = 2 := by
    obtain ⟨b, hb, hbest⟩ := c25_hkSeq_best hr (fun _ _ => rfl)
    rw [hbS] at hb; cases hb
    obtain ⟨tr0, rest, slows, bmod, raw, f⟩ := hkSeq_inv hr
    obtain ⟨h1, h2, _⟩ := gridLoop_row f.hgridS (List.mem_of_getElem? hbest.1)
    exact ⟨by simpa using h2, by simpa using h1⟩
  have et : ∀ H K : ℝ, 0 ≤ K → tPs 0 1 H K = H * (K - 1) := by
    intro H K hK
    have h1 : (1 : ℝ) / (1 / K) ^ 2 - 0 ^ 2 = K ^ 2 := by
      rcases eq_or_ne K 0 with rfl | h
      · norm_num
      · field_simp; ring
    have h2 : (1 : ℝ) / 1 ^ 2 - 0 ^ 2 = 1 := by norm_num
    unfold tPs eta
    rw [h1, h2, Real.sqrt_sq hK, Real.sqrt_one]
  have htime : r.time = [0, 1, 2, 3, 4] := by
    obtain ⟨⟨tr0, rest, e, ht⟩, _⟩ := c22_axis_and_mean hr
    cases e
    rw [ht]
    simp [hS, trace, List.range_succ]
  -- the raw value
  have hn : sM = 6 := by
    obtain ⟨n, hn, e⟩ := List.getElem_of_mem hMem
    have hn' : n < raw.length := by rw [← hclip.1]; exact hn
    have hc := hclip.2 n raw[n] (by simp [hn'])
    rw [List.getElem?_eq_getElem hn, e] at hc
    have hrow := Option.some.inj hc
    have hkv : raw[n].k = 2 := (congrArg Row.k hrow).symm
    have hhv : raw[n].h = 1 := (congrArg Row.h hrow).symm
    obtain ⟨a1, a2, a3, r1, _, _, hs⟩ := hraw raw[n] (List.getElem_mem hn')
    simp only [mul_zero] at r1
    rw [hbs0.1, hbs0.2, hkv, hhv, et _ _ (by norm_num), et _ _ (by norm_num), htime] at r1
    have r2 : ReadsNearest trM.data [0, 1, 2, 3, 4] (0 * (2 - 1) + 1 * (2 - 1)) 6 := by
      refine ⟨1, ⟨1, rfl, ?_, ?_⟩, rfl⟩
      · intro j y hy
        simp only [real_le, real_abs]
        norm_num
      · intro j y hj hy
        interval_cases j
        cases hy
        simp only [real_lt, real_abs]
        norm_num
    have ha : a1 = 6 := ReadsNearest.unique r1 r2
    have := congrArg Row.s hrow
    simp only at this
    rw [this, hs, ha]; norm_num
  have hax : (List.range trM.data.length).map (fun i : Nat => trM.delta * (i : ℝ))
      = [0, 1 / 2, 1, 3 / 2, 2] := by
    simp [hM, trace, List.range_succ]; norm_num
  refine ⟨trS, trM, r, _, hr, rfl, rfl, hMem, ?_, ?_, ?_⟩
  · intro b hb
    rw [hbS] at hb; cases hb
    rw [hbs0.1, hbs0.2, et _ _ (by norm_num), et _ _ (by norm_num)]; norm_num
  · rw [hax]
    simp only [hn]
    refine ⟨1, ⟨1 / 2, rfl, ?_, ?_⟩, rfl⟩
    · intro j y hy
      simp only [real_le, real_abs]
      norm_num
    · intro j y hj hy
      interval_cases j
      cases hy
      simp only [real_lt, real_abs]
      norm_num
  · rw [hax]
    simp only [hn]
    intro hr6
    have r7 : ReadsNearest trM.data [0, 1 / 2, 1, 3 / 2, 2] 1 7 := by
      refine ⟨2, ⟨1, rfl, ?_, ?_⟩, rfl⟩
      · intro j y hy
        simp only [real_le, real_abs]
        norm_num
      · intro j y hj hy
        interval_cases j
        all_goals cases hy
        all_goals simp only [real_lt, real_abs]
        all_goals norm_num
    have := ReadsNearest.unique hr6 r7
    norm_num at this

/-- **C22**: if all Moho traces share the sampling interval and length of the first
sediment trace, the axis `hkSeq` reads them on is their own. -/
theorem c22_common_axis {env : Env ℝ} {stS stM : List (Trace ℝ)} {preonset : ℝ}
    {HS KS : List ℝ} {VpSed : Option (Scalar ℝ)} {w1S w2S w3S : Option ℝ}
    {HM KM : List ℝ} {VpMoho : Option (Scalar ℝ)} {w1M w2M w3M : Option ℝ} {stack : Option Bool}
    {r : SeqResult ℝ}
    (h : hkSeq env stS stM preonset HS KS VpSed w1S w2S w3S HM KM VpMoho w1M w2M w3M stack = .ok r)
    (hc : ∀ tr ∈ stM, ∀ tr0, stS[0]? = some tr0 →
      tr.delta = tr0.delta ∧ tr.data.length = tr0.data.length) :
    ∀ tr ∈ stM, r.time
      = (List.range tr.data.length).map (fun i : Nat => tr.delta * (i : ℝ) - preonset) := by
  intro tr htr
  obtain ⟨⟨tr0, rest, rfl, ht⟩, _⟩ := c22_axis_and_mean h
  obtain ⟨h1, h2⟩ := hc tr htr tr0 rfl
  rw [ht, h1, h2]

end Rfsed.Props
