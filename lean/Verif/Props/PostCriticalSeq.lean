import Verif.Proofs.PostCriticalSeq
import Verif.Props.PostCritical
import Verif.Props.Seq
import Mathlib.Tactic.NormNum

/-!
# Property C141: post-critical ray parameters in the sequential stackings

As C14, for `hkSeq` and `hkSeqSynth`.  The sediment stage has one P and one S leg, the Moho stage two of each: those of
the best sediment model and those of the candidate crust.  `hkSeq` keeps only the value of the last trace, so it is
the last trace that counts.  That the calls do not fail is `c25_hkSeq_succeeds`, `c25_hkSeqSynth_succeeds` (C25), which
put no condition on the ray parameter.
-/

namespace Rfsed.Props
open PyFloat Spec HkZhu NReal

/-! ## No NaN appears -/

theorem clip_isNum {raw : List (Row NReal)} (h : ∀ row ∈ raw, IsNum row.s) :
    ∀ row ∈ clipLoop raw, IsNum row.s := by
  intro row hrow
  rw [clipLoop_eq] at hrow
  obtain ⟨row', h', rfl⟩ := List.mem_map.1 hrow
  unfold clipRow
  split
  · exact isNum_zero
  · exact h row' h'

theorem clip_entry {F : Type} [PyFloat F] {raw : List (Row F)} {row : Row F} (h : row ∈ clipLoop raw) :
    ∃ u, (⟨row.h, row.k, u⟩ : Row F) ∈ raw ∧ CutAtZero u row.s := by
  rw [clipLoop_eq] at h
  obtain ⟨row', h', rfl⟩ := List.mem_map.1 h
  refine ⟨row'.s, ?_, ?_⟩
  · unfold clipRow; split <;> exact h'
  · unfold clipRow CutAtZero; split <;> simp_all

/-- what `hkSeq` computes for one trace in the sediment stage -/
theorem sedTerm_inv {F : Type} [PyFloat F] {env : Env F} {t sd : List F} {avg : F} {Vp : Scalar F} {w1 w2 w3 : F}
    {stack : Bool} {k x : F} {tr : Trace F} {v : F}
    (h : HkSeqYeck.sedTerm env t sd avg Vp w1 w2 w3 stack k x tr = .ok v) :
    ∃ sl ts u, tr.slowness = some sl ∧
      bestTimes Vp (if stack then Kind.np else sl.kind) (if stack then env.km2deg1 * avg else env.km2deg1 * sl.val) x k
        = .ok ts ∧
      weigh w1 w2 w3 (if stack then sd else tr.data) t ts = .ok u ∧ v = u + zero := by
  rw [sedTerm_eq] at h
  obtain ⟨_, -, h⟩ := bind_eq_ok.1 h
  obtain ⟨sl, hsl, h⟩ := bind_eq_ok.1 h
  obtain ⟨ts, hts, h⟩ := bind_eq_ok.1 h
  obtain ⟨u, hu, h⟩ := bind_eq_ok.1 h
  exact ⟨sl, ts, u, getSlowness_ok.1 hsl, hts, hu, (Except.ok.inj h).symm⟩

/-- what `hkSeq` computes for one trace in the Moho stage -/
theorem mohoTerm_inv {F : Type} [PyFloat F] {env : Env F} {stM : List (Trace F)} {t sd : List F} {avg : F}
    {VpS vm : Scalar F} {H1 K1 w1 w2 w3 : F} {stack : Bool} {k x : F} {tr : Trace F} {v : F}
    (h : HkSeqYeck.mohoTerm env stM t sd avg VpS H1 K1 (some vm) (some w1) (some w2) (some w3) stack k x tr = .ok v) :
    ∃ sl ts u, tr.slowness = some sl ∧
      HkSeqYeck.mohoTimes VpS (some vm) (if stack then Kind.np else sl.kind)
        (if stack then env.km2deg1 * avg else env.km2deg1 * sl.val) H1 K1 x k = .ok ts ∧
      weigh w1 w2 w3 (if stack then sd else tr.data) t ts = .ok u ∧ v = u + zero := by
  rw [mohoTerm_eq] at h
  obtain ⟨_, -, h⟩ := bind_eq_ok.1 h
  obtain ⟨_, -, h⟩ := bind_eq_ok.1 h
  obtain ⟨sl, hsl, h⟩ := bind_eq_ok.1 h
  obtain ⟨ts, hts, h⟩ := bind_eq_ok.1 h
  obtain ⟨u, hu, h⟩ := bind_eq_ok.1 h
  exact ⟨sl, ts, u, getSlowness_ok.1 hsl, hts, hu, (Except.ok.inj h).symm⟩

/-- **C141**, `hkSeq`: whatever the ray parameters, velocities, times and grids are (even NaN), numeric data and weights
give numeric stack values in both tables. -/
theorem c141_hkSeq_no_nan {env : Env NReal} {stS stM : List (Trace NReal)} {preonset : NReal} {HS KS : List NReal}
    {VpS : Option (Scalar NReal)} {w1S w2S w3S : NReal} {HM KM : List NReal} {vm : Scalar NReal} {w1M w2M w3M : NReal}
    {stack : Option Bool} {r : HkSeqYeck.SeqResult NReal}
    (h : HkSeqYeck.hkSeq env stS stM preonset HS KS VpS (some w1S) (some w2S) (some w3S) HM KM (some vm) (some w1M)
      (some w2M) (some w3M) stack = .ok r)
    (hw : ∀ w ∈ [w1S, w2S, w3S, w1M, w2M, w3M], IsNum w)
    (hS : ∀ tr ∈ stS, ∀ a ∈ (if r.stack then r.RFSedStack else tr.data), IsNum a)
    (hM : ∀ tr ∈ stM, ∀ a ∈ (if r.stack then r.RFMohoStack else tr.data), IsNum a) :
    (∀ row ∈ r.stackvalueSed, IsNum row.s) ∧ ∀ row ∈ r.stackvalueMoho, IsNum row.s := by
  obtain ⟨tr0, rest, slows, bm, raw, f⟩ := hkSeq_inv h
  simp only [List.mem_cons, List.not_mem_nil, or_false, forall_eq_or_imp, forall_eq] at hw
  obtain ⟨n1, n2, n3, m1, m2, m3⟩ := hw
  constructor
  · intro row hrow
    obtain ⟨-, -, hv⟩ := gridLoop_row f.hgridS hrow
    obtain ⟨init, last, hst, -, hv⟩ := lastTrace_ok.1 hv
    obtain ⟨sl, ts, u, -, -, hu, e⟩ := sedTerm_inv hv
    rw [e]
    exact (weigh_isNum hu n1 n2 n3 (hS last (by rw [hst]; simp))).add isNum_zero
  · rw [f.hclip]
    refine clip_isNum ?_
    intro row hrow
    obtain ⟨-, -, hv⟩ := gridLoop_row f.hgridM hrow
    obtain ⟨init, last, hst, -, hv⟩ := lastTrace_ok.1 hv
    obtain ⟨sl, ts, u, -, -, hu, e⟩ := mohoTerm_inv hv
    rw [e]
    exact (weigh_isNum hu m1 m2 m3 (hM last (by rw [hst]; simp))).add isNum_zero

/-- **C141**, `hkSeqSynth`. -/
theorem c141_hkSeqSynth_no_nan {env : Env NReal} {dS dM t : List NReal} {rp : Scalar NReal} {HS KS : List NReal}
    {VpS : Option (Scalar NReal)} {w1S w2S w3S : NReal} {HM KM : List NReal} {vm : Scalar NReal} {w1M w2M w3M : NReal}
    {r : SynthAnalysis.SeqSynthResult NReal}
    (h : SynthAnalysis.hkSeqSynth env dS dM t rp HS KS VpS (some w1S) (some w2S) (some w3S) HM KM (some vm) (some w1M)
      (some w2M) (some w3M) = .ok r)
    (hw : ∀ w ∈ [w1S, w2S, w3S, w1M, w2M, w3M], IsNum w) (hS : ∀ a ∈ dS, IsNum a) (hM : ∀ a ∈ dM, IsNum a) :
    (∀ row ∈ r.stackvalueSed, IsNum row.s) ∧ ∀ row ∈ r.stackvalueMoho, IsNum row.s := by
  obtain ⟨bm, raw, f⟩ := hkSeqSynth_inv h
  simp only [List.mem_cons, List.not_mem_nil, or_false, forall_eq_or_imp, forall_eq] at hw
  obtain ⟨n1, n2, n3, m1, m2, m3⟩ := hw
  constructor
  · intro row hrow
    obtain ⟨-, -, hv⟩ := gridLoop_row f.hgridS hrow
    rw [seqSedCell_eq, synthCell_eq] at hv
    obtain ⟨ts, -, hv⟩ := bind_eq_ok.1 hv
    obtain ⟨u, hu, hv⟩ := bind_eq_ok.1 hv
    rw [← Except.ok.inj hv]
    exact (weigh_isNum hu n1 n2 n3 hS).add isNum_zero
  · rw [f.hclip]
    refine clip_isNum ?_
    intro row hrow
    obtain ⟨-, -, hv⟩ := gridLoop_row f.hgridM hrow
    rw [seqMohoCell_eq] at hv
    obtain ⟨ts, -, hv⟩ := bind_eq_ok.1 hv
    obtain ⟨u, hu, hv⟩ := bind_eq_ok.1 hv
    rw [← Except.ok.inj hv]
    exact (weigh_isNum hu m1 m2 m3 hM).add isNum_zero

/-! ## An S leg is post-critical -/

section generic
variable {F : Type} [PyFloat F] [IEEENaN F]

/-- **C141**, `hkSeqSynth`, S leg post-critical (every IEEE number type).  Sediment stage: the candidate's S leg; the value
is made of the first sample, three times.  Moho stage: the same if the S leg in the candidate crust or the one in the best
sediment model is post-critical (then for the whole table). -/
theorem c141_hkSeqSynth_S_postcritical {env : Env F} {dS dM t : List F} {rp : Scalar F} {HS KS : List F}
    {VpS : Scalar F} {w1S w2S w3S : F} {HM KM : List F} {vm : Scalar F} {w1M w2M w3M : F}
    {r : SynthAnalysis.SeqSynthResult F}
    (h : SynthAnalysis.hkSeqSynth env dS dM t rp HS KS (some VpS) (some w1S) (some w2S) (some w3S) HM KM (some vm)
      (some w1M) (some w2M) (some w3M) = .ok r) :
    (∀ row ∈ r.stackvalueSed, lt (square (row.k / VpS.val) - square rp.val) zero = true →
      FirstThrice w1S w2S w3S dS row.s) ∧
    ∃ best, r.stackvalueSed[r.bestIdxSed]? = some best ∧
      ∀ row ∈ r.stackvalueMoho,
        lt (square (best.k / VpS.val) - square rp.val) zero = true ∨
          lt (square (row.k / vm.val) - square rp.val) zero = true →
        ∃ u, CutAtZero u row.s ∧ FirstThrice w1M w2M w3M dM u := by
  obtain ⟨bm, raw, f⟩ := hkSeqSynth_inv h
  refine ⟨?_, bm, f.hrowS, ?_⟩
  · intro row hrow hpost
    obtain ⟨-, -, hv⟩ := gridLoop_row f.hgridS hrow
    rw [f.hVpSed, Option.getD_some, seqSedCell_eq, synthCell_eq] at hv
    obtain ⟨ts, hts, hv⟩ := bind_eq_ok.1 hv
    obtain ⟨u, hu, hv⟩ := bind_eq_ok.1 hv
    obtain ⟨n1, n2, n3⟩ := bestTimes_postS hts hpost
    obtain ⟨d0, hd0, hval⟩ := weigh_nan (weigh_axis_ne hu) hu n1 n2 n3
    exact ⟨d0, hd0, by rw [← Except.ok.inj hv, hval]; rfl⟩
  · intro row hrow hpost
    rw [f.hclip] at hrow
    obtain ⟨s, hs, hcut⟩ := clip_entry hrow
    refine ⟨s, hcut, ?_⟩
    obtain ⟨-, -, hv⟩ := gridLoop_row f.hgridM hs
    simp only [] at hv
    rw [f.hVpSed, Option.getD_some, seqMohoCell_eq] at hv
    obtain ⟨ts, hts, hv⟩ := bind_eq_ok.1 hv
    obtain ⟨u, hu, hv⟩ := bind_eq_ok.1 hv
    obtain ⟨n1, n2, n3⟩ := mohoTimes_postS hts hpost
    obtain ⟨d0, hd0, hval⟩ := weigh_nan (weigh_axis_ne hu) hu n1 n2 n3
    exact ⟨d0, hd0, by rw [← Except.ok.inj hv, hval]⟩

/-- **C141**, `hkSeq`, S leg post-critical.  The ray parameter is the one of the last trace, or the mean of the Moho
stream with pre-stacking; the data are those of the last trace, or the stack. -/
theorem c141_hkSeq_S_postcritical {env : Env F} {initS initM : List (Trace F)} {lastS lastM : Trace F}
    {slS slM : Scalar F} {preonset : F} {HS KS : List F}
    {VpS : Scalar F} {w1S w2S w3S : F} {HM KM : List F} {vm : Scalar F} {w1M w2M w3M : F}
    {stack : Bool} {r : HkSeqYeck.SeqResult F}
    (h : HkSeqYeck.hkSeq env (initS ++ [lastS]) (initM ++ [lastM]) preonset HS KS (some VpS) (some w1S) (some w2S)
      (some w3S) HM KM (some vm) (some w1M) (some w2M) (some w3M) (some stack) = .ok r)
    (hslS : lastS.slowness = some slS) (hslM : lastM.slowness = some slM) :
    let pS := env.km2deg1 * (if stack then r.AvgSlow else slS.val)
    let pM := env.km2deg1 * (if stack then r.AvgSlow else slM.val)
    (∀ row ∈ r.stackvalueSed, lt (square (row.k / VpS.val) - square pS) zero = true →
      FirstThrice w1S w2S w3S (if stack then r.RFSedStack else lastS.data) row.s) ∧
    ∃ best, r.stackvalueSed[r.bestIdxSed]? = some best ∧
      ∀ row ∈ r.stackvalueMoho,
        lt (square (best.k / VpS.val) - square pM) zero = true ∨
          lt (square (row.k / vm.val) - square pM) zero = true →
        ∃ u, CutAtZero u row.s ∧ FirstThrice w1M w2M w3M (if stack then r.RFMohoStack else lastM.data) u := by
  intro pS pM
  obtain ⟨tr0, rest, slows, bm, raw, f⟩ := hkSeq_inv h
  have hpS : pS = if stack then env.km2deg1 * r.AvgSlow else env.km2deg1 * slS.val := by
    simp only [pS]; split <;> rfl
  have hpM : pM = if stack then env.km2deg1 * r.AvgSlow else env.km2deg1 * slM.val := by
    simp only [pM]; split <;> rfl
  refine ⟨?_, bm, f.hrowS, ?_⟩
  · intro row hrow hpost
    obtain ⟨-, -, hv⟩ := gridLoop_row f.hgridS hrow
    obtain ⟨sl, ts, u, hsl, hts, hu, e⟩ := sedTerm_inv (lastTrace_last hv)
    rw [hslS] at hsl; cases hsl
    simp only [f.hstk, Option.getD_some, f.hVpSed] at hts hu
    rw [hpS] at hpost
    obtain ⟨n1, n2, n3⟩ := bestTimes_postS hts hpost
    obtain ⟨d0, hd0, hval⟩ := weigh_nan (weigh_axis_ne hu) hu n1 n2 n3
    exact ⟨d0, hd0, by rw [e, hval]⟩
  · intro row hrow hpost
    rw [f.hclip] at hrow
    obtain ⟨s, hs, hcut⟩ := clip_entry hrow
    refine ⟨s, hcut, ?_⟩
    obtain ⟨-, -, hv⟩ := gridLoop_row f.hgridM hs
    obtain ⟨sl, ts, u, hsl, hts, hu, e⟩ := mohoTerm_inv (lastTrace_last hv)
    rw [hslM] at hsl; cases hsl
    simp only [f.hstk, Option.getD_some, f.hVpSed] at hts hu
    rw [hpM] at hpost
    obtain ⟨n1, n2, n3⟩ := mohoTimes_postS hts hpost
    obtain ⟨d0, hd0, hval⟩ := weigh_nan (weigh_axis_ne hu) hu n1 n2 n3
    exact ⟨d0, hd0, by rw [← hval]; exact e⟩

end generic

/-! ## P legs are post-critical, S legs are not -/

/-- **C141**, `hkSeqSynth`, S legs propagating.  If a P leg is post-critical and its velocity or the ray parameter is a
numpy number, Ps and PpPs read the first sample; PpSs+PsPs reads the sample nearest to its time.  Otherwise (every P leg
propagates or is computed in Python floats) all three read the samples nearest to the delay times in which a
post-critical P leg counts as zero. -/
theorem c141_hkSeqSynth_P_postcritical {env : Env NReal} {dS dM t : List NReal} {rp : Scalar NReal}
    {HS KS : List NReal} {VpS : Scalar NReal} {w1S w2S w3S : NReal} {HM KM : List NReal} {vm : Scalar NReal}
    {w1M w2M w3M : NReal} {r : SynthAnalysis.SeqSynthResult NReal} {p vs v : ℝ}
    (h : SynthAnalysis.hkSeqSynth env dS dM t rp HS KS (some VpS) (some w1S) (some w2S) (some w3S) HM KM (some vm)
      (some w1M) (some w2M) (some w3M) = .ok r)
    (hax : ∀ a ∈ t, IsNum a) (hrp : rp.val = num p) (hvs : VpS.val = num vs) (h0 : vs ≠ 0)
    (hvm : vm.val = num v) (h0' : v ≠ 0) :
    (∀ (x k : ℝ) (s : NReal), (⟨num x, num k, s⟩ : Row NReal) ∈ r.stackvalueSed → p ^ 2 ≤ (k / vs) ^ 2 →
      (LostP VpS.kind rp.kind p vs → FirstTwice w1S w2S w3S dS t (num (2 * x * eta p (vs / k))) s) ∧
      (¬ LostP VpS.kind rp.kind p vs → NearestThrice w1S w2S w3S dS t (num (x * (eta p (vs / k) - realP p vs)))
        (num (x * (eta p (vs / k) + realP p vs))) (num (2 * x * eta p (vs / k))) s)) ∧
    ∀ (H1 K1 : ℝ) (s1 : NReal), r.stackvalueSed[r.bestIdxSed]? = some ⟨num H1, num K1, s1⟩ →
      p ^ 2 ≤ (K1 / vs) ^ 2 →
      ∀ (x k : ℝ) (s : NReal), (⟨num x, num k, s⟩ : Row NReal) ∈ r.stackvalueMoho → p ^ 2 ≤ (k / v) ^ 2 →
        ∃ u, CutAtZero u s ∧
        (LostP VpS.kind rp.kind p vs ∨ LostP vm.kind rp.kind p v →
          FirstTwice w1M w2M w3M dM t (num (2 * H1 * eta p (vs / K1) + 2 * x * eta p (v / k))) u) ∧
        (¬ LostP VpS.kind rp.kind p vs → ¬ LostP vm.kind rp.kind p v → NearestThrice w1M w2M w3M dM t
          (num (H1 * (eta p (vs / K1) - realP p vs) + x * (eta p (v / k) - realP p v)))
          (num (H1 * (eta p (vs / K1) + realP p vs) + x * (eta p (v / k) + realP p v)))
          (num (2 * H1 * eta p (vs / K1) + 2 * x * eta p (v / k))) u) := by
  obtain ⟨bm, raw, f⟩ := hkSeqSynth_inv h
  constructor
  · intro x k s hrow hS
    obtain ⟨-, -, hv⟩ := gridLoop_row f.hgridS hrow
    simp only [] at hv
    rw [f.hVpSed, Option.getD_some, seqSedCell_eq, synthCell_eq, hrp] at hv
    obtain ⟨ts, hts, hv⟩ := bind_eq_ok.1 hv
    obtain ⟨u, hu, hv⟩ := bind_eq_ok.1 hv
    rw [← Except.ok.inj hv]
    exact weigh_sed hvs h0 hax hts hu hS
  · intro H1 K1 s1 hbest hS1 x k s hrow hS
    have hb := f.hrowS
    rw [hbest] at hb
    cases hb
    rw [f.hclip] at hrow
    obtain ⟨s', hs, hcut⟩ := clip_entry hrow
    refine ⟨s', hcut, ?_⟩
    obtain ⟨-, -, hv⟩ := gridLoop_row f.hgridM hs
    simp only [] at hv
    rw [f.hVpSed, Option.getD_some, seqMohoCell_eq, hrp] at hv
    obtain ⟨ts, hts, hv⟩ := bind_eq_ok.1 hv
    obtain ⟨u, hu, hv⟩ := bind_eq_ok.1 hv
    rw [← Except.ok.inj hv]
    exact weigh_moho hvs h0 hvm h0' hax hts hu hS1 hS

/-- **C141**, `hkSeq`, S legs propagating.  With pre-stacking the ray parameter is a numpy number (the mean). -/
theorem c141_hkSeq_P_postcritical {env : Env NReal} {initS initM : List (Trace NReal)} {lastS lastM : Trace NReal}
    {slS slM : Scalar NReal} {preonset : NReal} {HS KS : List NReal}
    {VpS : Scalar NReal} {w1S w2S w3S : NReal} {HM KM : List NReal} {vm : Scalar NReal} {w1M w2M w3M : NReal}
    {stack : Bool} {r : HkSeqYeck.SeqResult NReal} {pS pM vs v : ℝ}
    (h : HkSeqYeck.hkSeq env (initS ++ [lastS]) (initM ++ [lastM]) preonset HS KS (some VpS) (some w1S) (some w2S)
      (some w3S) HM KM (some vm) (some w1M) (some w2M) (some w3M) (some stack) = .ok r)
    (hslS : lastS.slowness = some slS) (hslM : lastM.slowness = some slM)
    (hax : ∀ a ∈ r.time, IsNum a) (hvs : VpS.val = num vs) (h0 : vs ≠ 0) (hvm : vm.val = num v) (h0' : v ≠ 0)
    (hpS : env.km2deg1 * (if stack then r.AvgSlow else slS.val) = num pS)
    (hpM : env.km2deg1 * (if stack then r.AvgSlow else slM.val) = num pM) :
    let kS : Kind := if stack then .np else slS.kind
    let kM : Kind := if stack then .np else slM.kind
    let dS := if stack then r.RFSedStack else lastS.data
    let dM := if stack then r.RFMohoStack else lastM.data
    (∀ (x k : ℝ) (s : NReal), (⟨num x, num k, s⟩ : Row NReal) ∈ r.stackvalueSed → pS ^ 2 ≤ (k / vs) ^ 2 →
      (LostP VpS.kind kS pS vs → FirstTwice w1S w2S w3S dS r.time (num (2 * x * eta pS (vs / k))) s) ∧
      (¬ LostP VpS.kind kS pS vs → NearestThrice w1S w2S w3S dS r.time (num (x * (eta pS (vs / k) - realP pS vs)))
        (num (x * (eta pS (vs / k) + realP pS vs))) (num (2 * x * eta pS (vs / k))) s)) ∧
    ∀ (H1 K1 : ℝ) (s1 : NReal), r.stackvalueSed[r.bestIdxSed]? = some ⟨num H1, num K1, s1⟩ →
      pM ^ 2 ≤ (K1 / vs) ^ 2 →
      ∀ (x k : ℝ) (s : NReal), (⟨num x, num k, s⟩ : Row NReal) ∈ r.stackvalueMoho → pM ^ 2 ≤ (k / v) ^ 2 →
        ∃ u, CutAtZero u s ∧
        (LostP VpS.kind kM pM vs ∨ LostP vm.kind kM pM v →
          FirstTwice w1M w2M w3M dM r.time (num (2 * H1 * eta pM (vs / K1) + 2 * x * eta pM (v / k))) u) ∧
        (¬ LostP VpS.kind kM pM vs → ¬ LostP vm.kind kM pM v → NearestThrice w1M w2M w3M dM r.time
          (num (H1 * (eta pM (vs / K1) - realP pM vs) + x * (eta pM (v / k) - realP pM v)))
          (num (H1 * (eta pM (vs / K1) + realP pM vs) + x * (eta pM (v / k) + realP pM v)))
          (num (2 * H1 * eta pM (vs / K1) + 2 * x * eta pM (v / k))) u) := by
  intro kS kM dS dM
  obtain ⟨tr0, rest, slows, bm, raw, f⟩ := hkSeq_inv h
  have hpS' : (if stack then env.km2deg1 * r.AvgSlow else env.km2deg1 * slS.val) = num pS := by
    rw [← hpS]; split <;> rfl
  have hpM' : (if stack then env.km2deg1 * r.AvgSlow else env.km2deg1 * slM.val) = num pM := by
    rw [← hpM]; split <;> rfl
  constructor
  · intro x k s hrow hS
    obtain ⟨-, -, hv⟩ := gridLoop_row f.hgridS hrow
    obtain ⟨sl, ts, u, hsl, hts, hu, e⟩ := sedTerm_inv (lastTrace_last hv)
    rw [hslS] at hsl; cases hsl
    simp only [f.hstk, Option.getD_some, f.hVpSed] at hts hu
    rw [hpS'] at hts
    simp only [] at e
    rw [e]
    exact weigh_sed hvs h0 hax hts hu hS
  · intro H1 K1 s1 hbest hS1 x k s hrow hS
    have hb := f.hrowS
    rw [hbest] at hb
    cases hb
    rw [f.hclip] at hrow
    obtain ⟨s', hs, hcut⟩ := clip_entry hrow
    refine ⟨s', hcut, ?_⟩
    obtain ⟨-, -, hv⟩ := gridLoop_row f.hgridM hs
    obtain ⟨sl, ts, u, hsl, hts, hu, e⟩ := mohoTerm_inv (lastTrace_last hv)
    rw [hslM] at hsl; cases hsl
    simp only [f.hstk, Option.getD_some, f.hVpSed] at hts hu
    rw [hpM'] at hts
    simp only [] at e
    rw [e]
    exact weigh_moho hvs h0 hvm h0' hax hts hu hS1 hS

/-! ## The hypotheses are met

Traces of slowness 1.5 (`kilometer2degrees(1)` is 1 here), the last one a Python float; sediment `Vp = 1` (Python), crust
`Vp = 1` (numpy).  P is post-critical in both, S only for the candidate crust with `K = 1`. -/

theorem divisor_one (kd : Kind) : Divisor (⟨kd, num 1⟩ : Scalar NReal) := by
  right
  rw [← Bool.not_eq_true, PyFloat.eq, Bool.and_eq_true, nreal_zero, nreal_le, nreal_le]
  norm_num

theorem seqPost_ok : ∃ r, HkSeqYeck.hkSeq nEnv ([nTrace .np] ++ [nTrace .py]) ([] ++ [nTrace .py]) (num 0) [num 1] [num 2]
    (some ⟨.py, num 1⟩) (some (num 0.6)) (some (num 0.3)) (some (num 0.1)) [num 1] [num 1, num 2]
    (some ⟨.np, num 1⟩) (some (num 0.6)) (some (num 0.3)) (some (num 0.1)) (some false) = .ok r := by
  refine c25_hkSeq_succeeds (dS := [num 7, num 1, num 2, num 3]) (dM := [num 7, num 1, num 2, num 3]) (moreS := _)
    (moreM := _) rfl rfl (by simp) (by simp [nTrace]) ?_ (by simp [nTrace]) (by simp [nTrace]) (divisor_one _)
    (divisor_one _) (by simp) (by simp) (by simp) (by simp) (fun _ _ => rfl)
  intro tr htr
  simp at htr
  rcases htr with rfl | rfl | rfl <;> simp [nTrace]

theorem seqPost_lost (kd : Kind) : LostP .np kd (3 / 2) 1 := ⟨by norm_num, Or.inl rfl⟩
theorem seqPost_kept : ¬ LostP .py .py (3 / 2) 1 := by rintro ⟨-, h | h⟩ <;> cases h

example : ∃ r, HkSeqYeck.hkSeq nEnv ([nTrace .np] ++ [nTrace .py]) ([] ++ [nTrace .py]) (num 0) [num 1] [num 2]
      (some ⟨.py, num 1⟩) (some (num 0.6)) (some (num 0.3)) (some (num 0.1)) [num 1] [num 1, num 2]
      (some ⟨.np, num 1⟩) (some (num 0.6)) (some (num 0.3)) (some (num 0.1)) (some false) = .ok r ∧
    (∀ row ∈ r.stackvalueSed, IsNum row.s) ∧ (∀ row ∈ r.stackvalueMoho, IsNum row.s) ∧
    -- sediment: complex times, all three samples are found
    (∃ s, r.stackvalueSed = [⟨num 1, num 2, s⟩] ∧
      NearestThrice (num 0.6) (num 0.3) (num 0.1) [num 7, num 1, num 2, num 3] r.time
        (num (1 * (eta (3 / 2) (1 / 2) - realP (3 / 2) 1))) (num (1 * (eta (3 / 2) (1 / 2) + realP (3 / 2) 1)))
        (num (2 * 1 * eta (3 / 2) (1 / 2))) s) ∧
    -- crust: NaN times
    ∃ s s' u u', r.stackvalueMoho = [⟨num 1, num 1, s⟩, ⟨num 1, num 2, s'⟩] ∧ CutAtZero u s ∧ CutAtZero u' s' ∧
      FirstThrice (num 0.6) (num 0.3) (num 0.1) [num 7, num 1, num 2, num 3] u ∧
      FirstTwice (num 0.6) (num 0.3) (num 0.1) [num 7, num 1, num 2, num 3] r.time
        (num (2 * 1 * eta (3 / 2) (1 / 2) + 2 * 1 * eta (3 / 2) (1 / 2))) u' := by
  obtain ⟨r, hr⟩ := seqPost_ok
  have hdata : ∀ kd, ∀ a ∈ (nTrace kd).data, IsNum a := by
    intro kd a ha
    simp [nTrace] at ha
    rcases ha with rfl | rfl | rfl | rfl <;> rfl
  obtain ⟨tr0, rest, slows, bm, raw, f⟩ := hkSeq_inv hr
  have hstk : r.stack = false := f.hstk
  have hst := f.hst
  simp only [List.cons_append, List.nil_append, List.cons.injEq] at hst
  have htime : ∀ a ∈ r.time, IsNum a := by
    rw [f.htime, ← hst.1]
    intro a ha
    obtain ⟨i, _, rfl⟩ := List.mem_map.1 ha
    simp [nTrace, IsNum]
  obtain ⟨nS, nM⟩ := c141_hkSeq_no_nan hr (by simp only [List.mem_cons, List.not_mem_nil, or_false, forall_eq_or_imp, forall_eq]; exact ⟨rfl, rfl, rfl, rfl, rfl, rfl⟩)
    (by
      rw [hstk]
      intro tr htr
      simp at htr
      rcases htr with rfl | rfl <;> exact hdata _)
    (by
      rw [hstk]
      intro tr htr
      simp at htr
      subst htr; exact hdata _)
  have hp : nEnv.km2deg1 * (if false then r.AvgSlow else num (3 / 2)) = num (3 / 2) := by simp [nEnv]
  obtain ⟨qS, qM⟩ := c141_hkSeq_P_postcritical hr rfl rfl htime rfl one_ne_zero rfl one_ne_zero hp hp
  obtain ⟨-, best, hbest, pM⟩ := c141_hkSeq_S_postcritical hr rfl rfl
  -- the tables
  obtain ⟨s, hs⟩ : ∃ s, r.stackvalueSed = [⟨num 1, num 2, s⟩] := by
    obtain ⟨l, -, g⟩ := gridLoop_ok f.hgridS
    simp at l
    obtain ⟨a, ha⟩ := List.length_eq_one_iff.1 l
    obtain ⟨hk, hh, -⟩ := gridLoop_row f.hgridS (row := a) (by rw [ha]; simp)
    simp at hk hh
    exact ⟨a.s, by rw [ha, ← hk, ← hh]⟩
  obtain ⟨s1, s2, hm⟩ : ∃ s s', r.stackvalueMoho = [⟨num 1, num 1, s⟩, ⟨num 1, num 2, s'⟩] := by
    obtain ⟨l, g, -⟩ := gridLoop_ok f.hgridM
    obtain ⟨a, -, ha⟩ := g 0 0 (num 1) (num 1) rfl rfl
    obtain ⟨b, -, hb⟩ := g 1 0 (num 2) (num 1) rfl rfl
    simp at l ha hb
    obtain ⟨c, d, rfl⟩ := List.length_eq_two.1 l
    simp at ha hb
    subst ha hb
    rw [f.hclip, clipLoop_eq]
    refine ⟨(clipRow ⟨num 1, num 1, a⟩).s, (clipRow ⟨num 1, num 2, b⟩).s, ?_⟩
    simp only [List.map_cons, List.map_nil, List.cons.injEq, and_true]
    constructor <;> (unfold clipRow; split <;> rfl)
  refine ⟨r, hr, nS, nM, ⟨s, hs, ?_⟩, ?_⟩
  · exact (qS 1 2 s (by rw [hs]; simp) (by norm_num)).2 seqPost_kept
  · have hidx : best = ⟨num 1, num 2, s⟩ := by
      have := List.mem_of_getElem? hbest
      rw [hs] at this
      simpa using this
    rw [hidx] at hbest
    obtain ⟨u, hu, hu'⟩ := pM ⟨num 1, num 1, s1⟩ (by rw [hm]; simp) (Or.inr (by
      simp only [nEnv, nTrace]
      rw [nreal_div _ _ one_ne_zero]
      simp only [Bool.false_eq_true, if_false]
      rw [nreal_mul, nreal_square, nreal_square, nreal_sub, nreal_zero, nreal_lt]
      norm_num))
    obtain ⟨u', h1, h2, -⟩ := qM 1 2 s hbest (by norm_num) 1 2 s2 (by rw [hm]; simp) (by norm_num)
    exact ⟨s1, s2, u, u', hm, hu, h1, hu', h2 (Or.inr (seqPost_lost _))⟩

/-- The same for `hkSeqSynth`, with a Python ray parameter in the sediment (Python velocity) and the crust (numpy
velocity): the hypotheses of the four theorems hold, the first candidate crust has a post-critical S leg. -/
example : ∃ r, SynthAnalysis.hkSeqSynth nEnv [num 7, num 1, num 2] [num 5, num 1, num 2] [num 0, num 1, num 2]
      ⟨.py, num (3 / 2)⟩ [num 1] [num 2] (some ⟨.py, num 1⟩) (some (num 0.6)) (some (num 0.3)) (some (num 0.1)) [num 1]
      [num 1, num 2] (some ⟨.np, num 1⟩) (some (num 0.6)) (some (num 0.3)) (some (num 0.1)) = .ok r ∧
    (∀ row ∈ r.stackvalueMoho, IsNum row.s) ∧
    (∀ row ∈ r.stackvalueMoho, row.k = num 1 → ∃ u, CutAtZero u row.s ∧
      FirstThrice (num 0.6) (num 0.3) (num 0.1) [num 5, num 1, num 2] u) ∧
    ∀ (H1 K1 : ℝ) (s1 : NReal), r.stackvalueSed[r.bestIdxSed]? = some ⟨num H1, num K1, s1⟩ →
      (3 / 2 : ℝ) ^ 2 ≤ (K1 / 1) ^ 2 → ∀ (x k : ℝ) (s : NReal), (⟨num x, num k, s⟩ : Row NReal) ∈ r.stackvalueMoho →
      (3 / 2 : ℝ) ^ 2 ≤ (k / 1) ^ 2 → ∃ u, CutAtZero u s ∧ FirstTwice (num 0.6) (num 0.3) (num 0.1)
        [num 5, num 1, num 2] [num 0, num 1, num 2] (num (2 * H1 * eta (3 / 2) (1 / K1) + 2 * x * eta (3 / 2) (1 / k)))
        u := by
  obtain ⟨r, hr⟩ := c25_hkSeqSynth_succeeds (env := nEnv) (dS := [num 7, num 1, num 2]) (dM := [num 5, num 1, num 2])
    (t := [num 0, num 1, num 2]) (rp := ⟨.py, num (3 / 2)⟩) (VpSed := ⟨.py, num 1⟩) (VpMoho := ⟨.np, num 1⟩)
    (HS := [num 1]) (KS := [num 2]) (HM := [num 1]) (KM := [num 1, num 2]) (w1S := some (num 0.6))
    (w2S := some (num 0.3)) (w3S := some (num 0.1)) (w1M := num 0.6) (w2M := num 0.3) (w3M := num 0.1)
    (by simp) (by simp) (by simp) (divisor_one _)
    (divisor_one _) (by simp) (by simp) (by simp) (by simp) (fun _ _ => rfl)
  have num3 : ∀ x y z : ℝ, ∀ a ∈ [num x, num y, num z], IsNum a := by
    intro x y z a ha
    simp at ha
    rcases ha with rfl | rfl | rfl <;> rfl
  refine ⟨r, hr, (c141_hkSeqSynth_no_nan hr ?_ (num3 _ _ _) (num3 _ _ _)).2, ?_, ?_⟩
  · simp only [List.mem_cons, List.not_mem_nil, or_false, forall_eq_or_imp, forall_eq]
    exact ⟨rfl, rfl, rfl, rfl, rfl, rfl⟩
  · obtain ⟨-, best, -, q⟩ := c141_hkSeqSynth_S_postcritical hr
    intro row hrow hk
    refine q row hrow (Or.inr ?_)
    rw [hk, nreal_div _ _ one_ne_zero, nreal_square, nreal_square, nreal_sub, nreal_zero, nreal_lt]
    norm_num
  · intro H1 K1 s1 hb h1 x k s hrow h2
    obtain ⟨u, hu, hl, -⟩ := (c141_hkSeqSynth_P_postcritical hr (num3 _ _ _) rfl rfl one_ne_zero rfl one_ne_zero).2
      H1 K1 s1 hb h1 x k s hrow h2
    exact ⟨u, hu, hl (Or.inr (seqPost_lost _))⟩

end Rfsed.Props
