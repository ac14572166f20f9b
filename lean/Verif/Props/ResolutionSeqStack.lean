import Verif.Props.Resolution
import Verif.Props.ExperimentCase4

/-!
# C127: `hkSeq` with stacking
-/

namespace Rfsed.Props
open Rfsed HkZhu Spec

/-- **C127** `hkSeq` with stacking: both stages are read at the mean slowness of the Moho stream. -/
theorem c127_hkSeq_stack {env : Env ℝ} {stS stM : List (Trace ℝ)} {preonset : ℝ} {HS KS HM KM : List ℝ} {Vp vm : Scalar ℝ}
    {u1 u2 u3 w1 w2 w3 : ℝ} {r : HkSeqYeck.SeqResult ℝ} {dt : ℝ} {l : Nat}
    (h : HkSeqYeck.hkSeq env stS stM preonset HS KS (some Vp) (some u1) (some u2) (some u3)
      HM KM (some vm) (some w1) (some w2) (some w3) (some true) = .ok r)
    (ht : r.time = timeAxis dt preonset l) (hdt : 0 < dt) (hVp : 0 < Vp.val) (hvm : 0 < vm.val)
    (hpre : (env.km2deg1 * r.AvgSlow) ^ 2 ≤ (1 / Vp.val) ^ 2) (hpre2 : (env.km2deg1 * r.AvgSlow) ^ 2 ≤ (1 / vm.val) ^ 2) :
    LimitedBySampling r.time dt (phases (env.km2deg1 * r.AvgSlow) Vp.val) r.stackvalueSed r.bestIdxSed ∧
    ∃ bS, r.bestmodelSed = some bS ∧ LimitedBySampling r.time dt
      [fun x k => tPs (env.km2deg1 * r.AvgSlow) Vp.val bS.h bS.k + tPs (env.km2deg1 * r.AvgSlow) vm.val x k,
       fun x k => tPpPs (env.km2deg1 * r.AvgSlow) Vp.val bS.h bS.k + tPpPs (env.km2deg1 * r.AvgSlow) vm.val x k,
       fun x k => tPsPs (env.km2deg1 * r.AvgSlow) Vp.val bS.h bS.k + tPsPs (env.km2deg1 * r.AvgSlow) vm.val x k]
      r.stackvalueMoho r.bestIdxMoho := by
  obtain ⟨-, hv⟩ := c19_sed_stacked h hVp.ne' hpre
  obtain ⟨-, bS, hbS, hm⟩ := c20_hkSeq_moho_stacked h hVp.ne' hvm.ne' hpre hpre2
  obtain ⟨tr0, rest, slows, bmod, raw, f⟩ := hkSeq_inv h
  obtain ⟨b, hb⟩ := bestRow_of f.hbestS (fun _ _ => rfl)
  obtain ⟨_, _, _, hA, _⟩ := hv b (List.mem_of_getElem? hb.1)
  have hne := axis_ne hA
  rw [ht] at hne hv hm ⊢
  exact ⟨limited_of hdt hne (fun k hk => phases_mono hVp hk) (ties_of_stackValue hv) hb id
    (map_id_row _), bS, hbS, limited_moho hm hdt hvm⟩

/-- the streams of the sample meet the hypotheses -/
example : ∃ r bS, HkSeqYeck.hkSeq (dblEnv ℝ 0.01) [caseTrace] [caseTrace, caseTrace] 0 [4, 0] [101 / 52]
      (some ⟨.py, 50 / 13⟩) (some 1) (some 1) (some 1) [24, 12] [1.85] (some ⟨.py, 6⟩) (some 1) (some 1) (some 1) (some true)
      = .ok r ∧ r.bestmodelSed = some bS ∧
    LimitedBySampling r.time caseTrace.delta (phases 0.1 (50 / 13)) r.stackvalueSed r.bestIdxSed ∧
    LimitedBySampling r.time caseTrace.delta
      [fun x k => tPs 0.1 (50 / 13) bS.h bS.k + tPs 0.1 6 x k, fun x k => tPpPs 0.1 (50 / 13) bS.h bS.k + tPpPs 0.1 6 x k,
       fun x k => tPsPs 0.1 (50 / 13) bS.h bS.k + tPsPs 0.1 6 x k] r.stackvalueMoho r.bestIdxMoho := by
  obtain ⟨r, hr⟩ := case_seq_runs (some true)
  obtain ⟨tr0, rest, slows, bm, raw, f⟩ := hkSeq_inv hr
  have e1 := f.hst
  injection e1 with e1 e2
  have ht : r.time = timeAxis caseTrace.delta 0 caseTrace.data.length := by rw [f.htime, ← e1]
  have e4 : r.AvgSlow = 10 := by
    have h1 := f.hslow
    have : [caseTrace, caseTrace].mapM Trace.getSlowness = .ok [(⟨.np, 10⟩ : Scalar ℝ), ⟨.np, 10⟩] := rfl
    rw [this] at h1
    rw [f.havg, ← Except.ok.inj h1]
    unfold npMean
    simp [real_ofNat]
  have e5 : (dblEnv ℝ 0.01).km2deg1 * r.AvgSlow = 0.1 := by
    rw [e4]
    show (0.01 : ℝ) * 10 = 0.1
    norm_num
  have key := c127_hkSeq_stack hr ht (by simp [caseTrace, exactTrace, dblTrace]) (by norm_num) (by norm_num)
    (by rw [e5]; norm_num) (by rw [e5]; norm_num)
  rw [e5] at key
  obtain ⟨h1, bS, h2, h3⟩ := key
  exact ⟨r, bS, hr, h2, h1, h3⟩

end Rfsed.Props
