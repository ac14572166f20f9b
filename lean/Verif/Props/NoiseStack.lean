import Verif.Props.NoiseSeq
import Verif.Props.ExperimentHk

/-!
# C95 with `stack=True`: noise in the stacked receiver function
-/

namespace Rfsed.Props
open Rfsed HkZhu Spec

/-- **C95** `hk` with `stack=True`: if the headers agree and the stacked traces differ by at most `e` per sample, every
stack value moves by at most `N (|w1| + |w2| + |w3|) e`, and a best model that wins by more than twice that stays. -/
theorem c95_hk_stacked {env env' : Env ℝ} {st st' : List (Trace ℝ)} {preonset : ℝ} {H K : List ℝ}
    {Vp : Option (Scalar ℝ)} {w1 w2 w3 e e' : ℝ} {layer layer' : Option String} {r r' : HKResult ℝ}
    {sd sd' : List ℝ} {more more' : List (List ℝ)}
    (hkm : env'.km2deg1 = env.km2deg1) (hn : List.Forall₂ (NearTrace e') st st')
    (hsd : env.stack st = .ok (sd :: more)) (hsd' : env'.stack st' = .ok (sd' :: more')) (hns : Near e sd sd')
    (h : hk env st preonset H K Vp (some w1) (some w2) (some w3) layer (some true) = .ok r)
    (h' : hk env' st' preonset H K Vp (some w1) (some w2) (some w3) layer' (some true) = .ok r') :
    let B := st.length * ((|w1| + |w2| + |w3|) * e)
    NearTable B r.stackvalues r'.stackvalues ∧ (Margin (2 * B) r.stackvalues r.bestIdx → r'.bestIdx = r.bestIdx) := by
  intro B
  have hT := hk_stacked_near hkm hn hsd hsd' hns h h'
  obtain ⟨_, _, _, f⟩ := hk_inv h
  obtain ⟨_, _, _, f'⟩ := hk_inv h'
  exact ⟨hT, nearTable_best hT f.hbest f'.hbest⟩

theorem near_slowness {e : ℝ} {a b : List (Trace ℝ)} (hab : List.Forall₂ (NearTrace e) a b) :
    b.mapM Trace.getSlowness = a.mapM Trace.getSlowness := by
  induction hab with
  | nil => rfl
  | @cons x y a b hx _ ih =>
    have : y.getSlowness = x.getSlowness := by unfold Trace.getSlowness; rw [hx.1]
    rw [List.mapM_cons, List.mapM_cons, this, ih]

/-- **C95** `hkSeq` with `stack=True`: noise in the two stacked traces. -/
theorem c95_hkSeq_stacked {env env' : Env ℝ} {stS stS' stM stM' : List (Trace ℝ)} {preonset : ℝ} {HS KS : List ℝ}
    {VpS : Option (Scalar ℝ)} {w1S w2S w3S eS eM e1 e2 : ℝ} {HM KM : List ℝ} {vm : Scalar ℝ} {w1M w2M w3M : ℝ}
    {r r' : HkSeqYeck.SeqResult ℝ} {sdS sdS' sdM sdM' : List ℝ} {moreS moreS' moreM moreM' : List (List ℝ)}
    (hkm : env'.km2deg1 = env.km2deg1)
    (hS : List.Forall₂ (NearTrace e1) stS stS') (hM : List.Forall₂ (NearTrace e2) stM stM') (h0 : 0 ≤ eM)
    (h1 : env.stack stS = .ok (sdS :: moreS)) (h1' : env'.stack stS' = .ok (sdS' :: moreS')) (hnS : Near eS sdS sdS')
    (h2 : env.stack stM = .ok (sdM :: moreM)) (h2' : env'.stack stM' = .ok (sdM' :: moreM')) (hnM : Near eM sdM sdM')
    (h : HkSeqYeck.hkSeq env stS stM preonset HS KS VpS (some w1S) (some w2S) (some w3S) HM KM (some vm) (some w1M)
      (some w2M) (some w3M) (some true) = .ok r)
    (h' : HkSeqYeck.hkSeq env' stS' stM' preonset HS KS VpS (some w1S) (some w2S) (some w3S) HM KM (some vm)
      (some w1M) (some w2M) (some w3M) (some true) = .ok r') :
    let BS := (|w1S| + |w2S| + |w3S|) * eS
    let BM := (|w1M| + |w2M| + |w3M|) * eM
    NearTable BS r.stackvalueSed r'.stackvalueSed ∧
    (Margin (2 * BS) r.stackvalueSed r.bestIdxSed → r'.bestIdxSed = r.bestIdxSed ∧
      NearTable BM r.stackvalueMoho r'.stackvalueMoho ∧
      (Margin (2 * BM) r.stackvalueMoho r.bestIdxMoho → r'.bestIdxMoho = r.bestIdxMoho)) := by
  intro BS BM
  obtain ⟨tr0, rest, slows, bm, raw, f⟩ := hkSeq_inv h
  obtain ⟨tr0', rest', slows', bm', raw', f'⟩ := hkSeq_inv h'
  have hh : NearTrace e1 tr0 tr0' := by
    have := hS
    rw [f.hst, f'.hst] at this
    cases this with
    | cons a _ => exact a
  have ht : r'.time = r.time := by
    rw [f'.htime, f.htime, hh.2.2.1, hh.2.2.2.length_eq]
  have hslows : slows' = slows := by
    have := f'.hslow
    rw [near_slowness hM, f.hslow] at this
    exact (Except.ok.inj this).symm
  have havg : r'.AvgSlow = r.AvgSlow := by rw [f'.havg, f.havg, hslows]
  obtain ⟨_, hq⟩ := f.hstackS
  rw [h1] at hq
  injection Except.ok.inj hq with hq _
  obtain ⟨_, hq2⟩ := f.hstackM
  rw [h2] at hq2
  injection Except.ok.inj hq2 with hq2 _
  obtain ⟨_, hq'⟩ := f'.hstackS
  rw [h1'] at hq'
  injection Except.ok.inj hq' with hq' _
  obtain ⟨_, hq2'⟩ := f'.hstackM
  rw [h2'] at hq2'
  injection Except.ok.inj hq2' with hq2' _
  have hT : NearTable BS r.stackvalueSed r'.stackvalueSed := by
    have g := f.hgridS
    have g' := f'.hgridS
    rw [f.hstk, ← hq] at g
    rw [f'.hstk, f'.hVpSed, ← f.hVpSed, ht, ← hq', havg] at g'
    refine nearTable_of g g' ?_
    intro k _ x _ a b ha hb
    obtain ⟨_, tr, -, -, q⟩ := lastTrace_ok.1 ha
    obtain ⟨_, tr', -, -, q'⟩ := lastTrace_ok.1 hb
    rw [sedTerm_eq] at q q'
    obtain ⟨_, -, q⟩ := bind_eq_ok.1 q
    obtain ⟨_, -, q'⟩ := bind_eq_ok.1 q'
    obtain ⟨sl, s1, q⟩ := bind_eq_ok.1 q
    obtain ⟨sl', s1', q'⟩ := bind_eq_ok.1 q'
    simp only [Option.getD_some, if_true, hkm] at q q'
    exact near_times hnS q q'
  refine ⟨hT, fun hm => ?_⟩
  have hbest := nearTable_best hT f.hbestS f'.hbestS hm
  have hbm : bm'.h = bm.h ∧ bm'.k = bm.k := by
    have h1 := f.hrowS
    have h2 := f'.hrowS
    rw [hbest] at h2
    obtain ⟨l1, e1⟩ := List.getElem?_eq_some_iff.1 h1
    obtain ⟨l2, e2⟩ := List.getElem?_eq_some_iff.1 h2
    have := (List.forall₂_iff_get.1 hT).2 _ l1 l2
    simp only [List.get_eq_getElem, e1, e2] at this
    exact ⟨this.1, this.2.1⟩
  have hR : NearTable BM raw raw' := by
    have g := f.hgridM
    have g' := f'.hgridM
    rw [f.hstk, ← hq2] at g
    rw [f'.hstk, f'.hVpSed, ← f.hVpSed, hbm.1, hbm.2, ht, ← hq2', havg] at g'
    refine nearTable_of g g' ?_
    intro k _ x _ a b ha hb
    obtain ⟨_, tr, -, -, q⟩ := lastTrace_ok.1 ha
    obtain ⟨_, tr', -, -, q'⟩ := lastTrace_ok.1 hb
    rw [mohoTerm_eq] at q q'
    obtain ⟨_, -, q⟩ := bind_eq_ok.1 q
    obtain ⟨_, -, q'⟩ := bind_eq_ok.1 q'
    obtain ⟨_, -, q⟩ := bind_eq_ok.1 q
    obtain ⟨_, -, q'⟩ := bind_eq_ok.1 q'
    obtain ⟨sl, s1, q⟩ := bind_eq_ok.1 q
    obtain ⟨sl', s1', q'⟩ := bind_eq_ok.1 q'
    simp only [Option.getD_some, if_true, hkm] at q q'
    exact near_times hnM q q'
  refine ⟨hbest, ?_, fun hm2 => ?_⟩
  · rw [f.hclip, f'.hclip]
    exact near_clip hR
  · rw [f.hclip] at hm2
    exact nearTable_best hR f.hbestM f'.hbestM (margin_of_clip (wsum_nonneg h0) hm2)

end Rfsed.Props
