import Verif.Props.WeightMix
import Verif.Props.NoiseSeq

/-!
# C153: small changes of the weights cannot change a clear answer
-/

namespace Rfsed.Props
open Spec PyFloat HkZhu

/-- by how much the weights change, in total -/
def weightChange (v1 v2 v3 v1' v2' v3' : ℝ) : ℝ := |v1' - v1| + |v2' - v2| + |v3' - v3|

theorem weightChange_nonneg (v1 v2 v3 v1' v2' v3' : ℝ) : 0 ≤ weightChange v1 v2 v3 v1' v2' v3' := by
  unfold weightChange; positivity

/-- cell values linear in the weights and bounded by `B` times the sum of their absolute values -/
theorem lin_near {v : ℝ → ℝ → ℝ → ℝ → ℝ → Except PyErr ℝ} (hv : LinCell v) {B k x : ℝ}
    (bd : ∀ w1 w2 w3 c, v w1 w2 w3 k x = .ok c → |c| ≤ (|w1| + |w2| + |w3|) * B) {v1 v2 v3 v1' v2' v3' a b : ℝ}
    (h : v v1 v2 v3 k x = .ok a) (h' : v v1' v2' v3' k x = .ok b) :
    |a - b| ≤ weightChange v1 v2 v3 v1' v2' v3' * B := by
  obtain ⟨p, hp⟩ := hv.2 _ _ _ _ _ 1 0 0 _ h
  obtain ⟨q, hq⟩ := hv.2 _ _ _ _ _ 0 1 0 _ h
  obtain ⟨s, hs⟩ := hv.2 _ _ _ _ _ 0 0 1 _ h
  have e := fun w1 w2 w3 => hv.1 k x p q s w1 w2 w3 hp hq hs
  have h1 := Except.ok.inj (h.symm.trans (e v1 v2 v3))
  have h2 := Except.ok.inj (h'.symm.trans (e v1' v2' v3'))
  have h3 := bd _ _ _ _ (e (v1' - v1) (v2' - v2) (v3' - v3))
  have : a - b = -((v1' - v1) * p + (v2' - v2) * q + (v3' - v3) * s) := by rw [h1, h2]; ring
  rw [this, abs_neg]
  exact h3

theorem times_bound {w1 w2 w3 a M : ℝ} {d t : List ℝ} {ts : Except PyErr (PyNum ℝ × PyNum ℝ × PyNum ℝ)}
    (h : (do let u ← ts; let v ← weigh w1 w2 w3 d t u; pure (v + zero)) = .ok a) (hM : ∀ y ∈ d, |y| ≤ M) :
    |a| ≤ (|w1| + |w2| + |w3|) * M := by
  obtain ⟨u, -, h⟩ := bind_eq_ok.1 h
  obtain ⟨v, hv, h⟩ := bind_eq_ok.1 h
  cases h
  simpa using weigh_bound hv hM

/-- **C153** `hk`.  `M` bounds the samples that are read: those of the stacked trace or of the traces. -/
theorem c153_hk {env : Env ℝ} {st : List (Trace ℝ)} {preonset : ℝ} {H K : List ℝ} {Vp : Option (Scalar ℝ)}
    {v1 v2 v3 v1' v2' v3' M : ℝ} {layer : Option String} {stack : Bool} {r r' : HKResult ℝ}
    (h : hk env st preonset H K Vp (some v1) (some v2) (some v3) layer (some stack) = .ok r)
    (h' : hk env st preonset H K Vp (some v1') (some v2') (some v3') layer (some stack) = .ok r')
    (hM : ∀ tr ∈ st, ∀ a ∈ (if stack then r.RFStack else tr.data), |a| ≤ M) :
    let B := weightChange v1 v2 v3 v1' v2' v3' * (st.length * M)
    NearTable B r.stackvalues r'.stackvalues ∧ (Margin (2 * B) r.stackvalues r.bestIdx → r'.bestIdx = r.bestIdx) := by
  intro B
  obtain ⟨tr0, rest, slows, f⟩ := hk_inv h
  obtain ⟨tr0', rest', slows', f'⟩ := hk_inv h'
  obtain ⟨more, hmore⟩ := f.hstack
  obtain ⟨more', hmore'⟩ := f'.hstack
  have e1 : r'.RFStack = r.RFStack := by
    have := Except.ok.inj (hmore'.symm.trans hmore)
    exact (List.cons.inj this).1
  have e2 : tr0' = tr0 := by have := f'.hst.symm.trans f.hst; exact (List.cons.inj this).1
  have e3 : slows' = slows := Except.ok.inj (f'.hslow.symm.trans f.hslow)
  have g := f.hgrid
  have g' := f'.hgrid
  rw [f.hstk] at g
  rw [f'.hVp, ← f.hVp, f'.hstk, f'.htime, e2, ← f.htime, e1, f'.havg, e3, ← f.havg] at g'
  have hT : NearTable B r.stackvalues r'.stackvalues := by
    refine nearTable_of g g' ?_
    intro k _ x _ a b ha hb
    refine lin_near (linCell_hk env st r.time r.RFStack r.AvgSlow r.Vp stack) ?_ ha hb
    intro w1 w2 w3 c hc
    obtain ⟨xs, hxs, hsum⟩ := cell_real_ok.1 hc
    obtain ⟨gg, hg, rfl⟩ := exists_fun_of_mapM hxs
    rw [hsum]
    have : |(st.map gg).sum| ≤ st.length * ((|w1| + |w2| + |w3|) * M) := by
      apply abs_sum_le
      intro tr htr
      obtain ⟨o, sl, ts, _, _, _, hw⟩ := traceTerm_ok.1 (hg tr htr)
      exact weigh_bound hw (hM tr htr)
    calc _ ≤ _ := this
      _ = _ := by ring
  exact ⟨hT, nearTable_best hT f.hbest f'.hbest⟩

/-- **C153** `hkSynth` -/
theorem c153_hkSynth {env : Env ℝ} {d t : List ℝ} {rp : Scalar ℝ} {H K : List ℝ} {Vp : Option (Scalar ℝ)}
    {v1 v2 v3 v1' v2' v3' M : ℝ} {layer : Option String} {r r' : SynthAnalysis.SynthResult ℝ}
    (h : SynthAnalysis.hkSynth env d t rp H K Vp (some v1) (some v2) (some v3) layer = .ok r)
    (h' : SynthAnalysis.hkSynth env d t rp H K Vp (some v1') (some v2') (some v3') layer = .ok r')
    (hM : ∀ a ∈ d, |a| ≤ M) :
    let B := weightChange v1 v2 v3 v1' v2' v3' * M
    NearTable B r.stackvalues r'.stackvalues ∧ (Margin (2 * B) r.stackvalues r.bestIdx → r'.bestIdx = r.bestIdx) := by
  intro B
  have f := hkSynth_inv h
  have f' := hkSynth_inv h'
  have hT : NearTable B r.stackvalues r'.stackvalues := by
    refine nearTable_of f.hgrid f'.hgrid ?_
    intro k _ x _ a b ha hb
    refine lin_near (linCell_synth d t rp _) ?_ ha hb
    intro w1 w2 w3 c hc
    simp only [synthCell_eq] at hc
    exact times_bound hc hM
  exact ⟨hT, nearTable_best hT f.hbest f'.hbest⟩

/-- **C153** `hkYu` -/
theorem c153_hkYu {env : Env ℝ} {flt : HkYu.FltInput ℝ} {rp : Scalar ℝ} {H K : List ℝ}
    {VpMoho VpSed VsSed : Option (Scalar ℝ)} {v1 v2 v3 v1' v2' v3' M : ℝ} {r r' : HkYu.YuResult ℝ}
    (h : HkYu.hkYu env flt rp H K VpMoho VpSed VsSed (some v1) (some v2) (some v3) = .ok r)
    (h' : HkYu.hkYu env flt rp H K VpMoho VpSed VsSed (some v1') (some v2') (some v3') = .ok r')
    (hM : ∀ a ∈ flt.filteredrf, |a| ≤ M) :
    let B := weightChange v1 v2 v3 v1' v2' v3' * M
    NearTable B r.stackvaluesSubSed r'.stackvaluesSubSed ∧
      (Margin (2 * B) r.stackvaluesSubSed r.bestIdx → r'.bestIdx = r.bestIdx) := by
  intro B
  obtain ⟨vs, a, b, bmod, f⟩ := hkYu_inv h
  obtain ⟨vs', a', b', bmod', f'⟩ := hkYu_inv h'
  have e0 : vs' = vs := Option.some.inj (f'.hvs.symm.trans f.hvs)
  subst e0
  have e1 : r'.SedThick = r.SedThick := by rw [f'.hSed, f.hSed]
  have e2 : r'.VpSed = r.VpSed := f'.hVpSed.trans f.hVpSed.symm
  have e3 : r'.VpMoho = r.VpMoho := f'.hVp.trans f.hVp.symm
  have ea : a' = a := by
    have := f'.ha; rw [e1] at this
    exact Except.ok.inj (this.symm.trans f.ha)
  have eb : b' = b := by
    have := f'.hb; rw [e1, e2] at this
    exact Except.ok.inj (this.symm.trans f.hb)
  have e4 : r'.Pdelay = r.Pdelay := by rw [f'.hPd, f.hPd, ea, eb]
  have g' := f'.hgrid
  rw [e3, e4] at g'
  have hT : NearTable B r.stackvaluesSubSed r'.stackvaluesSubSed := by
    refine nearTable_of f.hgrid g' ?_
    intro k _ x _ u v hu hv
    refine lin_near (linCell_yu flt rp r.VpMoho r.Pdelay) ?_ hu hv
    intro w1 w2 w3 c hc
    simp only [yuCell_eq] at hc
    obtain ⟨ts, -, hc⟩ := bind_eq_ok.1 hc
    obtain ⟨y, hy, hc⟩ := bind_eq_ok.1 hc
    cases hc
    simpa using weigh_bound hy hM
  exact ⟨hT, nearTable_best hT f.hbest f'.hbest⟩

/-- the best sediment models have the same coordinates -/
theorem same_row {B : ℝ} {T T' : List (Row ℝ)} {i j : ℕ} {b b' : Row ℝ} (hT : NearTable B T T') (h1 : T[i]? = some b)
    (h2 : T'[j]? = some b') (e : j = i) : b'.h = b.h ∧ b'.k = b.k := by
  subst e
  obtain ⟨l1, e1⟩ := List.getElem?_eq_some_iff.1 h1
  obtain ⟨l2, e2⟩ := List.getElem?_eq_some_iff.1 h2
  have := (List.forall₂_iff_get.1 hT).2 _ l1 l2
  simp only [List.get_eq_getElem, e1, e2] at this
  exact ⟨this.1, this.2.1⟩

/-- **C153** `hkSeqSynth`, the weights of both stages changed -/
theorem c153_hkSeqSynth {env : Env ℝ} {dS dM t : List ℝ} {rp : Scalar ℝ} {HS KS : List ℝ} {VpS : Option (Scalar ℝ)}
    {s1 s2 s3 s1' s2' s3' MS MM : ℝ} {HM KM : List ℝ} {vm : Scalar ℝ} {v1 v2 v3 v1' v2' v3' : ℝ}
    {r r' : SynthAnalysis.SeqSynthResult ℝ} (hMS : ∀ a ∈ dS, |a| ≤ MS) (hMM : ∀ a ∈ dM, |a| ≤ MM) (h0 : 0 ≤ MM)
    (h : SynthAnalysis.hkSeqSynth env dS dM t rp HS KS VpS (some s1) (some s2) (some s3) HM KM (some vm) (some v1)
      (some v2) (some v3) = .ok r)
    (h' : SynthAnalysis.hkSeqSynth env dS dM t rp HS KS VpS (some s1') (some s2') (some s3') HM KM (some vm) (some v1')
      (some v2') (some v3') = .ok r') :
    let BS := weightChange s1 s2 s3 s1' s2' s3' * MS
    let BM := weightChange v1 v2 v3 v1' v2' v3' * MM
    NearTable BS r.stackvalueSed r'.stackvalueSed ∧
    (Margin (2 * BS) r.stackvalueSed r.bestIdxSed → r'.bestIdxSed = r.bestIdxSed ∧
      NearTable BM r.stackvalueMoho r'.stackvalueMoho ∧
      (Margin (2 * BM) r.stackvalueMoho r.bestIdxMoho → r'.bestIdxMoho = r.bestIdxMoho)) := by
  intro BS BM
  obtain ⟨bm, raw, f⟩ := hkSeqSynth_inv h
  obtain ⟨bm', raw', f'⟩ := hkSeqSynth_inv h'
  have hT : NearTable BS r.stackvalueSed r'.stackvalueSed := by
    have g' := f'.hgridS
    rw [f'.hVpSed, ← f.hVpSed] at g'
    refine nearTable_of f.hgridS g' ?_
    intro k _ x _ a b ha hb
    rw [seqSedCell_eq] at ha hb
    refine lin_near (linCell_synth dS t rp r.VpSed) ?_ ha hb
    intro w1 w2 w3 c hc
    simp only [synthCell_eq] at hc
    exact times_bound hc hMS
  refine ⟨hT, fun hm => ?_⟩
  have hbest := nearTable_best hT f.hbestS f'.hbestS hm
  have hbm := same_row hT f.hrowS f'.hrowS hbest
  have hR : NearTable BM raw raw' := by
    have g' := f'.hgridM
    rw [f'.hVpSed, ← f.hVpSed, hbm.1, hbm.2] at g'
    refine nearTable_of f.hgridM g' ?_
    intro k _ x _ a b ha hb
    refine lin_near (linCell_seqMoho dM t rp r.VpSed vm bm.h bm.k) ?_ ha hb
    intro w1 w2 w3 c hc
    simp only [seqMohoCell_eq] at hc
    exact times_bound hc hMM
  refine ⟨hbest, ?_, fun hm2 => ?_⟩
  · rw [f.hclip, f'.hclip]
    exact near_clip hR
  · rw [f.hclip] at hm2
    exact nearTable_best hR f.hbestM f'.hbestM
      (margin_of_clip (mul_nonneg (by norm_num) (mul_nonneg (weightChange_nonneg _ _ _ _ _ _) h0)) hm2)

/-- **C153** `hkSeq`, the weights of both stages changed -/
theorem c153_hkSeq {env : Env ℝ} {stS stM : List (Trace ℝ)} {preonset : ℝ} {HS KS : List ℝ} {VpS : Option (Scalar ℝ)}
    {s1 s2 s3 s1' s2' s3' MS MM : ℝ} {HM KM : List ℝ} {vm : Scalar ℝ} {v1 v2 v3 v1' v2' v3' : ℝ} {stack : Bool}
    {r r' : HkSeqYeck.SeqResult ℝ}
    (h : HkSeqYeck.hkSeq env stS stM preonset HS KS VpS (some s1) (some s2) (some s3) HM KM (some vm) (some v1)
      (some v2) (some v3) (some stack) = .ok r)
    (h' : HkSeqYeck.hkSeq env stS stM preonset HS KS VpS (some s1') (some s2') (some s3') HM KM (some vm) (some v1')
      (some v2') (some v3') (some stack) = .ok r')
    (hMS : ∀ tr ∈ stS, ∀ a ∈ (if stack then r.RFSedStack else tr.data), |a| ≤ MS)
    (hMM : ∀ tr ∈ stM, ∀ a ∈ (if stack then r.RFMohoStack else tr.data), |a| ≤ MM) (h0 : 0 ≤ MM) :
    let BS := weightChange s1 s2 s3 s1' s2' s3' * MS
    let BM := weightChange v1 v2 v3 v1' v2' v3' * MM
    NearTable BS r.stackvalueSed r'.stackvalueSed ∧
    (Margin (2 * BS) r.stackvalueSed r.bestIdxSed → r'.bestIdxSed = r.bestIdxSed ∧
      NearTable BM r.stackvalueMoho r'.stackvalueMoho ∧
      (Margin (2 * BM) r.stackvalueMoho r.bestIdxMoho → r'.bestIdxMoho = r.bestIdxMoho)) := by
  intro BS BM
  obtain ⟨tr0, rest, slows, bm, raw, f⟩ := hkSeq_inv h
  obtain ⟨tr0', rest', slows', bm', raw', f'⟩ := hkSeq_inv h'
  have t0 : tr0' = tr0 := by have := f'.hst.symm.trans f.hst; exact (List.cons.inj this).1
  have s0 : slows' = slows := Except.ok.inj (f'.hslow.symm.trans f.hslow)
  have q1 : r'.RFSedStack = r.RFSedStack := by
    obtain ⟨m, hm⟩ := f.hstackS
    obtain ⟨m', hm'⟩ := f'.hstackS
    exact (List.cons.inj (Except.ok.inj (hm'.symm.trans hm))).1
  have q2 : r'.RFMohoStack = r.RFMohoStack := by
    obtain ⟨m, hm⟩ := f.hstackM
    obtain ⟨m', hm'⟩ := f'.hstackM
    exact (List.cons.inj (Except.ok.inj (hm'.symm.trans hm))).1
  have g := f.hgridS
  have g' := f'.hgridS
  have k := f.hgridM
  have k' := f'.hgridM
  rw [f.hstk] at g k
  rw [q1, f'.havg, s0, ← f.havg, f'.htime, t0, ← f.htime, f'.hstk, f'.hVpSed, ← f.hVpSed] at g'
  rw [q2, f'.havg, s0, ← f.havg, f'.htime, t0, ← f.htime, f'.hstk, f'.hVpSed, ← f.hVpSed] at k'
  have hT : NearTable BS r.stackvalueSed r'.stackvalueSed := by
    refine nearTable_of g g' ?_
    intro k _ x _ a b ha hb
    refine lin_near (linCell_last stS (fun tr _ =>
      linCell_sedTerm env r.time r.RFSedStack r.AvgSlow r.VpSed stack tr)) ?_ ha hb
    intro w1 w2 w3 c hc
    obtain ⟨init, last, hst, -, hc⟩ := lastTrace_ok.1 hc
    rw [sedTerm_eq] at hc
    obtain ⟨_, -, hc⟩ := bind_eq_ok.1 hc
    obtain ⟨_, -, hc⟩ := bind_eq_ok.1 hc
    exact times_bound hc (hMS last (by rw [hst]; simp))
  refine ⟨hT, fun hm => ?_⟩
  have hbest := nearTable_best hT f.hbestS f'.hbestS hm
  have hbm := same_row hT f.hrowS f'.hrowS hbest
  have hR : NearTable BM raw raw' := by
    rw [hbm.1, hbm.2] at k'
    refine nearTable_of k k' ?_
    intro k _ x _ a b ha hb
    refine lin_near (linCell_last stM (fun tr _ =>
      linCell_mohoTerm env stM r.time r.RFMohoStack r.AvgSlow r.VpSed vm bm.h bm.k stack tr)) ?_ ha hb
    intro w1 w2 w3 c hc
    obtain ⟨init, last, hst, -, hc⟩ := lastTrace_ok.1 hc
    rw [mohoTerm_eq] at hc
    obtain ⟨_, -, hc⟩ := bind_eq_ok.1 hc
    obtain ⟨_, -, hc⟩ := bind_eq_ok.1 hc
    obtain ⟨_, -, hc⟩ := bind_eq_ok.1 hc
    exact times_bound hc (hMM last (by rw [hst]; simp))
  refine ⟨hbest, ?_, fun hm2 => ?_⟩
  · rw [f.hclip, f'.hclip]
    exact near_clip hR
  · rw [f.hclip] at hm2
    exact nearTable_best hR f.hbestM f'.hbestM
      (margin_of_clip (mul_nonneg (by norm_num) (mul_nonneg (weightChange_nonneg _ _ _ _ _ _) h0)) hm2)

/-! ## A concrete case: any weights close to (0.6, 0.3, 0.1) -/

theorem search5w (d0 d1 d2 d3 d4 w1 w2 w3 : ℝ) :
    ∃ r, SynthAnalysis.hkSynth Sample.env [d0, d1, d2, d3, d4] [0, 1, 2, 3, 4] ⟨.py, 0⟩ [3, 1] [2]
      (some ⟨.py, 1⟩) (some w1) (some w2) (some w3) none = .ok r ∧
      r.stackvalues = [⟨3, 2, w1 * d3 + w2 * d4 - w3 * d4⟩, ⟨1, 2, w1 * d1 + w2 * d3 - w3 * d4⟩] := by
  have n1 : NearestSample [(0 : ℝ), 1, 2, 3, 4] 1 1 := by have := axis5_nearest 1 (by norm_num); simpa using this
  have n3 : NearestSample [(0 : ℝ), 1, 2, 3, 4] 3 3 := by have := axis5_nearest 3 (by norm_num); simpa using this
  have n4 := axis5_last 4 (by norm_num)
  have tab : gridLoop [2] [3, 1] (SynthAnalysis.cell [d0, d1, d2, d3, d4] [0, 1, 2, 3, 4] ⟨.py, 0⟩ ⟨.py, 1⟩ w1 w2 w3) =
      .ok [⟨3, 2, w1 * d3 + w2 * d4 - w3 * d4⟩, ⟨1, 2, w1 * d1 + w2 * d3 - w3 * d4⟩] := by
    refine gridLoop_fun.2 ⟨fun _ x => if x = 1 then w1 * d1 + w2 * d3 - w3 * d4
      else w1 * d3 + w2 * d4 - w3 * d4, ?_, ?_⟩
    · intro k hk x hx
      simp at hk hx
      subst hk
      rcases hx with rfl | rfl
      · norm_num only [if_neg]
        exact cell5 (i1 := 3) (i2 := 4) (i3 := 4) n3 (axis5_last _ (by norm_num)) (axis5_last _ (by norm_num)) rfl rfl
          rfl _ _ _
      · norm_num only [if_true]
        refine cell5 (i1 := 1) (i2 := 3) (i3 := 4) n1 ?_ ?_ rfl rfl rfl _ _ _
        · simpa using n3
        · simpa using n4
    · simp [gridTab, gridPoints]
  obtain ⟨n, hn⟩ := argmax_of_length
    (tb := [⟨3, 2, w1 * d3 + w2 * d4 - w3 * d4⟩, ⟨1, 2, w1 * d1 + w2 * d3 - w3 * d4⟩]) (by simp)
  exact ⟨_, hkSynth_of (w1 := some w1) (w2 := some w2) (w3 := some w3) tab hn rfl, rfl⟩

/-- with the weights (0.6, 0.3, 0.1) the table is `0.4` and `1`; every choice of weights that differs from them by less
than 0.3 in total has the same best model -/
example (w1 w2 w3 : ℝ) (hw : weightChange 0.6 0.3 0.1 w1 w2 w3 < 0.3) :
    ∃ r, SynthAnalysis.hkSynth Sample.env [0, 1, 0, 1, -1] [0, 1, 2, 3, 4] ⟨.py, 0⟩ [3, 1] [2]
      (some ⟨.py, 1⟩) (some w1) (some w2) (some w3) none = .ok r ∧ r.bestIdx = 1 := by
  obtain ⟨r, h, e⟩ := search5w 0 1 0 1 (-1) 0.6 0.3 0.1
  obtain ⟨r', h', _⟩ := search5w 0 1 0 1 (-1) w1 w2 w3
  have hb : r.bestIdx = 1 := by
    have := (hkSynth_inv h).hbest
    rw [e] at this
    have q : argmax (([⟨3, 2, 0.6 * 1 + 0.3 * -1 - 0.1 * -1⟩,
        ⟨1, 2, 0.6 * 1 + 0.3 * 1 - 0.1 * -1⟩] : List (Row ℝ)).map Row.s) = .ok 1 := by
      apply argmax_eq_of_firstMax (fun _ _ => rfl)
      refine ⟨0.6 * 1 + 0.3 * 1 - 0.1 * -1, rfl, ?_, ?_⟩
      · intro j y hy
        match j with
        | 0 | 1 => simp at hy; subst hy; rw [real_le]; norm_num
        | j + 2 => simp at hy
      · intro j y hj hy
        match j with
        | 0 => simp at hy; subst hy; rw [real_lt]; norm_num
        | j + 1 => omega
    exact Except.ok.inj (this.symm.trans q)
  have := (c153_hkSynth (M := 1) h h' (by
    intro a ha
    simp only [List.mem_cons, List.not_mem_nil, or_false] at ha
    rcases ha with rfl | rfl | rfl | rfl | rfl <;> norm_num)).2 (by
    rw [hb, e]
    intro best hbest j row hj hrow
    cases hbest
    match j with
    | 0 =>
      cases hrow
      simp only
      linarith
    | 1 => exact absurd rfl hj
    | j + 2 => simp at hrow)
  exact ⟨r', h', this.trans hb⟩

end Rfsed.Props
