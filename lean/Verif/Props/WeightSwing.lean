import Verif.Props.Superpose

/-!
# C150: raising a weight favours its phase

The direction in which the weights are changed, `v' - v`, is itself a choice of weights; the stack made with it is at the
new best model at least what it is at the old one.
-/

namespace Rfsed.Props
open Spec PyFloat HkZhu

/-- In the table `D` the value at the grid point of `b'` is at least the one at the grid point of `b`. -/
def Favours (D : List (Row ℝ)) (b b' : Row ℝ) : Prop :=
  ∃ x ∈ D, ∃ x' ∈ D, x.h = b.h ∧ x.k = b.k ∧ x'.h = b'.h ∧ x'.k = b'.k ∧ x.s ≤ x'.s

theorem tableComb_get {A B C : List (Row ℝ)} {n i : Nat} (lA : A.length = n) (lB : B.length = n) (lC : C.length = n)
    (hi : i < n) (w1 w2 w3 : ℝ) : (tableComb w1 w2 w3 A B C)[i]? =
      some ⟨A[i].h, A[i].k, w1 * A[i].s + w2 * B[i].s + w3 * C[i].s⟩ := by
  have hA : i < A.length := by omega
  have hB : i < B.length := by omega
  have hC : i < C.length := by omega
  simp [tableComb, tableAdd, tableScale, List.getElem?_zipWith, hA, hB, hC]

theorem best_value {tb : List (Row ℝ)} {i j : Nat} {x y : Row ℝ} (h : argmax (tb.map Row.s) = .ok i)
    (hx : tb[i]? = some x) (hy : tb[j]? = some y) : y.s ≤ x.s := by
  obtain ⟨b, h1, h2, _⟩ := bestRow_of h (fun _ _ => rfl)
  rw [hx] at h1
  have := h2 j y hy
  rw [← Option.some.inj h1] at this
  simpa using this

/-- the law for tables that are weighted sums of the same three tables -/
theorem swing {A B C : List (Row ℝ)} {n i j : Nat} (lA : A.length = n) (lB : B.length = n) (lC : C.length = n)
    {v1 v2 v3 v1' v2' v3' : ℝ} (h : argmax ((tableComb v1 v2 v3 A B C).map Row.s) = .ok i)
    (h' : argmax ((tableComb v1' v2' v3' A B C).map Row.s) = .ok j) :
    ∃ b b' x x', (tableComb v1 v2 v3 A B C)[i]? = some b ∧ (tableComb v1' v2' v3' A B C)[j]? = some b' ∧
      (tableComb (v1' - v1) (v2' - v2) (v3' - v3) A B C)[i]? = some x ∧
      (tableComb (v1' - v1) (v2' - v2) (v3' - v3) A B C)[j]? = some x' ∧
      x.h = b.h ∧ x.k = b.k ∧ x'.h = b'.h ∧ x'.k = b'.k ∧ x.s ≤ x'.s := by
  have hi : i < n := by
    have := argmax_lt h
    rwa [List.length_map, tableComb_length _ _ _ lA lB lC] at this
  have hj : j < n := by
    have := argmax_lt h'
    rwa [List.length_map, tableComb_length _ _ _ lA lB lC] at this
  have k1 := best_value h (tableComb_get lA lB lC hi v1 v2 v3) (tableComb_get lA lB lC hj v1 v2 v3)
  have k2 := best_value h' (tableComb_get lA lB lC hj v1' v2' v3') (tableComb_get lA lB lC hi v1' v2' v3')
  refine ⟨_, _, _, _, tableComb_get lA lB lC hi _ _ _, tableComb_get lA lB lC hj _ _ _,
    tableComb_get lA lB lC hi _ _ _, tableComb_get lA lB lC hj _ _ _, rfl, rfl, rfl, rfl, ?_⟩
  simp only at k1 k2 ⊢
  linarith

/-- **C150** `hk` -/
theorem c150_hk {env : Env ℝ} {st : List (Trace ℝ)} {preonset : ℝ} {H K : List ℝ} {Vp : Option (Scalar ℝ)}
    {v1 v2 v3 v1' v2' v3' : ℝ} {layer : Option String} {stack : Option Bool} {r r' : HKResult ℝ}
    (h : hk env st preonset H K Vp (some v1) (some v2) (some v3) layer stack = .ok r)
    (h' : hk env st preonset H K Vp (some v1') (some v2') (some v3') layer stack = .ok r')
    (hdraw : ∀ tb, env.draw tb = .ok ()) :
    ∃ D b b', hk env st preonset H K Vp (some (v1' - v1)) (some (v2' - v2)) (some (v3' - v3)) layer stack = .ok D ∧
      r.bestmodel = some b ∧ r'.bestmodel = some b' ∧ Favours D.stackvalues b b' := by
  obtain ⟨A, B, C, lA, lB, lC, hv⟩ := c93_hk h hdraw
  obtain ⟨r0, h0, e0⟩ := hv v1 v2 v3
  obtain ⟨r1, h1, e1⟩ := hv v1' v2' v3'
  obtain ⟨D, hD, eD⟩ := hv (v1' - v1) (v2' - v2) (v3' - v3)
  obtain rfl := Except.ok.inj (h.symm.trans h0)
  obtain rfl := Except.ok.inj (h'.symm.trans h1)
  obtain ⟨_, _, _, f⟩ := hk_inv h
  obtain ⟨_, _, _, f'⟩ := hk_inv h'
  have q := f.hbest
  have q' := f'.hbest
  rw [e0] at q
  rw [e1] at q'
  obtain ⟨b, b', x, x', a1, a2, a3, a4, a5⟩ := swing lA lB lC q q'
  refine ⟨D, b, b', hD, ?_, ?_, x, ?_, x', ?_, a5⟩
  · unfold HKResult.bestmodel; rw [e0]; exact a1
  · unfold HKResult.bestmodel; rw [e1]; exact a2
  · rw [eD]; exact List.mem_of_getElem? a3
  · rw [eD]; exact List.mem_of_getElem? a4

/-- **C150** `hk`, one weight: raising the weight of the Ps phase never lowers the sum of the Ps amplitudes at the best
model.  `S` is the search for the Ps phase alone. -/
theorem c150_hk_Ps {env : Env ℝ} {st : List (Trace ℝ)} {preonset : ℝ} {H K : List ℝ} {Vp : Option (Scalar ℝ)}
    {v1 v1' v2 v3 : ℝ} {layer : Option String} {stack : Option Bool} {r r' : HKResult ℝ} (hlt : v1 < v1')
    (h : hk env st preonset H K Vp (some v1) (some v2) (some v3) layer stack = .ok r)
    (h' : hk env st preonset H K Vp (some v1') (some v2) (some v3) layer stack = .ok r')
    (hdraw : ∀ tb, env.draw tb = .ok ()) :
    ∃ S b b', hk env st preonset H K Vp (some 1) (some 0) (some 0) layer stack = .ok S ∧
      r.bestmodel = some b ∧ r'.bestmodel = some b' ∧ Favours S.stackvalues b b' := by
  obtain ⟨D, b, b', hD, hb, hb', x, hx, x', hx', a1, a2, a3, a4, a5⟩ := c150_hk h h' hdraw
  have hc : 0 < v1' - v1 := by linarith
  obtain ⟨A, B, C, _, _, _, hv⟩ := c93_hk h hdraw
  obtain ⟨S, hS, -⟩ := hv 1 0 0
  obtain ⟨D', hD', eD', -⟩ := c93_hk_factor hc hS hdraw
  rw [mul_one, mul_zero] at hD'
  rw [sub_self, sub_self] at hD
  obtain rfl := Except.ok.inj (hD.symm.trans hD')
  rw [eD'] at hx hx'
  obtain ⟨y, hy, rfl⟩ := List.mem_map.1 hx
  obtain ⟨y', hy', rfl⟩ := List.mem_map.1 hx'
  exact ⟨S, b, b', hS, hb, hb', y, hy, y', hy', a1, a2, a3, a4, le_of_mul_le_mul_left a5 hc⟩

/-- **C150** `hkSynth` -/
theorem c150_hkSynth {env : Env ℝ} {d t : List ℝ} {rp : Scalar ℝ} {H K : List ℝ} {Vp : Option (Scalar ℝ)}
    {v1 v2 v3 v1' v2' v3' : ℝ} {layer : Option String} {r r' : SynthAnalysis.SynthResult ℝ}
    (h : SynthAnalysis.hkSynth env d t rp H K Vp (some v1) (some v2) (some v3) layer = .ok r)
    (h' : SynthAnalysis.hkSynth env d t rp H K Vp (some v1') (some v2') (some v3') layer = .ok r')
    (hdraw : ∀ tb, env.draw tb = .ok ()) :
    ∃ D b b', SynthAnalysis.hkSynth env d t rp H K Vp (some (v1' - v1)) (some (v2' - v2)) (some (v3' - v3)) layer = .ok D ∧
      r.bestmodel = some b ∧ r'.bestmodel = some b' ∧ Favours D.stackvalues b b' := by
  obtain ⟨A, B, C, lA, lB, lC, hv⟩ := c93_hkSynth h hdraw
  obtain ⟨r0, h0, e0⟩ := hv v1 v2 v3
  obtain ⟨r1, h1, e1⟩ := hv v1' v2' v3'
  obtain ⟨D, hD, eD⟩ := hv (v1' - v1) (v2' - v2) (v3' - v3)
  obtain rfl := Except.ok.inj (h.symm.trans h0)
  obtain rfl := Except.ok.inj (h'.symm.trans h1)
  have q := (hkSynth_inv h).hbest
  have q' := (hkSynth_inv h').hbest
  rw [e0] at q
  rw [e1] at q'
  obtain ⟨b, b', x, x', a1, a2, a3, a4, a5⟩ := swing lA lB lC q q'
  refine ⟨D, b, b', hD, ?_, ?_, x, ?_, x', ?_, a5⟩
  · unfold SynthAnalysis.SynthResult.bestmodel; rw [e0]; exact a1
  · unfold SynthAnalysis.SynthResult.bestmodel; rw [e1]; exact a2
  · rw [eD]; exact List.mem_of_getElem? a3
  · rw [eD]; exact List.mem_of_getElem? a4

/-- **C150** `hkYu` -/
theorem c150_hkYu {env : Env ℝ} {flt : HkYu.FltInput ℝ} {rp : Scalar ℝ} {H K : List ℝ}
    {VpMoho VpSed VsSed : Option (Scalar ℝ)} {v1 v2 v3 v1' v2' v3' : ℝ} {r r' : HkYu.YuResult ℝ}
    (h : HkYu.hkYu env flt rp H K VpMoho VpSed VsSed (some v1) (some v2) (some v3) = .ok r)
    (h' : HkYu.hkYu env flt rp H K VpMoho VpSed VsSed (some v1') (some v2') (some v3') = .ok r')
    (hdraw : ∀ tb, env.draw tb = .ok ()) :
    ∃ D b b', HkYu.hkYu env flt rp H K VpMoho VpSed VsSed (some (v1' - v1)) (some (v2' - v2)) (some (v3' - v3)) = .ok D ∧
      r.bestmodel = some b ∧ r'.bestmodel = some b' ∧ Favours D.stackvaluesSubSed b b' := by
  obtain ⟨A, B, C, lA, lB, lC, hv⟩ := c93_hkYu h hdraw
  obtain ⟨r0, h0, e0, -⟩ := hv v1 v2 v3
  obtain ⟨r1, h1, e1, -⟩ := hv v1' v2' v3'
  obtain ⟨D, hD, eD, -⟩ := hv (v1' - v1) (v2' - v2) (v3' - v3)
  obtain rfl := Except.ok.inj (h.symm.trans h0)
  obtain rfl := Except.ok.inj (h'.symm.trans h1)
  obtain ⟨_, _, _, _, f⟩ := hkYu_inv h
  obtain ⟨_, _, _, _, f'⟩ := hkYu_inv h'
  have q := f.hbest
  have q' := f'.hbest
  rw [e0] at q
  rw [e1] at q'
  obtain ⟨b, b', x, x', a1, a2, a3, a4, a5⟩ := swing lA lB lC q q'
  refine ⟨D, b, b', hD, ?_, ?_, x, ?_, x', ?_, a5⟩
  · unfold HkYu.YuResult.bestmodel; rw [e0]; exact a1
  · unfold HkYu.YuResult.bestmodel; rw [e1]; exact a2
  · rw [eD]; exact List.mem_of_getElem? a3
  · rw [eD]; exact List.mem_of_getElem? a4

theorem swing_clip {A B C T T' D : List (Row ℝ)} {n i j : Nat} (lA : A.length = n) (lB : B.length = n) (lC : C.length = n)
    {v1 v2 v3 v1' v2' v3' : ℝ} (h : argmax ((tableComb v1 v2 v3 A B C).map Row.s) = .ok i)
    (h' : argmax ((tableComb v1' v2' v3' A B C).map Row.s) = .ok j) (hT : T = tableClip (tableComb v1 v2 v3 A B C))
    (hT' : T' = tableClip (tableComb v1' v2' v3' A B C))
    (hD : D = tableClip (tableComb (v1' - v1) (v2' - v2) (v3' - v3) A B C)) :
    ∃ b b', T[i]? = some b ∧ T'[j]? = some b' ∧ Favours D b b' := by
  obtain ⟨b, b', x, x', a1, a2, a3, a4, a5, a6, a7, a8, a9⟩ := swing lA lB lC h h'
  subst hT hT' hD
  refine ⟨⟨b.h, b.k, max b.s 0⟩, ⟨b'.h, b'.k, max b'.s 0⟩, by rw [tableClip, List.getElem?_map, a1]; rfl,
    by rw [tableClip, List.getElem?_map, a2]; rfl,
    _, List.mem_map.2 ⟨x, List.mem_of_getElem? a3, rfl⟩, _, List.mem_map.2 ⟨x', List.mem_of_getElem? a4, rfl⟩,
    a5, a6, a7, a8, max_le_max a9 le_rfl⟩

/-- **C150** the Moho stage of `hkSeqSynth` (the negative values of the tables are set to zero) -/
theorem c150_hkSeqSynth_moho {env : Env ℝ} {dS dM t : List ℝ} {rp : Scalar ℝ} {HS KS : List ℝ}
    {VpSed : Option (Scalar ℝ)} {w1S w2S w3S : Option ℝ} {HM KM : List ℝ} {vm : Scalar ℝ}
    {v1 v2 v3 v1' v2' v3' : ℝ} {r r' : SynthAnalysis.SeqSynthResult ℝ}
    (h : SynthAnalysis.hkSeqSynth env dS dM t rp HS KS VpSed w1S w2S w3S HM KM (some vm) (some v1) (some v2)
      (some v3) = .ok r)
    (h' : SynthAnalysis.hkSeqSynth env dS dM t rp HS KS VpSed w1S w2S w3S HM KM (some vm) (some v1') (some v2')
      (some v3') = .ok r') (hdraw : ∀ tb, env.draw tb = .ok ()) :
    ∃ D b b', SynthAnalysis.hkSeqSynth env dS dM t rp HS KS VpSed w1S w2S w3S HM KM (some vm) (some (v1' - v1))
        (some (v2' - v2)) (some (v3' - v3)) = .ok D ∧
      r.bestmodelMoho = some b ∧ r'.bestmodelMoho = some b' ∧ Favours D.stackvalueMoho b b' := by
  obtain ⟨A, B, C, lA, lB, lC, hv⟩ := c93_hkSeqSynth_moho h hdraw
  obtain ⟨r0, h0, e0, q, -⟩ := hv v1 v2 v3
  obtain ⟨r1, h1, e1, q', -⟩ := hv v1' v2' v3'
  obtain ⟨D, hD, eD, -⟩ := hv (v1' - v1) (v2' - v2) (v3' - v3)
  obtain rfl := Except.ok.inj (h.symm.trans h0)
  obtain rfl := Except.ok.inj (h'.symm.trans h1)
  obtain ⟨b, b', a1, a2, a3⟩ := swing_clip lA lB lC q q' e0 e1 eD
  exact ⟨D, b, b', hD, a1, a2, a3⟩

/-- **C150** the Moho stage of `hkSeq` (the negative values of the tables are set to zero) -/
theorem c150_hkSeq_moho {env : Env ℝ} {stS stM : List (Trace ℝ)} {preonset : ℝ} {HS KS : List ℝ}
    {VpSed : Option (Scalar ℝ)} {w1S w2S w3S : Option ℝ} {HM KM : List ℝ} {vm : Scalar ℝ}
    {v1 v2 v3 v1' v2' v3' : ℝ} {stack : Option Bool} {r r' : HkSeqYeck.SeqResult ℝ}
    (h : HkSeqYeck.hkSeq env stS stM preonset HS KS VpSed w1S w2S w3S HM KM (some vm) (some v1) (some v2)
      (some v3) stack = .ok r)
    (h' : HkSeqYeck.hkSeq env stS stM preonset HS KS VpSed w1S w2S w3S HM KM (some vm) (some v1') (some v2')
      (some v3') stack = .ok r') (hdraw : ∀ tb, env.draw tb = .ok ()) :
    ∃ D b b', HkSeqYeck.hkSeq env stS stM preonset HS KS VpSed w1S w2S w3S HM KM (some vm) (some (v1' - v1))
        (some (v2' - v2)) (some (v3' - v3)) stack = .ok D ∧
      r.bestmodelMoho = some b ∧ r'.bestmodelMoho = some b' ∧ Favours D.stackvalueMoho b b' := by
  obtain ⟨A, B, C, lA, lB, lC, hv⟩ := c93_hkSeq_moho h hdraw
  obtain ⟨r0, h0, e0, q, -⟩ := hv v1 v2 v3
  obtain ⟨r1, h1, e1, q', -⟩ := hv v1' v2' v3'
  obtain ⟨D, hD, eD, -⟩ := hv (v1' - v1) (v2' - v2) (v3' - v3)
  obtain rfl := Except.ok.inj (h.symm.trans h0)
  obtain rfl := Except.ok.inj (h'.symm.trans h1)
  obtain ⟨b, b', a1, a2, a3⟩ := swing_clip lA lB lC q q' e0 e1 eD
  exact ⟨D, b, b', hD, a1, a2, a3⟩

/-- the sample stream, with the weight of Ps raised from 0.6 to 0.7 -/
example : ∃ r r' S b b', hk Sample.env Sample.stream 1 [30, 35] [1.7, 1.8, 1.9] (some ⟨.py, 6.5⟩) (some 0.6) (some 0.3)
      (some 0.1) none none = .ok r ∧
    hk Sample.env Sample.stream 1 [30, 35] [1.7, 1.8, 1.9] (some ⟨.py, 6.5⟩) (some 0.7) (some 0.3) (some 0.1) none none
      = .ok r' ∧
    hk Sample.env Sample.stream 1 [30, 35] [1.7, 1.8, 1.9] (some ⟨.py, 6.5⟩) (some 1) (some 0) (some 0) none none = .ok S ∧
    r.bestmodel = some b ∧ r'.bestmodel = some b' ∧ Favours S.stackvalues b b' := by
  obtain ⟨r, hr⟩ := sample_ok (some 0.6) (some 0.3) (some 0.1) none
  obtain ⟨r', hr'⟩ := sample_ok (some 0.7) (some 0.3) (some 0.1) none
  obtain ⟨S, b, b', h1, h2, h3, h4⟩ := c150_hk_Ps (by norm_num) hr hr' (fun _ => rfl)
  exact ⟨r, r', S, b, b', hr, hr', h1, h2, h3, h4⟩

end Rfsed.Props
