import Verif.Props.WeightMix
import Verif.Props.WaveformParallel

/-!
# C155: mixing weights never makes the best fit better than mixing the best fits
-/

namespace Rfsed.Props
open Spec PyFloat HkZhu Waveform

/-- the largest weighted sum is convex in the weights -/
theorem best_comb_mix {A B C : List (Row ℝ)} {n i j l : ℕ} (lA : A.length = n) (lB : B.length = n) (lC : C.length = n)
    {v1 v2 v3 v1' v2' v3' a c : ℝ} (ha : 0 ≤ a) (hc : 0 ≤ c) {b b' d : Row ℝ}
    (h : argmax ((tableComb v1 v2 v3 A B C).map Row.s) = .ok i)
    (h' : argmax ((tableComb v1' v2' v3' A B C).map Row.s) = .ok j)
    (hb : (tableComb v1 v2 v3 A B C)[i]? = some b) (hb' : (tableComb v1' v2' v3' A B C)[j]? = some b')
    (hd : (tableComb (a * v1 + c * v1') (a * v2 + c * v2') (a * v3 + c * v3') A B C)[l]? = some d) :
    d.s ≤ a * b.s + c * b'.s := by
  have hl : l < n := by
    by_contra hx
    rw [List.getElem?_eq_none (by rw [tableComb_length _ _ _ lA lB lC]; omega)] at hd
    cases hd
  have get := fun w1 w2 w3 => tableComb_get lA lB lC hl w1 w2 w3
  rw [get] at hd
  obtain ⟨x, hx0, hx1, -⟩ := argmax_firstMax (fun _ _ => rfl) h
  obtain ⟨y, hy0, hy1, -⟩ := argmax_firstMax (fun _ _ => rfl) h'
  rw [List.getElem?_map, hb] at hx0
  rw [List.getElem?_map, hb'] at hy0
  have p := hx1 l _ (by rw [List.getElem?_map, get]; rfl)
  have q := hy1 l _ (by rw [List.getElem?_map, get]; rfl)
  rw [real_le, ← Option.some.inj hx0] at p
  rw [real_le, ← Option.some.inj hy0] at q
  rw [← Option.some.inj hd]
  have p' := mul_le_mul_of_nonneg_left p ha
  have q' := mul_le_mul_of_nonneg_left q hc
  simp only at p' q' ⊢
  linarith

/-- the same for the table without its negative values -/
theorem best_comb_mix_clip {A B C : List (Row ℝ)} {n i j l : ℕ} (lA : A.length = n) (lB : B.length = n)
    (lC : C.length = n) {v1 v2 v3 v1' v2' v3' a c : ℝ} (ha : 0 ≤ a) (hc : 0 ≤ c) {b b' d : Row ℝ}
    (h : argmax ((tableComb v1 v2 v3 A B C).map Row.s) = .ok i)
    (h' : argmax ((tableComb v1' v2' v3' A B C).map Row.s) = .ok j)
    (hb : (tableClip (tableComb v1 v2 v3 A B C))[i]? = some b)
    (hb' : (tableClip (tableComb v1' v2' v3' A B C))[j]? = some b')
    (hd : (tableClip (tableComb (a * v1 + c * v1') (a * v2 + c * v2') (a * v3 + c * v3') A B C))[l]? = some d) :
    d.s ≤ a * b.s + c * b'.s := by
  rw [tableClip, List.getElem?_map, Option.map_eq_some_iff] at hb hb' hd
  obtain ⟨x, hx, rfl⟩ := hb
  obtain ⟨y, hy, rfl⟩ := hb'
  obtain ⟨z, hz, rfl⟩ := hd
  have := best_comb_mix lA lB lC ha hc h h' hx hy hz
  have p := mul_le_mul_of_nonneg_left (le_max_left x.s 0) ha
  have q := mul_le_mul_of_nonneg_left (le_max_left y.s 0) hc
  have p0 := mul_nonneg ha (le_max_right x.s 0)
  have q0 := mul_nonneg hc (le_max_right y.s 0)
  exact max_le (by linarith) (by linarith)

/-- **C155** `hk` -/
theorem c155_hk {env : Env ℝ} {st : List (Trace ℝ)} {preonset : ℝ} {H K : List ℝ} {Vp : Option (Scalar ℝ)}
    {v1 v2 v3 v1' v2' v3' a c : ℝ} {layer : Option String} {stack : Option Bool} {r r' : HKResult ℝ} {b b' : Row ℝ}
    (ha : 0 ≤ a) (hc : 0 ≤ c)
    (h : hk env st preonset H K Vp (some v1) (some v2) (some v3) layer stack = .ok r)
    (h' : hk env st preonset H K Vp (some v1') (some v2') (some v3') layer stack = .ok r')
    (hb : r.bestmodel = some b) (hb' : r'.bestmodel = some b')
    (hdraw : ∀ tb, env.draw tb = .ok ()) :
    ∃ D d, hk env st preonset H K Vp (some (a * v1 + c * v1')) (some (a * v2 + c * v2')) (some (a * v3 + c * v3'))
        layer stack = .ok D ∧ D.bestmodel = some d ∧ d.s ≤ a * b.s + c * b'.s := by
  obtain ⟨A, B, C, lA, lB, lC, hv⟩ := c93_hk h hdraw
  obtain ⟨r0, h0, e0⟩ := hv v1 v2 v3
  obtain ⟨r1, h1, e1⟩ := hv v1' v2' v3'
  obtain ⟨D, hD, eD⟩ := hv (a * v1 + c * v1') (a * v2 + c * v2') (a * v3 + c * v3')
  obtain rfl := Except.ok.inj (h.symm.trans h0)
  obtain rfl := Except.ok.inj (h'.symm.trans h1)
  obtain ⟨_, _, _, f⟩ := hk_inv h
  obtain ⟨_, _, _, f'⟩ := hk_inv h'
  obtain ⟨_, _, _, fD⟩ := hk_inv hD
  have q := f.hbest
  have q' := f'.hbest
  have qD := fD.hbest
  have hlt := argmax_lt qD
  rw [List.length_map] at hlt
  obtain ⟨d, hd⟩ : ∃ d, D.bestmodel = some d := ⟨_, List.getElem?_eq_getElem hlt⟩
  refine ⟨D, d, hD, hd, ?_⟩
  unfold HKResult.bestmodel at hb hb' hd
  rw [e0] at q hb
  rw [e1] at q' hb'
  rw [eD] at hd
  exact best_comb_mix lA lB lC ha hc q q' hb hb' hd

/-- **C155** `hkSynth` -/
theorem c155_hkSynth {env : Env ℝ} {dt t : List ℝ} {rp : Scalar ℝ} {H K : List ℝ} {Vp : Option (Scalar ℝ)}
    {v1 v2 v3 v1' v2' v3' a c : ℝ} {layer : Option String} {r r' : SynthAnalysis.SynthResult ℝ} {b b' : Row ℝ}
    (ha : 0 ≤ a) (hc : 0 ≤ c)
    (h : SynthAnalysis.hkSynth env dt t rp H K Vp (some v1) (some v2) (some v3) layer = .ok r)
    (h' : SynthAnalysis.hkSynth env dt t rp H K Vp (some v1') (some v2') (some v3') layer = .ok r')
    (hb : r.bestmodel = some b) (hb' : r'.bestmodel = some b')
    (hdraw : ∀ tb, env.draw tb = .ok ()) :
    ∃ D d, SynthAnalysis.hkSynth env dt t rp H K Vp (some (a * v1 + c * v1')) (some (a * v2 + c * v2'))
        (some (a * v3 + c * v3')) layer = .ok D ∧ D.bestmodel = some d ∧ d.s ≤ a * b.s + c * b'.s := by
  obtain ⟨A, B, C, lA, lB, lC, hv⟩ := c93_hkSynth h hdraw
  obtain ⟨r0, h0, e0⟩ := hv v1 v2 v3
  obtain ⟨r1, h1, e1⟩ := hv v1' v2' v3'
  obtain ⟨D, hD, eD⟩ := hv (a * v1 + c * v1') (a * v2 + c * v2') (a * v3 + c * v3')
  obtain rfl := Except.ok.inj (h.symm.trans h0)
  obtain rfl := Except.ok.inj (h'.symm.trans h1)
  have f := hkSynth_inv h
  have f' := hkSynth_inv h'
  have fD := hkSynth_inv hD
  have q := f.hbest
  have q' := f'.hbest
  have qD := fD.hbest
  have hlt := argmax_lt qD
  rw [List.length_map] at hlt
  obtain ⟨d, hd⟩ : ∃ d, D.bestmodel = some d := ⟨_, List.getElem?_eq_getElem hlt⟩
  refine ⟨D, d, hD, hd, ?_⟩
  unfold SynthAnalysis.SynthResult.bestmodel at hb hb' hd
  rw [e0] at q hb
  rw [e1] at q' hb'
  rw [eD] at hd
  exact best_comb_mix lA lB lC ha hc q q' hb hb' hd

/-- **C155** `hkYu` -/
theorem c155_hkYu {env : Env ℝ} {flt : HkYu.FltInput ℝ} {rp : Scalar ℝ} {H K : List ℝ}
    {VpMoho VpSed VsSed : Option (Scalar ℝ)} {v1 v2 v3 v1' v2' v3' a c : ℝ} {r r' : HkYu.YuResult ℝ} {b b' : Row ℝ}
    (ha : 0 ≤ a) (hc : 0 ≤ c)
    (h : HkYu.hkYu env flt rp H K VpMoho VpSed VsSed (some v1) (some v2) (some v3) = .ok r)
    (h' : HkYu.hkYu env flt rp H K VpMoho VpSed VsSed (some v1') (some v2') (some v3') = .ok r')
    (hb : r.bestmodel = some b) (hb' : r'.bestmodel = some b')
    (hdraw : ∀ tb, env.draw tb = .ok ()) :
    ∃ D d, HkYu.hkYu env flt rp H K VpMoho VpSed VsSed (some (a * v1 + c * v1')) (some (a * v2 + c * v2'))
        (some (a * v3 + c * v3')) = .ok D ∧ D.bestmodel = some d ∧ d.s ≤ a * b.s + c * b'.s := by
  obtain ⟨A, B, C, lA, lB, lC, hv⟩ := c93_hkYu h hdraw
  obtain ⟨r0, h0, e0, -⟩ := hv v1 v2 v3
  obtain ⟨r1, h1, e1, -⟩ := hv v1' v2' v3'
  obtain ⟨D, hD, eD, -⟩ := hv (a * v1 + c * v1') (a * v2 + c * v2') (a * v3 + c * v3')
  obtain rfl := Except.ok.inj (h.symm.trans h0)
  obtain rfl := Except.ok.inj (h'.symm.trans h1)
  obtain ⟨_, _, _, _, f⟩ := hkYu_inv h
  obtain ⟨_, _, _, _, f'⟩ := hkYu_inv h'
  obtain ⟨_, _, _, _, fD⟩ := hkYu_inv hD
  have q := f.hbest
  have q' := f'.hbest
  have qD := fD.hbest
  have hlt := argmax_lt qD
  rw [List.length_map] at hlt
  obtain ⟨d, hd⟩ : ∃ d, D.bestmodel = some d := ⟨_, List.getElem?_eq_getElem hlt⟩
  refine ⟨D, d, hD, hd, ?_⟩
  unfold HkYu.YuResult.bestmodel at hb hb' hd
  rw [e0] at q hb
  rw [e1] at q' hb'
  rw [eD] at hd
  exact best_comb_mix lA lB lC ha hc q q' hb hb' hd

/-- **C155** the Moho stage of `hkSeqSynth` -/
theorem c155_hkSeqSynth_moho {env : Env ℝ} {dS dM t : List ℝ} {rp : Scalar ℝ} {HS KS : List ℝ}
    {VpSed : Option (Scalar ℝ)} {w1S w2S w3S : Option ℝ} {HM KM : List ℝ} {vm : Scalar ℝ}
    {v1 v2 v3 v1' v2' v3' a c : ℝ} {r r' : SynthAnalysis.SeqSynthResult ℝ} {b b' : Row ℝ}
    (ha : 0 ≤ a) (hc : 0 ≤ c)
    (h : SynthAnalysis.hkSeqSynth env dS dM t rp HS KS VpSed w1S w2S w3S HM KM (some vm) (some v1) (some v2)
      (some v3) = .ok r)
    (h' : SynthAnalysis.hkSeqSynth env dS dM t rp HS KS VpSed w1S w2S w3S HM KM (some vm) (some v1') (some v2')
      (some v3') = .ok r')
    (hb : r.bestmodelMoho = some b) (hb' : r'.bestmodelMoho = some b')
    (hdraw : ∀ tb, env.draw tb = .ok ()) :
    ∃ D d, SynthAnalysis.hkSeqSynth env dS dM t rp HS KS VpSed w1S w2S w3S HM KM (some vm) (some (a * v1 + c * v1'))
        (some (a * v2 + c * v2')) (some (a * v3 + c * v3')) = .ok D ∧
      D.bestmodelMoho = some d ∧ d.s ≤ a * b.s + c * b'.s := by
  obtain ⟨A, B, C, lA, lB, lC, hv⟩ := c93_hkSeqSynth_moho h hdraw
  obtain ⟨r0, h0, e0, q, -⟩ := hv v1 v2 v3
  obtain ⟨r1, h1, e1, q', -⟩ := hv v1' v2' v3'
  obtain ⟨D, hD, eD, qD, -⟩ := hv (a * v1 + c * v1') (a * v2 + c * v2') (a * v3 + c * v3')
  obtain rfl := Except.ok.inj (h.symm.trans h0)
  obtain rfl := Except.ok.inj (h'.symm.trans h1)
  unfold SynthAnalysis.SeqSynthResult.bestmodelMoho at hb hb'
  rw [e0] at hb
  rw [e1] at hb'
  have hlt := argmax_lt qD
  rw [List.length_map] at hlt
  obtain ⟨d, hd⟩ : ∃ d, D.bestmodelMoho = some d := by
    unfold SynthAnalysis.SeqSynthResult.bestmodelMoho
    rw [eD]
    exact ⟨_, List.getElem?_eq_getElem (by rw [tableClip, List.length_map]; exact hlt)⟩
  refine ⟨D, d, hD, hd, ?_⟩
  unfold SynthAnalysis.SeqSynthResult.bestmodelMoho at hd
  rw [eD] at hd
  exact best_comb_mix_clip lA lB lC ha hc q q' hb hb' hd

/-- **C155** the Moho stage of `hkSeq` -/
theorem c155_hkSeq_moho {env : Env ℝ} {stS stM : List (Trace ℝ)} {preonset : ℝ} {HS KS : List ℝ}
    {VpSed : Option (Scalar ℝ)} {w1S w2S w3S : Option ℝ} {HM KM : List ℝ} {vm : Scalar ℝ}
    {v1 v2 v3 v1' v2' v3' a c : ℝ} {stack : Option Bool} {r r' : HkSeqYeck.SeqResult ℝ} {b b' : Row ℝ}
    (ha : 0 ≤ a) (hc : 0 ≤ c)
    (h : HkSeqYeck.hkSeq env stS stM preonset HS KS VpSed w1S w2S w3S HM KM (some vm) (some v1) (some v2)
      (some v3) stack = .ok r)
    (h' : HkSeqYeck.hkSeq env stS stM preonset HS KS VpSed w1S w2S w3S HM KM (some vm) (some v1') (some v2')
      (some v3') stack = .ok r')
    (hb : r.bestmodelMoho = some b) (hb' : r'.bestmodelMoho = some b')
    (hdraw : ∀ tb, env.draw tb = .ok ()) :
    ∃ D d, HkSeqYeck.hkSeq env stS stM preonset HS KS VpSed w1S w2S w3S HM KM (some vm) (some (a * v1 + c * v1'))
        (some (a * v2 + c * v2')) (some (a * v3 + c * v3')) stack = .ok D ∧
      D.bestmodelMoho = some d ∧ d.s ≤ a * b.s + c * b'.s := by
  obtain ⟨A, B, C, lA, lB, lC, hv⟩ := c93_hkSeq_moho h hdraw
  obtain ⟨r0, h0, e0, q, -⟩ := hv v1 v2 v3
  obtain ⟨r1, h1, e1, q', -⟩ := hv v1' v2' v3'
  obtain ⟨D, hD, eD, qD, -⟩ := hv (a * v1 + c * v1') (a * v2 + c * v2') (a * v3 + c * v3')
  obtain rfl := Except.ok.inj (h.symm.trans h0)
  obtain rfl := Except.ok.inj (h'.symm.trans h1)
  unfold HkSeqYeck.SeqResult.bestmodelMoho at hb hb'
  rw [e0] at hb
  rw [e1] at hb'
  have hlt := argmax_lt qD
  rw [List.length_map] at hlt
  obtain ⟨d, hd⟩ : ∃ d, D.bestmodelMoho = some d := by
    unfold HkSeqYeck.SeqResult.bestmodelMoho
    rw [eD]
    exact ⟨_, List.getElem?_eq_getElem (by rw [tableClip, List.length_map]; exact hlt)⟩
  refine ⟨D, d, hD, hd, ?_⟩
  unfold HkSeqYeck.SeqResult.bestmodelMoho at hd
  rw [eD] at hd
  exact best_comb_mix_clip lA lB lC ha hc q q' hb hb' hd

/-- **C155** the overall goodness of fit of the best model of the waveform fit -/
theorem c155_waveform {env : WEnv ℝ} {rfs : List (Trace ℝ)} {preonset HSed VpSed VpCrust rayp gaussian : ℝ}
    {KMoho HMoho : List ℝ} {wc wr wp wc' wr' wp' a b : ℝ} {R R' : WResult ℝ} (ha : 0 ≤ a) (hb : 0 ≤ b)
    (h : WaveformFitting env rfs preonset HSed VpSed VpCrust rayp KMoho HMoho gaussian wc wr wp = .ok R)
    (h' : WaveformFitting env rfs preonset HSed VpSed VpCrust rayp KMoho HMoho gaussian wc' wr' wp' = .ok R') :
    ∃ D, WaveformFitting env rfs preonset HSed VpSed VpCrust rayp KMoho HMoho gaussian (a * wc + b * wc')
        (a * wr + b * wr') (a * wp + b * wp') = .ok D ∧
      D.printed.gof.gof ≤ a * R.printed.gof.gof + b * R'.printed.gof.gof := by
  obtain ⟨P, all, sols, best, hP, hall, hs, hbm, rfl⟩ := WaveformFitting_ok h
  obtain ⟨P', all', sols', best', hP', hall', hs', hbm', rfl⟩ := WaveformFitting_ok h'
  obtain rfl := Except.ok.inj (hP.symm.trans hP')
  obtain rfl := Except.ok.inj (hall.symm.trans hall')
  have hne : all ≠ [] := by
    rintro rfl
    rw [normalise_nil] at hs
    cases hs
  obtain ⟨solsD, hsD⟩ := normalise_total (a * wc + b * wc') (a * wr + b * wr') (a * wp + b * wp') hne
  obtain ⟨mc, mr, mp, m1, m2, m3, rfl⟩ := normalise_ok hs
  obtain ⟨mc', mr', mp', n1, n2, n3, rfl⟩ := normalise_ok hs'
  obtain ⟨mcD, mrD, mpD, o1, o2, o3, rfl⟩ := normalise_ok hsD
  obtain rfl := Except.ok.inj (m1.symm.trans n1)
  obtain rfl := Except.ok.inj (m2.symm.trans n2)
  obtain rfl := Except.ok.inj (m3.symm.trans n3)
  obtain rfl := Except.ok.inj (m1.symm.trans o1)
  obtain rfl := Except.ok.inj (m2.symm.trans o2)
  obtain rfl := Except.ok.inj (m3.symm.trans o3)
  obtain ⟨bestD, hbD⟩ := bestModels_total (sols := all.map (fun c : Crit ℝ => (⟨c.corr, c.rmse, c.pg,
    (a * wc + b * wc') * (c.corr / mc) + (a * wr + b * wr') * (one - c.rmse / mr) + (a * wp + b * wp') * (c.pg / mp),
    c.h, c.k⟩ : Sol ℝ))) (by simpa using hne)
  refine ⟨_, WaveformFitting_of hP hall hsD hbD, ?_⟩
  obtain ⟨-, -, -, l, -, -, -, -, -, -, a7, a8⟩ := bestModels_ok hbm
  obtain ⟨-, -, -, l', -, -, -, -, -, -, b7, b8⟩ := bestModels_ok hbm'
  obtain ⟨-, -, -, lD, -, -, -, -, -, -, d7, d8⟩ := bestModels_ok hbD
  obtain ⟨p1, p2⟩ := argmax_real a7 a8
  obtain ⟨q1, q2⟩ := argmax_real b7 b8
  obtain ⟨r1, -⟩ := argmax_real d7 d8
  obtain ⟨y, hy, ey⟩ := List.mem_map.1 r1
  have k1 := mul_le_mul_of_nonneg_left (p2 _ (List.mem_map_of_mem hy)) ha
  have k2 := mul_le_mul_of_nonneg_left (q2 _ (List.mem_map_of_mem hy)) hb
  simp only at k1 k2 ⊢
  rw [← ey]
  simp only
  linarith

/-- **C155** the same for `plotbestmodel`, which combines the results of the multiprocess fit -/
theorem c155_plotbestmodel {env : WEnv ℝ} {res : List (List (Crit ℝ))} {P : Para ℝ} {sv fm : String}
    {wc wr wp wc' wr' wp' a b : ℝ} {sols sols' solsD : List (Sol ℝ)} {best best' bestD : Best ℝ}
    {figs figs' figsD : List (Fig ℝ)} (ha : 0 ≤ a) (hb : 0 ≤ b)
    (h : plotbestmodel env res P (some wc) (some wr) (some wp) sv fm = .ok (sols, best, figs))
    (h' : plotbestmodel env res P (some wc') (some wr') (some wp') sv fm = .ok (sols', best', figs'))
    (hD : plotbestmodel env res P (some (a * wc + b * wc')) (some (a * wr + b * wr')) (some (a * wp + b * wp')) sv fm =
      .ok (solsD, bestD, figsD)) :
    bestD.gof.gof ≤ a * best.gof.gof + b * best'.gof.gof := by
  obtain ⟨all, hall, hs, hbm⟩ := plotbestmodel_ok h
  obtain ⟨all', hall', hs', hbm'⟩ := plotbestmodel_ok h'
  obtain ⟨allD, hallD, hsD, hbD⟩ := plotbestmodel_ok hD
  obtain rfl := Except.ok.inj (hall.symm.trans hall')
  obtain rfl := Except.ok.inj (hall.symm.trans hallD)
  simp only [Option.getD_some] at hs hs' hsD
  obtain ⟨mc, mr, mp, m1, m2, m3, rfl⟩ := normalise_ok hs
  obtain ⟨mc', mr', mp', n1, n2, n3, rfl⟩ := normalise_ok hs'
  obtain ⟨mcD, mrD, mpD, o1, o2, o3, rfl⟩ := normalise_ok hsD
  obtain rfl := Except.ok.inj (m1.symm.trans n1)
  obtain rfl := Except.ok.inj (m2.symm.trans n2)
  obtain rfl := Except.ok.inj (m3.symm.trans n3)
  obtain rfl := Except.ok.inj (m1.symm.trans o1)
  obtain rfl := Except.ok.inj (m2.symm.trans o2)
  obtain rfl := Except.ok.inj (m3.symm.trans o3)
  obtain ⟨-, -, -, l, -, -, -, -, -, -, a7, a8⟩ := bestModels_ok hbm
  obtain ⟨-, -, -, l', -, -, -, -, -, -, b7, b8⟩ := bestModels_ok hbm'
  obtain ⟨-, -, -, lD, -, -, -, -, -, -, d7, d8⟩ := bestModels_ok hbD
  obtain ⟨p1, p2⟩ := argmax_real a7 a8
  obtain ⟨q1, q2⟩ := argmax_real b7 b8
  obtain ⟨r1, -⟩ := argmax_real d7 d8
  obtain ⟨y, hy, ey⟩ := List.mem_map.1 r1
  have k1 := mul_le_mul_of_nonneg_left (p2 _ (List.mem_map_of_mem hy)) ha
  have k2 := mul_le_mul_of_nonneg_left (q2 _ (List.mem_map_of_mem hy)) hb
  simp only at k1 k2 ⊢
  rw [← ey]
  simp only
  linarith

/-- the hypotheses are met by the sample stream -/
example : ∃ r r' b b' D d, hk Sample.env Sample.stream 1 [30, 35] [1.7, 1.8, 1.9] (some ⟨.py, 6.5⟩) (some 0.6) (some 0.3)
      (some 0.1) none none = .ok r ∧
    hk Sample.env Sample.stream 1 [30, 35] [1.7, 1.8, 1.9] (some ⟨.py, 6.5⟩) (some 0.2) (some 0.5) (some 0.3) none none =
      .ok r' ∧ r.bestmodel = some b ∧ r'.bestmodel = some b' ∧
    hk Sample.env Sample.stream 1 [30, 35] [1.7, 1.8, 1.9] (some ⟨.py, 6.5⟩) (some (0.5 * 0.6 + 0.5 * 0.2))
      (some (0.5 * 0.3 + 0.5 * 0.5)) (some (0.5 * 0.1 + 0.5 * 0.3)) none none = .ok D ∧ D.bestmodel = some d ∧
    d.s ≤ 0.5 * b.s + 0.5 * b'.s := by
  obtain ⟨r, hr⟩ := sample_ok (some 0.6) (some 0.3) (some 0.1) none
  obtain ⟨r', hr'⟩ := sample_ok (some 0.2) (some 0.5) (some 0.3) none
  have best : ∀ {w1 w2 w3 : Option ℝ} {q : HKResult ℝ}, hk Sample.env Sample.stream 1 [30, 35] [1.7, 1.8, 1.9]
      (some ⟨.py, 6.5⟩) w1 w2 w3 none none = .ok q → ∃ b, q.bestmodel = some b := by
    intro w1 w2 w3 q hq
    obtain ⟨_, _, _, f⟩ := hk_inv hq
    have hlt := argmax_lt f.hbest
    rw [List.length_map] at hlt
    exact ⟨_, List.getElem?_eq_getElem hlt⟩
  obtain ⟨b, hb⟩ := best hr
  obtain ⟨b', hb'⟩ := best hr'
  obtain ⟨D, d, hD, hd, hle⟩ := c155_hk (a := 0.5) (c := 0.5) (by norm_num) (by norm_num) hr hr' hb hb' (fun _ => rfl)
  exact ⟨r, r', b, b', D, d, hr, hr', hb, hb', hD, hd, hle⟩

/-- and by the sample waveform fit -/
example : ∃ R R' D,
    WaveformFitting wEnv [wTrace] 0 1 2 6 (6/100) [2] [30, 40] 1 1 0 0 = .ok R ∧
    WaveformFitting wEnv [wTrace] 0 1 2 6 (6/100) [2] [30, 40] 1 0 0 1 = .ok R' ∧
    WaveformFitting wEnv [wTrace] 0 1 2 6 (6/100) [2] [30, 40] 1 (1/2 * 1 + 1/2 * 0) (1/2 * 0 + 1/2 * 0)
      (1/2 * 0 + 1/2 * 1) = .ok D ∧
    D.printed.gof.gof ≤ 1/2 * R.printed.gof.gof + 1/2 * R'.printed.gof.gof := by
  obtain ⟨R, h, -⟩ := wNormalisable 1 0 0
  obtain ⟨R', h', -⟩ := wNormalisable 0 0 1
  obtain ⟨D, hD, hle⟩ := c155_waveform (a := 1/2) (b := 1/2) (by norm_num) (by norm_num) h h'
  exact ⟨R, R', D, h, h', hD, hle⟩

/-- and by the sample parallel fit: its results can be combined with any weights -/
example : ∃ (P : Para ℝ) (res : List (List (Crit ℝ))), RunWaveformfitting wEnv 2 [30, 40] P (.ok (res.map some)) ∧
    ∃ B : ℝ → ℝ → ℝ → Best ℝ, (∀ x y z, ∃ sols figs,
      plotbestmodel wEnv res P (some x) (some y) (some z) "out" "pdf" = .ok (sols, B x y z, figs)) ∧
      (B (1/2 * 1 + 1/2 * 0) (1/2 * 0 + 1/2 * 0) (1/2 * 0 + 1/2 * 1)).gof.gof ≤
        1/2 * (B 1 0 0).gof.gof + 1/2 * (B 0 0 1).gof.gof := by
  obtain ⟨R, hR, -⟩ := wNormalisable 1 0 0
  obtain ⟨P, -, -, -, hP, -⟩ := WaveformFitting_ok hR
  rw [← WaveformPara_eq] at hP
  obtain ⟨out, log, hout⟩ := c46_has_outcome 2 (WaveformFit_multiproc wEnv P) [30, 40]
  obtain ⟨res, rfl, -, -⟩ := c37_same_criteria (by norm_num) hR hP ⟨log, hout⟩
  have hp : ∀ x y z : ℝ, ∃ best sols figs,
      plotbestmodel wEnv res P (some x) (some y) (some z) "out" "pdf" = .ok (sols, best, figs) := by
    intro x y z
    obtain ⟨sols, best, figs, h⟩ := c100_parallel_plotted (some x) (some y) (some z) "out" "pdf" (by norm_num)
      (by simp) (by simp) hP ⟨log, hout⟩ rfl rfl (fun _ => rfl)
    exact ⟨best, sols, figs, h⟩
  choose B hB using hp
  refine ⟨P, res, ⟨log, hout⟩, B, hB, ?_⟩
  obtain ⟨_, _, h⟩ := hB 1 0 0
  obtain ⟨_, _, h'⟩ := hB 0 0 1
  obtain ⟨_, _, hD⟩ := hB (1/2 * 1 + 1/2 * 0) (1/2 * 0 + 1/2 * 0) (1/2 * 0 + 1/2 * 1)
  exact c155_plotbestmodel (a := 1/2) (b := 1/2) (by norm_num) (by norm_num) h h' hD

end Rfsed.Props
