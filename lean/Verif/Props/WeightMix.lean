import Verif.Props.WeightSwing
import Verif.Props.WaveformSample
import Verif.Props.WaveformRefine

/-!
# C151: the weights with which a model wins form a convex set.  C152: raising the weight of a criterion of the waveform fit
-/

namespace Rfsed.Props
open Spec PyFloat HkZhu Waveform

/-! ## Lists -/

/-- a combination with non-negative factors has its first maximum where the two lists have theirs -/
theorem argmax_mix {xs ys zs : List ℝ} {a b : ℝ} {i : ℕ} (ha : 0 ≤ a) (hb : 0 ≤ b) (hab : 0 < a + b)
    (h1 : argmax xs = .ok i) (h2 : argmax ys = .ok i) (hl : i < zs.length)
    (hz : ∀ (j : ℕ) (z : ℝ), zs[j]? = some z → ∃ x y, xs[j]? = some x ∧ ys[j]? = some y ∧ z = a * x + b * y) :
    argmax zs = .ok i := by
  obtain ⟨x, hx0, hx1, hx2⟩ := argmax_firstMax (fun _ _ => rfl) h1
  obtain ⟨y, hy0, hy1, hy2⟩ := argmax_firstMax (fun _ _ => rfl) h2
  apply argmax_eq_of_firstMax (fun _ _ => rfl)
  obtain ⟨x', y', e1, e2, e3⟩ := hz i _ (List.getElem?_eq_getElem hl)
  cases hx0.symm.trans e1
  cases hy0.symm.trans e2
  refine ⟨_, (List.getElem?_eq_getElem hl).trans (by rw [e3]), ?_, ?_⟩
  · intro j z hj
    obtain ⟨u, v, a1, a2, rfl⟩ := hz j z hj
    have q1 := hx1 j u a1
    have q2 := hy1 j v a2
    rw [real_le] at *
    exact add_le_add (mul_le_mul_of_nonneg_left q1 ha) (mul_le_mul_of_nonneg_left q2 hb)
  · intro j z hlt hj
    obtain ⟨u, v, a1, a2, rfl⟩ := hz j z hj
    have q1 := hx2 j u hlt a1
    have q2 := hy2 j v hlt a2
    rw [real_lt] at *
    rcases ha.eq_or_lt with rfl | ha'
    · have : 0 < b := by linarith
      nlinarith
    · nlinarith [mul_lt_mul_of_pos_left q1 ha', mul_le_mul_of_nonneg_left q2.le hb]

/-- weighted sums of three tables -/
theorem argmax_comb_mix {A B C : List (Row ℝ)} {n i : ℕ} (lA : A.length = n) (lB : B.length = n) (lC : C.length = n)
    {v1 v2 v3 v1' v2' v3' a b : ℝ} (ha : 0 ≤ a) (hb : 0 ≤ b) (hab : 0 < a + b)
    (h : argmax ((tableComb v1 v2 v3 A B C).map Row.s) = .ok i)
    (h' : argmax ((tableComb v1' v2' v3' A B C).map Row.s) = .ok i) :
    argmax ((tableComb (a * v1 + b * v1') (a * v2 + b * v2') (a * v3 + b * v3') A B C).map Row.s) = .ok i := by
  have len : ∀ w1 w2 w3, ((tableComb w1 w2 w3 A B C).map Row.s).length = n := fun w1 w2 w3 => by
    rw [List.length_map, tableComb_length _ _ _ lA lB lC]
  have hi : i < n := by
    have := argmax_lt h
    rwa [len] at this
  refine argmax_mix ha hb hab h h' (by rw [len]; exact hi) ?_
  intro j z hj
  have hjn : j < n := by
    by_contra hc
    rw [List.getElem?_eq_none (by rw [len]; omega)] at hj
    cases hj
  have get := fun w1 w2 w3 => tableComb_get lA lB lC hjn w1 w2 w3
  rw [List.getElem?_map, get] at hj
  refine ⟨_, _, by rw [List.getElem?_map, get]; rfl, by rw [List.getElem?_map, get]; rfl, ?_⟩
  rw [← Option.some.inj hj]
  ring

theorem same_idx_le {K H : List ℝ} {v v' : ℝ → ℝ → Except PyErr ℝ} {T T' : List (Row ℝ)} {i j : ℕ} {b b' : Row ℝ}
    (g : gridLoop K H v = .ok T) (g' : gridLoop K H v' = .ok T') (h : argmax (T.map Row.s) = .ok i)
    (hb : T[i]? = some b) (hb' : T'[j]? = some b') (eh : b.h = b'.h) (ek : b.k = b'.k) : i ≤ j := by
  by_contra hc
  obtain ⟨p, q, hj, hp, hq, -⟩ := (gridLoop_ok g').2.2 j b' hb'
  obtain ⟨s, hs, hT⟩ := (gridLoop_ok g).2.1 p q _ _ hp hq
  obtain ⟨-, -, -, -, -, hs'⟩ := (gridLoop_ok g).2.2 i b hb
  rw [eh, ek] at hs'
  have es : s = b.s := Except.ok.inj (hs.symm.trans hs')
  rw [← hj] at hT
  obtain ⟨x, hx0, -, hx2⟩ := argmax_firstMax (fun _ _ => rfl) h
  rw [List.getElem?_map, hb] at hx0
  have := hx2 j s (by omega) (by rw [List.getElem?_map, hT]; rfl)
  rw [real_lt, ← Option.some.inj hx0, es] at this
  exact lt_irrefl _ this

/-- two searches over the same grid with the same best (H, Vp/Vs) choose the same row -/
theorem same_idx {K H : List ℝ} {v v' : ℝ → ℝ → Except PyErr ℝ} {T T' : List (Row ℝ)} {i j : ℕ} {b b' : Row ℝ}
    (g : gridLoop K H v = .ok T) (g' : gridLoop K H v' = .ok T') (h : argmax (T.map Row.s) = .ok i)
    (h' : argmax (T'.map Row.s) = .ok j) (hb : T[i]? = some b) (hb' : T'[j]? = some b') (eh : b.h = b'.h)
    (ek : b.k = b'.k) : i = j :=
  le_antisymm (same_idx_le g g' h hb hb' eh ek) (same_idx_le g' g h' hb' hb eh.symm ek.symm)

theorem row_at {T T' : List (Row ℝ)} {K H : List ℝ} {v v' : ℝ → ℝ → Except PyErr ℝ} {i : ℕ} {b : Row ℝ}
    (g : gridLoop K H v = .ok T) (g' : gridLoop K H v' = .ok T') (hb : T[i]? = some b) :
    ∃ d, T'[i]? = some d ∧ d.h = b.h ∧ d.k = b.k := by
  obtain ⟨p, q, hj, hp, hq, -⟩ := (gridLoop_ok g).2.2 i b hb
  obtain ⟨s, hs, hT⟩ := (gridLoop_ok g').2.1 p q _ _ hp hq
  exact ⟨⟨b.h, b.k, s⟩, by rw [hj]; exact hT, rfl, rfl⟩

/-! ## C151 -/

/-- **C151** `hk`: two choices of weights with the same best (H, Vp/Vs), and all their mixtures -/
theorem c151_hk {env : Env ℝ} {st : List (Trace ℝ)} {preonset : ℝ} {H K : List ℝ} {Vp : Option (Scalar ℝ)}
    {v1 v2 v3 v1' v2' v3' a c : ℝ} {layer : Option String} {stack : Option Bool} {r r' : HKResult ℝ} {b b' : Row ℝ}
    (ha : 0 ≤ a) (hc : 0 ≤ c) (hac : 0 < a + c)
    (h : hk env st preonset H K Vp (some v1) (some v2) (some v3) layer stack = .ok r)
    (h' : hk env st preonset H K Vp (some v1') (some v2') (some v3') layer stack = .ok r')
    (hb : r.bestmodel = some b) (hb' : r'.bestmodel = some b') (eh : b.h = b'.h) (ek : b.k = b'.k)
    (hdraw : ∀ tb, env.draw tb = .ok ()) :
    ∃ D d, hk env st preonset H K Vp (some (a * v1 + c * v1')) (some (a * v2 + c * v2')) (some (a * v3 + c * v3'))
        layer stack = .ok D ∧ D.bestmodel = some d ∧ d.h = b.h ∧ d.k = b.k := by
  obtain ⟨A, B, C, lA, lB, lC, hv⟩ := c93_hk h hdraw
  obtain ⟨r0, h0, e0⟩ := hv v1 v2 v3
  obtain ⟨r1, h1, e1⟩ := hv v1' v2' v3'
  obtain ⟨D, hD, eD⟩ := hv (a * v1 + c * v1') (a * v2 + c * v2') (a * v3 + c * v3')
  obtain rfl := Except.ok.inj (h.symm.trans h0)
  obtain rfl := Except.ok.inj (h'.symm.trans h1)
  obtain ⟨_, _, _, f⟩ := hk_inv h
  obtain ⟨_, _, _, f'⟩ := hk_inv h'
  obtain ⟨_, _, _, fD⟩ := hk_inv hD
  have ei := same_idx f.hgrid f'.hgrid f.hbest f'.hbest hb hb' eh ek
  have q := f.hbest
  have q' := f'.hbest
  have qD := fD.hbest
  rw [e0] at q
  rw [e1, ← ei] at q'
  rw [eD, argmax_comb_mix lA lB lC ha hc hac q q'] at qD
  obtain ⟨d, hd, k1, k2⟩ := row_at f.hgrid fD.hgrid hb
  refine ⟨D, d, hD, ?_, k1, k2⟩
  unfold HKResult.bestmodel
  rw [← Except.ok.inj qD]
  exact hd

/-- **C151** `hkSynth` -/
theorem c151_hkSynth {env : Env ℝ} {dt t : List ℝ} {rp : Scalar ℝ} {H K : List ℝ} {Vp : Option (Scalar ℝ)}
    {v1 v2 v3 v1' v2' v3' a c : ℝ} {layer : Option String} {r r' : SynthAnalysis.SynthResult ℝ} {b b' : Row ℝ}
    (ha : 0 ≤ a) (hc : 0 ≤ c) (hac : 0 < a + c)
    (h : SynthAnalysis.hkSynth env dt t rp H K Vp (some v1) (some v2) (some v3) layer = .ok r)
    (h' : SynthAnalysis.hkSynth env dt t rp H K Vp (some v1') (some v2') (some v3') layer = .ok r')
    (hb : r.bestmodel = some b) (hb' : r'.bestmodel = some b') (eh : b.h = b'.h) (ek : b.k = b'.k)
    (hdraw : ∀ tb, env.draw tb = .ok ()) :
    ∃ D d, SynthAnalysis.hkSynth env dt t rp H K Vp (some (a * v1 + c * v1')) (some (a * v2 + c * v2'))
        (some (a * v3 + c * v3')) layer = .ok D ∧ D.bestmodel = some d ∧ d.h = b.h ∧ d.k = b.k := by
  obtain ⟨A, B, C, lA, lB, lC, hv⟩ := c93_hkSynth h hdraw
  obtain ⟨r0, h0, e0⟩ := hv v1 v2 v3
  obtain ⟨r1, h1, e1⟩ := hv v1' v2' v3'
  obtain ⟨D, hD, eD⟩ := hv (a * v1 + c * v1') (a * v2 + c * v2') (a * v3 + c * v3')
  obtain rfl := Except.ok.inj (h.symm.trans h0)
  obtain rfl := Except.ok.inj (h'.symm.trans h1)
  have f := hkSynth_inv h
  have f' := hkSynth_inv h'
  have fD := hkSynth_inv hD
  have ei := same_idx f.hgrid f'.hgrid f.hbest f'.hbest hb hb' eh ek
  have q := f.hbest
  have q' := f'.hbest
  have qD := fD.hbest
  rw [e0] at q
  rw [e1, ← ei] at q'
  rw [eD, argmax_comb_mix lA lB lC ha hc hac q q'] at qD
  obtain ⟨d, hd, k1, k2⟩ := row_at f.hgrid fD.hgrid hb
  refine ⟨D, d, hD, ?_, k1, k2⟩
  unfold SynthAnalysis.SynthResult.bestmodel
  rw [← Except.ok.inj qD]
  exact hd

/-- **C151** `hkYu` -/
theorem c151_hkYu {env : Env ℝ} {flt : HkYu.FltInput ℝ} {rp : Scalar ℝ} {H K : List ℝ}
    {VpMoho VpSed VsSed : Option (Scalar ℝ)} {v1 v2 v3 v1' v2' v3' a c : ℝ} {r r' : HkYu.YuResult ℝ} {b b' : Row ℝ}
    (ha : 0 ≤ a) (hc : 0 ≤ c) (hac : 0 < a + c)
    (h : HkYu.hkYu env flt rp H K VpMoho VpSed VsSed (some v1) (some v2) (some v3) = .ok r)
    (h' : HkYu.hkYu env flt rp H K VpMoho VpSed VsSed (some v1') (some v2') (some v3') = .ok r')
    (hb : r.bestmodel = some b) (hb' : r'.bestmodel = some b') (eh : b.h = b'.h) (ek : b.k = b'.k)
    (hdraw : ∀ tb, env.draw tb = .ok ()) :
    ∃ D d, HkYu.hkYu env flt rp H K VpMoho VpSed VsSed (some (a * v1 + c * v1')) (some (a * v2 + c * v2'))
        (some (a * v3 + c * v3')) = .ok D ∧ D.bestmodel = some d ∧ d.h = b.h ∧ d.k = b.k := by
  obtain ⟨A, B, C, lA, lB, lC, hv⟩ := c93_hkYu h hdraw
  obtain ⟨r0, h0, e0, -⟩ := hv v1 v2 v3
  obtain ⟨r1, h1, e1, -⟩ := hv v1' v2' v3'
  obtain ⟨D, hD, eD, -⟩ := hv (a * v1 + c * v1') (a * v2 + c * v2') (a * v3 + c * v3')
  obtain rfl := Except.ok.inj (h.symm.trans h0)
  obtain rfl := Except.ok.inj (h'.symm.trans h1)
  obtain ⟨_, _, _, _, f⟩ := hkYu_inv h
  obtain ⟨_, _, _, _, f'⟩ := hkYu_inv h'
  obtain ⟨_, _, _, _, fD⟩ := hkYu_inv hD
  have ei := same_idx f.hgrid f'.hgrid f.hbest f'.hbest hb hb' eh ek
  have q := f.hbest
  have q' := f'.hbest
  have qD := fD.hbest
  rw [e0] at q
  rw [e1, ← ei] at q'
  rw [eD, argmax_comb_mix lA lB lC ha hc hac q q'] at qD
  obtain ⟨d, hd, k1, k2⟩ := row_at f.hgrid fD.hgrid hb
  refine ⟨D, d, hD, ?_, k1, k2⟩
  unfold HkYu.YuResult.bestmodel
  rw [← Except.ok.inj qD]
  exact hd

/-- the row of the clipped table lies above the row of the raw one -/
theorem unclip {raw : List (Row ℝ)} {i : ℕ} {b : Row ℝ} (h : (tableClip raw)[i]? = some b) :
    ∃ x, raw[i]? = some x ∧ x.h = b.h ∧ x.k = b.k := by
  rw [tableClip, List.getElem?_map, Option.map_eq_some_iff] at h
  obtain ⟨x, hx, rfl⟩ := h
  exact ⟨x, hx, rfl, rfl⟩

theorem clip_at {raw : List (Row ℝ)} {i : ℕ} {x : Row ℝ} (h : raw[i]? = some x) :
    ∃ b, (tableClip raw)[i]? = some b ∧ b.h = x.h ∧ b.k = x.k :=
  ⟨⟨x.h, x.k, max x.s 0⟩, by rw [tableClip, List.getElem?_map, h]; rfl, rfl, rfl⟩

/-- **C151** the Moho stage of `hkSeqSynth` -/
theorem c151_hkSeqSynth_moho {env : Env ℝ} {dS dM t : List ℝ} {rp : Scalar ℝ} {HS KS : List ℝ}
    {VpSed : Option (Scalar ℝ)} {w1S w2S w3S : Option ℝ} {HM KM : List ℝ} {vm : Scalar ℝ}
    {v1 v2 v3 v1' v2' v3' a c : ℝ} {r r' : SynthAnalysis.SeqSynthResult ℝ} {b b' : Row ℝ}
    (ha : 0 ≤ a) (hc : 0 ≤ c) (hac : 0 < a + c)
    (h : SynthAnalysis.hkSeqSynth env dS dM t rp HS KS VpSed w1S w2S w3S HM KM (some vm) (some v1) (some v2)
      (some v3) = .ok r)
    (h' : SynthAnalysis.hkSeqSynth env dS dM t rp HS KS VpSed w1S w2S w3S HM KM (some vm) (some v1') (some v2')
      (some v3') = .ok r')
    (hb : r.bestmodelMoho = some b) (hb' : r'.bestmodelMoho = some b') (eh : b.h = b'.h) (ek : b.k = b'.k)
    (hdraw : ∀ tb, env.draw tb = .ok ()) :
    ∃ D d, SynthAnalysis.hkSeqSynth env dS dM t rp HS KS VpSed w1S w2S w3S HM KM (some vm) (some (a * v1 + c * v1'))
        (some (a * v2 + c * v2')) (some (a * v3 + c * v3')) = .ok D ∧
      D.bestmodelMoho = some d ∧ d.h = b.h ∧ d.k = b.k := by
  obtain ⟨A, B, C, lA, lB, lC, hv⟩ := c93_hkSeqSynth_moho h hdraw
  obtain ⟨r0, h0, e0, q, -⟩ := hv v1 v2 v3
  obtain ⟨r1, h1, e1, q', -⟩ := hv v1' v2' v3'
  obtain ⟨D, hD, eD, qD, -⟩ := hv (a * v1 + c * v1') (a * v2 + c * v2') (a * v3 + c * v3')
  obtain rfl := Except.ok.inj (h.symm.trans h0)
  obtain rfl := Except.ok.inj (h'.symm.trans h1)
  obtain ⟨_, raw, f⟩ := hkSeqSynth_inv h
  obtain ⟨_, raw', f'⟩ := hkSeqSynth_inv h'
  obtain ⟨_, rawD, fD⟩ := hkSeqSynth_inv hD
  have cl := f.hclip.trans (clipLoop_real raw)
  have cl' := f'.hclip.trans (clipLoop_real raw')
  have clD := fD.hclip.trans (clipLoop_real rawD)
  unfold SynthAnalysis.SeqSynthResult.bestmodelMoho at hb hb'
  rw [cl] at hb
  rw [cl'] at hb'
  obtain ⟨x, hx, x1, x2⟩ := unclip hb
  obtain ⟨x', hx', x1', x2'⟩ := unclip hb'
  have ei := same_idx f.hgridM f'.hgridM f.hbestM f'.hbestM hx hx' (by rw [x1, x1', eh]) (by rw [x2, x2', ek])
  rw [← ei] at q'
  rw [argmax_comb_mix lA lB lC ha hc hac q q'] at qD
  obtain ⟨y, hy, k1, k2⟩ := row_at f.hgridM fD.hgridM hx
  obtain ⟨d, hd, l1, l2⟩ := clip_at hy
  refine ⟨D, d, hD, ?_, by rw [l1, k1, x1], by rw [l2, k2, x2]⟩
  unfold SynthAnalysis.SeqSynthResult.bestmodelMoho
  rw [← Except.ok.inj qD, clD]
  exact hd

/-- **C151** the Moho stage of `hkSeq` -/
theorem c151_hkSeq_moho {env : Env ℝ} {stS stM : List (Trace ℝ)} {preonset : ℝ} {HS KS : List ℝ}
    {VpSed : Option (Scalar ℝ)} {w1S w2S w3S : Option ℝ} {HM KM : List ℝ} {vm : Scalar ℝ}
    {v1 v2 v3 v1' v2' v3' a c : ℝ} {stack : Option Bool} {r r' : HkSeqYeck.SeqResult ℝ} {b b' : Row ℝ}
    (ha : 0 ≤ a) (hc : 0 ≤ c) (hac : 0 < a + c)
    (h : HkSeqYeck.hkSeq env stS stM preonset HS KS VpSed w1S w2S w3S HM KM (some vm) (some v1) (some v2)
      (some v3) stack = .ok r)
    (h' : HkSeqYeck.hkSeq env stS stM preonset HS KS VpSed w1S w2S w3S HM KM (some vm) (some v1') (some v2')
      (some v3') stack = .ok r')
    (hb : r.bestmodelMoho = some b) (hb' : r'.bestmodelMoho = some b') (eh : b.h = b'.h) (ek : b.k = b'.k)
    (hdraw : ∀ tb, env.draw tb = .ok ()) :
    ∃ D d, HkSeqYeck.hkSeq env stS stM preonset HS KS VpSed w1S w2S w3S HM KM (some vm) (some (a * v1 + c * v1'))
        (some (a * v2 + c * v2')) (some (a * v3 + c * v3')) stack = .ok D ∧
      D.bestmodelMoho = some d ∧ d.h = b.h ∧ d.k = b.k := by
  obtain ⟨A, B, C, lA, lB, lC, hv⟩ := c93_hkSeq_moho h hdraw
  obtain ⟨r0, h0, e0, q, -⟩ := hv v1 v2 v3
  obtain ⟨r1, h1, e1, q', -⟩ := hv v1' v2' v3'
  obtain ⟨D, hD, eD, qD, -⟩ := hv (a * v1 + c * v1') (a * v2 + c * v2') (a * v3 + c * v3')
  obtain rfl := Except.ok.inj (h.symm.trans h0)
  obtain rfl := Except.ok.inj (h'.symm.trans h1)
  obtain ⟨_, _, _, _, raw, f⟩ := hkSeq_inv h
  obtain ⟨_, _, _, _, raw', f'⟩ := hkSeq_inv h'
  obtain ⟨_, _, _, _, rawD, fD⟩ := hkSeq_inv hD
  have cl := f.hclip.trans (clipLoop_real raw)
  have cl' := f'.hclip.trans (clipLoop_real raw')
  have clD := fD.hclip.trans (clipLoop_real rawD)
  unfold HkSeqYeck.SeqResult.bestmodelMoho at hb hb'
  rw [cl] at hb
  rw [cl'] at hb'
  obtain ⟨x, hx, x1, x2⟩ := unclip hb
  obtain ⟨x', hx', x1', x2'⟩ := unclip hb'
  have ei := same_idx f.hgridM f'.hgridM f.hbestM f'.hbestM hx hx' (by rw [x1, x1', eh]) (by rw [x2, x2', ek])
  rw [← ei] at q'
  rw [argmax_comb_mix lA lB lC ha hc hac q q'] at qD
  obtain ⟨y, hy, k1, k2⟩ := row_at f.hgridM fD.hgridM hx
  obtain ⟨d, hd, l1, l2⟩ := clip_at hy
  refine ⟨D, d, hD, ?_, by rw [l1, k1, x1], by rw [l2, k2, x2]⟩
  unfold HkSeqYeck.SeqResult.bestmodelMoho
  rw [← Except.ok.inj qD, clD]
  exact hd

/-- **C151** the overall best model of the waveform fit -/
theorem c151_waveform {env : WEnv ℝ} {rfs : List (Trace ℝ)} {preonset HSed VpSed VpCrust rayp gaussian : ℝ}
    {KMoho HMoho : List ℝ} {wc wr wp wc' wr' wp' a b : ℝ} {R R' : WResult ℝ}
    (ha : 0 ≤ a) (hb : 0 ≤ b) (hab : 0 < a + b)
    (h : WaveformFitting env rfs preonset HSed VpSed VpCrust rayp KMoho HMoho gaussian wc wr wp = .ok R)
    (h' : WaveformFitting env rfs preonset HSed VpSed VpCrust rayp KMoho HMoho gaussian wc' wr' wp' = .ok R')
    (eh : R.printed.gof.h = R'.printed.gof.h) (ek : R.printed.gof.k = R'.printed.gof.k) :
    ∃ D, WaveformFitting env rfs preonset HSed VpSed VpCrust rayp KMoho HMoho gaussian (a * wc + b * wc')
        (a * wr + b * wr') (a * wp + b * wp') = .ok D ∧
      D.printed.gof.h = R.printed.gof.h ∧ D.printed.gof.k = R.printed.gof.k ∧
      D.printed.gof.corr = R.printed.gof.corr ∧ D.printed.gof.rmse = R.printed.gof.rmse ∧
      D.printed.gof.pg = R.printed.gof.pg := by
  obtain ⟨P, all, sols, best, hP, hall, hs, hbm, rfl⟩ := WaveformFitting_ok h
  obtain ⟨P', all', sols', best', hP', hall', hs', hbm', rfl⟩ := WaveformFitting_ok h'
  obtain rfl := Except.ok.inj (hP.symm.trans hP')
  obtain rfl := Except.ok.inj (hall.symm.trans hall')
  have hne : all ≠ [] := by
    rintro rfl
    rw [normalise_nil] at hs
    cases hs
  obtain ⟨solsD, hsD⟩ := normalise_total (a * wc + b * wc') (a * wr + b * wr') (a * wp + b * wp') hne
  obtain ⟨mc, mr, mp, m1, m2, m3, rfl⟩ := normalise_ok hs
  obtain ⟨mc', mr', mp', n1, n2, n3, rfl⟩ := normalise_ok hs'
  obtain ⟨mcD, mrD, mpD, o1, o2, o3, rfl⟩ := normalise_ok hsD
  obtain rfl := Except.ok.inj (m1.symm.trans n1)
  obtain rfl := Except.ok.inj (m2.symm.trans n2)
  obtain rfl := Except.ok.inj (m3.symm.trans n3)
  obtain rfl := Except.ok.inj (m1.symm.trans o1)
  obtain rfl := Except.ok.inj (m2.symm.trans o2)
  obtain rfl := Except.ok.inj (m3.symm.trans o3)
  obtain ⟨bestD, hbD⟩ := bestModels_total (sols := all.map (fun c : Crit ℝ => (⟨c.corr, c.rmse, c.pg,
    (a * wc + b * wc') * (c.corr / mc) + (a * wr + b * wr') * (one - c.rmse / mr) + (a * wp + b * wp') * (c.pg / mp),
    c.h, c.k⟩ : Sol ℝ))) (by simpa using hne)
  refine ⟨_, WaveformFitting_of hP hall hsD hbD, ?_⟩
  obtain ⟨-, -, -, l, -, -, -, -, -, -, a7, a8⟩ := bestModels_ok hbm
  obtain ⟨-, -, -, l', -, -, -, -, -, -, b7, b8⟩ := bestModels_ok hbm'
  obtain ⟨-, -, -, lD, -, -, -, -, -, -, d7, d8⟩ := bestModels_ok hbD
  rw [List.getElem?_map, Option.map_eq_some_iff] at a8 b8 d8
  obtain ⟨c, hc, ec⟩ := a8
  obtain ⟨c', hc', ec'⟩ := b8
  obtain ⟨cD, hcD, ecD⟩ := d8
  have back : ∀ (i : ℕ) (y : Crit ℝ), all[i]? = some y → gridPoint env P y.h y.k = .ok y := by
    intro i y hy
    have hi : i < (KMoho.flatMap (fun k => HMoho.map (fun h => (h, k)))).length := by
      have := (List.getElem?_eq_some_iff.1 hy).1
      rwa [mapM_length hall] at this
    obtain ⟨z, hz, hg⟩ := mapM_getElem hall (List.getElem?_eq_getElem hi)
    rw [hy] at hz
    obtain rfl := Option.some.inj hz
    obtain ⟨k1, k2⟩ := gridPoint_hk hg
    rw [k1, k2]
    exact hg
  have ecc : c = c' := by
    have q := back _ _ hc
    have q' := back _ _ hc'
    simp only [← ec, ← ec'] at eh ek
    rw [eh, ek] at q
    exact Except.ok.inj (q.symm.trans q')
  have el : l = l' := by
    obtain ⟨x, hx0, -, hx2⟩ := argmax_firstMax (fun _ _ => rfl) a7
    obtain ⟨y, hy0, -, hy2⟩ := argmax_firstMax (fun _ _ => rfl) b7
    rw [List.getElem?_map, List.getElem?_map, hc] at hx0
    rw [List.getElem?_map, List.getElem?_map, hc'] at hy0
    rcases lt_trichotomy l l' with hlt | heq | hlt
    · have := hy2 l _ hlt (by rw [List.getElem?_map, List.getElem?_map, hc]; rfl)
      rw [real_lt, ← Option.some.inj hy0, ecc] at this
      exact absurd this (lt_irrefl _)
    · exact heq
    · have := hx2 l' _ hlt (by rw [List.getElem?_map, List.getElem?_map, hc']; rfl)
      rw [real_lt, ← Option.some.inj hx0, ecc] at this
      exact absurd this (lt_irrefl _)
  subst el
  have hl : l < all.length := (List.getElem?_eq_some_iff.1 hc).1
  have key := argmax_mix ha hb hab a7 b7 (zs := ((all.map (fun c : Crit ℝ => (⟨c.corr, c.rmse, c.pg,
    (a * wc + b * wc') * (c.corr / mc) + (a * wr + b * wr') * (one - c.rmse / mr) + (a * wp + b * wp') * (c.pg / mp),
    c.h, c.k⟩ : Sol ℝ))).map Sol.gof)) (by simpa using hl) (by
      intro j z hz
      rw [List.getElem?_map, List.getElem?_map, Option.map_eq_some_iff] at hz
      obtain ⟨s, hs, rfl⟩ := hz
      rw [Option.map_eq_some_iff] at hs
      obtain ⟨y, hy, rfl⟩ := hs
      refine ⟨_, _, by rw [List.getElem?_map, List.getElem?_map, hy]; rfl,
        by rw [List.getElem?_map, List.getElem?_map, hy]; rfl, ?_⟩
      simp only
      ring)
  rw [key] at d7
  obtain rfl := Except.ok.inj d7
  obtain rfl := Option.some.inj (hc.symm.trans hcD)
  simp only [← ec, ← ecD, and_self]

/-- the sample run: without weight on the misfit the overall best model is at 30 km -/
theorem wBest30 {wc wp : ℝ} (hc : 0 < wc) : ∃ R,
    WaveformFitting wEnv [wTrace] 0 1 2 6 (6/100) [2] [30, 40] 1 wc 0 wp = .ok R ∧
    R.printed.gof.h = 30 ∧ R.printed.gof.k = 2 := by
  obtain ⟨R, s0, s1, hR, hs, h0, k0, h1, k1, c0, r0, c1, r1, p0, p1⟩ := wRun wc 0 wp
  have hp := wProduced hR
  refine ⟨R, hR, ?_⟩
  obtain ⟨mc, mr, mp, m1, m2, m3, m4⟩ := produced_gof hp
  have hm := maxVal_pos m1 ⟨s0, by rw [hs]; simp, by rw [c0]; norm_num⟩
  obtain ⟨_, _, hb⟩ := produced_normalised hp
  obtain ⟨-, -, -, l, -, -, -, -, -, -, a7, a8⟩ := bestModels_ok hb
  obtain ⟨b1, b2⟩ := argmax_real a7 a8
  have g := b2 s0 (by rw [hs]; simp)
  rw [m4 _ (by rw [hs]; simp), m4 _ b1] at g
  rw [hs] at b1
  rcases List.mem_cons.1 b1 with e | e
  · rw [e, h0, k0]; exact ⟨rfl, rfl⟩
  · rw [List.mem_singleton.1 e, c0, c1, p0, p1] at g
    have := mul_lt_mul_of_pos_left ((div_lt_div_iff_of_pos_right hm).2 wCorr_lt) hc
    simp only [zero_mul, add_zero] at g
    linarith

/-- the hypotheses of C151 are met: two different choices with the best model at 30 km, and the mixture half and half -/
example : ∃ R R' D,
    WaveformFitting wEnv [wTrace] 0 1 2 6 (6/100) [2] [30, 40] 1 1 0 0 = .ok R ∧
    WaveformFitting wEnv [wTrace] 0 1 2 6 (6/100) [2] [30, 40] 1 (1/5) 0 (4/5) = .ok R' ∧
    WaveformFitting wEnv [wTrace] 0 1 2 6 (6/100) [2] [30, 40] 1 (1/2 * 1 + 1/2 * (1/5)) (1/2 * 0 + 1/2 * 0)
      (1/2 * 0 + 1/2 * (4/5)) = .ok D ∧ D.printed.gof.h = 30 := by
  obtain ⟨R, h, e1, e2⟩ := wBest30 (wc := 1) (wp := 0) (by norm_num)
  obtain ⟨R', h', e1', e2'⟩ := wBest30 (wc := 1/5) (wp := 4/5) (by norm_num)
  obtain ⟨D, hD, q, -⟩ := c151_waveform (a := 1/2) (b := 1/2) (by norm_num) (by norm_num) (by norm_num) h h'
    (e1.trans e1'.symm) (e2.trans e2'.symm)
  exact ⟨R, R', D, h, h', hD, q.trans e1⟩

/-- the hypotheses of C151 for `hk` are met by the sample stream -/
example : ∃ r r' b b' D, hk Sample.env Sample.stream 1 [30, 35] [1.7, 1.8, 1.9] (some ⟨.py, 6.5⟩) (some 0.6) (some 0.3)
      (some 0.1) none none = .ok r ∧
    hk Sample.env Sample.stream 1 [30, 35] [1.7, 1.8, 1.9] (some ⟨.py, 6.5⟩) (some (2 * 0.6)) (some (2 * 0.3))
      (some (2 * 0.1)) none none = .ok r' ∧
    r.bestmodel = some b ∧ r'.bestmodel = some b' ∧ b.h = b'.h ∧ b.k = b'.k ∧
    hk Sample.env Sample.stream 1 [30, 35] [1.7, 1.8, 1.9] (some ⟨.py, 6.5⟩) (some (1 * 0.6 + 1 * (2 * 0.6)))
      (some (1 * 0.3 + 1 * (2 * 0.3))) (some (1 * 0.1 + 1 * (2 * 0.1))) none none = .ok D := by
  obtain ⟨r, hr⟩ := sample_ok (some 0.6) (some 0.3) (some 0.1) none
  obtain ⟨r', hr', et, ei⟩ := c93_hk_factor (c := 2) (by norm_num) hr (fun _ => rfl)
  obtain ⟨_, _, _, f⟩ := hk_inv hr
  have hlt := argmax_lt f.hbest
  rw [List.length_map] at hlt
  have hb : r.bestmodel = some r.stackvalues[r.bestIdx] := List.getElem?_eq_getElem hlt
  have hb' : ∃ b', r'.bestmodel = some b' ∧ r.stackvalues[r.bestIdx].h = b'.h ∧ r.stackvalues[r.bestIdx].k = b'.k := by
    unfold HKResult.bestmodel
    rw [ei, et, tableScale, List.getElem?_map, List.getElem?_eq_getElem hlt]
    exact ⟨_, rfl, rfl, rfl⟩
  obtain ⟨b', q, q1, q2⟩ := hb'
  obtain ⟨D, d, hD, -⟩ := c151_hk (a := 1) (c := 1) (by norm_num) (by norm_num) (by norm_num) hr hr' hb q q1 q2 (fun _ => rfl)
  exact ⟨r, r', _, b', D, hr, hr', hb, q, q1, q2, hD⟩

/-! ## C152 -/

/-- the criteria of the overall best models of two choices of weights for the same table -/
theorem wave_swing {all : List (Crit ℝ)} {wc wr wp wc' wr' wp' : ℝ} {sols sols' : List (Sol ℝ)} {best best' : Best ℝ}
    (hs : normalise all wc wr wp = .ok sols) (hb : bestModels sols = .ok best)
    (hs' : normalise all wc' wr' wp' = .ok sols') (hb' : bestModels sols' = .ok best') :
    ∃ mc mr mp, IsMaxVal (sols.map Sol.corr) mc ∧ IsMaxVal (sols.map Sol.rmse) mr ∧ IsMaxVal (sols.map Sol.pg) mp ∧
      (wc' - wc) * (best.gof.corr / mc) + (wr' - wr) * (1 - best.gof.rmse / mr) + (wp' - wp) * (best.gof.pg / mp) ≤
      (wc' - wc) * (best'.gof.corr / mc) + (wr' - wr) * (1 - best'.gof.rmse / mr) + (wp' - wp) * (best'.gof.pg / mp) := by
  obtain ⟨mc, mr, mp, m1, m2, m3, rfl⟩ := normalise_ok hs
  obtain ⟨mc', mr', mp', n1, n2, n3, rfl⟩ := normalise_ok hs'
  obtain rfl := Except.ok.inj (m1.symm.trans n1)
  obtain rfl := Except.ok.inj (m2.symm.trans n2)
  obtain rfl := Except.ok.inj (m3.symm.trans n3)
  refine ⟨mc, mr, mp, by rw [List.map_map]; exact pyMax_real m1, by rw [List.map_map]; exact pyMax_real m2,
    by rw [List.map_map]; exact pyMax_real m3, ?_⟩
  obtain ⟨-, -, -, l, -, -, -, -, -, -, a7, a8⟩ := bestModels_ok hb
  obtain ⟨-, -, -, l', -, -, -, -, -, -, b7, b8⟩ := bestModels_ok hb'
  obtain ⟨p1, p2⟩ := argmax_real a7 a8
  obtain ⟨q1, q2⟩ := argmax_real b7 b8
  obtain ⟨c, hc, ec⟩ := List.mem_map.1 p1
  obtain ⟨c', hc', ec'⟩ := List.mem_map.1 q1
  have k1 := p2 _ (List.mem_map_of_mem hc')
  have k2 := q2 _ (List.mem_map_of_mem hc)
  rw [← ec] at k1 ⊢
  rw [← ec'] at k2 ⊢
  simp only [real_one] at k1 k2 ⊢
  linarith

/-- **C152** changing the weights never lowers the difference of the two scores -/
theorem c152_waveform {env : WEnv ℝ} {rfs : List (Trace ℝ)} {preonset HSed VpSed VpCrust rayp gaussian : ℝ}
    {KMoho HMoho : List ℝ} {wc wr wp wc' wr' wp' : ℝ} {R R' : WResult ℝ}
    (h : WaveformFitting env rfs preonset HSed VpSed VpCrust rayp KMoho HMoho gaussian wc wr wp = .ok R)
    (h' : WaveformFitting env rfs preonset HSed VpSed VpCrust rayp KMoho HMoho gaussian wc' wr' wp' = .ok R') :
    ∃ mc mr mp, IsMaxVal (R.WaveformSolutions.map Sol.corr) mc ∧ IsMaxVal (R.WaveformSolutions.map Sol.rmse) mr ∧
      IsMaxVal (R.WaveformSolutions.map Sol.pg) mp ∧
      (wc' - wc) * (R.printed.gof.corr / mc) + (wr' - wr) * (1 - R.printed.gof.rmse / mr)
          + (wp' - wp) * (R.printed.gof.pg / mp) ≤
        (wc' - wc) * (R'.printed.gof.corr / mc) + (wr' - wr) * (1 - R'.printed.gof.rmse / mr)
          + (wp' - wp) * (R'.printed.gof.pg / mp) := by
  obtain ⟨P, all, sols, best, hP, hall, hs, hbm, rfl⟩ := WaveformFitting_ok h
  obtain ⟨P', all', sols', best', hP', hall', hs', hbm', rfl⟩ := WaveformFitting_ok h'
  obtain rfl := Except.ok.inj (hP.symm.trans hP')
  obtain rfl := Except.ok.inj (hall.symm.trans hall')
  exact wave_swing hs hbm hs' hbm'

/-- **C152** raising the weight of the correlation never lowers the correlation of the overall best model -/
theorem c152_corr {env : WEnv ℝ} {rfs : List (Trace ℝ)} {preonset HSed VpSed VpCrust rayp gaussian : ℝ}
    {KMoho HMoho : List ℝ} {wc wr wp wc' : ℝ} {R R' : WResult ℝ} (hw : wc < wc')
    (h : WaveformFitting env rfs preonset HSed VpSed VpCrust rayp KMoho HMoho gaussian wc wr wp = .ok R)
    (h' : WaveformFitting env rfs preonset HSed VpSed VpCrust rayp KMoho HMoho gaussian wc' wr wp = .ok R')
    (hpos : ∃ s ∈ R.WaveformSolutions, 0 < s.corr) : R.printed.gof.corr ≤ R'.printed.gof.corr := by
  obtain ⟨mc, mr, mp, h1, h2, h3, h4⟩ := c152_waveform h h'
  have hm := maxVal_pos h1 hpos
  simp only [sub_self, zero_mul, add_zero] at h4
  exact (div_le_div_iff_of_pos_right hm).1 (le_of_mul_le_mul_left h4 (by linarith))

/-- **C152** raising the weight of the misfit never raises the misfit of the overall best model -/
theorem c152_rmse {env : WEnv ℝ} {rfs : List (Trace ℝ)} {preonset HSed VpSed VpCrust rayp gaussian : ℝ}
    {KMoho HMoho : List ℝ} {wc wr wp wr' : ℝ} {R R' : WResult ℝ} (hw : wr < wr')
    (h : WaveformFitting env rfs preonset HSed VpSed VpCrust rayp KMoho HMoho gaussian wc wr wp = .ok R)
    (h' : WaveformFitting env rfs preonset HSed VpSed VpCrust rayp KMoho HMoho gaussian wc wr' wp = .ok R')
    (hpos : ∃ s ∈ R.WaveformSolutions, 0 < s.rmse) : R'.printed.gof.rmse ≤ R.printed.gof.rmse := by
  obtain ⟨mc, mr, mp, h1, h2, h3, h4⟩ := c152_waveform h h'
  have hm := maxVal_pos h2 hpos
  simp only [sub_self, zero_mul, add_zero, zero_add] at h4
  have := le_of_mul_le_mul_left h4 (by linarith : 0 < wr' - wr)
  exact (div_le_div_iff_of_pos_right hm).1 (by linarith)

/-- **C152** raising the weight of the phase criterion never lowers the phase criterion of the overall best model -/
theorem c152_pg {env : WEnv ℝ} {rfs : List (Trace ℝ)} {preonset HSed VpSed VpCrust rayp gaussian : ℝ}
    {KMoho HMoho : List ℝ} {wc wr wp wp' : ℝ} {R R' : WResult ℝ} (hw : wp < wp')
    (h : WaveformFitting env rfs preonset HSed VpSed VpCrust rayp KMoho HMoho gaussian wc wr wp = .ok R)
    (h' : WaveformFitting env rfs preonset HSed VpSed VpCrust rayp KMoho HMoho gaussian wc wr wp' = .ok R')
    (hpos : ∃ s ∈ R.WaveformSolutions, 0 < s.pg) : R.printed.gof.pg ≤ R'.printed.gof.pg := by
  obtain ⟨mc, mr, mp, h1, h2, h3, h4⟩ := c152_waveform h h'
  have hm := maxVal_pos h3 hpos
  simp only [sub_self, zero_mul, add_zero, zero_add] at h4
  exact (div_le_div_iff_of_pos_right hm).1 (le_of_mul_le_mul_left h4 (by linarith))

/-- **C152** the same for `plotbestmodel`, which combines the results of the multiprocess fit -/
theorem c152_plotbestmodel {env : WEnv ℝ} {res : List (List (Crit ℝ))} {P : Para ℝ} {sv fm : String}
    {wc wr wp wc' wr' wp' : ℝ} {sols sols' : List (Sol ℝ)} {best best' : Best ℝ} {figs figs' : List (Fig ℝ)}
    (h : plotbestmodel env res P (some wc) (some wr) (some wp) sv fm = .ok (sols, best, figs))
    (h' : plotbestmodel env res P (some wc') (some wr') (some wp') sv fm = .ok (sols', best', figs')) :
    ∃ mc mr mp, IsMaxVal (sols.map Sol.corr) mc ∧ IsMaxVal (sols.map Sol.rmse) mr ∧ IsMaxVal (sols.map Sol.pg) mp ∧
      (wc' - wc) * (best.gof.corr / mc) + (wr' - wr) * (1 - best.gof.rmse / mr) + (wp' - wp) * (best.gof.pg / mp) ≤
      (wc' - wc) * (best'.gof.corr / mc) + (wr' - wr) * (1 - best'.gof.rmse / mr) + (wp' - wp) * (best'.gof.pg / mp) := by
  obtain ⟨all, ha, hs, hb⟩ := plotbestmodel_ok h
  obtain ⟨all', ha', hs', hb'⟩ := plotbestmodel_ok h'
  obtain rfl := Except.ok.inj (ha.symm.trans ha')
  exact wave_swing (by simpa using hs) hb (by simpa using hs') hb'

/-- the hypotheses of C152 are met: the sample run, the weight of each criterion raised from 1/3 -/
example : ∃ R R1 R2 R3,
    WaveformFitting wEnv [wTrace] 0 1 2 6 (6/100) [2] [30, 40] 1 (1/3) (1/3) (1/3) = .ok R ∧
    WaveformFitting wEnv [wTrace] 0 1 2 6 (6/100) [2] [30, 40] 1 (1/2) (1/3) (1/3) = .ok R1 ∧
    WaveformFitting wEnv [wTrace] 0 1 2 6 (6/100) [2] [30, 40] 1 (1/3) (1/2) (1/3) = .ok R2 ∧
    WaveformFitting wEnv [wTrace] 0 1 2 6 (6/100) [2] [30, 40] 1 (1/3) (1/3) (1/2) = .ok R3 ∧
    R.printed.gof.corr ≤ R1.printed.gof.corr ∧ R2.printed.gof.rmse ≤ R.printed.gof.rmse ∧
    R.printed.gof.pg ≤ R3.printed.gof.pg := by
  obtain ⟨R, h, -, ⟨n1, n2, n3, -⟩, -⟩ := wNormalisable (1/3) (1/3) (1/3)
  obtain ⟨R1, h1, -⟩ := wNormalisable (1/2) (1/3) (1/3)
  obtain ⟨R2, h2, -⟩ := wNormalisable (1/3) (1/2) (1/3)
  obtain ⟨R3, h3, -⟩ := wNormalisable (1/3) (1/3) (1/2)
  exact ⟨R, R1, R2, R3, h, h1, h2, h3, c152_corr (by norm_num) h h1 n1, c152_rmse (by norm_num) h h2 n2,
    c152_pg (by norm_num) h h3 n3⟩

end Rfsed.Props
