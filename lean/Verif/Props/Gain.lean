import Verif.Proofs.Gain
import Verif.Py.Rounded
import Verif.Spec.Sample
import Verif.Props.HkZhu

/-!
# Property C106: the gain of the data

Equations between outcomes: they also say that the same exceptions are raised.
-/

namespace Rfsed.Props
open Rfsed PyFloat Spec HkZhu

section generic
variable {F : Type} [PyFloat F] {φ : F → F}

/-- **C106** `hk`: with another gain the outcome is the same, with the gain applied to the data and to the stack values;
the position of the best model does not change. -/
theorem c106_hk (h : Gain φ) {env : Env F} (he : GainEnv φ env) (st : List (Trace F)) (preonset : F) (H K : List F)
    (Vp : Option (Scalar F)) (w1 w2 w3 : Option F) (layer : Option String) (stack : Option Bool) :
    hk env (gainStream φ st) preonset H K Vp w1 w2 w3 layer stack =
      (hk env st preonset H K Vp w1 w2 w3 layer stack).map (fun r =>
        { r with
          RF := gainStream φ st
          RFStack := r.RFStack.map φ
          stackvalues := gainTable φ r.stackvalues }) := by
  have h0 : item (gainStream φ st) 0 = (item st 0).map (fun tr => { tr with data := tr.data.map φ }) :=
    item_map _ st 0
  unfold hk
  simp only [he.stack, slowness_gain, item_map, h0, bind_map, map_bind', List.length_map,
    gridLoop_gain (cell_gain h env st _ _ _ _ _ _ _ _), argmax_gain h, he.draw]
  rfl

/-- **C106** `hkSynth` -/
theorem c106_hkSynth (h : Gain φ) {env : Env F} (he : ∀ tb, env.draw (gainTable φ tb) = env.draw tb) (d t : List F)
    (rp : Scalar F) (H K : List F) (Vp : Option (Scalar F)) (w1 w2 w3 : Option F) (layer : Option String) :
    SynthAnalysis.hkSynth env (d.map φ) t rp H K Vp w1 w2 w3 layer =
      (SynthAnalysis.hkSynth env d t rp H K Vp w1 w2 w3 layer).map (fun r =>
        { r with
          SynthRF := d.map φ
          stackvalues := gainTable φ r.stackvalues }) := by
  unfold SynthAnalysis.hkSynth
  simp only [gridLoop_gain (synthCell_gain h d t rp _ _ _ _), bind_map, map_bind', argmax_gain h, he]
  rfl

/-- **C106** `hkYu`: thickness and velocity ratio reported do not change -/
theorem c106_hkYu (h : Gain φ) {env : Env F} (he : ∀ tb, env.draw (gainTable φ tb) = env.draw tb)
    (flt : HkYu.FltInput F) (rp : Scalar F) (H K : List F) (VpMoho VpSed VsSed : Option (Scalar F))
    (w1 w2 w3 : Option F) :
    HkYu.hkYu env { flt with filteredrf := flt.filteredrf.map φ } rp H K VpMoho VpSed VsSed w1 w2 w3 =
      (HkYu.hkYu env flt rp H K VpMoho VpSed VsSed w1 w2 w3).map (fun r =>
        { r with
          FltRF := flt.filteredrf.map φ
          stackvaluesSubSed := gainTable φ r.stackvaluesSubSed }) := by
  unfold HkYu.hkYu
  simp only [gridLoop_gain (yuCell_gain h flt rp _ _ _ _ _), bind_map, map_bind', argmax_gain h, he]
  unfold gainTable
  simp only [item_map, bind_map]
  rfl

/-- **C106** `hkSeqSynth` -/
theorem c106_hkSeqSynth (h : Gain φ) {env : Env F} (he : ∀ tb, env.draw (gainTable φ tb) = env.draw tb)
    (dS dM t : List F) (rp : Scalar F) (HS KS : List F) (VpS : Option (Scalar F)) (w1S w2S w3S : Option F)
    (HM KM : List F) (vm : Option (Scalar F)) (w1M w2M w3M : Option F) :
    SynthAnalysis.hkSeqSynth env (dS.map φ) (dM.map φ) t rp HS KS VpS w1S w2S w3S HM KM vm w1M w2M w3M =
      (SynthAnalysis.hkSeqSynth env dS dM t rp HS KS VpS w1S w2S w3S HM KM vm w1M w2M w3M).map (fun r =>
        { r with
          SynthRFSed := dS.map φ
          SynthRFMoho := dM.map φ
          stackvalueSed := gainTable φ r.stackvalueSed
          stackvalueMoho := gainTable φ r.stackvalueMoho }) := by
  have hi : ∀ (tb : List (Row F)) i, item (gainTable φ tb) i = (item tb i).map (fun row => ⟨row.h, row.k, φ row.s⟩) :=
    fun tb i => item_map _ tb i
  have hc : ∀ k x, SynthAnalysis.seqSedCell (dS.map φ) t rp (VpS.getD ⟨.py, dec 30 1⟩) (w1S.getD (dec 6 1))
      (w2S.getD (dec 3 1)) (w3S.getD (dec 1 1)) k x = (SynthAnalysis.seqSedCell dS t rp (VpS.getD ⟨.py, dec 30 1⟩)
      (w1S.getD (dec 6 1)) (w2S.getD (dec 3 1)) (w3S.getD (dec 1 1)) k x).map φ := by
    intro k x
    rw [seqSedCell_eq, seqSedCell_eq, synthCell_gain h]
  unfold SynthAnalysis.hkSeqSynth
  simp only [gridLoop_gain hc, gridLoop_gain (seqMohoCell_gain h dM t rp _ _ _ _ _ _ _), bind_map, map_bind',
    argmax_gain h, he, hi, clipLoop_gain h]
  rfl

/-- **C106** `hkSeq`, both streams with the same gain -/
theorem c106_hkSeq (h : Gain φ) {env : Env F} (he : GainEnv φ env) (stS stM : List (Trace F)) (preonset : F)
    (HS KS : List F) (VpS : Option (Scalar F)) (w1S w2S w3S : Option F) (HM KM : List F) (vm : Option (Scalar F))
    (w1M w2M w3M : Option F) (stack : Option Bool) :
    HkSeqYeck.hkSeq env (gainStream φ stS) (gainStream φ stM) preonset HS KS VpS w1S w2S w3S HM KM vm w1M w2M w3M
        stack =
      (HkSeqYeck.hkSeq env stS stM preonset HS KS VpS w1S w2S w3S HM KM vm w1M w2M w3M stack).map (fun r =>
        { r with
          RFSed := gainStream φ stS
          RFSedStack := r.RFSedStack.map φ
          RFMoho := gainStream φ stM
          RFMohoStack := r.RFMohoStack.map φ
          stackvalueSed := gainTable φ r.stackvalueSed
          stackvalueMoho := gainTable φ r.stackvalueMoho }) := by
  have hi : ∀ (tb : List (Row F)) i, item (gainTable φ tb) i = (item tb i).map (fun row => ⟨row.h, row.k, φ row.s⟩) :=
    fun tb i => item_map _ tb i
  have hs : ∀ t sd avg V a b c s, ∀ k x, HkSeqYeck.lastTrace (HkSeqYeck.sedTerm env t (sd.map φ) avg V a b c s k x)
      (gainStream φ stS) = (HkSeqYeck.lastTrace (HkSeqYeck.sedTerm env t sd avg V a b c s k x) stS).map φ :=
    fun t sd avg V a b c s k x => lastTrace_gain (sedTerm_gain h env t sd avg V a b c s k x) stS
  have hm : ∀ t sd avg V H1 K1 s, ∀ k x, HkSeqYeck.lastTrace (HkSeqYeck.mohoTerm env (gainStream φ stM) t (sd.map φ)
      avg V H1 K1 vm w1M w2M w3M s k x) (gainStream φ stM) =
      (HkSeqYeck.lastTrace (HkSeqYeck.mohoTerm env stM t sd avg V H1 K1 vm w1M w2M w3M s k x) stM).map φ :=
    fun t sd avg V H1 K1 s k x => lastTrace_gain (mohoTerm_gain h env stM t sd avg V H1 K1 vm w1M w2M w3M s k x) stM
  have h0 : item (gainStream φ stS) 0 = (item stS 0).map (fun tr => { tr with data := tr.data.map φ }) :=
    item_map _ stS 0
  unfold HkSeqYeck.hkSeq
  simp only [he.stack, slowness_gain, item_map, h0, bind_map, map_bind', List.length_map,
    gridLoop_gain (hs _ _ _ _ _ _ _ _), gridLoop_gain (hm _ _ _ _ _ _ _), argmax_gain h, he.draw, hi, clipLoop_gain h]
  rfl

end generic

/-! ## Gains -/

/-- **C106** in exact arithmetic every positive factor is a gain -/
theorem c106_exact {c : ℝ} (hc : 0 < c) : Gain (fun x : ℝ => c * x) where
  zero := by simp
  add x y := by ring
  sub x y := by ring
  weight w x := by ring
  le x y := by
    rw [Bool.eq_iff_iff, real_le, real_le]
    exact mul_le_mul_iff_right₀ hc
  nan x := rfl

/-- rounding to a number of binary digits commutes with powers of two -/
theorem binary_scale (p : Nat) (k : ℤ) (x : ℝ) :
    (Rounding.binary p).fl ((2 : ℝ) ^ k * x) = (2 : ℝ) ^ k * (Rounding.binary p).fl x := by
  rcases eq_or_ne x 0 with rfl | hx
  · rw [mul_zero, Rounding.fl_zero, mul_zero]
  · have h2 : (0 : ℝ) < (2 : ℝ) ^ k := zpow_pos (by norm_num) _
    have hlog : Int.log 2 |(2 : ℝ) ^ k * x| = k + Int.log 2 |x| := by
      have hx' := abs_pos.2 hx
      have key : ∀ z : ℤ, z ≤ Int.log 2 |(2 : ℝ) ^ k * x| ↔ z ≤ k + Int.log 2 |x| := by
        intro z
        rw [← Int.zpow_le_iff_le_log (by norm_num) (abs_pos.2 (mul_ne_zero h2.ne' hx)), ← sub_le_iff_le_add',
          ← Int.zpow_le_iff_le_log (by norm_num) hx', abs_mul, abs_of_pos h2, zpow_sub₀ (by norm_num),
          div_le_iff₀ (by push_cast; exact h2)]
        push_cast
        rw [mul_comm |x|]
      exact le_antisymm ((key _).1 le_rfl) ((key _).2 le_rfl)
    show (round ((2 : ℝ) ^ k * x / (2 : ℝ) ^ (Int.log 2 |(2 : ℝ) ^ k * x| - p)) : ℝ) *
      (2 : ℝ) ^ (Int.log 2 |(2 : ℝ) ^ k * x| - p) = (2 : ℝ) ^ k * ((round (x / (2 : ℝ) ^ (Int.log 2 |x| - p)) : ℝ) *
      (2 : ℝ) ^ (Int.log 2 |x| - p))
    have e : (2 : ℝ) ^ (k + Int.log 2 |x| - p) = (2 : ℝ) ^ k * (2 : ℝ) ^ (Int.log 2 |x| - p) := by
      rw [add_sub_assoc, zpow_add₀ (by norm_num)]
    rw [hlog, e, mul_div_mul_left _ _ h2.ne']
    ring

/-- **C106** in binary floating-point arithmetic every power of two is a gain -/
theorem c106_binary (p : Nat) (k : ℤ) :
    Gain (fun x : FL (Rounding.binary p) => (⟨(2 : ℝ) ^ k * x.val⟩ : FL (Rounding.binary p))) where
  zero := by apply FL.ext'; simp
  add x y := by
    apply FL.ext'
    rw [FL.val_add, FL.val_add, ← mul_add, binary_scale]
  sub x y := by
    apply FL.ext'
    rw [FL.val_sub, FL.val_sub, ← mul_sub, binary_scale]
  weight w x := by
    apply FL.ext'
    rw [FL.val_mul, FL.val_mul, mul_left_comm, binary_scale]
  le x y := by
    rw [Bool.eq_iff_iff, FL.le_iff, FL.le_iff]
    exact mul_le_mul_iff_right₀ (zpow_pos (by norm_num) _)
  nan x := rfl

/-! ## Concrete cases -/

theorem sample_gainEnv (c : ℝ) : GainEnv (fun x : ℝ => c * x) Sample.env where
  stack st := by
    cases st with
    | nil => rfl
    | cons tr st =>
      show Except.ok _ = Except.ok _
      congr 1
      simp only [List.map_cons, List.map_nil, List.map_map, List.length_map]
      congr 1
      apply List.map_congr_left
      intro i _
      simp only [Function.comp, gainStream, List.map_map, List.length_map, List.length_cons, List.map_cons]
      rw [mul_div_assoc']
      congr 1
      have e : ∀ tr : Trace ℝ, (tr.data.map (fun x => c * x)).getD i 0 = c * tr.data.getD i 0 := by
        intro tr
        rw [List.getD_eq_getElem?_getD, List.getD_eq_getElem?_getD, List.getElem?_map]
        cases tr.data[i]? <;> simp
      rw [List.sum_cons, List.sum_cons, e, mul_add, ← List.sum_map_mul_left]
      congr 2
      apply List.map_congr_left
      intro tr _
      exact e tr
  draw _ := rfl

/-- the sample stream amplified by 1000: a result, with the best model at the same place -/
example : ∃ r r', hk Sample.env Sample.stream 1 [30, 35] [1.7, 1.8, 1.9] (some ⟨.py, (6.5 : ℝ)⟩) none none none none
      (some true) = .ok r ∧
    hk Sample.env (gainStream (fun x => 1000 * x) Sample.stream) 1 [30, 35] [1.7, 1.8, 1.9] (some ⟨.py, (6.5 : ℝ)⟩) none
      none none none (some true) = .ok r' ∧ r'.bestIdx = r.bestIdx ∧
    r'.stackvalues = r.stackvalues.map (fun row => ⟨row.h, row.k, 1000 * row.s⟩) := by
  obtain ⟨r, hr⟩ := sample_ok none none none (some true)
  have := c106_hk (c106_exact (c := 1000) (by norm_num)) (sample_gainEnv 1000) Sample.stream 1 [30, 35] [1.7, 1.8, 1.9]
    (some ⟨.py, (6.5 : ℝ)⟩) none none none none (some true)
  rw [hr] at this
  exact ⟨r, _, hr, this, rfl, rfl⟩

end Rfsed.Props
