import Verif.Proofs.Superpose
import Verif.Props.HkZhu2
import Verif.Props.Seq
import Verif.Props.Variants

/-!
# Properties C92 (adding data) and C93 (choosing weights)
-/

namespace Rfsed.Props
open Spec PyFloat HkZhu

/-! ## C92 -/

/-- **C92** `hk` without stacking: the table of two data sets together is the sum of their tables, and if both
prefer the same grid point, so do they together. -/
theorem c92_union {env : Env ℝ} {st1 st2 : List (Trace ℝ)} {preonset : ℝ} {H K : List ℝ} {Vp : Option (Scalar ℝ)}
    {w1 w2 w3 : Option ℝ} {layer : Option String} {stack : Option Bool} {r1 r2 : HKResult ℝ} {sd : List ℝ}
    {more : List (List ℝ)} (hs : stack ≠ some true)
    (h1 : hk env st1 preonset H K Vp w1 w2 w3 layer stack = .ok r1)
    (h2 : hk env st2 preonset H K Vp w1 w2 w3 layer stack = .ok r2) (htime : r2.time = r1.time)
    (hstack : env.stack (st1 ++ st2) = .ok (sd :: more)) (hdraw : ∀ tb, env.draw tb = .ok ()) :
    ∃ r, hk env (st1 ++ st2) preonset H K Vp w1 w2 w3 layer stack = .ok r ∧
      r.stackvalues = tableAdd r1.stackvalues r2.stackvalues ∧
      (r1.bestIdx = r2.bestIdx → r.bestIdx = r1.bestIdx) := by
  obtain ⟨tr1, rest1, sl1, f1⟩ := hk_inv h1
  obtain ⟨tr2, rest2, sl2, f2⟩ := hk_inv h2
  have hsf : stack.getD false = false := by
    cases stack with
    | none => rfl
    | some b => cases b with
      | false => rfl
      | true => exact absurd rfl hs
  have hslow : (st1 ++ st2).mapM Trace.getSlowness = .ok (sl1 ++ sl2) := by
    rw [List.mapM_append, f1.hslow, except_ok_bind, f2.hslow]; rfl
  have g1 := f1.hgrid
  have g2 := f2.hgrid
  rw [htime] at g2
  rw [f1.hVp, f1.hstk, hsf, f1.htime] at g1
  rw [f2.hVp, f2.hstk, hsf, f1.htime] at g2
  have hg := gridLoop_add (v := cell env (st1 ++ st2) (timeAxis tr1.delta preonset tr1.data.length) sd
    (npMean ((sl1 ++ sl2).map Scalar.val)) (Vp.getD ⟨.py, dec 65 1⟩) (w1.getD (dec 6 1)) (w2.getD (dec 3 1))
    (w3.getD (dec 1 1)) false) g1 g2 (fun _ _ _ _ _ _ a b => cell_append a b)
  have hst : st1 ++ st2 = tr1 :: (rest1 ++ st2) := by rw [f1.hst]; rfl
  have hlen : (tableAdd r1.stackvalues r2.stackvalues).length ≠ 0 := by
    have e1 := (gridLoop_ok g1).1
    have e2 := (gridLoop_ok g2).1
    have e3 := argmax_lt f1.hbest
    unfold tableAdd
    rw [List.length_zipWith, e1, e2]
    rw [List.length_map, e1] at e3
    omega
  obtain ⟨n, hn⟩ := argmax_of_length hlen
  rw [hst] at hstack hslow hg ⊢
  rw [← hsf] at hg
  refine ⟨_, hk_of_facts hstack hslow hg hn (hdraw _), rfl, ?_⟩
  intro hb
  have := argmax_tableAdd f1.hbest (hb ▸ f2.hbest)
  exact Except.ok.inj (hn.symm.trans this)

/-- **C92** counting the whole data set `m` times multiplies all stack values by `m` and leaves the best model. -/
theorem c92_repeat {env : Env ℝ} {st : List (Trace ℝ)} {preonset : ℝ} {H K : List ℝ} {Vp : Option (Scalar ℝ)}
    {w1 w2 w3 : Option ℝ} {layer : Option String} {stack : Option Bool} {r : HKResult ℝ} (hs : stack ≠ some true)
    (h : hk env st preonset H K Vp w1 w2 w3 layer stack = .ok r)
    (hstack : ∀ m, ∃ sd more, env.stack (List.replicate (m + 1) st).flatten = .ok (sd :: more))
    (hdraw : ∀ tb, env.draw tb = .ok ()) (m : Nat) :
    ∃ r', hk env (List.replicate (m + 1) st).flatten preonset H K Vp w1 w2 w3 layer stack = .ok r' ∧
      r'.stackvalues = tableScale (m + 1 : Nat) r.stackvalues ∧ r'.bestIdx = r.bestIdx ∧ r'.time = r.time := by
  induction m with
  | zero =>
    refine ⟨r, by simpa using h, ?_, rfl, rfl⟩
    simp [tableScale]
  | succ m ih =>
    obtain ⟨r', h', e1, e2, e3⟩ := ih
    obtain ⟨sd, more, hsd⟩ := hstack (m + 1)
    rw [List.replicate_succ, List.flatten_cons] at hsd
    obtain ⟨r'', h'', q1, q2⟩ := c92_union hs h h' e3 hsd hdraw
    refine ⟨r'', by rw [List.replicate_succ, List.flatten_cons]; exact h'', ?_, ?_, ?_⟩
    · rw [q1, e1]
      unfold tableAdd tableScale
      rw [List.zipWith_map_right, List.zipWith_self]
      apply List.map_congr_left
      intro row _
      push_cast
      congr 1
      ring
    · rw [q2 e2.symm]
    · obtain ⟨a, b, c, f⟩ := hk_inv h
      obtain ⟨a', b', c', f'⟩ := hk_inv h''
      have := f'.hst
      rw [f.hst] at this
      simp at this
      rw [f'.htime, f.htime, this.1]

/-- **C92** one receiver function: the table of a sum of receiver functions is the sum of the tables. -/
theorem c92_hkSynth {env : Env ℝ} {d1 d2 t : List ℝ} {rp : Scalar ℝ} {H K : List ℝ} {Vp : Option (Scalar ℝ)}
    {w1 w2 w3 : Option ℝ} {layer : Option String} {r1 r2 : SynthAnalysis.SynthResult ℝ}
    (h1 : SynthAnalysis.hkSynth env d1 t rp H K Vp w1 w2 w3 layer = .ok r1)
    (h2 : SynthAnalysis.hkSynth env d2 t rp H K Vp w1 w2 w3 layer = .ok r2)
    (hdraw : ∀ tb, env.draw tb = .ok ()) :
    ∃ r, SynthAnalysis.hkSynth env (List.zipWith (fun a b : ℝ => a + b) d1 d2) t rp H K Vp w1 w2 w3 layer = .ok r ∧
      r.stackvalues = tableAdd r1.stackvalues r2.stackvalues ∧
      (r1.bestIdx = r2.bestIdx → r.bestIdx = r1.bestIdx) := by
  have f1 := hkSynth_inv h1
  have f2 := hkSynth_inv h2
  have hg := gridLoop_add (v := SynthAnalysis.cell (List.zipWith (fun a b : ℝ => a + b) d1 d2) t rp
    (Vp.getD ⟨.py, dec 65 1⟩) (w1.getD (dec 6 1)) (w2.getD (dec 3 1)) (w3.getD (dec 1 1))) f1.hgrid f2.hgrid (by
      intro k _ x _ a b ha hb
      rw [synthCell_eq] at ha hb ⊢
      exact times_sum ha hb)
  obtain ⟨n, hn⟩ := argmax_of_length (tb := tableAdd r1.stackvalues r2.stackvalues) (by
    have e1 := (gridLoop_ok f1.hgrid).1
    have e2 := (gridLoop_ok f2.hgrid).1
    have e3 := argmax_lt f1.hbest
    unfold tableAdd
    rw [List.length_zipWith, e1, e2]
    rw [List.length_map, e1] at e3
    omega)
  refine ⟨_, hkSynth_of hg hn (hdraw _), rfl, ?_⟩
  intro hb
  exact Except.ok.inj (hn.symm.trans (argmax_tableAdd f1.hbest (hb ▸ f2.hbest)))

/-! ## C93 -/

/-- **C93** `hk`: there are three tables, one per phase, such that for every choice of weights the search succeeds
with their weighted sum as table. -/
theorem c93_hk {env : Env ℝ} {st : List (Trace ℝ)} {preonset : ℝ} {H K : List ℝ} {Vp : Option (Scalar ℝ)}
    {w1 w2 w3 : Option ℝ} {layer : Option String} {stack : Option Bool} {r : HKResult ℝ}
    (h : hk env st preonset H K Vp w1 w2 w3 layer stack = .ok r) (hdraw : ∀ tb, env.draw tb = .ok ()) :
    ∃ A B C : List (Row ℝ), A.length = r.stackvalues.length ∧ B.length = r.stackvalues.length ∧
      C.length = r.stackvalues.length ∧
      ∀ v1 v2 v3 : ℝ, ∃ r', hk env st preonset H K Vp (some v1) (some v2) (some v3) layer stack = .ok r' ∧
        r'.stackvalues = tableComb v1 v2 v3 A B C := by
  obtain ⟨tr0, rest, slows, f⟩ := hk_inv h
  obtain ⟨more, hmore⟩ := f.hstack
  have hg := f.hgrid
  rw [f.hVp, f.hstk, f.htime, f.havg] at hg
  obtain ⟨A, B, C, lA, lB, lC, hv⟩ := linCell_tables (linCell_hk env st _ _ _ _ _) hg
  have hst := f.hst
  have hslow := f.hslow
  have hb := argmax_lt f.hbest
  refine ⟨A, B, C, lA, lB, lC, ?_⟩
  intro v1 v2 v3
  obtain ⟨n, hn⟩ := argmax_of_length (tb := tableComb v1 v2 v3 A B C) (by
    rw [tableComb_length _ _ _ lA lB lC]
    rw [List.length_map] at hb
    omega)
  subst hst
  exact ⟨_, hk_of_facts (w1 := some v1) (w2 := some v2) (w3 := some v3) hmore hslow (hv v1 v2 v3) hn (hdraw _), rfl⟩

/-- **C93** a common positive factor of the three weights does not move the best model. -/
theorem c93_hk_factor {env : Env ℝ} {st : List (Trace ℝ)} {preonset : ℝ} {H K : List ℝ} {Vp : Option (Scalar ℝ)}
    {w1 w2 w3 c : ℝ} (hc : 0 < c) {layer : Option String} {stack : Option Bool} {r : HKResult ℝ}
    (h : hk env st preonset H K Vp (some w1) (some w2) (some w3) layer stack = .ok r)
    (hdraw : ∀ tb, env.draw tb = .ok ()) :
    ∃ r', hk env st preonset H K Vp (some (c * w1)) (some (c * w2)) (some (c * w3)) layer stack = .ok r' ∧
      r'.stackvalues = tableScale c r.stackvalues ∧ r'.bestIdx = r.bestIdx := by
  obtain ⟨A, B, C, _, _, _, hv⟩ := c93_hk h hdraw
  obtain ⟨r0, h0, e0⟩ := hv w1 w2 w3
  have q : r0 = r := Except.ok.inj (h0.symm.trans h)
  subst q
  obtain ⟨r', h', e'⟩ := hv (c * w1) (c * w2) (c * w3)
  rw [tableComb_factor, ← e0] at e'
  refine ⟨r', h', e', ?_⟩
  obtain ⟨_, _, _, f⟩ := hk_inv h
  obtain ⟨_, _, _, f'⟩ := hk_inv h'
  have := f'.hbest
  rw [e'] at this
  exact Except.ok.inj (this.symm.trans (argmax_tableScale hc f.hbest))

/-- **C93** `hkSynth`. -/
theorem c93_hkSynth {env : Env ℝ} {d t : List ℝ} {rp : Scalar ℝ} {H K : List ℝ} {Vp : Option (Scalar ℝ)}
    {w1 w2 w3 : Option ℝ} {layer : Option String} {r : SynthAnalysis.SynthResult ℝ}
    (h : SynthAnalysis.hkSynth env d t rp H K Vp w1 w2 w3 layer = .ok r) (hdraw : ∀ tb, env.draw tb = .ok ()) :
    ∃ A B C : List (Row ℝ), A.length = r.stackvalues.length ∧ B.length = r.stackvalues.length ∧
      C.length = r.stackvalues.length ∧
      ∀ v1 v2 v3 : ℝ, ∃ r',
        SynthAnalysis.hkSynth env d t rp H K Vp (some v1) (some v2) (some v3) layer = .ok r' ∧
        r'.stackvalues = tableComb v1 v2 v3 A B C := by
  have f := hkSynth_inv h
  obtain ⟨A, B, C, lA, lB, lC, hv⟩ := linCell_tables (linCell_synth d t rp _) f.hgrid
  refine ⟨A, B, C, lA, lB, lC, ?_⟩
  intro v1 v2 v3
  have hb := argmax_lt f.hbest
  obtain ⟨n, hn⟩ := argmax_of_length (tb := tableComb v1 v2 v3 A B C) (by
    rw [tableComb_length _ _ _ lA lB lC]
    rw [List.length_map] at hb
    omega)
  exact ⟨_, hkSynth_of (w1 := some v1) (w2 := some v2) (w3 := some v3) (hv v1 v2 v3) hn (hdraw _), rfl⟩

/-- **C93** `hkYu`. -/
theorem c93_hkYu {env : Env ℝ} {flt : HkYu.FltInput ℝ} {rp : Scalar ℝ} {H K : List ℝ}
    {VpMoho VpSed VsSed : Option (Scalar ℝ)} {w1 w2 w3 : ℝ} {r : HkYu.YuResult ℝ}
    (h : HkYu.hkYu env flt rp H K VpMoho VpSed VsSed (some w1) (some w2) (some w3) = .ok r)
    (hdraw : ∀ tb, env.draw tb = .ok ()) :
    ∃ A B C : List (Row ℝ), A.length = r.stackvaluesSubSed.length ∧ B.length = r.stackvaluesSubSed.length ∧
      C.length = r.stackvaluesSubSed.length ∧
      ∀ v1 v2 v3 : ℝ, ∃ r', HkYu.hkYu env flt rp H K VpMoho VpSed VsSed (some v1) (some v2) (some v3) = .ok r' ∧
        r'.stackvaluesSubSed = tableComb v1 v2 v3 A B C ∧ r'.SedThick = r.SedThick ∧ r'.Pdelay = r.Pdelay := by
  obtain ⟨vs, a, b, bmod, f⟩ := hkYu_inv h
  obtain ⟨A, B, C, lA, lB, lC, hv⟩ := linCell_tables (linCell_yu flt rp _ _) f.hgrid
  refine ⟨A, B, C, lA, lB, lC, ?_⟩
  intro v1 v2 v3
  have hb := argmax_lt f.hbest
  obtain ⟨n, hn⟩ := argmax_of_length (tb := tableComb v1 v2 v3 A B C) (by
    rw [tableComb_length _ _ _ lA lB lC]
    rw [List.length_map] at hb
    omega)
  have hlt : n < (tableComb v1 v2 v3 A B C).length := by simpa using argmax_lt hn
  have g := hv v1 v2 v3
  have ha := f.ha
  have hb' := f.hb
  rw [f.hVp, f.hPd] at g
  rw [f.hSed] at ha hb'
  rw [f.hVpSed] at hb'
  have hvs := f.hvs
  subst hvs
  refine ⟨_, bind_eq_ok.2 ⟨vs, rfl, bind_eq_ok.2 ⟨a, ha, bind_eq_ok.2 ⟨b, hb', bind_eq_ok.2 ⟨_, g,
    bind_eq_ok.2 ⟨n, hn, bind_eq_ok.2 ⟨(), hdraw _, bind_eq_ok.2 ⟨_, item_ok.2 (List.getElem?_eq_getElem hlt),
    rfl⟩⟩⟩⟩⟩⟩⟩, rfl, f.hSed.symm, f.hPd.symm⟩

/-- **C93** the Moho stage of `hkSeqSynth`: with fixed weights of the sediment stage, the table is the weighted
sum of three tables with negative values replaced by zero; the sediment stage is unaffected. -/
theorem c93_hkSeqSynth_moho {env : Env ℝ} {dS dM t : List ℝ} {rp : Scalar ℝ} {HS KS : List ℝ}
    {VpSed : Option (Scalar ℝ)} {w1S w2S w3S : Option ℝ} {HM KM : List ℝ} {vm : Scalar ℝ} {w1 w2 w3 : ℝ}
    {r : SynthAnalysis.SeqSynthResult ℝ}
    (h : SynthAnalysis.hkSeqSynth env dS dM t rp HS KS VpSed w1S w2S w3S HM KM (some vm) (some w1) (some w2)
      (some w3) = .ok r) (hdraw : ∀ tb, env.draw tb = .ok ()) :
    ∃ A B C : List (Row ℝ), A.length = r.stackvalueMoho.length ∧ B.length = r.stackvalueMoho.length ∧
      C.length = r.stackvalueMoho.length ∧
      ∀ v1 v2 v3 : ℝ, ∃ r', SynthAnalysis.hkSeqSynth env dS dM t rp HS KS VpSed w1S w2S w3S HM KM (some vm)
          (some v1) (some v2) (some v3) = .ok r' ∧
        r'.stackvalueMoho = tableClip (tableComb v1 v2 v3 A B C) ∧
        argmax ((tableComb v1 v2 v3 A B C).map Row.s) = .ok r'.bestIdxMoho ∧
        r'.stackvalueSed = r.stackvalueSed ∧ r'.bestIdxSed = r.bestIdxSed := by
  obtain ⟨bmod, raw, f⟩ := hkSeqSynth_inv h
  obtain ⟨A, B, C, lA, lB, lC, hv⟩ := linCell_tables (linCell_seqMoho dM t rp _ _ _ _) f.hgridM
  have hl : raw.length = r.stackvalueMoho.length := by rw [f.hclip, clipLoop_eq, List.length_map]
  have hb := argmax_lt f.hbestM
  rw [List.length_map] at hb
  refine ⟨A, B, C, lA.trans hl, lB.trans hl, lC.trans hl, ?_⟩
  intro v1 v2 v3
  obtain ⟨n, hn⟩ := argmax_of_length (tb := tableComb v1 v2 v3 A B C) (by
    rw [tableComb_length _ _ _ lA lB lC]
    omega)
  have g := hv v1 v2 v3
  have gS := f.hgridS
  rw [f.hVpSed] at g gS
  exact ⟨_, hkSeqSynth_of gS f.hbestS (hdraw _) f.hrowS g hn (hdraw _), clipLoop_real _, hn, rfl, rfl⟩

/-- **C93** the sediment stage of `hkSeqSynth` (given that the Moho stage succeeds for the new sediment model). -/
theorem c93_hkSeqSynth_sed {env : Env ℝ} {dS dM t : List ℝ} {rp : Scalar ℝ} {HS KS : List ℝ}
    {VpSed : Option (Scalar ℝ)} {w1S w2S w3S : Option ℝ} {HM KM : List ℝ} {VpMoho : Option (Scalar ℝ)}
    {w1 w2 w3 : Option ℝ} {r : SynthAnalysis.SeqSynthResult ℝ}
    (h : SynthAnalysis.hkSeqSynth env dS dM t rp HS KS VpSed w1S w2S w3S HM KM VpMoho w1 w2 w3 = .ok r) :
    ∃ A B C : List (Row ℝ), A.length = r.stackvalueSed.length ∧ B.length = r.stackvalueSed.length ∧
      C.length = r.stackvalueSed.length ∧
      ∀ (v1 v2 v3 : ℝ) r', SynthAnalysis.hkSeqSynth env dS dM t rp HS KS VpSed (some v1) (some v2) (some v3)
          HM KM VpMoho w1 w2 w3 = .ok r' → r'.stackvalueSed = tableComb v1 v2 v3 A B C := by
  obtain ⟨bmod, raw, f⟩ := hkSeqSynth_inv h
  have gS := f.hgridS
  rw [f.hVpSed] at gS
  obtain ⟨A, B, C, lA, lB, lC, hv⟩ := linCell_tables (linCell_synth dS t rp _) gS
  refine ⟨A, B, C, lA, lB, lC, ?_⟩
  intro v1 v2 v3 r' h'
  obtain ⟨bmod', raw', f'⟩ := hkSeqSynth_inv h'
  have gS' := f'.hgridS
  rw [f'.hVpSed] at gS'
  exact Except.ok.inj (gS'.symm.trans (hv v1 v2 v3))

/-- **C93** the Moho stage of `hkSeq`. -/
theorem c93_hkSeq_moho {env : Env ℝ} {stS stM : List (Trace ℝ)} {preonset : ℝ} {HS KS : List ℝ}
    {VpSed : Option (Scalar ℝ)} {w1S w2S w3S : Option ℝ} {HM KM : List ℝ} {vm : Scalar ℝ} {w1 w2 w3 : ℝ}
    {stack : Option Bool} {r : HkSeqYeck.SeqResult ℝ}
    (h : HkSeqYeck.hkSeq env stS stM preonset HS KS VpSed w1S w2S w3S HM KM (some vm) (some w1) (some w2)
      (some w3) stack = .ok r) (hdraw : ∀ tb, env.draw tb = .ok ()) :
    ∃ A B C : List (Row ℝ), A.length = r.stackvalueMoho.length ∧ B.length = r.stackvalueMoho.length ∧
      C.length = r.stackvalueMoho.length ∧
      ∀ v1 v2 v3 : ℝ, ∃ r', HkSeqYeck.hkSeq env stS stM preonset HS KS VpSed w1S w2S w3S HM KM (some vm)
          (some v1) (some v2) (some v3) stack = .ok r' ∧
        r'.stackvalueMoho = tableClip (tableComb v1 v2 v3 A B C) ∧
        argmax ((tableComb v1 v2 v3 A B C).map Row.s) = .ok r'.bestIdxMoho ∧
        r'.stackvalueSed = r.stackvalueSed ∧ r'.bestIdxSed = r.bestIdxSed := by
  obtain ⟨tr0, rest, slows, bmod, raw, f⟩ := hkSeq_inv h
  obtain ⟨A, B, C, lA, lB, lC, hv⟩ := linCell_tables (linCell_last stM (fun tr _ =>
    linCell_mohoTerm env stM r.time r.RFMohoStack r.AvgSlow r.VpSed vm bmod.h bmod.k r.stack tr)) f.hgridM
  have hl : raw.length = r.stackvalueMoho.length := by rw [f.hclip, clipLoop_eq, List.length_map]
  have hb := argmax_lt f.hbestM
  rw [List.length_map] at hb
  refine ⟨A, B, C, lA.trans hl, lB.trans hl, lC.trans hl, ?_⟩
  intro v1 v2 v3
  obtain ⟨n, hn⟩ := argmax_of_length (tb := tableComb v1 v2 v3 A B C) (by
    rw [tableComb_length _ _ _ lA lB lC]
    omega)
  have g := hv v1 v2 v3
  have gS := f.hgridS
  obtain ⟨mS, hmS⟩ := f.hstackS
  obtain ⟨mM, hmM⟩ := f.hstackM
  have hst := f.hst
  rw [f.hVpSed, f.htime, f.havg, f.hstk] at g gS
  subst hst
  exact ⟨_, hkSeq_of hmS hmM f.hslow gS f.hbestS (hdraw _) f.hrowS g hn (hdraw _), clipLoop_real _, hn, rfl, rfl⟩

/-- **C93** the sediment stage of `hkSeq`. -/
theorem c93_hkSeq_sed {env : Env ℝ} {stS stM : List (Trace ℝ)} {preonset : ℝ} {HS KS : List ℝ}
    {VpSed : Option (Scalar ℝ)} {w1S w2S w3S : Option ℝ} {HM KM : List ℝ} {VpMoho : Option (Scalar ℝ)}
    {w1 w2 w3 : Option ℝ} {stack : Option Bool} {r : HkSeqYeck.SeqResult ℝ}
    (h : HkSeqYeck.hkSeq env stS stM preonset HS KS VpSed w1S w2S w3S HM KM VpMoho w1 w2 w3 stack = .ok r) :
    ∃ A B C : List (Row ℝ), A.length = r.stackvalueSed.length ∧ B.length = r.stackvalueSed.length ∧
      C.length = r.stackvalueSed.length ∧
      ∀ (v1 v2 v3 : ℝ) r', HkSeqYeck.hkSeq env stS stM preonset HS KS VpSed (some v1) (some v2) (some v3)
          HM KM VpMoho w1 w2 w3 stack = .ok r' → r'.stackvalueSed = tableComb v1 v2 v3 A B C := by
  obtain ⟨tr0, rest, slows, bmod, raw, f⟩ := hkSeq_inv h
  obtain ⟨A, B, C, lA, lB, lC, hv⟩ := linCell_tables (linCell_last stS (fun tr _ =>
    linCell_sedTerm env r.time r.RFSedStack r.AvgSlow r.VpSed r.stack tr)) f.hgridS
  refine ⟨A, B, C, lA, lB, lC, ?_⟩
  intro v1 v2 v3 r' h'
  obtain ⟨tr0', rest', slows', bmod', raw', f'⟩ := hkSeq_inv h'
  have t0 : tr0' = tr0 := by have := f.hst.symm.trans f'.hst; simp at this; exact this.1.symm
  have s0 : slows' = slows := Except.ok.inj (f'.hslow.symm.trans f.hslow)
  have q1 : r'.RFSedStack = r.RFSedStack := by
    obtain ⟨m, hm⟩ := f.hstackS
    obtain ⟨m', hm'⟩ := f'.hstackS
    have := Except.ok.inj (hm'.symm.trans hm)
    simp at this
    exact this.1
  have g := f'.hgridS
  rw [q1, f'.havg, s0, ← f.havg, f'.htime, t0, ← f.htime, f'.hstk, ← f.hstk, f'.hVpSed, ← f.hVpSed] at g
  exact Except.ok.inj (g.symm.trans (hv v1 v2 v3))

/-! ## Concrete cases -/

/-- the sample stream and its reverse: the four traces together have twice the table, and the same best model;
then other weights -/
example : ∃ r r', hk Sample.env Sample.stream 1 [30, 35] [1.7, 1.8, 1.9] (some ⟨.py, 6.5⟩) none none none none
      none = .ok r ∧
    hk Sample.env (Sample.stream ++ Sample.stream.reverse) 1 [30, 35] [1.7, 1.8, 1.9] (some ⟨.py, 6.5⟩) none none
      none none none = .ok r' ∧ r'.stackvalues = tableAdd r.stackvalues r.stackvalues ∧ r'.bestIdx = r.bestIdx := by
  obtain ⟨r, hr⟩ := sample_ok none none none none
  obtain ⟨r1, h1, e1, e2, _, e4, _⟩ := c07_order_irrelevant (List.reverse_perm _).symm (by
    intro a ha b hb
    simp [Sample.stream] at ha hb
    rcases ha with rfl | rfl <;> rcases hb with rfl | rfl <;> simp [Sample.trace]) (by
    simp [Sample.env, Sample.meanStack, Sample.stream, Sample.trace]
    intro a _; ring) hr
  obtain ⟨r', h', q1, q2⟩ := c92_union (by simp) hr h1 e4 (sd := _) (more := []) rfl (fun _ => rfl)
  exact ⟨r, r', hr, h', by rw [q1, e1], q2 e2.symm⟩

example : ∃ r r', hk Sample.env Sample.stream 1 [30, 35] [1.7, 1.8, 1.9] (some ⟨.py, 6.5⟩) (some 0.6) (some 0.3)
      (some 0.1) none none = .ok r ∧
    hk Sample.env Sample.stream 1 [30, 35] [1.7, 1.8, 1.9] (some ⟨.py, 6.5⟩) (some (2 * 0.6)) (some (2 * 0.3))
      (some (2 * 0.1)) none none = .ok r' ∧ r'.bestIdx = r.bestIdx := by
  obtain ⟨r, hr⟩ := sample_ok (some 0.6) (some 0.3) (some 0.1) none
  obtain ⟨r', h', _, e⟩ := c93_hk_factor (c := 2) (by norm_num) hr (fun _ => rfl)
  exact ⟨r, r', hr, h', e⟩

end Rfsed.Props
