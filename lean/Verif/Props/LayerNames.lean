import Verif.Props.WeightEnvelope
import Verif.Props.WeightNoise
import Verif.Props.ExperimentCase4
import Verif.Props.Total

/-!
# C18 for the synthetic H-k stack; C156: a few bad traces
-/

namespace Rfsed.Props
open Spec PyFloat HkZhu

section c18
variable {F : Type} [PyFloat F]

/-- **C18** `hkSynth` accepts every layer name and only records it. -/
theorem c18_hkSynth_accepts_any {env : Env F} {d t : List F} {rp : Scalar F} {H K : List F}
    {Vp : Option (Scalar F)} {w1 w2 w3 : Option F} {layer : Option String} {r : SynthAnalysis.SynthResult F}
    (h : SynthAnalysis.hkSynth env d t rp H K Vp w1 w2 w3 layer = .ok r) (name : String) :
    SynthAnalysis.hkSynth env d t rp H K Vp w1 w2 w3 (some name) = .ok { r with layer := name } := by
  unfold SynthAnalysis.hkSynth at h ⊢
  obtain ⟨stk, h1, h⟩ := bind_eq_ok.1 h
  obtain ⟨best, h2, h⟩ := bind_eq_ok.1 h
  obtain ⟨u, h3, h⟩ := bind_eq_ok.1 h
  cases h
  simp only [h1, h2, h3, except_ok_bind, except_pure]
  rfl

/-- **C18** for a layer name other than `Moho` and `Sed` `plothkSynth`, if the contour plot can be drawn and the gains
are not empty, raises `UnboundLocalError`; the table is clipped by then if `rmneg` asks for it. -/
theorem c18_plothkSynth {env env' : Env F} {d t : List F} {rp : Scalar F} {H K : List F}
    {Vp : Option (Scalar F)} {w1 w2 w3 : Option F} {name : String} {r : SynthAnalysis.SynthResult F}
    (h : SynthAnalysis.hkSynth env d t rp H K Vp w1 w2 w3 (some name) = .ok r)
    (hname : name ≠ "Moho" ∧ name ≠ "Sed") (hdraw : ∀ tb, env'.draw tb = .ok ())
    (savepath : String) (g : Option (List F)) (hg : g ≠ some []) (rmneg : Option Bool) (format : Option String) :
    let out := SynthAnalysis.plothkSynth env' r savepath g rmneg format
    out.2 = .error .unboundLocalError ∧ AfterPlot (rmneg.getD false) r.stackvalues out.1.stackvalues := by
  intro out
  refine ⟨?_, (c16_plothkSynth (env' := env') h savepath g rmneg format).1⟩
  obtain ⟨⟨v, hv⟩, hb⟩ := synth_vpOk h
  obtain ⟨b, hb⟩ := Option.isSome_iff_exists.1 hb
  have f := hkSynth_inv h
  obtain ⟨k, x, s, hk, hx, _⟩ := gridLoop_ne f.hgrid f.hbest
  obtain ⟨lh, hlh⟩ := axisLimits_total hx
  obtain ⟨lk, hlk⟩ := axisLimits_total hk
  have hlay : r.layer = name ∧ r.H = H ∧ r.K = K := by
    unfold SynthAnalysis.hkSynth at h
    obtain ⟨stk, h1, h⟩ := bind_eq_ok.1 h
    obtain ⟨best, h2, h⟩ := bind_eq_ok.1 h
    obtain ⟨u, h3, h⟩ := bind_eq_ok.1 h
    cases h
    exact ⟨rfl, rfl, rfl⟩
  have hl : SynthAnalysis.layerLimits r.layer = none := by
    rw [hlay.1]; simp [SynthAnalysis.layerLimits, hname.1, hname.2]
  obtain ⟨g0, hg0⟩ : ∃ g0, item (g.getD [ofNat 75, ofNat 10, ofNat 15, dec 25 1] : List F) 0 = .ok g0 := by
    match g, hg with
    | none, _ => exact ⟨_, rfl⟩
    | some (y :: ys), _ => exact ⟨y, rfl⟩
  show (SynthAnalysis.plothkSynth env' r savepath g rmneg format).2 = _
  unfold SynthAnalysis.plothkSynth
  simp only [hb, hv]
  cases rmneg.getD false <;>
    simp only [Bool.false_eq_true, if_false, if_true, hdraw, except_ok_bind, hlay.2.1, hlay.2.2, hlh, hlk, hg0, hl]

/-- the hypotheses are met: a run with the layer name `Conrad` -/
example : ∃ r, SynthAnalysis.hkSynth Sample.env [0, 1, 3] [-1, 0, 1] ⟨.py, 6 / 100⟩ [30] [1.7] none none none none
      (some "Conrad") = .ok r ∧
    (SynthAnalysis.plothkSynth Sample.env r "fig" none none none).2 = .error .unboundLocalError := by
  obtain ⟨r, h⟩ := (c104_hkSynth (env := Sample.env) (d := [0, 1, 3]) (t := [-1, 0, 1]) (rp := ⟨.py, 6 / 100⟩) (H := [30])
    (K := [1.7]) (Vp := none) (w1 := none) (w2 := none) (w3 := none) (layer := none) (by simp) (fun _ _ => rfl)).2
    ⟨by simp, divisor_real (by norm_num), by simp, by simp⟩
  have h' := c18_hkSynth_accepts_any h "Conrad"
  exact ⟨_, h', (c18_plothkSynth (env' := Sample.env) h' ⟨by decide, by decide⟩ (fun _ => rfl) "fig" none (by simp) none
    none).1⟩

end c18

/-! ## C156 -/

/-- the value of a stream is that of its first part, up to what the other traces can contribute -/
theorem cell_part {env : Env ℝ} {st1 st2 : List (Trace ℝ)} {t sd1 sd : List ℝ} {avg1 avg : ℝ} {Vp : Scalar ℝ}
    {k x w1 w2 w3 a b M : ℝ} (hM : ∀ tr ∈ st2, ∀ y ∈ tr.data, |y| ≤ M)
    (h1 : cell env st1 t sd1 avg1 Vp w1 w2 w3 false k x = .ok a)
    (h : cell env (st1 ++ st2) t sd avg Vp w1 w2 w3 false k x = .ok b) :
    |a - b| ≤ st2.length * ((|w1| + |w2| + |w3|) * M) := by
  have h2 : ∃ c, cell env st2 t sd avg Vp w1 w2 w3 false k x = .ok c := by
    obtain ⟨xs, hxs, -⟩ := cell_real_ok.1 h
    rw [List.mapM_append] at hxs
    obtain ⟨u, -, hxs⟩ := bind_eq_ok.1 hxs
    obtain ⟨v, hv, -⟩ := bind_eq_ok.1 hxs
    exact ⟨_, cell_real_ok.2 ⟨v, hv, rfl⟩⟩
  obtain ⟨c, hc⟩ := h2
  have e := Except.ok.inj ((cell_append (sd := sd) (avg := avg) h1 hc).symm.trans h)
  rw [← e]
  obtain ⟨xs, hxs, rfl⟩ := cell_real_ok.1 hc
  obtain ⟨g, hg, rfl⟩ := exists_fun_of_mapM hxs
  have : |(st2.map g).sum| ≤ st2.length * ((|w1| + |w2| + |w3|) * M) := by
    apply abs_sum_le
    intro tr htr
    obtain ⟨o, sl, ts, _, _, _, hw⟩ := traceTerm_ok.1 (hg tr htr)
    exact weigh_bound hw (hM tr htr)
  rwa [sub_add_cancel_left, abs_neg]

/-- **C156** traces `st2` added to a stream `st1` -/
theorem c156_hk_added {env : Env ℝ} {st1 st2 : List (Trace ℝ)} {preonset : ℝ} {H K : List ℝ} {Vp : Option (Scalar ℝ)}
    {w1 w2 w3 M : ℝ} {layer : Option String} {r1 r : HKResult ℝ} (hM : ∀ tr ∈ st2, ∀ y ∈ tr.data, |y| ≤ M)
    (h1 : hk env st1 preonset H K Vp (some w1) (some w2) (some w3) layer (some false) = .ok r1)
    (h : hk env (st1 ++ st2) preonset H K Vp (some w1) (some w2) (some w3) layer (some false) = .ok r) :
    let B := st2.length * ((|w1| + |w2| + |w3|) * M)
    NearTable B r1.stackvalues r.stackvalues ∧
      (Margin (2 * B) r1.stackvalues r1.bestIdx → r.bestIdx = r1.bestIdx) ∧
      (Margin (2 * B) r.stackvalues r.bestIdx → r1.bestIdx = r.bestIdx) := by
  intro B
  obtain ⟨tr0, rest, slows, f⟩ := hk_inv h1
  obtain ⟨tr0', rest', slows', f'⟩ := hk_inv h
  have e2 : tr0' = tr0 := by
    have := f'.hst.symm.trans (congrArg (· ++ st2) f.hst)
    exact (List.cons.inj this).1
  have g := f.hgrid
  have g' := f'.hgrid
  rw [f.hVp, f.hstk, f.htime] at g
  rw [f'.hVp, f'.hstk, f'.htime, e2] at g'
  have hT : NearTable B r1.stackvalues r.stackvalues := by
    refine nearTable_of g g' ?_
    intro k _ x _ a b ha hb
    exact cell_part hM ha hb
  have hT' : NearTable B r.stackvalues r1.stackvalues := by
    have := List.Forall₂.flip hT
    exact this.imp (fun a b q => ⟨q.1.symm, q.2.1.symm, by rw [abs_sub_comm]; exact q.2.2⟩)
  exact ⟨hT, nearTable_best hT f.hbest f'.hbest, nearTable_best hT' f'.hbest f.hbest⟩

/-- **C156** `n` traces of a stream replaced by others, or removed, if the rest gives a result -/
theorem c156_hk_replaced {env : Env ℝ} {st good bad : List (Trace ℝ)} {preonset : ℝ} {H K : List ℝ}
    {Vp : Option (Scalar ℝ)} {w1 w2 w3 M M' : ℝ} {layer : Option String} {r0 r r' : HKResult ℝ}
    (hM : ∀ tr ∈ good, ∀ y ∈ tr.data, |y| ≤ M) (hM' : ∀ tr ∈ bad, ∀ y ∈ tr.data, |y| ≤ M')
    (h0 : hk env st preonset H K Vp (some w1) (some w2) (some w3) layer (some false) = .ok r0)
    (h : hk env (st ++ good) preonset H K Vp (some w1) (some w2) (some w3) layer (some false) = .ok r)
    (h' : hk env (st ++ bad) preonset H K Vp (some w1) (some w2) (some w3) layer (some false) = .ok r') :
    let B := (|w1| + |w2| + |w3|) * (good.length * M + bad.length * M')
    NearTable B r.stackvalues r'.stackvalues ∧ (Margin (2 * B) r.stackvalues r.bestIdx → r'.bestIdx = r.bestIdx) := by
  intro B
  obtain ⟨_, _, _, f⟩ := hk_inv h
  obtain ⟨_, _, _, f'⟩ := hk_inv h'
  have a := (c156_hk_added hM h0 h).1
  have b := (c156_hk_added hM' h0 h').1
  have hT : NearTable B r.stackvalues r'.stackvalues := by
    unfold NearTable at a b ⊢
    rw [List.forall₂_iff_get] at a b ⊢
    refine ⟨a.1.symm.trans b.1, fun i hi hi' => ?_⟩
    have hi0 : i < r0.stackvalues.length := by rw [a.1]; exact hi
    obtain ⟨a1, a2, a3⟩ := a.2 i hi0 hi
    obtain ⟨b1, b2, b3⟩ := b.2 i hi0 hi'
    refine ⟨b1.trans a1.symm, b2.trans a2.symm, ?_⟩
    rw [abs_sub_comm] at a3
    refine (abs_sub_le _ ((r0.stackvalues.get ⟨i, hi0⟩).s) _).trans ((add_le_add a3 b3).trans (le_of_eq ?_))
    show _ = (|w1| + |w2| + |w3|) * (good.length * M + bad.length * M')
    ring
  exact ⟨hT, nearTable_best hT f.hbest f'.hbest⟩

/-- the hypotheses are met: two traces whose stack has its maximum 8 at 24 km and 2 at 12 km; a third trace of any
samples up to 0.8 cannot change the answer -/
example (d : List ℝ) (hl : d.length = caseTrace.data.length) (hd : ∀ y ∈ d, |y| ≤ 0.8) :
    ∃ r, hk (dblEnv ℝ 0.01) ([caseTrace, caseTrace] ++ [{ caseTrace with data := d }]) 0 [24, 12] [1.85] (some ⟨.py, 6⟩)
      (some 1) (some 1) (some 1) none (some false) = .ok r ∧ r.bestIdx = 0 := by
  obtain ⟨r1, h1⟩ := case_runs (st := [caseTrace, caseTrace]) (by simp) (by simp) (some false)
  obtain ⟨hb, hm⟩ := case_best h1
  have hlen : ∀ tr ∈ [caseTrace, caseTrace] ++ [{ caseTrace with data := d }], tr.data.length = 16 := by
    intro tr htr
    have hc : caseTrace.data.length = 16 := case_length
    simp only [List.cons_append, List.nil_append, List.mem_cons, List.not_mem_nil, or_false] at htr
    rcases htr with rfl | rfl | rfl
    · exact hc
    · exact hc
    · exact hl.trans hc
  have hat : ∀ tr ∈ [caseTrace, caseTrace] ++ [{ caseTrace with data := d }], tr.onset = some 0 ∧
      tr.slowness = some ⟨.np, 10⟩ := by
    intro tr htr
    simp only [List.cons_append, List.nil_append, List.mem_cons, List.not_mem_nil, or_false] at htr
    rcases htr with rfl | rfl | rfl <;> exact ⟨rfl, rfl⟩
  obtain ⟨r, h⟩ := (c104_hk (env := dblEnv ℝ 0.01) (st := [caseTrace, caseTrace] ++ [{ caseTrace with data := d }])
    (preonset := 0) (H := [24, 12]) (K := [1.85]) (Vp := some ⟨.py, 6⟩) (w1 := some 1) (w2 := some 1) (w3 := some 1)
    (layer := none) (stack := some false) (by
      intro a ha b hb
      rw [hlen a ha, hlen b hb]) (by
      intro sd more e a ha
      have e' : sd = caseTrace.data := (List.cons.inj (Except.ok.inj e)).1.symm
      rw [hlen a ha, e']
      exact case_length.symm.le) (fun _ _ => rfl)).2
      ⟨by simp, ⟨_, _, rfl⟩, by
        intro tr htr
        obtain ⟨q1, q2⟩ := hat tr htr
        refine ⟨?_, by rw [q1]; rfl, by rw [q2]; rfl⟩
        rw [← List.length_pos_iff, hlen tr htr]; norm_num, divisor_real (by norm_num), by simp, by simp⟩
  have := (c156_hk_added (M := 0.8) (by
    intro tr htr
    rw [List.mem_singleton.1 htr]
    exact hd) h1 h).2.1 (margin_mono (by norm_num) hm)
  exact ⟨r, h, this.trans hb⟩

end Rfsed.Props
