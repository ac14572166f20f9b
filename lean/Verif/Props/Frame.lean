import Verif.Props.Figures

/-!
# Property C107: axes and shaded ranges of the H-k figures

The axes of the contour panel are the extremes of the searched depths and Vp/Vs ratios.  The theorems on the
frame hold for every call that produced a figure, whatever velocities, slownesses, weights and options were
given.  The shaded ranges of a figure of several receiver functions belong to the last of them; the theorems
on shading say which marks lie inside.
-/

namespace Rfsed.Props
open PyFloat Spec HkZhu
set_option linter.unusedSectionVars false

/-! ## the frame -/

/-- a table of a grid search, clipped or not -/
theorem inFrame_of {fig : Figure ℝ} {tb : List (Row ℝ)} {b : Row ℝ} {H K : List ℝ}
    {v : ℝ → ℝ → Except PyErr ℝ} (hg : gridLoop K H v = .ok tb) (hH : Extent H fig.hlim)
    (hK : Extent K fig.klim) (hb : b ∈ fig.table) (hbh : fig.bestH = b.h) (hbk : fig.bestK = b.k)
    (ht : fig.table.map (fun row => (row.h, row.k)) = tb.map (fun row => (row.h, row.k))) : InFrame fig := by
  have rows : ∀ row ∈ fig.table,
      fig.hlim.1 ≤ row.h ∧ row.h ≤ fig.hlim.2 ∧ fig.klim.1 ≤ row.k ∧ row.k ≤ fig.klim.2 := by
    intro row hrow
    have : (row.h, row.k) ∈ tb.map (fun row => (row.h, row.k)) := by
      rw [← ht]; exact List.mem_map.2 ⟨row, hrow, rfl⟩
    obtain ⟨row', hrow', e⟩ := List.mem_map.1 this
    obtain ⟨n, hn⟩ := List.mem_iff_getElem?.1 hrow'
    obtain ⟨i, j, _, hk, hh, _⟩ := (gridLoop_ok hg).2.2 n row' hn
    have e1 : row'.h = row.h := congrArg Prod.fst e
    have e2 : row'.k = row.k := congrArg Prod.snd e
    rw [e1] at hh
    rw [e2] at hk
    exact ⟨hH.1.2 (List.mem_of_getElem? hh), hH.2.2 (List.mem_of_getElem? hh),
      hK.1.2 (List.mem_of_getElem? hk), hK.2.2 (List.mem_of_getElem? hk)⟩
  refine ⟨rows, ?_, ?_⟩
  · rw [hbh, hbk]; exact rows b hb
  · intro x hx k hk
    have hx : x ∈ H := by
      simp at hx
      rcases hx with rfl | rfl
      · exact hH.1.1
      · exact hH.2.1
    have hk : k ∈ K := by
      simp at hk
      rcases hk with rfl | rfl
      · exact hK.1.1
      · exact hK.2.1
    obtain ⟨i, hi⟩ := List.mem_iff_getElem?.1 hk
    obtain ⟨j, hj⟩ := List.mem_iff_getElem?.1 hx
    obtain ⟨s, _, hs⟩ := (gridLoop_ok hg).2.1 i j k x hi hj
    have : (x, k) ∈ fig.table.map (fun row => (row.h, row.k)) := by
      rw [ht]; exact List.mem_map.2 ⟨_, List.mem_of_getElem? hs, rfl⟩
    obtain ⟨row, hrow, e⟩ := List.mem_map.1 this
    exact ⟨row, hrow, congrArg Prod.fst e, congrArg Prod.snd e⟩

theorem clip_coords (tb : List (Row ℝ)) :
    (clipLoop tb).map (fun row => (row.h, row.k)) = tb.map (fun row => (row.h, row.k)) := by
  rw [clipLoop_eq, List.map_map]
  apply List.map_congr_left
  intro row _
  simp [clipRow_real]

theorem clipIf_coords (c : Bool) (tb : List (Row ℝ)) :
    (if c then clipLoop tb else tb).map (fun row => (row.h, row.k))
      = tb.map (fun row => (row.h, row.k)) := by
  cases c
  · rfl
  · exact clip_coords tb

/-- the row at an index, after clipping -/
theorem clipIf_row {c : Bool} {tb : List (Row ℝ)} {i : Nat} {b : Row ℝ} (h : tb[i]? = some b) :
    ∃ b', b' ∈ (if c then clipLoop tb else tb) ∧ b'.h = b.h ∧ b'.k = b.k := by
  cases c
  · exact ⟨b, List.mem_of_getElem? h, rfl, rfl⟩
  · refine ⟨clipRow b, ?_, by simp [clipRow_real], by simp [clipRow_real]⟩
    simp only [if_true, clipLoop_eq]
    exact List.mem_map.2 ⟨b, List.mem_of_getElem? h, rfl⟩

/-- what every successful drawing does -/
theorem figure_parts {env : Env ℝ} {r : HKResult ℝ} {b : Row ℝ} {ts : Option (PyNum ℝ × PyNum ℝ × PyNum ℝ)}
    {savepath : String} {g : List ℝ} {format : String} {fig : Figure ℝ}
    (h : figure env r b ts savepath g format = .ok fig) :
    Extent r.H fig.hlim ∧ Extent r.K fig.klim ∧ fig.table = r.stackvalues ∧ fig.bestH = b.h ∧
      fig.bestK = b.k := by
  unfold figure at h
  obtain ⟨⟨⟩, _, h⟩ := bind_eq_ok.1 h
  obtain ⟨hl, hhl, h⟩ := bind_eq_ok.1 h
  obtain ⟨kl, hkl, h⟩ := bind_eq_ok.1 h
  cases ts with
  | some ts =>
    simp only at h
    obtain ⟨g0, _, h⟩ := bind_eq_ok.1 h
    split at h
    · cases h
    · obtain ⟨⟨⟩, _, h⟩ := bind_eq_ok.1 h
      obtain ⟨g1, _, h⟩ := bind_eq_ok.1 h
      obtain ⟨⟨⟩, _, h⟩ := bind_eq_ok.1 h
      cases h
      exact ⟨axisLimits_real.1 hhl, axisLimits_real.1 hkl, rfl, rfl, rfl⟩
  | none =>
    simp only at h
    obtain ⟨p2, _, h⟩ := bind_eq_ok.1 h
    split at h
    · cases h
    · cases h
    · obtain ⟨p3, _, h⟩ := bind_eq_ok.1 h
      obtain ⟨⟨⟩, _, h⟩ := bind_eq_ok.1 h
      cases h
      exact ⟨axisLimits_real.1 hhl, axisLimits_real.1 hkl, rfl, rfl, rfl⟩

theorem stageFigure_parts {env : Env ℝ} {table : List (Row ℝ)} {b : Row ℝ} {H K : List ℝ} {lim : Int × Int}
    {half : ℝ} {ts : Option (HkSeqYeck.Times ℝ)} {st : List (Trace ℝ)} {sd time : List ℝ}
    {k1 k2 k3 : String} {g : List ℝ} {name : String} {fig : Figure ℝ}
    (h : HkSeqYeck.stageFigure env table b H K lim half ts st sd time k1 k2 k3 g name = .ok fig) :
    Extent H fig.hlim ∧ Extent K fig.klim ∧ fig.table = table ∧ fig.bestH = b.h ∧ fig.bestK = b.k := by
  unfold HkSeqYeck.stageFigure at h
  obtain ⟨⟨⟩, _, h⟩ := bind_eq_ok.1 h
  obtain ⟨hl, hhl, h⟩ := bind_eq_ok.1 h
  obtain ⟨kl, hkl, h⟩ := bind_eq_ok.1 h
  cases ts with
  | some ts =>
    simp only at h
    obtain ⟨g0, _, h⟩ := bind_eq_ok.1 h
    obtain ⟨⟨⟩, _, h⟩ := bind_eq_ok.1 h
    obtain ⟨g1, _, h⟩ := bind_eq_ok.1 h
    obtain ⟨⟨⟩, _, h⟩ := bind_eq_ok.1 h
    cases h
    exact ⟨axisLimits_real.1 hhl, axisLimits_real.1 hkl, rfl, rfl, rfl⟩
  | none =>
    simp only at h
    obtain ⟨p2, _, h⟩ := bind_eq_ok.1 h
    split at h
    · cases h
    · obtain ⟨p3, _, h⟩ := bind_eq_ok.1 h
      obtain ⟨⟨⟩, _, h⟩ := bind_eq_ok.1 h
      cases h
      exact ⟨axisLimits_real.1 hhl, axisLimits_real.1 hkl, rfl, rfl, rfl⟩

/-- **C107**, `plothk`: every figure shows the whole grid and the cross, in axes that end at grid points. -/
theorem c107_plothk_frame {env env' : Env ℝ} {st : List (Trace ℝ)} {preonset : ℝ} {H K : List ℝ}
    {Vp : Option (Scalar ℝ)} {w1 w2 w3 : Option ℝ} {layer : Option String} {stack : Option Bool}
    {r : HKResult ℝ} (h : hk env st preonset H K Vp w1 w2 w3 layer stack = .ok r)
    {savepath : String} {g : Option (List ℝ)} {rmneg : Option Bool} {format : Option String}
    {fig : Figure ℝ} (hfig : (plothk env' r savepath g rmneg format).2 = .ok fig) : InFrame fig := by
  obtain ⟨tr0, rest, slows, f⟩ := hk_inv h
  obtain ⟨b, times, hb, _, he⟩ := plothk_eq env' r (hk_plottable h) savepath g rmneg format
  rw [he] at hfig
  obtain ⟨h1, h2, h3, h4, h5⟩ := figure_parts hfig
  simp only [f.hH, f.hK] at h1 h2 h3
  obtain ⟨b', hb', e1, e2⟩ := clipIf_row (c := rmneg.getD true) hb
  exact inFrame_of f.hgrid h1 h2 (by rw [h3]; exact hb') (by rw [h4, e1]) (by rw [h5, e2])
    (by rw [h3]; exact clipIf_coords _ _)

/-- **C107**, `plothkYu`. -/
theorem c107_plothkYu_frame {env env' : Env ℝ} {flt : HkYu.FltInput ℝ} {rp : Scalar ℝ} {H K : List ℝ}
    {Vp VpSed VsSed : Option (Scalar ℝ)} {w1 w2 w3 : Option ℝ} {r : HkYu.YuResult ℝ}
    (h : HkYu.hkYu env flt rp H K Vp VpSed VsSed w1 w2 w3 = .ok r)
    {savepath : String} {g : Option (List ℝ)} {rmneg : Option Bool} {format : Option String}
    {fig : Figure ℝ} (hfig : (HkYu.plothkYu env' r savepath g rmneg format).2 = .ok fig) : InFrame fig := by
  obtain ⟨⟨inv, hv⟩, hbs⟩ := yu_vpOk h
  obtain ⟨vs, a, c, bmod, f⟩ := hkYu_inv h
  obtain ⟨b, hb⟩ := Option.isSome_iff_exists.1 hbs
  have key : Extent H fig.hlim ∧ Extent K fig.klim ∧ fig.table =
      (if rmneg.getD false then clipLoop r.stackvaluesSubSed else r.stackvaluesSubSed) ∧
      fig.bestH = b.h ∧ fig.bestK = b.k := by
    unfold HkYu.plothkYu at hfig
    simp only [hb, hv] at hfig
    obtain ⟨⟨⟩, _, hfig⟩ := bind_eq_ok.1 hfig
    obtain ⟨hl, hhl, hfig⟩ := bind_eq_ok.1 hfig
    obtain ⟨kl, hkl, hfig⟩ := bind_eq_ok.1 hfig
    obtain ⟨g0, _, hfig⟩ := bind_eq_ok.1 hfig
    obtain ⟨⟨⟩, _, hfig⟩ := bind_eq_ok.1 hfig
    obtain ⟨g1, _, hfig⟩ := bind_eq_ok.1 hfig
    obtain ⟨⟨⟩, _, hfig⟩ := bind_eq_ok.1 hfig
    cases hfig
    have e1 := axisLimits_real.1 hhl
    have e2 := axisLimits_real.1 hkl
    cases hn : rmneg.getD false <;> simp only [hn, Bool.false_eq_true, if_false, if_true] at e1 e2 ⊢ <;>
      rw [f.hH] at e1 <;> rw [f.hK] at e2 <;> exact ⟨e1, e2, trivial, trivial, trivial⟩
  obtain ⟨h1, h2, h3, h4, h5⟩ := key
  obtain ⟨b', hb', e1, e2⟩ := clipIf_row (c := rmneg.getD false) hb
  exact inFrame_of f.hgrid h1 h2 (by rw [h3]; exact hb') (by rw [h4, e1]) (by rw [h5, e2])
    (by rw [h3]; exact clipIf_coords _ _)

/-- **C107**, `plothkSynth`. -/
theorem c107_plothkSynth_frame {env env' : Env ℝ} {d t : List ℝ} {rp : Scalar ℝ} {H K : List ℝ}
    {Vp : Option (Scalar ℝ)} {w1 w2 w3 : Option ℝ} {layer : Option String} {r : SynthAnalysis.SynthResult ℝ}
    (h : SynthAnalysis.hkSynth env d t rp H K Vp w1 w2 w3 layer = .ok r)
    {savepath : String} {g : Option (List ℝ)} {rmneg : Option Bool} {format : Option String}
    {fig : Figure ℝ} (hfig : (SynthAnalysis.plothkSynth env' r savepath g rmneg format).2 = .ok fig) :
    InFrame fig := by
  obtain ⟨⟨inv, hv⟩, hbs⟩ := synth_vpOk h
  have f := hkSynth_inv h
  obtain ⟨b, hb⟩ := Option.isSome_iff_exists.1 hbs
  have key : Extent H fig.hlim ∧ Extent K fig.klim ∧ fig.table =
      (if rmneg.getD false then clipLoop r.stackvalues else r.stackvalues) ∧
      fig.bestH = b.h ∧ fig.bestK = b.k := by
    unfold SynthAnalysis.plothkSynth at hfig
    simp only [hb, hv] at hfig
    obtain ⟨⟨⟩, _, hfig⟩ := bind_eq_ok.1 hfig
    obtain ⟨hl, hhl, hfig⟩ := bind_eq_ok.1 hfig
    obtain ⟨kl, hkl, hfig⟩ := bind_eq_ok.1 hfig
    obtain ⟨g0, _, hfig⟩ := bind_eq_ok.1 hfig
    split at hfig
    · cases hfig
    · obtain ⟨⟨⟩, _, hfig⟩ := bind_eq_ok.1 hfig
      obtain ⟨g1, _, hfig⟩ := bind_eq_ok.1 hfig
      obtain ⟨⟨⟩, _, hfig⟩ := bind_eq_ok.1 hfig
      cases hfig
      have e1 := axisLimits_real.1 hhl
      have e2 := axisLimits_real.1 hkl
      cases hn : rmneg.getD false <;> simp only [hn, Bool.false_eq_true, if_false, if_true] at e1 e2 ⊢ <;>
        rw [f.hH] at e1 <;> rw [f.hK] at e2 <;> exact ⟨e1, e2, trivial, trivial, trivial⟩
  obtain ⟨h1, h2, h3, h4, h5⟩ := key
  obtain ⟨b', hb', e1, e2⟩ := clipIf_row (c := rmneg.getD false) hb
  exact inFrame_of f.hgrid h1 h2 (by rw [h3]; exact hb') (by rw [h4, e1]) (by rw [h5, e2])
    (by rw [h3]; exact clipIf_coords _ _)

/-- **C107**, `plotSeqhk`: every figure it saves, also when the second stage fails. -/
theorem c107_plotSeqhk_frame {env env' : Env ℝ} {stS stM : List (Trace ℝ)} {preonset : ℝ}
    {HS KS HM KM : List ℝ} {VpS VpM : Option (Scalar ℝ)} {w1S w2S w3S w1M w2M w3M : Option ℝ}
    {stack : Option Bool} {r : HkSeqYeck.SeqResult ℝ}
    (h : HkSeqYeck.hkSeq env stS stM preonset HS KS VpS w1S w2S w3S HM KM VpM w1M w2M w3M stack = .ok r)
    {savepath : String} {g : Option (List ℝ)} {rmneg : Option Bool} {format : Option String}
    {fig : Figure ℝ} (hfig : fig ∈ (HkSeqYeck.plotSeqhk env' r savepath g rmneg format).2.1) :
    InFrame fig := by
  have hp := hkSeq_plottable h
  obtain ⟨tr0, rest, slows, bmod, raw, f⟩ := hkSeq_inv h
  obtain ⟨bS, hbS⟩ := Option.isSome_iff_exists.1 hp.bestS
  obtain ⟨bM, hbM⟩ := Option.isSome_iff_exists.1 hp.bestM
  have two := twoFigures_seq (env' := env') hbS hbM (savepath := savepath) (g := g) (rmneg := rmneg)
    (format := format) (fun _ => Iff.rfl) (fun _ => Iff.rfl)
  obtain ⟨t1, t2, t3, _⟩ := two
  obtain ⟨n, hn⟩ := List.mem_iff_getElem?.1 hfig
  have hn2 := (List.getElem?_eq_some_iff.1 hn).1
  have hcases : n = 0 ∨ n = 1 := by omega
  rcases hcases with rfl | rfl
  · have hf := (t1 fig).1 hn
    unfold HkSeqYeck.plotSed at hf
    have key : Extent HS fig.hlim ∧ Extent KS fig.klim ∧ fig.table =
        (if rmneg.getD true then clipLoop r.stackvalueSed else r.stackvalueSed) ∧
        fig.bestH = bS.h ∧ fig.bestK = bS.k := by
      simp only at hf
      split at hf
      · cases hf
      · rename_i r1 ts hr1
        have e : r1.HSed = HS ∧ r1.KSed = KS ∧ r1.stackvalueSed = r.stackvalueSed := by
          rw [← f.hHS, ← f.hKS]
          split at hr1 <;>
          · have hq := congrArg Prod.fst hr1
            simp only at hq
            subst hq
            exact ⟨rfl, rfl, rfl⟩
        obtain ⟨p1, p2, p3, p4, p5⟩ := stageFigure_parts hf
        refine ⟨?_, ?_, ?_, p4, p5⟩
        · cases hr : rmneg.getD true <;> rw [hr] at p1 <;> rw [← e.1] <;> exact p1
        · cases hr : rmneg.getD true <;> rw [hr] at p2 <;> rw [← e.2.1] <;> exact p2
        · rw [p3]
          cases hr : rmneg.getD true <;> simp only [Bool.false_eq_true, if_false, if_true, e.2.2]
    obtain ⟨h1, h2, h3, h4, h5⟩ := key
    obtain ⟨b', hb', e1, e2⟩ := clipIf_row (c := rmneg.getD true) hbS
    exact inFrame_of f.hgridS h1 h2 (by rw [h3]; exact hb') (by rw [h4, e1]) (by rw [h5, e2])
      (by rw [h3]; exact clipIf_coords _ _)
  · have hf := ((t2 fig).1 hn).2
    rw [plotSed_fst env' r bS hp] at hf
    unfold HkSeqYeck.plotMoho at hf
    have key : Extent HM fig.hlim ∧ Extent KM fig.klim ∧ fig.table =
        (if rmneg.getD true then clipLoop r.stackvalueMoho else r.stackvalueMoho) ∧
        fig.bestH = bM.h ∧ fig.bestK = bM.k := by
      simp only at hf
      split at hf
      · cases hf
      · rename_i r1 ts hr1
        have e : r1.HMoho = HM ∧ r1.KMoho = KM ∧ r1.stackvalueMoho = r.stackvalueMoho := by
          rw [← f.hHM, ← f.hKM]
          split at hr1 <;>
          · have hq := congrArg Prod.fst hr1
            simp only at hq
            subst hq
            exact ⟨rfl, rfl, rfl⟩
        obtain ⟨p1, p2, p3, p4, p5⟩ := stageFigure_parts hf
        refine ⟨?_, ?_, ?_, p4, p5⟩
        · cases hr : rmneg.getD true <;> rw [hr] at p1 <;> rw [← e.1] <;> exact p1
        · cases hr : rmneg.getD true <;> rw [hr] at p2 <;> rw [← e.2.1] <;> exact p2
        · rw [p3]
          cases hr : rmneg.getD true <;> simp only [Bool.false_eq_true, if_false, if_true, e.2.2]
    obtain ⟨h1, h2, h3, h4, h5⟩ := key
    obtain ⟨b', hb', e1, e2⟩ := clipIf_row (c := rmneg.getD true) hbM
    exact inFrame_of f.hgridM h1 h2 (by rw [h3]; exact hb') (by rw [h4, e1]) (by rw [h5, e2])
      (by rw [h3, clipIf_coords, f.hclip, clip_coords])

/-- **C107**, `plothkSeqSynth`: every figure it saves, also when the second stage fails. -/
theorem c107_plothkSeqSynth_frame {env env' : Env ℝ} {dS dM t : List ℝ} {rp : Scalar ℝ}
    {HS KS HM KM : List ℝ} {VpS VpM : Option (Scalar ℝ)} {w1S w2S w3S w1M w2M w3M : Option ℝ}
    {r : SynthAnalysis.SeqSynthResult ℝ}
    (h : SynthAnalysis.hkSeqSynth env dS dM t rp HS KS VpS w1S w2S w3S HM KM VpM w1M w2M w3M = .ok r)
    {savepath : String} {g : Option (List ℝ)} {rmneg : Option Bool} {format : Option String}
    {fig : Figure ℝ} (hfig : fig ∈ (SynthAnalysis.plothkSeqSynth env' r savepath g rmneg format).2.1) :
    InFrame fig := by
  obtain ⟨hv, _, hbS, hbM, hcl⟩ := seqSynth_facts h
  obtain ⟨bmod, raw, f⟩ := hkSeqSynth_inv h
  obtain ⟨bS, hbS⟩ := Option.isSome_iff_exists.1 hbS
  obtain ⟨bM, hbM⟩ := Option.isSome_iff_exists.1 hbM
  have key : (Extent HS fig.hlim ∧ Extent KS fig.klim ∧ fig.table =
        (if rmneg.getD false then clipLoop r.stackvalueSed else r.stackvalueSed) ∧
        fig.bestH = bS.h ∧ fig.bestK = bS.k) ∨ (Extent HM fig.hlim ∧ Extent KM fig.klim ∧ fig.table =
        (if rmneg.getD false then clipLoop r.stackvalueMoho else r.stackvalueMoho) ∧
        fig.bestH = bM.h ∧ fig.bestK = bM.k) := by
    have drawn : ∀ {f1 : Figure ℝ} {tb : List (Row ℝ)} {b : Row ℝ}
        {H K : List ℝ} {lim : Int × Int} {name : String} {G : List ℝ} {values : ℝ → List ℝ}
        {ts : PyNum ℝ × PyNum ℝ × PyNum ℝ} {time : List ℝ},
        (do env'.draw tb
            let hlim ← axisLimits H
            let klim ← axisLimits K
            let gain0 ← item G 0
            plotXY time (values gain0)
            let gain1 ← item G 1
            env'.savefig name
            pure ({ table := tb, bestH := b.h, bestK := b.k, labelK := b.k + dec 1 3, hlim := hlim,
                    klim := klim, xlim := lim,
                    panel2 := [{ axis := time, values := values gain0,
                                 level := ofNat 180, marks := ts, gain := gain1 }],
                    panel3 := [], bands2 := [], bands3 := [],
                    filename := name } : Figure ℝ) : Except PyErr (Figure ℝ)) = .ok f1 →
        Extent H f1.hlim ∧ Extent K f1.klim ∧ f1.table = tb ∧ f1.bestH = b.h ∧ f1.bestK = b.k := by
      intro f1 tb b H K lim name G values ts time hh
      obtain ⟨⟨⟩, _, hh⟩ := bind_eq_ok.1 hh
      obtain ⟨hl, hhl, hh⟩ := bind_eq_ok.1 hh
      obtain ⟨kl, hkl, hh⟩ := bind_eq_ok.1 hh
      obtain ⟨g0, _, hh⟩ := bind_eq_ok.1 hh
      obtain ⟨⟨⟩, _, hh⟩ := bind_eq_ok.1 hh
      obtain ⟨g1, _, hh⟩ := bind_eq_ok.1 hh
      obtain ⟨⟨⟩, _, hh⟩ := bind_eq_ok.1 hh
      cases hh
      exact ⟨axisLimits_real.1 hhl, axisLimits_real.1 hkl, rfl, rfl, rfl⟩
    unfold SynthAnalysis.plothkSeqSynth at hfig
    simp only [hbS, hbM] at hfig
    rw [← f.hHS, ← f.hKS, ← f.hHM, ← f.hKM]
    split at hfig
    · simp at hfig
    · cases hr : rmneg.getD false <;>
      · simp only [hr, Bool.false_eq_true, if_false, if_true] at hfig ⊢
        split at hfig
        · simp at hfig
        · rename_i f1 he
          have d1 := drawn he
          split at hfig
          · simp at hfig; subst hfig; exact Or.inl d1
          · split at hfig
            · simp at hfig; subst hfig; exact Or.inl d1
            · rename_i f2 he2
              have d2 := drawn he2
              simp at hfig
              rcases hfig with rfl | rfl
              · exact Or.inl d1
              · exact Or.inr d2
  rcases key with ⟨h1, h2, h3, h4, h5⟩ | ⟨h1, h2, h3, h4, h5⟩
  · obtain ⟨b', hb', e1, e2⟩ := clipIf_row (c := rmneg.getD false) hbS
    exact inFrame_of f.hgridS h1 h2 (by rw [h3]; exact hb') (by rw [h4, e1]) (by rw [h5, e2])
      (by rw [h3]; exact clipIf_coords _ _)
  · obtain ⟨b', hb', e1, e2⟩ := clipIf_row (c := rmneg.getD false) hbM
    exact inFrame_of f.hgridM h1 h2 (by rw [h3]; exact hb') (by rw [h4, e1]) (by rw [h5, e2])
      (by rw [h3, clipIf_coords, f.hclip, clip_coords])

/-! ## the shaded ranges -/

theorem inBand_iff (x y w : ℝ) :
    InBand (.real x) (PyNum.subr (.real y) w, PyNum.addr (.real y) w) ↔ |x - y| ≤ w := by
  unfold InBand PyNum.subr PyNum.addr
  rw [abs_le]
  constructor
  · rintro ⟨a, lo, hi, h1, h2, h3, h4⟩
    cases h1
    obtain ⟨h2, h2'⟩ := Prod.mk.inj h2
    cases h2; cases h2'
    constructor <;> linarith
  · rintro ⟨h1, h2⟩
    exact ⟨x, y - w, y + w, rfl, rfl, by linarith, by linarith⟩

theorem stream_shading {env : Env ℝ} {G : List ℝ} {fig : Figure ℝ} {table : List (Row ℝ)} {b : Row ℝ}
    {H K : List ℝ} {xlim : Int × Int} {half : ℝ} {name : String} {st : List (Trace ℝ)} {t1 t2 t3 : ℝ → ℝ}
    (h : StreamFigure env G fig table b H K xlim half name st
      (fun slow : ℝ => (.real (t1 slow), .real (t2 slow), .real (t3 slow)))) :
    ShadedByLast fig st half t1 t2 t3 := by
  obtain ⟨_, _, _, ⟨last, sl, hl, hs, hb2, hb3⟩, g0, g1, g2, g3, _, _, _, _, hp2, hp3⟩ := h
  refine ⟨last, sl, _, _, _, hl, hs, hb2, hb3, ?_⟩
  intro i tr s hi hsl panel hpanel
  have key : ∀ (panel : List (Curve ℝ)) (level : Trace ℝ → Option ℝ) (g0 g1 : ℝ),
      DrawnStream panel st level g0 g1
        (fun slow : ℝ => (.real (t1 slow), .real (t2 slow), .real (t3 slow))) →
      ∃ c, panel[i]? = some c ∧ c.marks = (.real (t1 s.val), .real (t2 s.val), .real (t3 s.val)) := by
    intro panel level g0 g1 hd
    unfold DrawnStream at hd
    have hlen := hd.length_eq
    have hi' := (List.getElem?_eq_some_iff.1 hi)
    have hip : i < panel.length := by rw [hlen]; exact hi'.1
    have := (List.forall₂_iff_get.1 hd).2 i hip hi'.1
    simp only [List.get_eq_getElem, hi'.2] at this
    obtain ⟨o, s', lev, _, hs', _, hc⟩ := this
    rw [hsl] at hs'; cases hs'
    exact ⟨_, List.getElem?_eq_getElem hip, hc.marks⟩
  have fin : ∀ panel : List (Curve ℝ),
      (∃ c, panel[i]? = some c ∧ c.marks = (.real (t1 s.val), .real (t2 s.val), .real (t3 s.val))) →
      ∃ c, panel[i]? = some c ∧
        (InBand c.marks.1 (PyNum.subr (.real (t1 sl.val)) half, PyNum.addr (.real (t1 sl.val)) half) ↔
          |t1 s.val - t1 sl.val| ≤ half) ∧
        (InBand c.marks.2.1 (PyNum.subr (.real (t2 sl.val)) half, PyNum.addr (.real (t2 sl.val)) half) ↔
          |t2 s.val - t2 sl.val| ≤ half) ∧
        (InBand c.marks.2.2 (PyNum.subr (.real (t3 sl.val)) half, PyNum.addr (.real (t3 sl.val)) half) ↔
          |t3 s.val - t3 sl.val| ≤ half) := by
    rintro panel ⟨c, hc, hm⟩
    refine ⟨c, hc, ?_, ?_, ?_⟩ <;> rw [hm] <;> exact inBand_iff _ _ _
  simp only [List.mem_cons, List.not_mem_nil, or_false] at hpanel
  rcases hpanel with rfl | rfl
  · exact fin _ (key _ _ _ _ hp2)
  · exact fin _ (key _ _ _ _ hp3)

/-- **C107**, `plothk` without stacking: which marks lie in the shaded ranges (half a second to both sides for
the Moho, a tenth for the sediment). -/
theorem c107_plothk_shading {env env' : Env ℝ} {st : List (Trace ℝ)} {preonset : ℝ} {H K : List ℝ}
    {Vp : Scalar ℝ} {w1 w2 w3 : Option ℝ} {layer : Option String} {r : HKResult ℝ}
    (h : hk env st preonset H K (some Vp) w1 w2 w3 layer (some false) = .ok r)
    (hVp : Vp.val ≠ 0)
    (hpre : ∀ tr ∈ st, ∀ sl, tr.slowness = some sl →
      (env'.km2deg1 * sl.val) ^ 2 ≤ (1 / Vp.val) ^ 2)
    {savepath : String} {g : Option (List ℝ)} {rmneg : Option Bool} {format : Option String}
    {fig : Figure ℝ} (hfig : (plothk env' r savepath g rmneg format).2 = .ok fig) :
    ∃ half : ℝ, (layer.getD "Moho" = "Moho" → half = 0.5) ∧ (layer.getD "Moho" = "Sed" → half = 0.1) ∧
      ShadedByLast fig st half (fun s => tPs (env'.km2deg1 * s) Vp.val fig.bestH fig.bestK)
        (fun s => tPpPs (env'.km2deg1 * s) Vp.val fig.bestH fig.bestK)
        (fun s => tPsPs (env'.km2deg1 * s) Vp.val fig.bestH fig.bestK) := by
  obtain ⟨tr0, b, lim, half, _, _, hw, hs⟩ :=
    (c80_plothk_unstacked h hVp hpre savepath g rmneg format fig).1 hfig
  obtain ⟨hd, hsv, hf, rest⟩ := id hs
  refine ⟨half, ?_, ?_, ?_⟩
  · intro e
    rcases hw with ⟨_, _, hh⟩ | ⟨e', _⟩
    · exact hh
    · rw [e] at e'; exact absurd e' (by decide)
  · intro e
    rcases hw with ⟨e', _⟩ | ⟨_, _, hh⟩
    · rw [e] at e'; exact absurd e' (by decide)
    · exact hh
  · rw [hf.crossH, hf.crossK]
    exact stream_shading hs

/-- **C107**, `plotSeqhk` without stacking: the first figure shades 0.1 s around the times of the last trace of
the sediment stream, the second 0.5 s around those of the last trace of the Moho stream. -/
theorem c107_plotSeqhk_shading {env env' : Env ℝ} {stS stM : List (Trace ℝ)} {preonset : ℝ}
    {HS KS HM KM : List ℝ} {Vp vm : Scalar ℝ} {w1S w2S w3S w1M w2M w3M : Option ℝ}
    {r : HkSeqYeck.SeqResult ℝ}
    (h : HkSeqYeck.hkSeq env stS stM preonset HS KS (some Vp) w1S w2S w3S HM KM (some vm)
      w1M w2M w3M (some false) = .ok r)
    (hVp : Vp.val ≠ 0) (hvm : vm.val ≠ 0)
    (hpreS : ∀ tr ∈ stS, ∀ sl, tr.slowness = some sl →
      (env'.km2deg1 * sl.val) ^ 2 ≤ (1 / Vp.val) ^ 2)
    (hpreM : ∀ tr ∈ stM, ∀ sl, tr.slowness = some sl →
      (env'.km2deg1 * sl.val) ^ 2 ≤ (1 / Vp.val) ^ 2 ∧
      (env'.km2deg1 * sl.val) ^ 2 ≤ (1 / vm.val) ^ 2)
    {savepath : String} {g : Option (List ℝ)} {rmneg : Option Bool} {format : Option String} :
    let figs := (HkSeqYeck.plotSeqhk env' r savepath g rmneg format).2.1
    (∀ f1, figs[0]? = some f1 →
      ShadedByLast f1 stS 0.1 (fun s => tPs (env'.km2deg1 * s) Vp.val f1.bestH f1.bestK)
        (fun s => tPpPs (env'.km2deg1 * s) Vp.val f1.bestH f1.bestK)
        (fun s => tPsPs (env'.km2deg1 * s) Vp.val f1.bestH f1.bestK)) ∧
    (∀ f1 f2, figs[0]? = some f1 → figs[1]? = some f2 →
      ShadedByLast f2 stM 0.5
        (fun s => tPs (env'.km2deg1 * s) Vp.val f1.bestH f1.bestK + tPs (env'.km2deg1 * s) vm.val f2.bestH f2.bestK)
        (fun s => tPpPs (env'.km2deg1 * s) Vp.val f1.bestH f1.bestK
          + tPpPs (env'.km2deg1 * s) vm.val f2.bestH f2.bestK)
        (fun s => tPsPs (env'.km2deg1 * s) Vp.val f1.bestH f1.bestK
          + tPsPs (env'.km2deg1 * s) vm.val f2.bestH f2.bestK)) := by
  intro figs
  obtain ⟨tr0, bS, bM, _, _, _, h1, h2, _⟩ :=
    c80_plotSeqhk_unstacked h hVp hvm hpreS hpreM savepath g rmneg format
  constructor
  · intro f1 hf1
    have hs := (h1 f1).1 hf1
    obtain ⟨_, _, hf, _⟩ := id hs
    rw [hf.crossH, hf.crossK]
    exact stream_shading hs
  · intro f1 f2 hf1 hf2
    have hs1 := (h1 f1).1 hf1
    have hs2 := ((h2 f2).1 hf2).2
    obtain ⟨_, _, hf, _⟩ := id hs1
    obtain ⟨_, _, hf', _⟩ := id hs2
    rw [hf.crossH, hf.crossK, hf'.crossH, hf'.crossK]
    exact stream_shading hs2

/-- the marks of a trace can lie far outside the shaded range that is labelled with their phase: two receiver
functions with ray parameters 0 and 0.6 s/km and a layer of 30 km with Vp = 1 km/s and Vp/Vs = 1.56 -/
theorem c107_shading_misses : ∃ (st : List (Trace ℝ)) (r : HKResult ℝ) (fig : Figure ℝ) (c : Curve ℝ)
    (band : PyNum ℝ × PyNum ℝ),
    hk Sample.env st 1 [30] [39 / 25] (some ⟨.py, 1⟩) none none none none (some false) = .ok r ∧
    (plothk Sample.env r "fig" none none none).2 = .ok fig ∧ fig.panel2[0]? = some c ∧
    fig.bands2[1]? = some band ∧ ¬ InBand c.marks.2.1 band := by
  have hr : ∃ r, hk Sample.env [Sample.trace [0, 1, 3, 2, 0] 0, Sample.trace [1, 1, 2, 0, -1] (333 / 5)] 1
      [30] [39 / 25] (some ⟨.py, 1⟩) none none none none (some false) = .ok r := by
    refine c03_succeeds (sd := _) (more := []) rfl ?_ ?_ ?_ ?_ ?_ ?_ (by simp) (by simp) ?_
    · intro hh; cases hh
    · simp [Sample.trace]
    · intro tr htr
      simp at htr
      rcases htr with rfl | rfl <;> simp [Sample.trace]
    · intro tr htr
      simp at htr
      subst htr; simp [Sample.trace]
    · intro v hv
      cases hv
      right
      rw [← Bool.not_eq_true, real_eq]; norm_num
    · intro h; cases h
    · intro _ _; rfl
  obtain ⟨r, hr⟩ := hr
  have hpre : ∀ tr ∈ [Sample.trace [0, 1, 3, 2, 0] 0, Sample.trace [1, 1, 2, 0, -1] (333 / 5)], ∀ sl,
      tr.slowness = some sl → (Sample.env.km2deg1 * sl.val) ^ 2 ≤ (1 / (1 : ℝ)) ^ 2 := by
    intro tr htr sl hsl
    simp at htr
    rcases htr with rfl | rfl <;> simp [Sample.trace] at hsl <;> subst hsl <;> norm_num [Sample.env]
  have hp := hk_plottable hr
  obtain ⟨b, hb⟩ := Option.isSome_iff_exists.1 hp.best
  obtain ⟨fig, hfig⟩ := (c80_stream_figure_exists (env := Sample.env) (G := defaultGains)
    (table := (plothk Sample.env r "fig" none none none).1.stackvalues) (b := b) (H := [30])
    (K := [39 / 25]) (lim := (-5, 30)) (half := 0.5) (name := "fig/STA_R_Moho.pdf")
    (st := [Sample.trace [0, 1, 3, 2, 0] 0, Sample.trace [1, 1, 2, 0, -1] (333 / 5)])
    (marks := fun slow : ℝ => layerMarks (Sample.env.km2deg1 * slow) 1 b.h b.k)).2
    ⟨rfl, rfl, by simp, by simp, by simp, by simp [defaultGains], by
      intro tr htr
      simp at htr
      rcases htr with rfl | rfl <;> simp [Sample.trace]⟩
  have hplot : (plothk Sample.env r "fig" none none none).2 = .ok fig :=
    (c80_plothk_unstacked (env' := Sample.env) hr (by norm_num) hpre "fig" none none none fig).2
      ⟨_, b, (-5, 30), 0.5, rfl, hb, Or.inl ⟨rfl, rfl, rfl⟩, hfig⟩
  obtain ⟨half, hhalf, _, last, sl, b1, b2, b3, hl, hsl, hb2, _, hall⟩ :=
    c107_plothk_shading (env' := Sample.env) hr (by norm_num) hpre hplot
  have hhalf := hhalf rfl
  obtain ⟨c, hc, _, hin, _⟩ := hall 0 _ ⟨.py, 0⟩ rfl rfl fig.panel2 (by simp)
  have hframe := (c107_plothk_frame hr hplot)
  have hbh : fig.bestH = 30 ∧ fig.bestK = 39 / 25 := by
    obtain ⟨_, _, hf, _⟩ := hfig
    have e1 : fig.hlim.1 = 30 := by simpa using hf.hlim.1.1
    have e2 : fig.hlim.2 = 30 := by simpa using hf.hlim.2.1
    have e3 : fig.klim.1 = 39 / 25 := by simpa using hf.klim.1.1
    have e4 : fig.klim.2 = 39 / 25 := by simpa using hf.klim.2.1
    obtain ⟨c1, c2, c3, c4⟩ := hframe.cross
    rw [e1] at c1; rw [e2] at c2; rw [e3] at c3; rw [e4] at c4
    exact ⟨le_antisymm c2 c1, le_antisymm c4 c3⟩
  have hlast : sl.val = 333 / 5 := by
    simp at hl
    subst hl
    simp [Sample.trace] at hsl
    rw [← hsl]
  refine ⟨_, r, fig, c, b2, hr, hplot, hc, by rw [hb2]; rfl, ?_⟩
  rw [hin, hhalf, hlast, hbh.1, hbh.2]
  have s1 : Real.sqrt ((39 / 25) ^ 2) = 39 / 25 := Real.sqrt_sq (by norm_num)
  have s2 : Real.sqrt ((36 / 25) ^ 2) = 36 / 25 := Real.sqrt_sq (by norm_num)
  have s3 : Real.sqrt ((4 / 5) ^ 2) = 4 / 5 := Real.sqrt_sq (by norm_num)
  norm_num [tPpPs, eta, Sample.env] at s1 s2 s3 ⊢
  rw [s1, s2, s3]
  norm_num [abs_of_pos]

end Rfsed.Props
