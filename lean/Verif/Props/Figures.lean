import Verif.Proofs.Figure
import Verif.Proofs.Seq
import Verif.Props.Variants
import Verif.Props.Seq

/-!
# Property C80: what the saved H-k figures show

Every theorem is an equivalence: a figure is produced exactly when the described data can be
drawn, and then it is the described figure.
-/

namespace Rfsed.Props
open PyFloat Spec HkZhu
set_option linter.unusedSectionVars false

theorem layerLimits_some {layer : String} {lim : Int × Int} {half : ℝ} :
    (layerLimits layer = some lim ∧ layerSpan layer = half) ↔ LayerWindow layer lim half := by
  unfold layerLimits layerSpan LayerWindow
  have e5 : (dec 5 1 : ℝ) = 0.5 := by simp only [real_dec]; norm_num
  have e1 : (dec 1 1 : ℝ) = 0.1 := by simp only [real_dec]; norm_num
  rw [e5, e1]
  by_cases h1 : layer = "Moho"
  · subst h1; simp [eq_comm]
  · by_cases h2 : layer = "Sed"
    · subst h2; simp [eq_comm]
    · simp [h1, h2]

theorem hkFigure_eq {fig : Figure ℝ} {table : List (Row ℝ)} {b : Row ℝ} {H K : List ℝ} {lim : Int × Int}
    {name : String} (h : HkFigure fig table b H K lim name) :
    fig = { table := table, bestH := b.h, bestK := b.k, labelK := b.k + dec 1 3, hlim := fig.hlim,
            klim := fig.klim, xlim := lim, panel2 := fig.panel2, panel3 := fig.panel3,
            bands2 := fig.bands2, bands3 := fig.bands3, filename := name } := by
  obtain ⟨a1, a2, a3, a4, a5, a6, a7, a8, a9, a10, a11, a12⟩ := fig
  obtain ⟨h1, h2, h3, h4, _, _, h5, h6⟩ := h
  simp only at h1 h2 h3 h4 h5 h6
  subst h1 h2 h3 h4 h5 h6
  simp only [real_dec]
  norm_num

theorem hkFigure_mk (table : List (Row ℝ)) (b : Row ℝ) {H K : List ℝ} {hl kl : ℝ × ℝ} (lim : Int × Int)
    (p2 p3 : List (Curve ℝ)) (b2 b3 : List (PyNum ℝ × PyNum ℝ)) (name : String)
    (hH : Extent H hl) (hK : Extent K kl) :
    HkFigure { table := table, bestH := b.h, bestK := b.k, labelK := b.k + dec 1 3, hlim := hl, klim := kl,
               xlim := lim, panel2 := p2, panel3 := p3, bands2 := b2, bands3 := b3, filename := name }
      table b H K lim name := by
  refine ⟨rfl, rfl, rfl, ?_, hH, hK, rfl, rfl⟩
  simp only [real_dec]
  norm_num

/-! ## `plothk` -/

/-- **C80**, `plothk` without stacking. -/
theorem c80_plothk_unstacked {env env' : Env ℝ} {st : List (Trace ℝ)} {preonset : ℝ} {H K : List ℝ}
    {Vp : Scalar ℝ} {w1 w2 w3 : Option ℝ} {layer : Option String} {r : HKResult ℝ}
    (h : hk env st preonset H K (some Vp) w1 w2 w3 layer (some false) = .ok r)
    (hVp : Vp.val ≠ 0)
    (hpre : ∀ tr ∈ st, ∀ sl, tr.slowness = some sl →
      (env'.km2deg1 * sl.val) ^ 2 ≤ (1 / Vp.val) ^ 2)
    (savepath : String) (g : Option (List ℝ)) (rmneg : Option Bool) (format : Option String)
    (fig : Figure ℝ) :
    let out := plothk env' r savepath g rmneg format
    let G := g.getD defaultGains
    out.2 = .ok fig ↔
      ∃ (tr0 : Trace ℝ) (b : Row ℝ) (lim : Int × Int) (half : ℝ),
        st[0]? = some tr0 ∧ r.bestmodel = some b ∧ LayerWindow (layer.getD "Moho") lim half ∧
        StreamFigure env' G fig out.1.stackvalues b H K lim half
          s!"{savepath}/{tr0.station}_{tr0.channel}_{layer.getD "Moho"}.{format.getD "pdf"}" st
          (fun slow : ℝ => layerMarks (env'.km2deg1 * slow) Vp.val b.h b.k) := by
  intro out G
  have hp := hk_plottable h
  obtain ⟨tr0, rest, slows, f⟩ := hk_inv h
  obtain ⟨b, times, hb, _, he⟩ := plothk_eq env' r hp savepath g rmneg format
  have hstk : r.stack = false := f.hstk
  have hVp' : r.Vp = Vp := f.hVp
  have hann := annotate_ok (env := env') (x := b.h) (k := b.k) hp.vp r.RF hp.slow
  have hst : Stamped "tps" "tppps" "tpsps"
      (fun slow : ℝ => layerMarks (env'.km2deg1 * slow) Vp.val b.h b.k) st
      (annotate env' r.Vp b.h b.k r.RF).1 := by
    have hfa := hann.2
    have hslow := hp.slow
    rw [f.hRF] at hfa hslow
    rw [f.hRF]
    have aux : ∀ l l' : List (Trace ℝ), (∀ tr ∈ l, tr ∈ st) →
        List.Forall₂ (fun tr tr' => ∃ ts, timesOf env' r.Vp b.h b.k tr = .ok ts ∧
          tr' = stamp "tps" "tppps" "tpsps" ts tr) l l' →
        Stamped "tps" "tppps" "tpsps"
          (fun slow : ℝ => layerMarks (env'.km2deg1 * slow) Vp.val b.h b.k) l l' := by
      intro l l' hl hf
      induction hf with
      | nil => exact .nil
      | @cons tr tr' l l' hx _ ih =>
        obtain ⟨ts, hts, rfl⟩ := hx
        obtain ⟨sl, hsl⟩ := Option.isSome_iff_exists.1 (hslow tr (hl tr (by simp)))
        refine .cons ⟨sl, hsl, ?_⟩ (ih (fun a ha => hl a (by simp [ha])))
        unfold timesOf at hts
        rw [getSlowness_ok.2 hsl, except_ok_bind, hVp',
          bestTimes_real hVp (hpre tr (hl tr (by simp)) sl hsl)] at hts
        rw [← Except.ok.inj hts]; rfl
    exact aux _ _ (fun _ h => h) hfa
  have hne : st ≠ [] := by rw [f.hst]; simp
  have hne' : (annotate env' r.Vp b.h b.k r.RF).1 ≠ [] := by
    intro e
    have := hst.length_eq
    rw [e] at this
    exact hne (List.length_eq_zero_iff.1 this)
  have e0 : st[0]? = some tr0 := by rw [f.hst]; rfl
  show (plothk env' r savepath g rmneg format).2 = .ok fig ↔ _
  have htab : (plothk env' r savepath g rmneg format).1.stackvalues
      = if rmneg.getD true then clipLoop r.stackvalues else r.stackvalues := by rw [he]
  simp only [show out = plothk env' r savepath g rmneg format from rfl, htab]
  rw [he]
  simp only [hstk, Bool.false_eq_true, if_false, defaultGains_eq]
  generalize (if rmneg.getD true then clipLoop r.stackvalues else r.stackvalues) = tb
  unfold figure
  simp only [f.hlayer, f.hsta, f.hcomp]
  have pan2 : ∀ (lim : Int × Int) (p : List (Curve ℝ)), _ := fun lim p => panel_iff
    (draw := fun rf => drawTrace (some lim) rf.backAzimuth G 0 1 rf)
    (k1 := "tps") (k2 := "tppps") (k3 := "tpsps") (level := Trace.backAzimuth) (g := G) (i := 0)
    (j := 1) (by decide) (by decide) (by decide)
    (fun rf c => by rw [zhu_drawTrace_ok]; simp) (fun _ _ => rfl) hst hne (p := p)
  have pan3 : ∀ (lim : Int × Int) (p : List (Curve ℝ)), _ := fun lim p => panel_iff
    (draw := fun rf => drawTrace (some lim) rf.distance G 2 3 rf)
    (k1 := "tps") (k2 := "tppps") (k3 := "tpsps") (level := Trace.distance) (g := G) (i := 2)
    (j := 3) (by decide) (by decide) (by decide)
    (fun rf c => by rw [zhu_drawTrace_ok]; simp) (fun _ _ => rfl) hst hne (p := p)
  have hH : r.H = H := f.hH
  have hK : r.K = K := f.hK
  simp only [hH, hK]
  constructor
  · intro hfig
    obtain ⟨⟨⟩, hdr, hfig⟩ := bind_eq_ok.1 hfig
    obtain ⟨hl, hhl, hfig⟩ := bind_eq_ok.1 hfig
    obtain ⟨kl, hkl, hfig⟩ := bind_eq_ok.1 hfig
    obtain ⟨p2, hp2, hfig⟩ := bind_eq_ok.1 hfig
    split at hfig
    · cases hfig
    · cases hfig
    · rename_i last2 lim hlast2 hlim
      obtain ⟨p3, hp3, hfig⟩ := bind_eq_ok.1 hfig
      obtain ⟨⟨⟩, hsv, hfig⟩ := bind_eq_ok.1 hfig
      rw [hlim] at hp2
      obtain ⟨g0, g1, hg0, hg1, hd2⟩ := (pan2 lim p2).1 hp2
      obtain ⟨g2, g3, hg2, hg3, hd3⟩ := (pan3 lim p3).1 hp3
      obtain ⟨last, slow, e1, e2, e3⟩ := drawnStream_last hd2 hlast2
      obtain ⟨c3, e4, e5⟩ := drawnStream_last' hd3 e1 e2
      cases hfig
      refine ⟨tr0, b, lim, _, e0, hb, layerLimits_some.1 ⟨hlim, rfl⟩, hdr, hsv,
        hkFigure_mk _ _ _ _ _ _ _ _ (axisLimits_real.1 hhl) (axisLimits_real.1 hkl),
        ⟨last, slow, e1, e2, ?_, ?_⟩, g0, g1, g2, g3, hg0, hg1, hg2, hg3, hd2, hd3⟩
      · rw [shaded_some, e3]
      · rw [shaded_some, e4, Option.getD_some, e5]
  · rintro ⟨tr0', b', lim, half, e0', hb', hlim, hdr, hsv, hf, ⟨last, slow, e1, e2, hb2, hb3⟩,
      g0, g1, g2, g3, hg0, hg1, hg2, hg3, hd2, hd3⟩
    rw [e0] at e0'; cases e0'
    rw [hb] at hb'; cases hb'
    obtain ⟨hlim, hhalf⟩ := layerLimits_some.2 hlim
    rw [hdr, except_ok_bind, axisLimits_real.2 hf.hlim, except_ok_bind, axisLimits_real.2 hf.klim,
      except_ok_bind, hlim, hhalf]
    rw [(pan2 lim fig.panel2).2 ⟨g0, g1, hg0, hg1, hd2⟩, except_ok_bind]
    obtain ⟨c2, e3, e4⟩ := drawnStream_last' hd2 e1 e2
    obtain ⟨c3, e5, e6⟩ := drawnStream_last' hd3 e1 e2
    rw [e3]
    simp only
    have f2 := shaded_some.1 hb2
    have f3 := shaded_some.1 hb3
    rw [(pan3 lim fig.panel3).2 ⟨g2, g3, hg2, hg3, hd3⟩, except_ok_bind, hsv, except_ok_bind, e5,
      Option.getD_some, e4, e6, ← f2]
    have hbb : fig.bands2 = fig.bands3 := f2.trans f3.symm
    have hff := hkFigure_eq hf
    rw [← hbb] at hff
    exact congrArg Except.ok hff.symm

theorem drawnRF_stack {times data : List ℝ} {gain g1 : ℝ} {marks : PyNum ℝ × PyNum ℝ × PyNum ℝ}
    {c : Curve ℝ} :
    DrawnRF c times data gain 180 g1 marks ↔
    c = { axis := times, values := data.map (fun x => x * gain + ofNat 180), level := ofNat 180,
          marks := marks, gain := g1 } := by
  have e : (ofNat 180 : ℝ) = 180 := by simp
  rw [e]
  constructor
  · rintro ⟨h1, h2, h3, h4, h5⟩
    obtain ⟨a1, a2, a3, a4, a5⟩ := c
    simp only at h1 h2 h3 h4 h5
    rw [h1, h2, h3, h4, h5]
  · rintro rfl
    exact ⟨rfl, rfl, rfl, rfl, rfl⟩

/-- the shaded ranges the code draws -/
noncomputable def bandsOf (half : Option ℝ) (marks : PyNum ℝ × PyNum ℝ × PyNum ℝ) : List (PyNum ℝ × PyNum ℝ) :=
  match half with
  | none => []
  | some w => shade w marks

theorem shaded_iff {bands : List (PyNum ℝ × PyNum ℝ)} {half : Option ℝ}
    {marks : PyNum ℝ × PyNum ℝ × PyNum ℝ} : Shaded bands half marks ↔ bands = bandsOf half marks := by
  cases half <;> rfl

/-- the code that draws a single receiver function -/
theorem singleFigure_iff {env : Env ℝ} {G : List ℝ} {div : ℝ} {fig : Figure ℝ}
    {table : List (Row ℝ)} {b : Row ℝ} {H K : List ℝ} {lim : Int × Int} {half : Option ℝ} {name : String}
    {times data : List ℝ} {marks : PyNum ℝ × PyNum ℝ × PyNum ℝ} :
    (do env.draw table
        let hlim ← axisLimits H
        let klim ← axisLimits K
        let gain0 ← item G 0
        plotXY times (data.map (fun x => x * (gain0 / div) + ofNat 180))
        let gain1 ← item G 1
        env.savefig name
        pure ({ table := table, bestH := b.h, bestK := b.k, labelK := b.k + dec 1 3, hlim := hlim,
                klim := klim, xlim := lim,
                panel2 := [{ axis := times,
                             values := data.map (fun x => x * (gain0 / div) + ofNat 180),
                             level := ofNat 180, marks := marks, gain := gain1 }],
                panel3 := [], bands2 := bandsOf half marks, bands3 := [],
                filename := name } : Figure ℝ) : Except PyErr (Figure ℝ)) = .ok fig ↔
    SingleFigure env G div fig table b H K lim half name times data marks := by
  constructor
  · intro h
    obtain ⟨⟨⟩, hdr, h⟩ := bind_eq_ok.1 h
    obtain ⟨hl, hhl, h⟩ := bind_eq_ok.1 h
    obtain ⟨kl, hkl, h⟩ := bind_eq_ok.1 h
    obtain ⟨g0, hg0, h⟩ := bind_eq_ok.1 h
    obtain ⟨⟨⟩, hxy, h⟩ := bind_eq_ok.1 h
    obtain ⟨g1, hg1, h⟩ := bind_eq_ok.1 h
    obtain ⟨⟨⟩, hsv, h⟩ := bind_eq_ok.1 h
    cases h
    exact ⟨hdr, hsv, hkFigure_mk _ _ _ _ _ _ _ _ (axisLimits_real.1 hhl) (axisLimits_real.1 hkl),
      by simpa using plotXY_ok.1 hxy, shaded_iff.2 rfl, rfl, g0, g1, item_ok.1 hg0, item_ok.1 hg1, rfl, _,
      rfl, drawnRF_stack.2 rfl⟩
  · rintro ⟨hdr, hsv, hf, hlen, hb2, hb3, g0, g1, hg0, hg1, h3, c, h2, hc⟩
    rw [hdr, except_ok_bind, axisLimits_real.2 hf.hlim, except_ok_bind, axisLimits_real.2 hf.klim,
      except_ok_bind, item_ok.2 hg0, except_ok_bind, plotXY_ok.2 (by simpa using hlen), except_ok_bind,
      item_ok.2 hg1, except_ok_bind, hsv, except_ok_bind, ← drawnRF_stack.1 hc, ← shaded_iff.1 hb2, ← h2]
    have := hkFigure_eq hf
    rw [h3, hb3] at this
    exact congrArg Except.ok this.symm

/-- **C80**, `plothk` with stacking. -/
theorem c80_plothk_stacked {env env' : Env ℝ} {st : List (Trace ℝ)} {preonset : ℝ} {H K : List ℝ}
    {Vp : Scalar ℝ} {w1 w2 w3 : Option ℝ} {layer : Option String} {r : HKResult ℝ}
    (h : hk env st preonset H K (some Vp) w1 w2 w3 layer (some true) = .ok r)
    (hVp : Vp.val ≠ 0)
    (hpre : (env'.km2deg1 * ((st.map slownessOf).sum / st.length)) ^ 2 ≤ (1 / Vp.val) ^ 2)
    (savepath : String) (g : Option (List ℝ)) (rmneg : Option Bool) (format : Option String)
    (fig : Figure ℝ) :
    let out := plothk env' r savepath g rmneg format
    let avg := (st.map slownessOf).sum / st.length
    out.2 = .ok fig ↔
      ∃ (tr0 : Trace ℝ) (b : Row ℝ) (lim : Int × Int) (half : ℝ) (stacked : List ℝ),
        st[0]? = some tr0 ∧ r.bestmodel = some b ∧ LayerWindow (layer.getD "Moho") lim half ∧
        (∃ more, env.stack st = .ok (stacked :: more)) ∧
        SingleFigure env' (g.getD defaultGains) 1 fig out.1.stackvalues b H K lim (some half)
          s!"{savepath}/{tr0.station}_{tr0.channel}_{layer.getD "Moho"}.{format.getD "pdf"}"
          r.time stacked (layerMarks (env'.km2deg1 * avg) Vp.val b.h b.k) := by
  intro out avg
  have hp := hk_plottable h
  obtain ⟨tr0, rest, slows, f⟩ := hk_inv h
  obtain ⟨b, times, hb, ht, he⟩ := plothk_eq env' r hp savepath g rmneg format
  have hstk : r.stack = true := f.hstk
  have hVp' : r.Vp = Vp := f.hVp
  have havg : r.AvgSlow = avg := by rw [f.havg]; exact avgSlow_eq f.hslow
  rw [hVp', havg, bestTimes_real hVp hpre] at ht
  cases ht
  have e0 : st[0]? = some tr0 := by rw [f.hst]; rfl
  obtain ⟨more, hmore⟩ := f.hstack
  simp only [show out = plothk env' r savepath g rmneg format from rfl]
  rw [he]
  simp only [hstk, if_true, defaultGains_eq]
  generalize (if rmneg.getD true then clipLoop r.stackvalues else r.stackvalues) = tb
  unfold figure
  simp only [f.hlayer, f.hsta, f.hcomp, show r.H = H from f.hH, show r.K = K from f.hK]
  constructor
  · intro hfig
    cases hlim : layerLimits (layer.getD "Moho") with
    | none =>
      rw [hlim] at hfig
      obtain ⟨⟨⟩, hdr, hfig⟩ := bind_eq_ok.1 hfig
      obtain ⟨_, _, hfig⟩ := bind_eq_ok.1 hfig
      obtain ⟨_, _, hfig⟩ := bind_eq_ok.1 hfig
      obtain ⟨g0, _, hfig⟩ := bind_eq_ok.1 hfig
      cases hfig
    | some lim =>
      rw [hlim] at hfig
      refine ⟨tr0, b, lim, _, r.RFStack, e0, hb, layerLimits_some.1 ⟨hlim, rfl⟩, ⟨more, hmore⟩, ?_⟩
      rw [← singleFigure_iff]
      simp only [div_one]
      exact hfig
  · rintro ⟨tr0', b', lim, half, stacked, e0', hb', hlim, ⟨more', hm'⟩, hf⟩
    rw [e0] at e0'; cases e0'
    rw [hb] at hb'; cases hb'
    rw [hmore] at hm'; cases hm'
    rw [← singleFigure_iff] at hf
    simp only [div_one] at hf
    obtain ⟨hlim', rfl⟩ := layerLimits_some.2 hlim
    rw [hlim']
    exact hf

/-! ## `plothkYu` -/

/-- **C80**, `plothkYu`: the filtered receiver function with the adjusted times of the best
sub-sediment model. -/
theorem c80_plothkYu {env env' : Env ℝ} {flt : HkYu.FltInput ℝ} {rp : Scalar ℝ} {H K : List ℝ}
    {Vp : Scalar ℝ} {VpSed VsSed : Option (Scalar ℝ)} {w1 w2 w3 : Option ℝ} {r : HkYu.YuResult ℝ}
    (h : HkYu.hkYu env flt rp H K (some Vp) VpSed VsSed w1 w2 w3 = .ok r)
    (hVp : Vp.val ≠ 0) (hpre : rp.val ^ 2 ≤ (1 / Vp.val) ^ 2)
    (savepath : String) (g : Option (List ℝ)) (rmneg : Option Bool) (format : Option String)
    (fig : Figure ℝ) :
    let out := HkYu.plothkYu env' r savepath g rmneg format
    out.2 = .ok fig ↔
      ∃ b : Row ℝ, r.bestmodel = some b ∧
        SingleFigure env' (g.getD defaultGains) 1 fig out.1.stackvaluesSubSed b H K (-5, 30) none
          s!"{savepath}/FilteredRF_HKYu_SubSediment.{format.getD "pdf"}" flt.time flt.filteredrf
          (.real (tPs rp.val Vp.val b.h b.k + r.Pdelay),
           .real (tPpPs rp.val Vp.val b.h b.k + flt.tlag.val - r.Pdelay),
           .real (tPsPs rp.val Vp.val b.h b.k + flt.tlag.val)) := by
  intro out
  obtain ⟨hv, hbs⟩ := yu_vpOk h
  obtain ⟨vs, a, c, bmod, f⟩ := hkYu_inv h
  obtain ⟨b, hb⟩ := Option.isSome_iff_exists.1 hbs
  have hfst := plothkYu_fst env' r hv hbs savepath g rmneg format
  have hVp' : r.VpMoho = Vp := f.hVp
  simp only [show out = HkYu.plothkYu env' r savepath g rmneg format from rfl, hfst]
  have key : bestTimes Vp rp.kind rp.val b.h b.k = .ok (zkMarks rp.val Vp.val b.h b.k) :=
    bestTimes_real hVp hpre
  unfold bestTimes at key
  rw [oneOver_real hVp, except_ok_bind, except_pure] at key
  have key := Except.ok.inj key
  have k1 := congrArg Prod.fst key
  have k2 := congrArg (fun x => x.2.1) key
  have k3 := congrArg (fun x => x.2.2) key
  simp only [zkMarks] at k1 k2 k3
  have k3 := PyNum.real.inj k3
  have hsnd : (HkYu.plothkYu env' r savepath g rmneg format).2 = .ok fig ↔
      SingleFigure env' (g.getD defaultGains) 1 fig
        (if rmneg.getD false then clipLoop r.stackvaluesSubSed else r.stackvaluesSubSed) b H K (-5, 30) none
        s!"{savepath}/FilteredRF_HKYu_SubSediment.{format.getD "pdf"}" flt.time flt.filteredrf
          (.real (tPs rp.val Vp.val b.h b.k + r.Pdelay),
           .real (tPpPs rp.val Vp.val b.h b.k + flt.tlag.val - r.Pdelay),
           .real (tPsPs rp.val Vp.val b.h b.k + flt.tlag.val)) := by
    rw [← singleFigure_iff]
    unfold HkYu.plothkYu
    simp only [hb, hVp', oneOver_real hVp, f.hrp, f.htlag, f.htime, f.hrf, defaultGains_eq, div_one,
      k1, k2, k3, PyNum.addr, PyNum.subr]
    cases rmneg.getD false <;> simp only [Bool.false_eq_true, if_false, if_true, f.htime, f.hrf, f.hH, f.hK, bandsOf]
  rw [hsnd]
  constructor
  · intro hf; exact ⟨b, hb, hf⟩
  · rintro ⟨b', hb', hf⟩
    rw [hb] at hb'; cases hb'
    exact hf

/-! ## `plothkSynth` -/

theorem synth_layerLimits (layer : String) :
    SynthAnalysis.layerLimits layer = layerLimits layer := rfl

theorem synth_layerSpan (layer : String) :
    (SynthAnalysis.layerSpan layer : ℝ) = layerSpan layer := rfl

/-- **C80**, `plothkSynth`. -/
theorem c80_plothkSynth {env env' : Env ℝ} {d t : List ℝ} {rp : Scalar ℝ} {H K : List ℝ}
    {Vp : Scalar ℝ} {w1 w2 w3 : Option ℝ} {layer : Option String} {r : SynthAnalysis.SynthResult ℝ}
    (h : SynthAnalysis.hkSynth env d t rp H K (some Vp) w1 w2 w3 layer = .ok r)
    (hVp : Vp.val ≠ 0) (hpre : rp.val ^ 2 ≤ (1 / Vp.val) ^ 2)
    (savepath : String) (g : Option (List ℝ)) (rmneg : Option Bool) (format : Option String)
    (fig : Figure ℝ) :
    let out := SynthAnalysis.plothkSynth env' r savepath g rmneg format
    out.2 = .ok fig ↔
      ∃ (b : Row ℝ) (lim : Int × Int) (half : ℝ), r.bestmodel = some b ∧
        LayerWindow (layer.getD "Moho") lim half ∧
        SingleFigure env' (g.getD defaultGains) 1 fig out.1.stackvalues b H K lim (some half)
          s!"{savepath}/SynthRF_{layer.getD "Moho"}.{format.getD "pdf"}" t d
          (layerMarks rp.val Vp.val b.h b.k) := by
  intro out
  obtain ⟨hv, hbs⟩ := synth_vpOk h
  have f := hkSynth_inv h
  obtain ⟨b, hb⟩ := Option.isSome_iff_exists.1 hbs
  have hfst := plothkSynth_fst env' r hv hbs savepath g rmneg format
  have hVp' : r.Vp = Vp := f.hVp
  simp only [show out = SynthAnalysis.plothkSynth env' r savepath g rmneg format from rfl, hfst]
  have key : bestTimes Vp rp.kind rp.val b.h b.k = .ok (layerMarks rp.val Vp.val b.h b.k) :=
    bestTimes_real hVp hpre
  unfold bestTimes at key
  rw [oneOver_real hVp, except_ok_bind, except_pure] at key
  have key := Except.ok.inj key
  unfold SynthAnalysis.plothkSynth
  simp only [hb, hVp', oneOver_real hVp, f.hrp, defaultGains_eq, key, synth_layerLimits]
  cases hlim : layerLimits (layer.getD "Moho") with
  | none =>
    constructor
    · intro hfig
      exfalso
      revert hfig
      cases rmneg.getD false <;>
      · simp only [Bool.false_eq_true, if_false, if_true, f.hlayer, hlim]
        intro hfig
        obtain ⟨⟨⟩, hdr, hfig⟩ := bind_eq_ok.1 hfig
        obtain ⟨_, _, hfig⟩ := bind_eq_ok.1 hfig
        obtain ⟨_, _, hfig⟩ := bind_eq_ok.1 hfig
        obtain ⟨g0, _, hfig⟩ := bind_eq_ok.1 hfig
        cases hfig
    · rintro ⟨_, lim, half, _, h2, _⟩
      have h2 := (layerLimits_some.2 h2).1
      rw [hlim] at h2
      cases h2
  | some lim =>
    have e : ∀ tb : List (Row ℝ), (∃ (b' : Row ℝ) (lim : Int × Int) (half : ℝ), some b = some b' ∧
        LayerWindow (layer.getD "Moho") lim half ∧
        SingleFigure env' (g.getD defaultGains) 1 fig tb b' H K lim (some half)
          s!"{savepath}/SynthRF_{layer.getD "Moho"}.{format.getD "pdf"}" t d
          (layerMarks rp.val Vp.val b'.h b'.k)) ↔
        SingleFigure env' (g.getD defaultGains) 1 fig tb b H K lim (some (layerSpan (layer.getD "Moho")))
          s!"{savepath}/SynthRF_{layer.getD "Moho"}.{format.getD "pdf"}" t d
          (layerMarks rp.val Vp.val b.h b.k) := by
      intro tb
      constructor
      · rintro ⟨b', lim', half, h1, h2, h3⟩
        obtain ⟨h2', rfl⟩ := layerLimits_some.2 h2
        rw [hlim] at h2'
        cases h1; cases h2'
        exact h3
      · intro h3
        exact ⟨b, lim, _, rfl, layerLimits_some.1 ⟨hlim, rfl⟩, h3⟩
    rw [e, ← singleFigure_iff]
    simp only [div_one]
    cases rmneg.getD false
    · simp only [Bool.false_eq_true, if_false, f.hlayer, f.htime, f.hrf, f.hH, f.hK, hlim, bandsOf,
        synth_layerSpan]
    · simp only [if_true, f.hlayer, f.htime, f.hrf, f.hH, f.hK, hlim, bandsOf, synth_layerSpan]

/-! ## two-stage plotting -/

/-- figures and outcome of two stages run one after the other -/
def twoStage (x y : Except PyErr (Figure ℝ)) : List (Figure ℝ) × Except PyErr Unit :=
  match x with
  | .error e => ([], .error e)
  | .ok f1 => match y with
    | .error e => ([f1], .error e)
    | .ok f2 => ([f1, f2], .ok ())

theorem twoFigures_of {x y : Except PyErr (Figure ℝ)} {figs : List (Figure ℝ)}
    {outcome : Except PyErr Unit} {P Q : Figure ℝ → Prop}
    (hx : ∀ fig, x = .ok fig ↔ P fig) (hy : ∀ fig, y = .ok fig ↔ Q fig)
    (h : (figs, outcome) = twoStage x y) : TwoFigures figs outcome P Q := by
  unfold TwoFigures
  simp only [← hx, ← hy]
  cases x with
  | error e => cases h; simp
  | ok f1 =>
    cases y with
    | error e => cases h; simp
    | ok f2 => cases h; simp

/-- **C80**, `plothkSeqSynth`. -/
theorem c80_plothkSeqSynth {env env' : Env ℝ} {dS dM t : List ℝ} {rp : Scalar ℝ}
    {HS KS HM KM : List ℝ} {Vp vm : Scalar ℝ} {w1S w2S w3S w1M w2M w3M : Option ℝ}
    {r : SynthAnalysis.SeqSynthResult ℝ}
    (h : SynthAnalysis.hkSeqSynth env dS dM t rp HS KS (some Vp) w1S w2S w3S HM KM
      (some vm) w1M w2M w3M = .ok r)
    (hVp : Vp.val ≠ 0) (hvm : vm.val ≠ 0)
    (hpre : rp.val ^ 2 ≤ (1 / Vp.val) ^ 2) (hpre2 : rp.val ^ 2 ≤ (1 / vm.val) ^ 2)
    (savepath : String) (g : Option (List ℝ)) (rmneg : Option Bool) (format : Option String) :
    let out := SynthAnalysis.plothkSeqSynth env' r savepath g rmneg format
    ∃ bS bM : Row ℝ, r.bestmodelSed = some bS ∧ r.bestmodelMoho = some bM ∧
      TwoFigures out.2.1 out.2.2
        (fun fig => SingleFigure env' (g.getD defaultGains) 2 fig out.1.stackvalueSed bS HS KS (-1, 10) none
          s!"{savepath}/SynthRF_SeqHK_Sediment.{format.getD "pdf"}" t dS
          (layerMarks rp.val Vp.val bS.h bS.k))
        (fun fig => SingleFigure env' (g.getD defaultGains) 1 fig out.1.stackvalueMoho bM HM KM (-5, 30) none
          s!"{savepath}/SynthRF_SeqHK_Moho.{format.getD "pdf"}" t dM
          (twoLayerMarks rp.val Vp.val bS.h bS.k vm.val bM.h bM.k)) := by
  intro out
  obtain ⟨hv, _, hbS, hbM, hcl⟩ := seqSynth_facts h
  have hfst := plothkSeqSynth_fst env' r hv hbS hbM hcl savepath g rmneg format
  obtain ⟨bmod, raw, f⟩ := hkSeqSynth_inv h
  obtain ⟨bS, hbS⟩ := Option.isSome_iff_exists.1 hbS
  obtain ⟨bM, hbM⟩ := Option.isSome_iff_exists.1 hbM
  refine ⟨bS, bM, hbS, hbM, ?_⟩
  have hVp' : r.VpSed = Vp := f.hVpSed
  have hvm' : r.VpMoho = some vm := f.hVpMoho
  simp only [show out = SynthAnalysis.plothkSeqSynth env' r savepath g rmneg format from rfl, hfst]
  have kS : SynthAnalysis.seqSedTimes Vp rp bS.h bS.k = .ok (layerMarks rp.val Vp.val bS.h bS.k) :=
    bestTimes_real (kd := rp.kind) hVp hpre
  have kM : SynthAnalysis.seqMohoTimes Vp (some vm) rp bS.h bS.k bM.h bM.k
      = .ok (twoLayerMarks rp.val Vp.val bS.h bS.k vm.val bM.h bM.k) :=
    mohoTimes_real (kd := rp.kind) hVp hvm hpre hpre2
  refine twoFigures_of (fun fig => singleFigure_iff) (fun fig => singleFigure_iff) ?_
  unfold SynthAnalysis.plothkSeqSynth
  simp only [hbS, hbM, hVp', hvm', f.hrp, kS, kM, defaultGains_eq, div_one, real_two]
  cases rmneg.getD false
  · simp only [Bool.false_eq_true, if_false, f.htime, f.hrfS, f.hrfM, f.hrp, hVp', hvm', kM, f.hHS, f.hKS,
      f.hHM, f.hKM, bandsOf]
    split
    · rename_i e he; rw [he]; rfl
    · rename_i f1 he
      rw [he]
      split
      · rename_i e he2; rw [he2]; rfl
      · rename_i f2 he2; rw [he2]; rfl
  · simp only [if_true, f.htime, f.hrfS, f.hrfM, f.hrp, hVp', hvm', kM, hcl, f.hHS, f.hKS, f.hHM, f.hKM,
      bandsOf]
    split
    · rename_i e he; rw [he]; rfl
    · rename_i f1 he
      rw [he]
      split
      · rename_i e he2; rw [he2]; rfl
      · rename_i f2 he2; rw [he2]; rfl

/-- **C80**, `plothkSeqSynth` on any result: the sediment figure is saved first, and whether it is saved
and what it shows do not depend on the P velocity of the crust; in particular a crustal velocity that is
missing or makes the second figure fail leaves the first one on disk. -/
theorem c80_seqSynth_first_figure {F : Type} [PyFloat F] (env : Env F) (r : SynthAnalysis.SeqSynthResult F)
    (v : Option (Scalar F)) (savepath : String) (g : Option (List F)) (rmneg : Option Bool)
    (format : Option String) :
    (SynthAnalysis.plothkSeqSynth env { r with VpMoho := v } savepath g rmneg format).2.1.take 1 =
      (SynthAnalysis.plothkSeqSynth env r savepath g rmneg format).2.1.take 1 := by
  have hS : ({ r with VpMoho := v } : SynthAnalysis.SeqSynthResult F).bestmodelSed = r.bestmodelSed := rfl
  have hM : ({ r with VpMoho := v } : SynthAnalysis.SeqSynthResult F).bestmodelMoho = r.bestmodelMoho := rfl
  unfold SynthAnalysis.plothkSeqSynth
  rw [hS, hM]
  cases r.bestmodelSed with
  | none => rfl
  | some bS =>
    cases r.bestmodelMoho with
    | none => rfl
    | some bM =>
      simp only
      cases SynthAnalysis.seqSedTimes r.VpSed r.RayP bS.h bS.k with
      | error e => rfl
      | ok tS =>
        cases rmneg.getD false <;> simp only [if_true, Bool.false_eq_true, if_false] <;> split <;>
          first
          | rfl
          | (split <;> split <;> first | rfl | (split <;> first | rfl | (split <;> rfl)))

/-! ## `plotSeqhk` -/

theorem stageFigure_stream {env : Env ℝ} {G : List ℝ} {fig : Figure ℝ} {table : List (Row ℝ)}
    {b : Row ℝ} {H K : List ℝ} {lim : Int × Int} {half : ℝ} {name : String} {st st' : List (Trace ℝ)}
    {sd time : List ℝ} {k1 k2 k3 : String} (h12 : k1 ≠ k2) (h13 : k1 ≠ k3) (h23 : k2 ≠ k3)
    {marks : ℝ → PyNum ℝ × PyNum ℝ × PyNum ℝ} (hs : Stamped k1 k2 k3 marks st st') (hne : st ≠ []) :
    HkSeqYeck.stageFigure env table b H K lim half none st' sd time k1 k2 k3 G name = .ok fig ↔
      StreamFigure env G fig table b H K lim half name st marks := by
  have hne' : st' ≠ [] := by
    intro e
    have := hs.length_eq
    rw [e] at this
    exact hne (List.length_eq_zero_iff.1 this)
  have pan2 : ∀ p : List (Curve ℝ), _ := fun p => panel_iff
    (draw := fun rf => HkSeqYeck.drawTrace k1 k2 k3 rf.backAzimuth G 0 1 rf)
    (level := Trace.backAzimuth) (g := G) (i := 0) (j := 1) h12 h13 h23
    (fun rf c => seq_drawTrace_ok) (fun _ _ => rfl) hs hne (p := p)
  have pan3 : ∀ p : List (Curve ℝ), _ := fun p => panel_iff
    (draw := fun rf => HkSeqYeck.drawTrace k1 k2 k3 rf.distance G 2 3 rf)
    (level := Trace.distance) (g := G) (i := 2) (j := 3) h12 h13 h23
    (fun rf c => seq_drawTrace_ok) (fun _ _ => rfl) hs hne (p := p)
  unfold HkSeqYeck.stageFigure
  constructor
  · intro hfig
    obtain ⟨⟨⟩, hdr, hfig⟩ := bind_eq_ok.1 hfig
    obtain ⟨hl, hhl, hfig⟩ := bind_eq_ok.1 hfig
    obtain ⟨kl, hkl, hfig⟩ := bind_eq_ok.1 hfig
    obtain ⟨p2, hp2, hfig⟩ := bind_eq_ok.1 hfig
    split at hfig
    · cases hfig
    · rename_i last2 hlast2
      obtain ⟨p3, hp3, hfig⟩ := bind_eq_ok.1 hfig
      obtain ⟨⟨⟩, hsv, hfig⟩ := bind_eq_ok.1 hfig
      obtain ⟨g0, g1, hg0, hg1, hd2⟩ := (pan2 p2).1 hp2
      obtain ⟨g2, g3, hg2, hg3, hd3⟩ := (pan3 p3).1 hp3
      obtain ⟨last, slow, e1, e2, e3⟩ := drawnStream_last hd2 hlast2
      obtain ⟨c3, e4, e5⟩ := drawnStream_last' hd3 e1 e2
      cases hfig
      refine ⟨hdr, hsv,
        hkFigure_mk _ _ _ _ _ _ _ _ (axisLimits_real.1 hhl) (axisLimits_real.1 hkl),
        ⟨last, slow, e1, e2, ?_, ?_⟩, g0, g1, g2, g3, hg0, hg1, hg2, hg3, hd2, hd3⟩
      · rw [shaded_some, e3]
      · rw [shaded_some, e4, Option.getD_some, e5]
  · rintro ⟨hdr, hsv, hf, ⟨last, slow, e1, e2, hb2, hb3⟩, g0, g1, g2, g3, hg0, hg1, hg2, hg3, hd2, hd3⟩
    rw [hdr, except_ok_bind, axisLimits_real.2 hf.hlim, except_ok_bind, axisLimits_real.2 hf.klim,
      except_ok_bind]
    simp only
    rw [(pan2 fig.panel2).2 ⟨g0, g1, hg0, hg1, hd2⟩, except_ok_bind]
    obtain ⟨c2, e3, e4⟩ := drawnStream_last' hd2 e1 e2
    obtain ⟨c3, e5, e6⟩ := drawnStream_last' hd3 e1 e2
    rw [e3]
    simp only
    have f2 := shaded_some.1 hb2
    have f3 := shaded_some.1 hb3
    rw [(pan3 fig.panel3).2 ⟨g2, g3, hg2, hg3, hd3⟩, except_ok_bind, hsv, except_ok_bind, e5,
      Option.getD_some, e4, e6, ← f2]
    have hbb : fig.bands2 = fig.bands3 := f2.trans f3.symm
    have hff := hkFigure_eq hf
    rw [← hbb] at hff
    exact congrArg Except.ok hff.symm

theorem stageFigure_single {env : Env ℝ} {G : List ℝ} {fig : Figure ℝ} {table : List (Row ℝ)}
    {b : Row ℝ} {H K : List ℝ} {lim : Int × Int} {half : ℝ} {name : String} {st' : List (Trace ℝ)}
    {sd time : List ℝ} {k1 k2 k3 : String} {times : PyNum ℝ × PyNum ℝ × PyNum ℝ} :
    HkSeqYeck.stageFigure env table b H K lim half (some times) st' sd time k1 k2 k3 G name = .ok fig ↔
      SingleFigure env G 1 fig table b H K lim none name time sd times := by
  rw [← singleFigure_iff]
  unfold HkSeqYeck.stageFigure
  simp only [div_one, bandsOf]

/-- the annotated stream of a stage -/
theorem seq_stamped {env : Env ℝ} {times : Kind → ℝ → Except PyErr (HkSeqYeck.Times ℝ)}
    {k1 k2 k3 : String} {marks : ℝ → PyNum ℝ × PyNum ℝ × PyNum ℝ} {st : List (Trace ℝ)}
    (h : ∀ tr ∈ st, ∃ sl, tr.slowness = some sl ∧
      times sl.kind (env.km2deg1 * sl.val) = .ok (marks sl.val)) :
    (HkSeqYeck.annotate env times k1 k2 k3 st).2 = .ok () ∧
    Stamped k1 k2 k3 marks st (HkSeqYeck.annotate env times k1 k2 k3 st).1 := by
  have ha := seq_annotate_snd (env := env) (times := times) (k1 := k1) (k2 := k2) (k3 := k3) st
    (fun tr htr => by
      obtain ⟨sl, h1, h2⟩ := h tr htr
      exact ⟨sl, _, h1, h2⟩)
  refine ⟨ha.1, ?_⟩
  have aux : ∀ l l' : List (Trace ℝ), (∀ tr ∈ l, tr ∈ st) →
      List.Forall₂ (fun tr tr' => ∃ sl ts, tr.slowness = some sl ∧
        times sl.kind (env.km2deg1 * sl.val) = .ok ts ∧ tr' = stamp k1 k2 k3 ts tr) l l' →
      Stamped k1 k2 k3 marks l l' := by
    intro l l' hl hf
    induction hf with
    | nil => exact .nil
    | @cons tr tr' l l' hx _ ih =>
      obtain ⟨sl, ts, hsl, hts, rfl⟩ := hx
      obtain ⟨sl', hsl', hm⟩ := h tr (hl tr (by simp))
      rw [hsl] at hsl'; cases hsl'
      rw [hm] at hts
      refine .cons ⟨sl, hsl, by rw [Except.ok.inj hts]⟩ (ih (fun a ha => hl a (by simp [ha])))
  exact aux _ _ (fun _ h => h) ha.2

theorem twoFigures_seq {env' : Env ℝ} {r : HkSeqYeck.SeqResult ℝ} {bS bM : Row ℝ}
    (hbS : r.bestmodelSed = some bS) (hbM : r.bestmodelMoho = some bM) {savepath : String}
    {g : Option (List ℝ)} {rmneg : Option Bool} {format : Option String} {P Q : Figure ℝ → Prop}
    (hP : ∀ fig, (HkSeqYeck.plotSed env' r bS savepath (g.getD defaultGains) (rmneg.getD true)
      (format.getD "pdf")).2 = .ok fig ↔ P fig)
    (hQ : ∀ fig, (HkSeqYeck.plotMoho env' (HkSeqYeck.plotSed env' r bS savepath
      (g.getD defaultGains) (rmneg.getD true) (format.getD "pdf")).1 bS bM savepath
      (g.getD defaultGains) (rmneg.getD true) (format.getD "pdf")).2 = .ok fig ↔ Q fig) :
    TwoFigures (HkSeqYeck.plotSeqhk env' r savepath g rmneg format).2.1
      (HkSeqYeck.plotSeqhk env' r savepath g rmneg format).2.2 P Q := by
  refine twoFigures_of hP hQ ?_
  unfold HkSeqYeck.plotSeqhk
  simp only [hbS, hbM, defaultGains_eq]
  generalize HkSeqYeck.plotSed env' r bS savepath (g.getD defaultGains) (rmneg.getD true)
      (format.getD "pdf") = p1
  obtain ⟨r1, o1⟩ := p1
  cases o1 with
  | error e => rfl
  | ok f1 =>
    simp only
    generalize HkSeqYeck.plotMoho env' r1 bS bM savepath (g.getD defaultGains) (rmneg.getD true)
      (format.getD "pdf") = p2
    obtain ⟨r2, o2⟩ := p2
    cases o2 <;> rfl

/-- **C80**, `plotSeqhk` without stacking. -/
theorem c80_plotSeqhk_unstacked {env env' : Env ℝ} {stS stM : List (Trace ℝ)} {preonset : ℝ}
    {HS KS HM KM : List ℝ} {Vp vm : Scalar ℝ} {w1S w2S w3S w1M w2M w3M : Option ℝ}
    {r : HkSeqYeck.SeqResult ℝ}
    (h : HkSeqYeck.hkSeq env stS stM preonset HS KS (some Vp) w1S w2S w3S HM KM (some vm)
      w1M w2M w3M (some false) = .ok r)
    (hVp : Vp.val ≠ 0) (hvm : vm.val ≠ 0)
    (hpreS : ∀ tr ∈ stS, ∀ sl, tr.slowness = some sl →
      (env'.km2deg1 * sl.val) ^ 2 ≤ (1 / Vp.val) ^ 2)
    (hpreM : ∀ tr ∈ stM, ∀ sl, tr.slowness = some sl →
      (env'.km2deg1 * sl.val) ^ 2 ≤ (1 / Vp.val) ^ 2 ∧
      (env'.km2deg1 * sl.val) ^ 2 ≤ (1 / vm.val) ^ 2)
    (savepath : String) (g : Option (List ℝ)) (rmneg : Option Bool) (format : Option String) :
    let out := HkSeqYeck.plotSeqhk env' r savepath g rmneg format
    ∃ (tr0 : Trace ℝ) (bS bM : Row ℝ), stS[0]? = some tr0 ∧
      r.bestmodelSed = some bS ∧ r.bestmodelMoho = some bM ∧
      TwoFigures out.2.1 out.2.2
        (fun fig => StreamFigure env' (g.getD defaultGains) fig out.1.stackvalueSed bS HS KS (-1, 10) 0.1
          s!"{savepath}/{tr0.station}_{tr0.channel}_Sediment.{format.getD "pdf"}" stS
          (fun slow : ℝ => layerMarks (env'.km2deg1 * slow) Vp.val bS.h bS.k))
        (fun fig => StreamFigure env' (g.getD defaultGains) fig out.1.stackvalueMoho bM HM KM (-5, 30) 0.5
          s!"{savepath}/{tr0.station}_{tr0.channel}_Moho.{format.getD "pdf"}" stM
          (fun slow : ℝ => twoLayerMarks (env'.km2deg1 * slow) Vp.val bS.h bS.k vm.val bM.h bM.k)) := by
  intro out
  have hp := hkSeq_plottable h
  obtain ⟨tr0, rest, slows, bmod, raw, f⟩ := hkSeq_inv h
  obtain ⟨bS, hbS⟩ := Option.isSome_iff_exists.1 hp.bestS
  obtain ⟨bM, hbM⟩ := Option.isSome_iff_exists.1 hp.bestM
  have hVp' : r.VpSed = Vp := f.hVpSed
  have hvm' : r.VpMoho = some vm := f.hVpMoho
  have hstk : r.stack = false := f.hstk
  have hneS : stS ≠ [] := by rw [f.hst]; simp
  have hneM : stM ≠ [] := by
    rintro rfl
    obtain ⟨k', x', s', _, _, hm⟩ := gridLoop_ne f.hgridM f.hbestM
    cases hm
  refine ⟨tr0, bS, bM, by rw [f.hst]; rfl, hbS, hbM, ?_⟩
  obtain ⟨_, rs, rm, hout⟩ := plotSeqhk_fst env' r hp savepath g rmneg format
  have hout : out.1 = _ := hout
  rw [hout]
  simp only
  -- sediment stage
  have hmS := seq_stamped (env := env')
    (times := fun kd rp => HkSeqYeck.sedTimes r.VpSed kd rp bS.h bS.k)
    (k1 := "tpsSed") (k2 := "tpppsSed") (k3 := "tpspsSed")
    (marks := fun slow : ℝ => layerMarks (env'.km2deg1 * slow) Vp.val bS.h bS.k) (st := stS)
    (fun tr htr => by
      obtain ⟨sl, hsl⟩ := Option.isSome_iff_exists.1 (hp.slowS tr (by rw [f.hRFS]; exact htr))
      refine ⟨sl, hsl, ?_⟩
      rw [hVp']
      exact bestTimes_real (kd := sl.kind) hVp (hpreS tr htr sl hsl))
  have hmM := seq_stamped (env := env')
    (times := fun kd rp => HkSeqYeck.mohoTimes r.VpSed r.VpMoho kd rp bS.h bS.k bM.h bM.k)
    (k1 := "tpsMoho") (k2 := "tpppsMoho") (k3 := "tpspsMoho")
    (marks := fun slow : ℝ => twoLayerMarks (env'.km2deg1 * slow) Vp.val bS.h bS.k vm.val bM.h bM.k)
    (st := stM)
    (fun tr htr => by
      obtain ⟨sl, hsl⟩ := Option.isSome_iff_exists.1 (hp.slowM tr (by rw [f.hRFM]; exact htr))
      refine ⟨sl, hsl, ?_⟩
      rw [hVp', hvm']
      exact mohoTimes_real (kd := sl.kind) hVp hvm (hpreM tr htr sl hsl).1 (hpreM tr htr sl hsl).2)
  have e5 : (dec 5 1 : ℝ) = 0.5 := by simp only [real_dec]; norm_num
  have e1 : (dec 1 1 : ℝ) = 0.1 := by simp only [real_dec]; norm_num
  refine twoFigures_seq hbS hbM ?_ ?_
  · intro fig
    rw [← stageFigure_stream (sd := r.RFSedStack) (time := r.time) (by decide) (by decide)
      (by decide) hmS.2 hneS]
    unfold HkSeqYeck.plotSed
    simp only [hstk, Bool.false_eq_true, if_false, f.hRFS, hmS.1, except_map_ok]
    cases rmneg.getD true <;> simp only [Bool.false_eq_true, if_false, if_true, f.hsta, f.hcomp, f.hHS, f.hKS, e1]
  · intro fig
    rw [plotSed_fst env' r bS hp]
    rw [← stageFigure_stream (sd := r.RFMohoStack) (time := r.time) (by decide) (by decide)
      (by decide) hmM.2 hneM]
    unfold HkSeqYeck.plotMoho
    simp only [hstk, Bool.false_eq_true, if_false, f.hRFM, hmM.1, except_map_ok]
    cases rmneg.getD true <;>
      simp only [Bool.false_eq_true, if_false, if_true, f.hsta, f.hcomp, hp.clip, f.hHM, f.hKM, e5]

/-- **C80**, `plotSeqhk` with stacking: the stacked receiver functions of the two streams; the
times of both figures are those for the mean slowness of the Moho stream. -/
theorem c80_plotSeqhk_stacked {env env' : Env ℝ} {stS stM : List (Trace ℝ)} {preonset : ℝ}
    {HS KS HM KM : List ℝ} {Vp vm : Scalar ℝ} {w1S w2S w3S w1M w2M w3M : Option ℝ}
    {r : HkSeqYeck.SeqResult ℝ}
    (h : HkSeqYeck.hkSeq env stS stM preonset HS KS (some Vp) w1S w2S w3S HM KM (some vm)
      w1M w2M w3M (some true) = .ok r)
    (hVp : Vp.val ≠ 0) (hvm : vm.val ≠ 0)
    (hpre : (env'.km2deg1 * ((stM.map slownessOf).sum / stM.length)) ^ 2 ≤ (1 / Vp.val) ^ 2)
    (hpre2 : (env'.km2deg1 * ((stM.map slownessOf).sum / stM.length)) ^ 2 ≤ (1 / vm.val) ^ 2)
    (savepath : String) (g : Option (List ℝ)) (rmneg : Option Bool) (format : Option String) :
    let out := HkSeqYeck.plotSeqhk env' r savepath g rmneg format
    let p := env'.km2deg1 * ((stM.map slownessOf).sum / stM.length)
    ∃ (tr0 : Trace ℝ) (bS bM : Row ℝ) (stackS stackM : List ℝ), stS[0]? = some tr0 ∧
      r.bestmodelSed = some bS ∧ r.bestmodelMoho = some bM ∧
      (∃ more, env.stack stS = .ok (stackS :: more)) ∧
      (∃ more, env.stack stM = .ok (stackM :: more)) ∧
      TwoFigures out.2.1 out.2.2
        (fun fig => SingleFigure env' (g.getD defaultGains) 1 fig out.1.stackvalueSed bS HS KS (-1, 10) none
          s!"{savepath}/{tr0.station}_{tr0.channel}_Sediment.{format.getD "pdf"}" r.time stackS
          (layerMarks p Vp.val bS.h bS.k))
        (fun fig => SingleFigure env' (g.getD defaultGains) 1 fig out.1.stackvalueMoho bM HM KM (-5, 30) none
          s!"{savepath}/{tr0.station}_{tr0.channel}_Moho.{format.getD "pdf"}" r.time stackM
          (twoLayerMarks p Vp.val bS.h bS.k vm.val bM.h bM.k)) := by
  intro out p
  have hp := hkSeq_plottable h
  obtain ⟨tr0, rest, slows, bmod, raw, f⟩ := hkSeq_inv h
  obtain ⟨bS, hbS⟩ := Option.isSome_iff_exists.1 hp.bestS
  obtain ⟨bM, hbM⟩ := Option.isSome_iff_exists.1 hp.bestM
  have hVp' : r.VpSed = Vp := f.hVpSed
  have hvm' : r.VpMoho = some vm := f.hVpMoho
  have hstk : r.stack = true := f.hstk
  have havg : env'.km2deg1 * r.AvgSlow = p := by rw [f.havg, avgSlow_eq f.hslow]
  refine ⟨tr0, bS, bM, r.RFSedStack, r.RFMohoStack, by rw [f.hst]; rfl, hbS, hbM, f.hstackS,
    f.hstackM, ?_⟩
  obtain ⟨_, rs, rm, hout⟩ := plotSeqhk_fst env' r hp savepath g rmneg format
  have hout : out.1 = _ := hout
  rw [hout]
  simp only
  have kS : HkSeqYeck.sedTimes Vp .np p bS.h bS.k = .ok (layerMarks p Vp.val bS.h bS.k) :=
    bestTimes_real (kd := .np) hVp hpre
  have kM : HkSeqYeck.mohoTimes Vp (some vm) .np p bS.h bS.k bM.h bM.k
      = .ok (twoLayerMarks p Vp.val bS.h bS.k vm.val bM.h bM.k) :=
    mohoTimes_real (kd := .np) hVp hvm hpre hpre2
  have e5 : (dec 5 1 : ℝ) = 0.5 := by simp only [real_dec]; norm_num
  have e1 : (dec 1 1 : ℝ) = 0.1 := by simp only [real_dec]; norm_num
  refine twoFigures_seq hbS hbM ?_ ?_
  · intro fig
    rw [← stageFigure_single (half := 0.1) (st' := r.RFSed) (k1 := "tpsSed") (k2 := "tpppsSed") (k3 := "tpspsSed")]
    unfold HkSeqYeck.plotSed
    simp only [hstk, if_true, havg, hVp', kS, except_map_ok]
    cases rmneg.getD true <;> simp only [Bool.false_eq_true, if_false, if_true, f.hsta, f.hcomp, f.hHS, f.hKS, e1]
  · intro fig
    rw [plotSed_fst env' r bS hp]
    rw [← stageFigure_single (half := 0.5) (st' := r.RFMoho) (k1 := "tpsMoho") (k2 := "tpppsMoho")
      (k3 := "tpspsMoho")]
    unfold HkSeqYeck.plotMoho
    simp only [hstk, if_true, havg, hVp', hvm', kM, except_map_ok]
    cases rmneg.getD true <;>
      simp only [Bool.false_eq_true, if_false, if_true, f.hsta, f.hcomp, hp.clip, f.hHM, f.hKM, e5]

/-! ## when a figure can be drawn -/

/-- **C80**: the figure of a stream exists exactly when drawing the table and saving work, both grids and
the stream are not empty, at least four gains are given and every trace has onset, slowness, back azimuth and
distance. -/
theorem c80_stream_figure_exists {env : Env ℝ} {G : List ℝ} {table : List (Row ℝ)} {b : Row ℝ}
    {H K : List ℝ} {lim : Int × Int} {half : ℝ} {name : String} {st : List (Trace ℝ)}
    {marks : ℝ → PyNum ℝ × PyNum ℝ × PyNum ℝ} :
    (∃ fig, StreamFigure env G fig table b H K lim half name st marks) ↔
      env.draw table = .ok () ∧ env.savefig name = .ok () ∧ H ≠ [] ∧ K ≠ [] ∧ st ≠ [] ∧ 4 ≤ G.length ∧
      ∀ tr ∈ st, tr.onset.isSome ∧ tr.slowness.isSome ∧ tr.backAzimuth.isSome ∧
        tr.distance.isSome := by
  constructor
  · rintro ⟨fig, hdr, hsv, hf, ⟨last, slow, e1, _⟩, g0, g1, g2, g3, _, _, _, hg3, h2, h3⟩
    have a2 := drawnStream_exists.1 ⟨_, h2⟩
    have a3 := drawnStream_exists.1 ⟨_, h3⟩
    refine ⟨hdr, hsv, extent_exists.1 ⟨_, hf.hlim⟩, extent_exists.1 ⟨_, hf.klim⟩,
      (by rintro rfl; cases e1), ?_, fun tr htr => ⟨(a2 tr htr).1, (a2 tr htr).2.1, (a2 tr htr).2.2,
      (a3 tr htr).2.2⟩⟩
    exact (List.getElem?_eq_some_iff.1 hg3).1
  · rintro ⟨hdr, hsv, hH, hK, hne, hG, hst⟩
    obtain ⟨hl, hhl⟩ := extent_exists.2 hH
    obtain ⟨kl, hkl⟩ := extent_exists.2 hK
    obtain ⟨p2, h2⟩ := drawnStream_exists (level := Trace.backAzimuth) (g0 := G[0]) (g1 := G[1])
      (marks := marks) |>.2 (fun tr htr => ⟨(hst tr htr).1, (hst tr htr).2.1, (hst tr htr).2.2.1⟩)
    obtain ⟨p3, h3⟩ := drawnStream_exists (level := Trace.distance) (g0 := G[2]) (g1 := G[3])
      (marks := marks) |>.2 (fun tr htr => ⟨(hst tr htr).1, (hst tr htr).2.1, (hst tr htr).2.2.2⟩)
    obtain ⟨slow, hslow⟩ := Option.isSome_iff_exists.1 (hst _ (List.getLast_mem hne)).2.1
    exact ⟨_, hdr, hsv, hkFigure_mk table b lim p2 p3 (shade half (marks slow.val))
        (shade half (marks slow.val)) name hhl hkl,
      ⟨_, slow, List.getLast?_eq_some_getLast hne, hslow, shaded_some.2 rfl, shaded_some.2 rfl⟩,
      G[0], G[1], G[2], G[3], by simp, by simp, by simp, by simp, h2, h3⟩

/-- **C80**: the figure of a single receiver function exists exactly when drawing the table and
saving work, both grids are not empty, there is one sample per time and at least two gains are given. -/
theorem c80_single_figure_exists {env : Env ℝ} {G : List ℝ} {div : ℝ} {table : List (Row ℝ)}
    {b : Row ℝ} {H K : List ℝ} {lim : Int × Int} {half : Option ℝ} {name : String} {times data : List ℝ}
    {marks : PyNum ℝ × PyNum ℝ × PyNum ℝ} :
    (∃ fig, SingleFigure env G div fig table b H K lim half name times data marks) ↔
      env.draw table = .ok () ∧ env.savefig name = .ok () ∧ H ≠ [] ∧ K ≠ [] ∧
      times.length = data.length ∧ 2 ≤ G.length := by
  constructor
  · rintro ⟨fig, hdr, hsv, hf, hlen, _, _, g0, g1, _, hg1, _⟩
    exact ⟨hdr, hsv, extent_exists.1 ⟨_, hf.hlim⟩, extent_exists.1 ⟨_, hf.klim⟩, hlen,
      (List.getElem?_eq_some_iff.1 hg1).1⟩
  · rintro ⟨hdr, hsv, hH, hK, hlen, hG⟩
    obtain ⟨hl, hhl⟩ := extent_exists.2 hH
    obtain ⟨kl, hkl⟩ := extent_exists.2 hK
    exact ⟨_, hdr, hsv, hkFigure_mk table b lim _ [] (bandsOf half marks) [] name hhl hkl, hlen,
      shaded_iff.2 rfl, rfl, G[0], G[1], by simp, by simp, rfl, _, rfl, drawnRF_stack.2 rfl⟩

/-! ## Non-vacuity: concrete figures -/

/-- the two-trace sample stream gives a figure whose first curve starts 2 s before the onset and
lies around its back azimuth -/
theorem sample_hk_figure : ∃ r fig c, hk Sample.env Sample.stream 1 [30, 35] [1.7, 1.8, 1.9]
      (some ⟨.py, 6.5⟩) none none none none (some false) = .ok r ∧
    (plothk Sample.env r "fig" none none none).2 = .ok fig ∧ fig.xlim = (-5, 30) ∧
    fig.filename = "fig/STA_R_Moho.pdf" ∧ fig.panel2[0]? = some c ∧
    c.values = [10, 85, 235, 160, 10] ∧ c.axis[0]? = some (-2 : ℝ) := by
  obtain ⟨r, hr⟩ := sample_ok none none none (some false)
  have hpre : ∀ tr ∈ Sample.stream, ∀ sl, tr.slowness = some sl →
      (Sample.env.km2deg1 * sl.val) ^ 2 ≤ (1 / (6.5 : ℝ)) ^ 2 := by
    intro tr htr sl hsl
    simp [Sample.stream] at htr
    rcases htr with rfl | rfl <;> simp [Sample.trace] at hsl <;> subst hsl <;>
      norm_num [Sample.env]
  have hall : ∀ tr ∈ Sample.stream, tr.onset.isSome ∧ tr.slowness.isSome ∧ tr.backAzimuth.isSome ∧
        tr.distance.isSome := by
    intro tr htr
    simp [Sample.stream] at htr
    rcases htr with rfl | rfl <;> simp [Sample.trace]
  have key := fun fig => c80_plothk_unstacked (env' := Sample.env) hr (by norm_num) hpre "fig" none
    none none fig
  have hp := hk_plottable hr
  obtain ⟨b, hb⟩ := Option.isSome_iff_exists.1 hp.best
  obtain ⟨fig, hfig⟩ := (c80_stream_figure_exists (env := Sample.env) (G := defaultGains)
    (table := (plothk Sample.env r "fig" none none none).1.stackvalues) (b := b) (H := [30, 35])
    (K := [1.7, 1.8, 1.9]) (lim := (-5, 30)) (half := 0.5) (name := "fig/STA_R_Moho.pdf") (st := Sample.stream)
    (marks := fun slow : ℝ => layerMarks (Sample.env.km2deg1 * slow) 6.5 b.h b.k)).2
    ⟨rfl, rfl, by simp, by simp, by simp [Sample.stream], by simp [defaultGains], hall⟩
  have hd := hfig
  obtain ⟨_, _, hf, _, g0, g1, g2, g3, hg0, _, _, _, h2, _⟩ := hd
  have hg0 : g0 = 75 := by simp [defaultGains] at hg0; exact hg0.symm
  unfold DrawnStream Sample.stream at h2
  cases hp2 : fig.panel2 with
  | nil => rw [hp2] at h2; cases h2
  | cons c rest =>
    rw [hp2] at h2
    cases h2 with
    | cons hc _ =>
      obtain ⟨onset, slow, lev, ho, _, hl, hc⟩ := hc
      have ho : onset = 2 := by simp [Sample.trace] at ho; exact ho.symm
      have hl : lev = 10 := by simp [Sample.trace] at hl; exact hl.symm
      refine ⟨r, fig, c, hr, (key fig).2 ⟨Sample.trace [0, 1, 3, 2, 0] 6, b, (-5, 30), 0.5, rfl, hb,
        Or.inl ⟨rfl, rfl, rfl⟩, hfig⟩, hf.xlim, hf.filename, by rw [hp2]; rfl, ?_, ?_⟩
      · rw [hc.values, hg0, hl]
        norm_num [Sample.trace]
      · rw [hc.axis, ho]
        simp [onsetTimes, Sample.trace, List.range_succ]

/-- the sequential stack of one trace for both streams gives two figures -/
theorem sample_seq_figures : ∃ r, HkSeqYeck.hkSeq Sample.env Sample.stream Sample.stream 1 [1, 2] [2, 3]
      (some ⟨.py, 3⟩) none none none [30, 35] [17 / 10, 18 / 10] (some ⟨.py, 65 / 10⟩)
      (some (6 / 10)) (some (3 / 10)) (some (1 / 10)) (some false) = .ok r ∧
    (HkSeqYeck.plotSeqhk Sample.env r "fig" none none none).2.1.length = 2 ∧
    (HkSeqYeck.plotSeqhk Sample.env r "fig" none none none).2.2 = .ok () := by
  obtain ⟨r, hr⟩ := sample_hkSeq (Sample.trace [0, 1, 3, 2, 0] 6) [Sample.trace [1, 1, 2, 0, -1] 7]
    (Sample.trace [0, 1, 3, 2, 0] 6) [Sample.trace [1, 1, 2, 0, -1] 7] (by simp [Sample.trace])
    (by
      intro tr htr
      simp at htr
      rcases htr with rfl | rfl | rfl | rfl <;> simp [Sample.trace])
    (HS := [1, 2]) (KS := [2, 3]) (HM := [30, 35]) (KM := [17 / 10, 18 / 10]) (by simp) (by simp)
    (by simp) (by simp) (Vp := 3) (vm := 65 / 10) (by norm_num) (by norm_num) 1 none none none
    (6 / 10) (3 / 10) (1 / 10) (some false)
  have hpre : ∀ tr ∈ Sample.stream, ∀ sl, tr.slowness = some sl →
      (Sample.env.km2deg1 * sl.val) ^ 2 ≤ (1 / (3 : ℝ)) ^ 2 ∧
      (Sample.env.km2deg1 * sl.val) ^ 2 ≤ (1 / (65 / 10 : ℝ)) ^ 2 := by
    intro tr htr sl hsl
    simp [Sample.stream] at htr
    rcases htr with rfl | rfl <;> simp [Sample.trace] at hsl <;> subst hsl <;>
      norm_num [Sample.env]
  have hall : ∀ tr ∈ Sample.stream, tr.onset.isSome ∧ tr.slowness.isSome ∧ tr.backAzimuth.isSome ∧
        tr.distance.isSome := by
    intro tr htr
    simp [Sample.stream] at htr
    rcases htr with rfl | rfl <;> simp [Sample.trace]
  obtain ⟨tr0, bS, bM, _, _, _, h1, h2, _, h4⟩ := c80_plotSeqhk_unstacked (env' := Sample.env)
    (stS := Sample.stream) (stM := Sample.stream) hr (by norm_num) (by norm_num)
    (fun tr htr sl hsl => (hpre tr htr sl hsl).1) hpre "fig" none none none
  have ex : ∀ (tb : List (Row ℝ)) (b : Row ℝ) (H K : List ℝ) (lim : Int × Int) (half : ℝ) (name : String)
      (marks : ℝ → PyNum ℝ × PyNum ℝ × PyNum ℝ), H ≠ [] → K ≠ [] →
      ∃ fig, StreamFigure Sample.env defaultGains fig tb b H K lim half name Sample.stream marks :=
    fun _ _ _ _ _ _ _ _ hH hK => c80_stream_figure_exists.2
      ⟨rfl, rfl, hH, hK, by simp [Sample.stream], by simp [defaultGains], hall⟩
  obtain ⟨f1, hf1⟩ := ex _ _ [1, 2] [2, 3] _ _ _ _ (by simp) (by simp)
  obtain ⟨f2, hf2⟩ := ex _ _ [30, 35] [17 / 10, 18 / 10] _ _ _ _ (by simp) (by simp)
  have hlen := (List.getElem?_eq_some_iff.1 ((h2 f2).2 ⟨⟨f1, hf1⟩, hf2⟩)).1
  have h3 : (HkSeqYeck.plotSeqhk Sample.env r "fig" none none none).2.1.length = 2 := by
    have := ‹(HkSeqYeck.plotSeqhk Sample.env r "fig" none none none).2.1.length ≤ 2›
    omega
  exact ⟨r, hr, h3, h4.2 h3⟩

end Rfsed.Props
