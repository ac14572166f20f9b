import Verif.Props.Figures
import Verif.Props.ResonancePlot
import Verif.Props.WaveformFigures
import Verif.Spec.Files

/-!
# C125: which saved figures replace which
-/

namespace Rfsed.Props
open Rfsed Rfsed.Spec Rfsed.HkZhu PyFloat
variable {F : Type} [PyFloat F]

/-- two names that differ differ when one has something in front and behind -/
theorem file_cancel {a b p q : String} : p ++ a ++ q = p ++ b ++ q ↔ a = b := by
  constructor
  · intro h
    have := congrArg String.toList h
    simp only [String.toList_append, List.append_cancel_right_eq, List.append_cancel_left_eq] at this
    exact String.ext this
  · rintro rfl; rfl

/-! ## The names -/

theorem figure_file {env : Env F} {r : HKResult F} {b : Row F}
    {times : Option (PyNum F × PyNum F × PyNum F)} {savepath : String} {g : List F} {format : String}
    {fig : Figure F} (h : HkZhu.figure env r b times savepath g format = .ok fig) :
    fig.filename = savepath ++ "/" ++ r.staname ++ "_" ++ r.comp ++ "_" ++ r.layer ++ "." ++ format ∧
    env.savefig fig.filename = .ok () := by
  unfold HkZhu.figure at h
  obtain ⟨_, _, h⟩ := bind_eq_ok.1 h
  obtain ⟨_, _, h⟩ := bind_eq_ok.1 h
  obtain ⟨_, _, h⟩ := bind_eq_ok.1 h
  cases times with
  | some t =>
    simp only at h
    obtain ⟨_, _, h⟩ := bind_eq_ok.1 h
    cases hl : HkZhu.layerLimits r.layer with
    | none => rw [hl] at h; cases h
    | some l =>
      rw [hl] at h
      simp only at h
      obtain ⟨_, _, h⟩ := bind_eq_ok.1 h
      obtain ⟨_, _, h⟩ := bind_eq_ok.1 h
      obtain ⟨_, hs, h⟩ := bind_eq_ok.1 h
      cases Except.ok.inj h
      exact ⟨rfl, hs⟩
  | none =>
    simp only at h
    obtain ⟨p2, _, h⟩ := bind_eq_ok.1 h
    cases hp : p2.getLast? with
    | none => rw [hp] at h; cases h
    | some l2 =>
      cases hl : HkZhu.layerLimits r.layer with
      | none => rw [hp, hl] at h; cases h
      | some l =>
        rw [hp, hl] at h
        simp only at h
        obtain ⟨_, _, h⟩ := bind_eq_ok.1 h
        obtain ⟨_, hs, h⟩ := bind_eq_ok.1 h
        cases Except.ok.inj h
        exact ⟨rfl, hs⟩

theorem plothk_file {env : Env F} {r : HKResult F} {savepath : String} {g : Option (List F)}
    {rmneg : Option Bool} {format : Option String} {fig : Figure F}
    (h : (HkZhu.plothk env r savepath g rmneg format).2 = .ok fig) :
    fig.filename = savepath ++ "/" ++ r.staname ++ "_" ++ r.comp ++ "_" ++ r.layer ++ "."
      ++ format.getD "pdf" ∧ env.savefig fig.filename = .ok () := by
  unfold HkZhu.plothk at h
  cases hb : r.bestmodel with
  | none => rw [hb] at h; cases h
  | some b =>
    simp only [hb] at h
    cases hr : rmneg.getD true <;> cases hs : r.stack <;>
      simp only [hs, hr, if_true, Bool.false_eq_true, if_false] at h
    · cases ht : (HkZhu.annotate env r.Vp b.h b.k r.RF).2 with
      | error e => simp only [ht, Except.map] at h; cases h
      | ok t =>
        simp only [ht, Except.map] at h
        have := figure_file h
        exact this
    · cases ht : HkZhu.bestTimes r.Vp .np (env.km2deg1 * r.AvgSlow) b.h b.k with
      | error e => simp only [ht, Except.map] at h; cases h
      | ok t =>
        simp only [ht, Except.map] at h
        have := figure_file h
        exact this
    · cases ht : (HkZhu.annotate env r.Vp b.h b.k r.RF).2 with
      | error e => simp only [ht, Except.map] at h; cases h
      | ok t =>
        simp only [ht, Except.map] at h
        have := figure_file h
        exact this
    · cases ht : HkZhu.bestTimes r.Vp .np (env.km2deg1 * r.AvgSlow) b.h b.k with
      | error e => simp only [ht, Except.map] at h; cases h
      | ok t =>
        simp only [ht, Except.map] at h
        have := figure_file h
        exact this

theorem stage_file {env : Env F} {table : List (Row F)} {b : Row F} {H K : List F} {xlim : Int × Int}
    {span : F} {times : Option (HkSeqYeck.Times F)} {RF : List (Trace F)} {RFStack time : List F}
    {k1 k2 k3 : String} {g : List F} {name : String} {fig : Figure F}
    (h : HkSeqYeck.stageFigure env table b H K xlim span times RF RFStack time k1 k2 k3 g name = .ok fig) :
    fig.filename = name ∧ env.savefig name = .ok () := by
  unfold HkSeqYeck.stageFigure at h
  obtain ⟨_, _, h⟩ := bind_eq_ok.1 h
  obtain ⟨_, _, h⟩ := bind_eq_ok.1 h
  obtain ⟨_, _, h⟩ := bind_eq_ok.1 h
  cases times with
  | some t =>
    simp only at h
    obtain ⟨_, _, h⟩ := bind_eq_ok.1 h
    obtain ⟨_, _, h⟩ := bind_eq_ok.1 h
    obtain ⟨_, _, h⟩ := bind_eq_ok.1 h
    obtain ⟨_, hs, h⟩ := bind_eq_ok.1 h
    cases Except.ok.inj h
    exact ⟨rfl, hs⟩
  | none =>
    simp only at h
    obtain ⟨p2, _, h⟩ := bind_eq_ok.1 h
    cases hp : p2.getLast? with
    | none => rw [hp] at h; cases h
    | some l2 =>
      rw [hp] at h
      simp only at h
      obtain ⟨_, _, h⟩ := bind_eq_ok.1 h
      obtain ⟨_, hs, h⟩ := bind_eq_ok.1 h
      cases Except.ok.inj h
      exact ⟨rfl, hs⟩

theorem plotSed_file {env : Env F} {r r' : HkSeqYeck.SeqResult F} {b : Row F} {savepath : String}
    {g : List F} {rmneg : Bool} {format : String} {fig : Figure F}
    (h : HkSeqYeck.plotSed env r b savepath g rmneg format = (r', .ok fig)) :
    r'.staname = r.staname ∧ r'.comp = r.comp ∧
    fig.filename = savepath ++ "/" ++ r.staname ++ "_" ++ r.comp ++ "_Sediment." ++ format ∧
    env.savefig fig.filename = .ok () := by
  unfold HkSeqYeck.plotSed at h
  cases hs : r.stack <;> cases rmneg <;>
    simp only [hs, if_true, Bool.false_eq_true, if_false] at h
  · cases ht : (HkSeqYeck.annotate env (fun kd rp => HkSeqYeck.sedTimes r.VpSed kd rp b.h b.k)
        "tpsSed" "tpppsSed" "tpspsSed" r.RFSed).2 with
    | error e => simp only [ht, Except.map] at h; cases h
    | ok t =>
      simp only [ht, Except.map, Prod.mk.injEq] at h
      obtain ⟨rfl, h⟩ := h
      obtain ⟨h1, h2⟩ := stage_file h
      exact ⟨rfl, rfl, h1, h1 ▸ h2⟩
  · cases ht : (HkSeqYeck.annotate env (fun kd rp => HkSeqYeck.sedTimes r.VpSed kd rp b.h b.k)
        "tpsSed" "tpppsSed" "tpspsSed" r.RFSed).2 with
    | error e => simp only [ht, Except.map] at h; cases h
    | ok t =>
      simp only [ht, Except.map, Prod.mk.injEq] at h
      obtain ⟨rfl, h⟩ := h
      obtain ⟨h1, h2⟩ := stage_file h
      exact ⟨rfl, rfl, h1, h1 ▸ h2⟩
  · cases ht : HkSeqYeck.sedTimes r.VpSed .np (env.km2deg1 * r.AvgSlow) b.h b.k with
    | error e => simp only [ht, Except.map] at h; cases h
    | ok t =>
      simp only [ht, Except.map, Prod.mk.injEq] at h
      obtain ⟨rfl, h⟩ := h
      obtain ⟨h1, h2⟩ := stage_file h
      exact ⟨rfl, rfl, h1, h1 ▸ h2⟩
  · cases ht : HkSeqYeck.sedTimes r.VpSed .np (env.km2deg1 * r.AvgSlow) b.h b.k with
    | error e => simp only [ht, Except.map] at h; cases h
    | ok t =>
      simp only [ht, Except.map, Prod.mk.injEq] at h
      obtain ⟨rfl, h⟩ := h
      obtain ⟨h1, h2⟩ := stage_file h
      exact ⟨rfl, rfl, h1, h1 ▸ h2⟩

theorem plotMoho_file {env : Env F} {r r' : HkSeqYeck.SeqResult F} {b b2 : Row F} {savepath : String}
    {g : List F} {rmneg : Bool} {format : String} {fig : Figure F}
    (h : HkSeqYeck.plotMoho env r b b2 savepath g rmneg format = (r', .ok fig)) :
    fig.filename = savepath ++ "/" ++ r.staname ++ "_" ++ r.comp ++ "_Moho." ++ format ∧
    env.savefig fig.filename = .ok () := by
  unfold HkSeqYeck.plotMoho at h
  cases hs : r.stack <;> cases rmneg <;>
    simp only [hs, if_true, Bool.false_eq_true, if_false] at h
  · cases ht : (HkSeqYeck.annotate env (fun kd rp => HkSeqYeck.mohoTimes r.VpSed r.VpMoho kd rp b.h b.k
        b2.h b2.k) "tpsMoho" "tpppsMoho" "tpspsMoho" r.RFMoho).2 with
    | error e => simp only [ht, Except.map] at h; cases h
    | ok t =>
      simp only [ht, Except.map, Prod.mk.injEq] at h
      obtain ⟨h1, h2⟩ := stage_file h.2
      exact ⟨h1, h1 ▸ h2⟩
  · cases ht : (HkSeqYeck.annotate env (fun kd rp => HkSeqYeck.mohoTimes r.VpSed r.VpMoho kd rp b.h b.k
        b2.h b2.k) "tpsMoho" "tpppsMoho" "tpspsMoho" r.RFMoho).2 with
    | error e => simp only [ht, Except.map] at h; cases h
    | ok t =>
      simp only [ht, Except.map, Prod.mk.injEq] at h
      obtain ⟨h1, h2⟩ := stage_file h.2
      exact ⟨h1, h1 ▸ h2⟩
  · cases ht : HkSeqYeck.mohoTimes r.VpSed r.VpMoho .np (env.km2deg1 * r.AvgSlow) b.h b.k b2.h b2.k with
    | error e => simp only [ht, Except.map] at h; cases h
    | ok t =>
      simp only [ht, Except.map, Prod.mk.injEq] at h
      obtain ⟨h1, h2⟩ := stage_file h.2
      exact ⟨h1, h1 ▸ h2⟩
  · cases ht : HkSeqYeck.mohoTimes r.VpSed r.VpMoho .np (env.km2deg1 * r.AvgSlow) b.h b.k b2.h b2.k with
    | error e => simp only [ht, Except.map] at h; cases h
    | ok t =>
      simp only [ht, Except.map, Prod.mk.injEq] at h
      obtain ⟨h1, h2⟩ := stage_file h.2
      exact ⟨h1, h1 ▸ h2⟩

/-- the two figures of a sequential plot that succeeds and their names -/
theorem plotSeqhk_files {env : Env F} {r : HkSeqYeck.SeqResult F} {savepath : String}
    {g : Option (List F)} {rmneg : Option Bool} {format : Option String}
    (h : (HkSeqYeck.plotSeqhk env r savepath g rmneg format).2.2 = .ok ()) :
    ∃ f1 f2, (HkSeqYeck.plotSeqhk env r savepath g rmneg format).2.1 = [f1, f2] ∧
      f1.filename = savepath ++ "/" ++ r.staname ++ "_" ++ r.comp ++ "_Sediment." ++ format.getD "pdf" ∧
      f2.filename = savepath ++ "/" ++ r.staname ++ "_" ++ r.comp ++ "_Moho." ++ format.getD "pdf" ∧
      env.savefig f1.filename = .ok () ∧ env.savefig f2.filename = .ok () := by
  unfold HkSeqYeck.plotSeqhk at h ⊢
  simp only at h ⊢
  cases hb : r.bestmodelSed with
  | none => simp only [hb] at h; cases h
  | some b =>
    cases hb2 : r.bestmodelMoho with
    | none => simp only [hb, hb2] at h; cases h
    | some b2 =>
      simp only [hb, hb2] at h ⊢
      generalize hp : HkSeqYeck.plotSed env r b savepath _ _ _ = p1 at h ⊢
      obtain ⟨r1, o1⟩ := p1
      cases o1 with
      | error e => cases h
      | ok f1 =>
        simp only at h ⊢
        obtain ⟨e1, e2, e3, e4⟩ := plotSed_file hp
        generalize hp2 : HkSeqYeck.plotMoho env r1 b b2 savepath _ _ _ = p2 at h ⊢
        obtain ⟨r2, o2⟩ := p2
        cases o2 with
        | error e => cases h
        | ok f2 =>
          obtain ⟨e5, e6⟩ := plotMoho_file hp2
          rw [e1, e2] at e5
          exact ⟨f1, f2, rfl, e3, e5, e4, e6⟩

theorem plothkYu_file {env : Env F} {r : HkYu.YuResult F} {savepath : String} {g : Option (List F)}
    {rmneg : Option Bool} {format : Option String} {fig : Figure F}
    (h : (HkYu.plothkYu env r savepath g rmneg format).2 = .ok fig) :
    fig.filename = savepath ++ "/FilteredRF_HKYu_SubSediment." ++ format.getD "pdf" ∧
    env.savefig fig.filename = .ok () := by
  unfold HkYu.plothkYu at h
  cases hb : r.bestmodel with
  | none => simp only [hb] at h; cases h
  | some b =>
    simp only [hb] at h
    cases hv : oneOver r.VpMoho with
    | error e => simp only [hv] at h; cases h
    | ok v =>
      simp only [hv] at h
      obtain ⟨_, _, h⟩ := bind_eq_ok.1 h
      obtain ⟨_, _, h⟩ := bind_eq_ok.1 h
      obtain ⟨_, _, h⟩ := bind_eq_ok.1 h
      obtain ⟨_, _, h⟩ := bind_eq_ok.1 h
      obtain ⟨_, _, h⟩ := bind_eq_ok.1 h
      obtain ⟨_, _, h⟩ := bind_eq_ok.1 h
      obtain ⟨_, hs, h⟩ := bind_eq_ok.1 h
      cases Except.ok.inj h
      exact ⟨rfl, hs⟩

theorem plothkSynth_file {env : Env F} {r : SynthAnalysis.SynthResult F} {savepath : String}
    {g : Option (List F)} {rmneg : Option Bool} {format : Option String} {fig : Figure F}
    (h : (SynthAnalysis.plothkSynth env r savepath g rmneg format).2 = .ok fig) :
    (r.layer = "Moho" ∨ r.layer = "Sed") ∧
    fig.filename = savepath ++ "/SynthRF_" ++ r.layer ++ "." ++ format.getD "pdf" ∧
    env.savefig fig.filename = .ok () := by
  unfold SynthAnalysis.plothkSynth at h
  cases hb : r.bestmodel with
  | none => simp only [hb] at h; cases h
  | some b =>
    simp only [hb] at h
    cases hv : oneOver r.Vp with
    | error e => simp only [hv] at h; cases h
    | ok v =>
      simp only [hv] at h
      have hL : ∀ {lim}, SynthAnalysis.layerLimits r.layer = some lim →
          (r.layer = "Moho" ∨ r.layer = "Sed") := by
        intro lim hl
        unfold SynthAnalysis.layerLimits at hl
        split at hl
        · exact Or.inl ‹_›
        · split at hl
          · exact Or.inr ‹_›
          · cases hl
      cases hr : rmneg.getD false <;> simp only [hr, if_true, Bool.false_eq_true, if_false] at h
      · obtain ⟨_, _, h⟩ := bind_eq_ok.1 h
        obtain ⟨_, _, h⟩ := bind_eq_ok.1 h
        obtain ⟨_, _, h⟩ := bind_eq_ok.1 h
        obtain ⟨_, _, h⟩ := bind_eq_ok.1 h
        cases hl : SynthAnalysis.layerLimits r.layer with
        | none => rw [hl] at h; cases h
        | some lim =>
          rw [hl] at h
          simp only at h
          obtain ⟨_, _, h⟩ := bind_eq_ok.1 h
          obtain ⟨_, _, h⟩ := bind_eq_ok.1 h
          obtain ⟨_, hs, h⟩ := bind_eq_ok.1 h
          cases Except.ok.inj h
          exact ⟨hL hl, rfl, hs⟩
      · obtain ⟨_, _, h⟩ := bind_eq_ok.1 h
        obtain ⟨_, _, h⟩ := bind_eq_ok.1 h
        obtain ⟨_, _, h⟩ := bind_eq_ok.1 h
        obtain ⟨_, _, h⟩ := bind_eq_ok.1 h
        cases hl : SynthAnalysis.layerLimits r.layer with
        | none => rw [hl] at h; cases h
        | some lim =>
          rw [hl] at h
          simp only at h
          obtain ⟨_, _, h⟩ := bind_eq_ok.1 h
          obtain ⟨_, _, h⟩ := bind_eq_ok.1 h
          obtain ⟨_, hs, h⟩ := bind_eq_ok.1 h
          cases Except.ok.inj h
          exact ⟨hL hl, rfl, hs⟩

theorem plothkSeqSynth_files {env : Env F} {r : SynthAnalysis.SeqSynthResult F} {savepath : String}
    {g : Option (List F)} {rmneg : Option Bool} {format : Option String}
    (h : (SynthAnalysis.plothkSeqSynth env r savepath g rmneg format).2.2 = .ok ()) :
    ∃ f1 f2, (SynthAnalysis.plothkSeqSynth env r savepath g rmneg format).2.1 = [f1, f2] ∧
      f1.filename = savepath ++ "/SynthRF_SeqHK_Sediment." ++ format.getD "pdf" ∧
      f2.filename = savepath ++ "/SynthRF_SeqHK_Moho." ++ format.getD "pdf" ∧
      env.savefig f1.filename = .ok () ∧ env.savefig f2.filename = .ok () := by
  unfold SynthAnalysis.plothkSeqSynth at h ⊢
  simp only at h ⊢
  cases hb : r.bestmodelSed with
  | none => simp only [hb] at h; cases h
  | some b =>
    cases hb2 : r.bestmodelMoho with
    | none => simp only [hb, hb2] at h; cases h
    | some b2 =>
      simp only [hb, hb2] at h ⊢
      cases ht : SynthAnalysis.seqSedTimes r.VpSed r.RayP b.h b.k with
      | error e => simp only [ht] at h; cases h
      | ok t =>
        simp only [ht] at h ⊢
        generalize hp : (Bind.bind (env.draw _) _ : Except PyErr (Figure F)) = o1 at h ⊢
        cases o1 with
        | error e => cases h
        | ok f1 =>
          simp only at h ⊢
          obtain ⟨_, _, hp⟩ := bind_eq_ok.1 hp
          obtain ⟨_, _, hp⟩ := bind_eq_ok.1 hp
          obtain ⟨_, _, hp⟩ := bind_eq_ok.1 hp
          obtain ⟨_, _, hp⟩ := bind_eq_ok.1 hp
          obtain ⟨_, _, hp⟩ := bind_eq_ok.1 hp
          obtain ⟨_, _, hp⟩ := bind_eq_ok.1 hp
          obtain ⟨_, hs1, hp⟩ := bind_eq_ok.1 hp
          have hp := Except.ok.inj hp
          split at h
          · cases h
          · generalize hq : (Bind.bind (env.draw _) _ : Except PyErr (Figure F)) = o2 at h ⊢
            cases o2 with
            | error e => cases h
            | ok f2 =>
              obtain ⟨_, _, hq⟩ := bind_eq_ok.1 hq
              obtain ⟨_, _, hq⟩ := bind_eq_ok.1 hq
              obtain ⟨_, _, hq⟩ := bind_eq_ok.1 hq
              obtain ⟨_, _, hq⟩ := bind_eq_ok.1 hq
              obtain ⟨_, _, hq⟩ := bind_eq_ok.1 hq
              obtain ⟨_, _, hq⟩ := bind_eq_ok.1 hq
              obtain ⟨_, hs2, hq⟩ := bind_eq_ok.1 hq
              have hq := Except.ok.inj hq
              have e1 : f1.filename = savepath ++ "/SynthRF_SeqHK_Sediment." ++ format.getD "pdf" := by
                rw [← hp]; rfl
              have e2 : f2.filename = savepath ++ "/SynthRF_SeqHK_Moho." ++ format.getD "pdf" := by
                rw [← hq]; rfl
              exact ⟨f1, f2, rfl, e1, e2, e1 ▸ hs1, e2 ▸ hs2⟩

/-! ## Who replaces whom -/

theorem found_last {α : Type} (l : List (String × α)) (n : String) (x : α) :
    found (l ++ [(n, x)]) n = some x := by
  induction l with
  | nil => simp [found]
  | cons p l ih => simp [found, ih]

/-- names and figures, in the order in which they were saved -/
def byName (figs : List (Figure F)) : List (String × Figure F) := figs.map (fun f => (f.filename, f))

/-- **C125**: the H-k figure of one station replaces that of another exactly when both stations have
the same name (same folder, format, layer and component). -/
theorem c125_hk_station {env env' env₁ env₁' : Env F} {st st' : List (Trace F)} {pre pre' : F} {H K H' K' : List F}
    {Vp Vp' : Option (Scalar F)} {w1 w2 w3 w1' w2' w3' : Option F} {layer layer' : Option String}
    {stack stack' : Option Bool} {r r' : HKResult F} {tr tr' : Trace F}
    (h : hk env st pre H K Vp w1 w2 w3 layer stack = .ok r)
    (h' : hk env' st' pre' H' K' Vp' w1' w2' w3' layer' stack' = .ok r')
    (ht : st[0]? = some tr) (ht' : st'[0]? = some tr')
    (hchan : tr.channel = tr'.channel) (hlay : layer.getD "Moho" = layer'.getD "Moho")
    {savepath : String} {g g' : Option (List F)} {rm rm' : Option Bool} {fmt : Option String}
    {fig fig' : Figure F}
    (hp : (plothk env₁ r savepath g rm fmt).2 = .ok fig)
    (hp' : (plothk env₁' r' savepath g' rm' fmt).2 = .ok fig') :
    fig.filename = fig'.filename ↔ tr.station = tr'.station := by
  obtain ⟨t0, rest, slows, f⟩ := hk_inv h
  obtain ⟨t0', rest', slows', f'⟩ := hk_inv h'
  rw [f.hst] at ht; cases ht
  rw [f'.hst] at ht'; cases ht'
  rw [(plothk_file hp).1, (plothk_file hp').1, f.hsta, f'.hsta, f.hcomp, f'.hcomp, f.hlayer, f'.hlayer,
    hchan, hlay]
  refine Iff.trans ?_ (file_cancel (p := savepath ++ "/")
    (q := "_" ++ tr'.channel ++ "_" ++ layer'.getD "Moho" ++ "." ++ fmt.getD "pdf"))
  simp only [String.append_assoc]

/-- **C125**: the figure of `plothk` for the Moho and the Moho figure of `plotSeqhk` have the same
name for the same station and component: saved in one folder, only the later one is left.  The
sediment figure of `plotSeqhk` is not touched. -/
theorem c125_hk_seq {env env' env₁ env₁' : Env F} {st stS stM : List (Trace F)} {pre pre' : F} {H K HS KS HM KM : List F}
    {Vp VpS VpM : Option (Scalar F)} {w1 w2 w3 w1S w2S w3S w1M w2M w3M : Option F} {layer : Option String}
    {stack stack' : Option Bool} {r : HKResult F} {r' : HkSeqYeck.SeqResult F} {tr tr' : Trace F}
    (h : hk env st pre H K Vp w1 w2 w3 layer stack = .ok r)
    (h' : HkSeqYeck.hkSeq env' stS stM pre' HS KS VpS w1S w2S w3S HM KM VpM w1M w2M w3M stack' = .ok r')
    (ht : st[0]? = some tr) (ht' : stS[0]? = some tr')
    (hsta : tr.station = tr'.station) (hchan : tr.channel = tr'.channel)
    (hlay : layer = none ∨ layer = some "Moho")
    {savepath : String} {g g' : Option (List F)} {rm rm' : Option Bool} {fmt : Option String}
    {fig : Figure F}
    (hp : (plothk env₁ r savepath g rm fmt).2 = .ok fig)
    (hp' : (HkSeqYeck.plotSeqhk env₁' r' savepath g' rm' fmt).2.2 = .ok ()) :
    ∃ sed moho, (HkSeqYeck.plotSeqhk env₁' r' savepath g' rm' fmt).2.1 = [sed, moho] ∧
      fig.filename = moho.filename ∧
      found (byName [fig, sed, moho]) fig.filename = some moho ∧
      found (byName [sed, moho, fig]) moho.filename = some fig ∧
      found (byName [fig, sed, moho]) sed.filename = some sed ∧
      found (byName [sed, moho, fig]) sed.filename = some sed := by
  obtain ⟨t0, rest, slows, f⟩ := hk_inv h
  obtain ⟨t0', rest', slows', bm, raw, f'⟩ := hkSeq_inv h'
  rw [f.hst] at ht; cases ht
  rw [f'.hst] at ht'; cases ht'
  obtain ⟨sed, moho, e, n1, n2, _, _⟩ := plotSeqhk_files hp'
  have hl : layer.getD "Moho" = "Moho" := by rcases hlay with rfl | rfl <;> rfl
  have n0 := (plothk_file hp).1
  rw [f.hsta, f.hcomp, f.hlayer, hl, hsta, hchan] at n0
  rw [f'.hsta, f'.hcomp] at n1 n2
  have e0 : fig.filename = moho.filename := by
    rw [n0, n2]; simp only [String.append_assoc]; rfl
  have e1 : moho.filename ≠ sed.filename := by
    rw [n1, n2]; intro hc
    have := file_cancel.1 hc
    exact absurd this (by decide)
  refine ⟨sed, moho, e, e0, ?_, ?_, ?_, ?_⟩ <;> simp [byName, found, e0, e1, e1.symm]

/-- the sample stream analysed with both methods: one figure is lost -/
example : ∃ r r' fig sed moho,
    hk Sample.env Sample.stream 1 [30, 35] [1.7, 1.8, 1.9] (some ⟨.py, 6.5⟩) none none none none
      (some false) = .ok r ∧
    HkSeqYeck.hkSeq Sample.env Sample.stream Sample.stream 1 [1, 2] [2, 3]
      (some ⟨.py, 3⟩) none none none [30, 35] [17 / 10, 18 / 10] (some ⟨.py, 65 / 10⟩)
      (some (6 / 10)) (some (3 / 10)) (some (1 / 10)) (some false) = .ok r' ∧
    (plothk Sample.env r "fig" none none none).2 = .ok fig ∧
    (HkSeqYeck.plotSeqhk Sample.env r' "fig" none none none).2.1 = [sed, moho] ∧
    found (byName [fig, sed, moho]) "fig/STA_R_Moho.pdf" = some moho := by
  obtain ⟨r, fig, _, h1, h2, _, h3, _⟩ := sample_hk_figure
  obtain ⟨r', h4, _, h5⟩ := sample_seq_figures
  obtain ⟨sed, moho, e, _, h6, _⟩ := c125_hk_seq h1 h4 (tr := Sample.trace [0, 1, 3, 2, 0] 6)
    (tr' := Sample.trace [0, 1, 3, 2, 0] 6) rfl rfl rfl rfl (Or.inl rfl) h2 h5
  exact ⟨r, r', fig, sed, moho, h1, h4, h2, e, h3 ▸ h6⟩

/-- **C125**: the figure of `plothk` for the sediment (layer "Sed") is not touched by `plotSeqhk`,
nor the other way round. -/
theorem c125_hk_seq_sediment {env env' env₁ env₁' : Env F} {st stS stM : List (Trace F)} {pre pre' : F}
    {H K HS KS HM KM : List F}
    {Vp VpS VpM : Option (Scalar F)} {w1 w2 w3 w1S w2S w3S w1M w2M w3M : Option F}
    {stack stack' : Option Bool} {r : HKResult F} {r' : HkSeqYeck.SeqResult F} {tr tr' : Trace F}
    (h : hk env st pre H K Vp w1 w2 w3 (some "Sed") stack = .ok r)
    (h' : HkSeqYeck.hkSeq env' stS stM pre' HS KS VpS w1S w2S w3S HM KM VpM w1M w2M w3M stack' = .ok r')
    (ht : st[0]? = some tr) (ht' : stS[0]? = some tr')
    (hsta : tr.station = tr'.station) (hchan : tr.channel = tr'.channel)
    {savepath : String} {g g' : Option (List F)} {rm rm' : Option Bool} {fmt : Option String}
    {fig : Figure F}
    (hp : (plothk env₁ r savepath g rm fmt).2 = .ok fig)
    (hp' : (HkSeqYeck.plotSeqhk env₁' r' savepath g' rm' fmt).2.2 = .ok ()) :
    ∃ sed moho, (HkSeqYeck.plotSeqhk env₁' r' savepath g' rm' fmt).2.1 = [sed, moho] ∧
      ∀ f ∈ [fig, sed, moho], found (byName [fig, sed, moho]) f.filename = some f ∧
        found (byName [sed, moho, fig]) f.filename = some f := by
  obtain ⟨t0, rest, slows, f⟩ := hk_inv h
  obtain ⟨t0', rest', slows', bm, raw, f'⟩ := hkSeq_inv h'
  rw [f.hst] at ht; cases ht
  rw [f'.hst] at ht'; cases ht'
  obtain ⟨sed, moho, e, n1, n2, _, _⟩ := plotSeqhk_files hp'
  have n0 := (plothk_file hp).1
  rw [f.hsta, f.hcomp, f.hlayer, hsta, hchan] at n0
  rw [f'.hsta, f'.hcomp] at n1 n2
  have n0' : fig.filename = savepath ++ "/" ++ tr'.station ++ "_" ++ tr'.channel ++ "_Sed."
      ++ fmt.getD "pdf" := by rw [n0]; simp only [String.append_assoc]; rfl
  have e1 : moho.filename ≠ sed.filename := by
    rw [n1, n2]; intro hc
    exact absurd (file_cancel.1 hc) (by decide)
  have e2 : fig.filename ≠ sed.filename := by
    rw [n0', n1]; intro hc
    exact absurd (file_cancel.1 hc) (by decide)
  have e3 : fig.filename ≠ moho.filename := by
    rw [n0', n2]; intro hc
    exact absurd (file_cancel.1 hc) (by decide)
  refine ⟨sed, moho, e, ?_⟩
  simp [byName, found, e1, e1.symm, e2, e2.symm, e3, e3.symm]

/-- **C125**: `plothkYu` always uses the same name: in one folder and format every figure replaces
the one before, whatever station it is of. -/
theorem c125_yu {env env' : Env F} {r r' : HkYu.YuResult F} {savepath : String} {g g' : Option (List F)}
    {rm rm' : Option Bool} {fmt : Option String} {fig fig' : Figure F}
    (hp : (HkYu.plothkYu env r savepath g rm fmt).2 = .ok fig)
    (hp' : (HkYu.plothkYu env' r' savepath g' rm' fmt).2 = .ok fig') :
    fig.filename = fig'.filename ∧ found (byName [fig, fig']) fig.filename = some fig' := by
  have e : fig.filename = fig'.filename := by rw [(plothkYu_file hp).1, (plothkYu_file hp').1]
  exact ⟨e, by simp [byName, found, e]⟩

/-- **C125**: figures of synthetic receiver functions are named by the layer only: two of the same
layer replace each other, two of different layers do not. -/
theorem c125_synth {env env' : Env F} {r r' : SynthAnalysis.SynthResult F} {savepath : String}
    {g g' : Option (List F)} {rm rm' : Option Bool} {fmt : Option String} {fig fig' : Figure F}
    (hp : (SynthAnalysis.plothkSynth env r savepath g rm fmt).2 = .ok fig)
    (hp' : (SynthAnalysis.plothkSynth env' r' savepath g' rm' fmt).2 = .ok fig') :
    fig.filename = fig'.filename ↔ r.layer = r'.layer := by
  rw [(plothkSynth_file hp).2.1, (plothkSynth_file hp').2.1]
  refine Iff.trans ?_ (file_cancel (p := savepath ++ "/SynthRF_") (q := "." ++ fmt.getD "pdf"))
  simp only [String.append_assoc]

/-- **C125**: the figures of `plothkSynth` and `plothkSeqSynth` never replace each other; those of two
calls of `plothkSeqSynth` always do. -/
theorem c125_seqSynth {env env' env'' : Env F} {r : SynthAnalysis.SynthResult F}
    {q q' : SynthAnalysis.SeqSynthResult F} {savepath : String}
    {g g' g'' : Option (List F)} {rm rm' rm'' : Option Bool} {fmt : Option String} {fig : Figure F}
    (hp : (SynthAnalysis.plothkSynth env r savepath g rm fmt).2 = .ok fig)
    (hq : (SynthAnalysis.plothkSeqSynth env' q savepath g' rm' fmt).2.2 = .ok ())
    (hq' : (SynthAnalysis.plothkSeqSynth env'' q' savepath g'' rm'' fmt).2.2 = .ok ()) :
    ∃ sed moho sed' moho',
      (SynthAnalysis.plothkSeqSynth env' q savepath g' rm' fmt).2.1 = [sed, moho] ∧
      (SynthAnalysis.plothkSeqSynth env'' q' savepath g'' rm'' fmt).2.1 = [sed', moho'] ∧
      sed.filename = sed'.filename ∧ moho.filename = moho'.filename ∧
      sed.filename ≠ moho.filename ∧
      fig.filename ≠ sed.filename ∧ fig.filename ≠ moho.filename := by
  obtain ⟨s1, m1, e1, n1, n2, _, _⟩ := plothkSeqSynth_files hq
  obtain ⟨s2, m2, e2, n3, n4, _, _⟩ := plothkSeqSynth_files hq'
  obtain ⟨hl, n0, _⟩ := plothkSynth_file hp
  refine ⟨s1, m1, s2, m2, e1, e2, by rw [n1, n3], by rw [n2, n4], ?_, ?_, ?_⟩
  · rw [n1, n2]; intro hc
    exact absurd (file_cancel.1 hc) (by decide)
  · rcases hl with hl | hl
    · have : fig.filename = savepath ++ "/SynthRF_Moho." ++ fmt.getD "pdf" := by
        rw [n0, hl]; simp only [String.append_assoc]; rfl
      rw [this, n1]; intro hc
      exact absurd (file_cancel.1 hc) (by decide)
    · have : fig.filename = savepath ++ "/SynthRF_Sed." ++ fmt.getD "pdf" := by
        rw [n0, hl]; simp only [String.append_assoc]; rfl
      rw [this, n1]; intro hc
      exact absurd (file_cancel.1 hc) (by decide)
  · rcases hl with hl | hl
    · have : fig.filename = savepath ++ "/SynthRF_Moho." ++ fmt.getD "pdf" := by
        rw [n0, hl]; simp only [String.append_assoc]; rfl
      rw [this, n2]; intro hc
      exact absurd (file_cancel.1 hc) (by decide)
    · have : fig.filename = savepath ++ "/SynthRF_Sed." ++ fmt.getD "pdf" := by
        rw [n0, hl]; simp only [String.append_assoc]; rfl
      rw [this, n2]; intro hc
      exact absurd (file_cancel.1 hc) (by decide)

/-- **C125**: the three figures of a resonance-filter result are named without the station: in one
folder and format those of a second result, of real or synthetic data, replace all three. -/
theorem c125_resonance {env : Env ℝ} {R R' : FltResults} (h : Returned R) (h' : Returned R')
    (ht : R.time.length = R.rf.length) (ht' : R'.time.length = R'.rf.length)
    (hs : ∀ f, env.savefig f = .ok ()) (savepath format : String) :
    let one := (ReverbFilter.plotfiltrf env R savepath format).1
    let two := (ReverbFilter.plotfiltrf env R' savepath format).1
    let syn := (SynthAnalysis.plotfiltSynthrf env R' savepath format).1
    one.length = 3 ∧ (one.map LineFig.filename).Nodup ∧
      one.map LineFig.filename = two.map LineFig.filename ∧
      one.map LineFig.filename = syn.map LineFig.filename ∧
      (∀ f ∈ two, found ((one ++ two).map (fun f => (f.filename, f))) f.filename = some f) ∧
      (∀ f ∈ syn, found ((one ++ syn).map (fun f => (f.filename, f))) f.filename = some f) := by
  intro one two syn
  have e1 : one = resonanceFigures R R.staname savepath format := by
    simp only [one, (c67_three_figures h ht hs savepath format).1]
  have e2 : two = resonanceFigures R' R'.staname savepath format := by
    simp only [two, (c67_three_figures h' ht' hs savepath format).1]
  have e3 : syn = resonanceFigures R' "SyntheticRF" savepath format := by
    simp only [syn, (c67_three_figures h' ht' hs savepath format).2]
  have n12 : savepath ++ "/Autocorrelation." ++ format ≠ savepath ++ "/Resonance_Filter." ++ format :=
    fun hc => absurd (file_cancel.1 hc) (by decide)
  have n13 : savepath ++ "/Autocorrelation." ++ format ≠ savepath ++ "/RF_FilteredRF." ++ format :=
    fun hc => absurd (file_cancel.1 hc) (by decide)
  have n23 : savepath ++ "/Resonance_Filter." ++ format ≠ savepath ++ "/RF_FilteredRF." ++ format :=
    fun hc => absurd (file_cancel.1 hc) (by decide)
  have a1 : s!"{savepath}/Autocorrelation.{format}" = savepath ++ "/Autocorrelation." ++ format := rfl
  have a2 : s!"{savepath}/Resonance_Filter.{format}" = savepath ++ "/Resonance_Filter." ++ format := rfl
  have a3 : s!"{savepath}/RF_FilteredRF.{format}" = savepath ++ "/RF_FilteredRF." ++ format := rfl
  rw [e1, e2, e3]
  unfold resonanceFigures
  rw [a1, a2, a3]
  generalize savepath ++ "/Autocorrelation." ++ format = f1 at n12 n13 ⊢
  generalize savepath ++ "/Resonance_Filter." ++ format = f2 at n12 n23 ⊢
  generalize savepath ++ "/RF_FilteredRF." ++ format = f3 at n13 n23 ⊢
  simp [found, n12, n12.symm, n13, n13.symm, n23, n23.symm]

/-- the names of the four figures of the waveform fitting -/
def waveNames (savepath station format : String) : List String :=
  [savepath ++ "/" ++ station ++ "_" ++ "Correlation Coefficient" ++ "." ++ format,
   savepath ++ "/" ++ station ++ "_" ++ "Root-mean-square Error" ++ "." ++ format,
   savepath ++ "/" ++ station ++ "_" ++ "Phase Goodness of Fit" ++ "." ++ format,
   savepath ++ "/" ++ station ++ "_" ++ "Overall Goodness of Fit" ++ "." ++ format]

theorem waveNames_nodup (savepath station format : String) : (waveNames savepath station format).Nodup := by
  have key : ∀ a b : String, a ≠ b →
      savepath ++ "/" ++ station ++ "_" ++ a ++ "." ++ format ≠
        savepath ++ "/" ++ station ++ "_" ++ b ++ "." ++ format := by
    intro a b hab hc
    exact hab ((file_cancel (p := savepath ++ "/" ++ station ++ "_") (q := "." ++ format)).1
      (by simpa only [String.append_assoc] using hc))
  unfold waveNames
  simp only [List.nodup_cons, List.mem_cons, List.not_mem_nil, or_false, not_or, List.nodup_nil,
    and_true, not_false_eq_true]
  refine ⟨⟨key _ _ (by decide), key _ _ (by decide), key _ _ (by decide)⟩,
    ⟨key _ _ (by decide), key _ _ (by decide)⟩, key _ _ (by decide)⟩

/-- the titles end differently, so that a title cannot make up for a different station name -/
theorem waveNames_disjoint {savepath format s t : String} (hst : s ≠ t) {x : String}
    (hx : x ∈ waveNames savepath s format) : x ∉ waveNames savepath t format := by
  have key : ∀ a b : String, savepath ++ "/" ++ s ++ "_" ++ a ++ "." ++ format =
        savepath ++ "/" ++ t ++ "_" ++ b ++ "." ++ format →
      a.toList.reverse ++ '_' :: s.toList.reverse = b.toList.reverse ++ '_' :: t.toList.reverse := by
    intro a b hc
    have h1 := (file_cancel (a := s ++ "_" ++ a) (b := t ++ "_" ++ b) (p := savepath ++ "/")
      (q := "." ++ format)).1 (by simpa only [String.append_assoc] using hc)
    have h2 := congrArg (fun z => z.toList.reverse) h1
    simpa [String.toList_append] using h2
  have hs : s.toList.reverse ≠ t.toList.reverse := fun h =>
    hst (String.ext (by simpa using h))
  have c1 : "Correlation Coefficient".toList.reverse = ['t', 'n', 'e', 'i', 'c', 'i', 'f', 'f', 'e', 'o',
    'C', ' ', 'n', 'o', 'i', 't', 'a', 'l', 'e', 'r', 'r', 'o', 'C'] := by decide
  have c2 : "Root-mean-square Error".toList.reverse = ['r', 'o', 'r', 'r', 'E', ' ', 'e', 'r', 'a', 'u', 'q',
    's', '-', 'n', 'a', 'e', 'm', '-', 't', 'o', 'o', 'R'] := by decide
  have c3 : "Phase Goodness of Fit".toList.reverse = ['t', 'i', 'F', ' ', 'f', 'o', ' ', 's', 's', 'e', 'n',
    'd', 'o', 'o', 'G', ' ', 'e', 's', 'a', 'h', 'P'] := by decide
  have c4 : "Overall Goodness of Fit".toList.reverse = ['t', 'i', 'F', ' ', 'f', 'o', ' ', 's', 's', 'e', 'n',
    'd', 'o', 'o', 'G', ' ', 'l', 'l', 'a', 'r', 'e', 'v', 'O'] := by decide
  intro hy
  unfold waveNames at hx hy
  simp only [List.mem_cons, List.not_mem_nil, or_false] at hx hy
  rcases hx with rfl | rfl | rfl | rfl <;> rcases hy with hy | hy | hy | hy <;>
    replace hy := key _ _ hy <;> simp [c1, c2, c3, c4] at hy <;> exact hst (String.ext hy)

theorem found_nodup {α : Type} (name : α → String) {fs : List α} (hn : (fs.map name).Nodup) {f : α}
    (hf : f ∈ fs) (before : List (String × α)) :
    found (before ++ fs.map (fun f => (name f, f))) (name f) = some f := by
  induction before with
  | cons p pre ih => rw [List.cons_append, found, ih]
  | nil =>
    rw [List.nil_append]
    induction fs with
    | nil => cases hf
    | cons x xs ih =>
      rw [List.map_cons, List.nodup_cons] at hn
      rcases List.mem_cons.1 hf with rfl | hm
      · have hno : found (xs.map (fun f => (name f, f))) (name f) = none := by
          have hx := hn.1
          clear ih hn hf
          induction xs with
          | nil => rfl
          | cons y ys ih2 =>
            simp only [List.map_cons, List.mem_cons, not_or] at hx
            simp [found, ih2 hx.2, Ne.symm hx.1]
        simp [found, hno]
      · simp [found, ih hn.2 hm]

/-- **C125**: the four figures of the waveform fitting have different names, which contain the station;
the serial and the parallel version use the same names, so that in one folder and format the later call
replaces all four figures of the earlier one of the same station, and none of another station. -/
theorem c125_waveform {env env₁ env' env₁' : Waveform.WEnv ℝ} {rfs rfs' : List (Trace ℝ)}
    {pre HSed VpSed VpCrust rayp gaussian wc wr wp : ℝ} {KMoho HMoho : List ℝ}
    {R : Waveform.WResult ℝ} {wc' wr' wp' : ℝ} {savepath format : String} {figs : List (Waveform.Fig ℝ)}
    {pre' HSed' VpSed' VpCrust' rayp' gaussian' : ℝ} {KMoho' HMoho' : List ℝ} {P : Waveform.Para ℝ}
    {res : List (List (Waveform.Crit ℝ))} {vc vr vp : Option ℝ}
    {sols : List (Waveform.Sol ℝ)} {best : Waveform.Best ℝ} {figs' : List (Waveform.Fig ℝ)}
    {tr tr' : Trace ℝ}
    (h : Waveform.WaveformFitting env rfs pre HSed VpSed VpCrust rayp KMoho HMoho gaussian wc wr wp
      = .ok R)
    (hp : Waveform.PlotWaveformFitting env₁ R wc' wr' wp' savepath format = .ok figs)
    (hP : Waveform.WaveformPara env' rfs' pre' HSed' VpSed' VpCrust' rayp' KMoho' HMoho' gaussian' = .ok P)
    (h' : Waveform.plotbestmodel env₁' res P vc vr vp savepath format = .ok (sols, best, figs'))
    (ht : rfs[0]? = some tr) (ht' : rfs'[0]? = some tr') :
    figs.map Waveform.Fig.filename = waveNames savepath tr.station format ∧
    figs'.map Waveform.Fig.filename = waveNames savepath tr'.station format ∧
    (figs.map Waveform.Fig.filename).Nodup ∧
    (tr.station = tr'.station → ∀ f ∈ figs, ∃ f' ∈ figs',
      found ((figs ++ figs').map (fun f => (f.filename, f))) f.filename = some f') ∧
    (tr.station ≠ tr'.station → ∀ f ∈ figs ++ figs',
      found ((figs ++ figs').map (fun f => (f.filename, f))) f.filename = some f) := by
  have four : ∀ {b : Waveform.Best ℝ} {fs : List (Waveform.Fig ℝ)} {t0 : Trace ℝ}
      {Q : String × (Waveform.Sol ℝ → ℝ) × Waveform.Sol ℝ → Waveform.Fig ℝ → Prop},
      List.Forall₂ Q (fourPanels b) fs →
      (∀ p f, Q p f → f.filename = savepath ++ "/" ++ t0.station ++ "_" ++ p.1 ++ "." ++ format) →
      fs.map Waveform.Fig.filename = waveNames savepath t0.station format := by
    intro b fs t0 Q hf hQ
    unfold fourPanels at hf
    rcases hf with _ | ⟨q1, hf⟩
    rcases hf with _ | ⟨q2, hf⟩
    rcases hf with _ | ⟨q3, hf⟩
    rcases hf with _ | ⟨q4, hf⟩
    cases hf
    simp only [List.map_cons, List.map_nil, waveNames, hQ _ _ q1, hQ _ _ q2, hQ _ _ q3, hQ _ _ q4]
  obtain ⟨t0, _, _, _, _, _, _, _, g0, _, _, _, _, _, _, _, hf⟩ := c81_serial h hp
  rw [ht] at g0; cases g0
  obtain ⟨t0, _, _, _, _, _, _, _, g0, _, _, _, _, _, _, _, hf'⟩ := c81_parallel hP h'
  rw [ht'] at g0; cases g0
  have n1 := four hf (t0 := tr) (fun p f hq => hq.1.file)
  have n2 := four hf' (t0 := tr') (fun p f hq => hq.1.file)
  have hnd : (figs'.map Waveform.Fig.filename).Nodup := n2 ▸ waveNames_nodup _ _ _
  have hnd1 : (figs.map Waveform.Fig.filename).Nodup := n1 ▸ waveNames_nodup _ _ _
  refine ⟨n1, n2, hnd1, ?_, ?_⟩
  · intro hs f hf
    have : f.filename ∈ figs'.map Waveform.Fig.filename := by
      rw [n2, ← hs, ← n1]; exact List.mem_map_of_mem hf
    obtain ⟨f', hf', e⟩ := List.mem_map.1 this
    refine ⟨f', hf', ?_⟩
    rw [List.map_append, ← e]
    exact found_nodup _ hnd hf' _
  · intro hs f hf
    have hall : ((figs ++ figs').map Waveform.Fig.filename).Nodup := by
      rw [List.map_append, List.nodup_append]
      refine ⟨hnd1, hnd, ?_⟩
      intro a ha b hb hab
      subst hab
      rw [n1] at ha
      rw [n2] at hb
      exact waveNames_disjoint hs ha hb
    exact found_nodup Waveform.Fig.filename hall hf []

end Rfsed.Props
