import Verif.Props.WaveformRefine
import Verif.Props.WaveformSynth

/-!
# C87, C100, C101 for the parallel waveform fit

Every number of processes and every schedule.
-/

namespace Rfsed.Props
open Rfsed PyFloat Spec Waveform

theorem fillRows_length {α : Type} {z : α} {n : ℕ} {rows all : List α} (h : fillRows z n rows = .ok all) :
    all.length = n := by
  rw [fillRows_eq] at h
  split at h
  · cases Except.ok.inj h
    simp only [List.length_append, List.length_replicate]
    omega
  · cases h

section
variable {env : WEnv ℝ} {rfs : List (Trace ℝ)} {tr0 : Trace ℝ} {S : List (List ℝ)} {sd : List ℝ}
  {preonset HSed VpSed VpCrust rayp gaussian wc wr wp wc' wr' wp' : ℝ} {KMoho HMoho KMoho' HMoho' : List ℝ}

/-- **C100** `WaveformPara` and `run_waveformfitting`: the parameters can be prepared and, whatever the schedule, every
depth gets its results, exactly when some sample of the first trace is at time zero and every model of the grid can
be judged. -/
theorem c100_parallel {nproc : ℕ} (hn : 0 < nproc) (hK : KMoho ≠ []) (hH : HMoho ≠ [])
    (h0 : rfs[0]? = some tr0) (hd : 0 < tr0.delta) (hS : env.stackR rfs = .ok S) (hsd : S[0]? = some sd) :
    (∃ P, WaveformPara env rfs preonset HSed VpSed VpCrust rayp KMoho HMoho gaussian = .ok P ∧
        ∀ out, RunWaveformfitting env nproc HMoho P out →
          ∃ res : List (List (Crit ℝ)), out = .ok (res.map some) ∧ res.length = HMoho.length) ↔
      (∃ i < tr0.data.length, tr0.delta * (i : ℝ) = preonset) ∧
      ∀ H ∈ HMoho, ∀ K ∈ KMoho,
        Judgeable env HSed VpSed VpCrust rayp tr0.delta preonset gaussian sd H K := by
  have hser := c100_succeeds_iff (preonset := preonset) (HSed := HSed) (VpSed := VpSed) (VpCrust := VpCrust)
    (rayp := rayp) (gaussian := gaussian) (KMoho := KMoho) (HMoho := HMoho) 0 0 0 h0 hd hS hsd
  constructor
  · rintro ⟨P, hP, hall⟩
    obtain ⟨out, log, hrun⟩ := c46_has_outcome nproc (WaveformFit_multiproc env P) HMoho
    obtain ⟨res, rfl, _⟩ := hall out ⟨log, hrun⟩
    obtain ⟨R, hR⟩ := c37_converse 0 0 0 hn hK hH hP ⟨log, hrun⟩
    obtain ⟨a, -, -, b⟩ := hser.1 ⟨R, hR⟩
    exact ⟨a, b⟩
  · rintro ⟨a, b⟩
    obtain ⟨R, hR⟩ := hser.2 ⟨a, hK, hH, b⟩
    obtain ⟨P, all, sols, best, hP, -⟩ := WaveformFitting_ok hR
    rw [← WaveformPara_eq] at hP
    refine ⟨P, hP, fun out hout => ?_⟩
    obtain ⟨res, e, hl, -⟩ := c37_same_criteria hn hR hP hout
    exact ⟨res, e, hl⟩

/-- **C100** the end of the parallel pipeline: once the depths have their results, `plotbestmodel` succeeds, on any
numbers, NaNs included, with all its weights given or not, if the first trace has an onset and the figures can be
drawn. -/
theorem c100_parallel_plotted {F : Type} [PyFloat F] [PyTrunc F] [IEEEOrder F] {env : WEnv F} {rfs : List (Trace F)}
    {tr0 : Trace F} {preonset HSed VpSed VpCrust rayp gaussian onset : F} {KMoho HMoho : List F} {P : Para F}
    {nproc : ℕ} {res : List (List (Crit F))} (wc wr wp : Option F) (savepath format : String) (hn : 0 < nproc)
    (hK : KMoho ≠ []) (hH : HMoho ≠ [])
    (hP : WaveformPara env rfs preonset HSed VpSed VpCrust rayp KMoho HMoho gaussian = .ok P)
    (hrun : RunWaveformfitting env nproc HMoho P (.ok (res.map some)))
    (h0 : rfs[0]? = some tr0) (ho : tr0.getOnset = .ok onset) (hd : ∀ fig, env.draw fig = .ok ()) :
    ∃ sols best figs, plotbestmodel env res P wc wr wp savepath format = .ok (sols, best, figs) := by
  have hm : HMoho.mapM (fun h => WaveformFit_multiproc env P h) = .ok res := by
    cases hm : HMoho.mapM (fun h => WaveformFit_multiproc env P h) with
    | error e =>
      obtain ⟨e', he'⟩ := (parallel_results hn hrun).2 e hm
      cases he'
    | ok res' =>
      have := (parallel_results hn hrun).1 res' hm
      rw [List.map_injective_iff.2 (Option.some_injective _) (Except.ok.inj this)]
  rw [WaveformPara_eq] at hP
  obtain ⟨tr0', S, sd, z, e, h0', hS, hsd, -, -, -, -, hPe⟩ := prepare_ok hP
  rw [h0] at h0'
  cases h0'
  have hf := flatten_results hm
  have hcount : res.flatten.length = P.HMoho.length * P.KMoho.length := by
    rw [mapM_length hf, length_flatMap_map, hPe]
  have hne : res.flatten ≠ [] := by
    intro hc
    rw [hc, hPe] at hcount
    simp only [List.length_nil] at hcount
    rcases Nat.mul_eq_zero.1 hcount.symm with a | a
    · exact hH (List.length_eq_zero_iff.1 a)
    · exact hK (List.length_eq_zero_iff.1 a)
  obtain ⟨sols, hs⟩ := normalise_total (F := F) (wc.getD (dec 4 1)) (wr.getD (dec 4 1)) (wp.getD (dec 2 1)) hne
  have hsne : sols ≠ [] := by
    obtain ⟨_, _, _, _, _, _, rfl⟩ := normalise_ok hs
    simpa using hne
  obtain ⟨best, hb⟩ := bestModels_total hsne
  have ht : tabulate res P wc wr wp = .ok (sols, best) := by
    rw [tabulate_eq, ← hcount, fillRows_self, except_ok_bind, hs, except_ok_bind, hb]; rfl
  have hcrit : sols.map critOf = res.flatten := by
    obtain ⟨mc, mr, mp, _, _, _, rfl⟩ := normalise_ok hs
    rw [List.map_map]
    conv_rhs => rw [← List.map_id res.flatten]
    exact List.map_congr_left (fun c _ => rfl)
  have hsyn : ∀ s ∈ sols, ∃ y, env.synthRF (synthArgs P.HSed P.VpSed P.VsSed P.SedDen P.VpCrust P.CrustDen
      P.rayp P.delta P.preonset P.gaussian P.n s.h s.k) = .ok y := by
    intro s hsm
    have hc : critOf s ∈ res.flatten := by rw [← hcrit]; exact List.mem_map_of_mem hsm
    obtain ⟨⟨H, K⟩, -, hg⟩ := mapM_ok_mem_out hf hc
    obtain ⟨e1, e2⟩ := gridPoint_hk hg
    unfold gridPoint at hg
    obtain ⟨y, hy, -⟩ := bind_eq_ok.1 hg
    have e1' : s.h = H := e1
    have e2' : s.k = K := e2
    rw [e1', e2']
    exact ⟨y, hy⟩
  have hbm : ∀ q ∈ panels best, q.2.2 ∈ sols := by
    obtain ⟨_, _, _, _, _, b1, _, b2, _, b3, _, b4⟩ := bestModels_ok hb
    intro q hq
    simp only [panels, List.mem_cons, List.not_mem_nil, or_false] at hq
    rcases hq with rfl | rfl | rfl | rfl
    · exact List.mem_of_getElem? b1
    · exact List.mem_of_getElem? b2
    · exact List.mem_of_getElem? b3
    · exact List.mem_of_getElem? b4
  obtain ⟨m1, hm1⟩ := pyMin_ok (F := F) (xs := KMoho) hK
  obtain ⟨m2, hm2⟩ := pyMax_ok (F := F) (xs := KMoho) hK
  obtain ⟨m3, hm3⟩ := pyMin_ok (F := F) (xs := HMoho) hH
  obtain ⟨m4, hm4⟩ := pyMax_ok (F := F) (xs := HMoho) hH
  have hfig : ∀ q ∈ panels best, ∃ f, (do
      let minVpVs ← pyMin P.KMoho
      let maxVpVs ← pyMax P.KMoho
      let minMoho ← pyMin P.HMoho
      let maxMoho ← pyMax P.HMoho
      plotOne env P.rfstream P.staname P.HSed P.VpSed P.VsSed P.SedDen P.VpCrust P.CrustDen P.rayp
        P.gaussian P.preonset (minMoho, maxMoho) (minVpVs, maxVpVs) sols q.1 q.2.1 q.2.2
        savepath format) = Except.ok f := by
    intro q hq
    obtain ⟨y, hy⟩ := hsyn _ (hbm q hq)
    subst hPe
    simp only at hy ⊢
    simp only [hm1, hm2, hm3, hm4, except_ok_bind, plotOne, item_ok.2 h0, ho, hS, item_ok.2 hsd, hy, hd]
    exact ⟨_, rfl⟩
  obtain ⟨figs, hfs⟩ := mapM_ok_of_forall hfig
  refine ⟨sols, best, figs, ?_⟩
  unfold plotbestmodel
  rw [ht, except_ok_bind]
  simp only
  rw [hfs]
  rfl

/-- **C100** after a serial fit its figures can be drawn, if the onset of the first trace is `preonset` after its
start and the drawing itself does not fail. -/
theorem c100_plotted {onset : ℝ} {R : WResult ℝ} (wc' wr' wp' : ℝ) (savepath format : String)
    (h : WaveformFitting env rfs preonset HSed VpSed VpCrust rayp KMoho HMoho gaussian wc wr wp = .ok R)
    (h0 : rfs[0]? = some tr0) (ho : tr0.getOnset = .ok onset) (hon : |tr0.starttime - onset| = |preonset|)
    (hd : ∀ fig, env.draw fig = .ok ()) :
    ∃ figs, PlotWaveformFitting env R wc' wr' wp' savepath format = .ok figs ∧ figs.length = 4 := by
  obtain ⟨P, all, sols, best, hP, ha, hs, hb, rfl⟩ := WaveformFitting_ok h
  obtain ⟨tr0', S, sd, z, e, h0', hS, hsd, hlen, -, -, -, hPe⟩ := prepare_ok hP
  rw [h0] at h0'
  cases h0'
  have hne : all ≠ [] := by
    rintro rfl
    rw [normalise_nil] at hs
    cases hs
  have hcnt := mapM_length ha
  have hK : KMoho ≠ [] := by
    rintro rfl
    exact hne (List.length_eq_zero_iff.1 (by rw [hcnt]; rfl))
  have hH : HMoho ≠ [] := by
    rintro rfl
    exact hne (List.length_eq_zero_iff.1 (by rw [hcnt, length_flatMap_map]; simp))
  have hcrit : sols.map critOf = all := by
    obtain ⟨mc, mr, mp, _, _, _, rfl⟩ := normalise_ok hs
    rw [List.map_map]
    conv_rhs => rw [← List.map_id all]
    exact List.map_congr_left (fun c _ => rfl)
  have hsyn : ∀ s ∈ sols, ∃ y, env.synthRF (synthArgs P.HSed P.VpSed P.VsSed P.SedDen P.VpCrust P.CrustDen
      P.rayp P.delta P.preonset P.gaussian P.n s.h s.k) = .ok y := by
    intro s hsm
    have hc : critOf s ∈ all := by rw [← hcrit]; exact List.mem_map_of_mem hsm
    obtain ⟨⟨H, K⟩, -, hg⟩ := mapM_ok_mem_out ha hc
    obtain ⟨e1, e2⟩ := gridPoint_hk hg
    unfold gridPoint at hg
    obtain ⟨y, hy, -⟩ := bind_eq_ok.1 hg
    have e1' : s.h = H := e1
    have e2' : s.k = K := e2
    rw [e1', e2']
    exact ⟨y, hy⟩
  have hbm : ∀ q ∈ panels best, q.2.2 ∈ sols := by
    obtain ⟨_, _, _, _, _, b1, _, b2, _, b3, _, b4⟩ := bestModels_ok hb
    intro q hq
    simp only [panels, List.mem_cons, List.not_mem_nil, or_false] at hq
    rcases hq with rfl | rfl | rfl | rfl
    · exact List.mem_of_getElem? b1
    · exact List.mem_of_getElem? b2
    · exact List.mem_of_getElem? b3
    · exact List.mem_of_getElem? b4
  have first : ∀ {xs : List ℝ}, xs ≠ [] → ∃ x, item xs 0 = .ok x := fun {xs} hx =>
    ⟨_, item_ok.2 (List.getElem?_eq_getElem (List.length_pos_iff.2 hx))⟩
  obtain ⟨m1, hm1⟩ := first hH
  obtain ⟨m2, hm2⟩ := first (xs := HMoho.reverse) (by simpa using hH)
  obtain ⟨m3, hm3⟩ := first hK
  obtain ⟨m4, hm4⟩ := first (xs := KMoho.reverse) (by simpa using hK)
  have ht0 : item ((List.range tr0.data.length).map
      (fun i : Nat => ofNat i * tr0.delta + (tr0.starttime - onset))) 0 = .ok (tr0.starttime - onset) := by
    rw [item_ok, List.getElem?_map, List.getElem?_range hlen]
    simp
  have hon' : (PyFloat.abs (tr0.starttime - onset) : ℝ) = PyFloat.abs (tr0.delta * ofNat 0 - preonset) := by
    have e0 : (ofNat 0 : ℝ) = 0 := by simp
    rw [e0, mul_zero, zero_sub]
    show |tr0.starttime - onset| = |-preonset|
    rw [hon, abs_neg]
  have hfig : ∀ q ∈ panels best, ∃ f, (do
      let minMoho ← item HMoho 0
      let maxMoho ← item HMoho.reverse 0
      let minVpVs ← item KMoho 0
      let maxVpVs ← item KMoho.reverse 0
      let onset ← tr0.getOnset
      let b := tr0.starttime - onset
      let t := (List.range tr0.data.length).map (fun i : Nat => ofNat i * tr0.delta + b)
      let t0 ← item t 0
      let preonset := PyFloat.abs t0
      plotOne env rfs tr0.station HSed VpSed (vsOf VpSed) (rhoOf VpSed) VpCrust
        (rhoOf VpCrust) rayp gaussian preonset (minMoho, maxMoho) (minVpVs, maxVpVs)
        sols q.1 q.2.1 q.2.2 savepath format) = Except.ok f := by
    intro q hq
    obtain ⟨y, hy⟩ := hsyn _ (hbm q hq)
    subst hPe
    simp only at hy ⊢
    simp only [hm1, hm2, hm3, hm4, except_ok_bind, plotOne, item_ok.2 h0, ho, hS, item_ok.2 hsd, ht0, hon', hy, hd]
    exact ⟨_, rfl⟩
  obtain ⟨figs, hfs⟩ := mapM_ok_of_forall hfig
  refine ⟨figs, ?_, by rw [mapM_length hfs]; rfl⟩
  unfold PlotWaveformFitting
  simp only [item_ok.2 h0, except_ok_bind, hb]
  exact hfs

/-- the parallel pipeline: parameters, run, table -/
structure ParallelFit (env : WEnv ℝ) (rfs : List (Trace ℝ)) (preonset HSed VpSed VpCrust rayp : ℝ)
    (KMoho HMoho : List ℝ) (gaussian : ℝ) (nproc : ℕ) (wc wr wp : ℝ) (sols : List (Sol ℝ)) (best : Best ℝ) : Prop where
  hn : 0 < nproc
  run : ∃ P res savepath format figs,
    WaveformPara env rfs preonset HSed VpSed VpCrust rayp KMoho HMoho gaussian = .ok P ∧
    RunWaveformfitting env nproc HMoho P (.ok (res.map some)) ∧
    plotbestmodel env res P (some wc) (some wr) (some wp) savepath format = .ok (sols, best, figs)

/-- what the parallel pipeline reports is what the serial function reports, in another order -/
theorem parallelFit_serial {nproc : ℕ} {sols : List (Sol ℝ)} {best : Best ℝ}
    (h : ParallelFit env rfs preonset HSed VpSed VpCrust rayp KMoho HMoho gaussian nproc wc wr wp sols best) :
    ∃ R, WaveformFitting env rfs preonset HSed VpSed VpCrust rayp KMoho HMoho gaussian wc wr wp = .ok R ∧
      sols.Perm R.WaveformSolutions ∧ bestModels sols = .ok best := by
  obtain ⟨hn, P, res, savepath, format, figs, hP, hrun, hplot⟩ := h
  obtain ⟨all, ha, hso, hb⟩ := plotbestmodel_ok hplot
  have hPe : P.HMoho = HMoho ∧ P.KMoho = KMoho := by
    have hP' := hP
    rw [WaveformPara_eq] at hP'
    obtain ⟨_, _, _, _, _, _, _, _, _, _, _, _, rfl⟩ := prepare_ok hP'; exact ⟨rfl, rfl⟩
  have hlen : all.length = HMoho.length * KMoho.length := by
    rw [← hPe.1, ← hPe.2]; exact fillRows_length ha
  have hne : all ≠ [] := by
    rintro rfl
    rw [normalise_nil] at hso
    cases hso
  have hK : KMoho ≠ [] := by rintro rfl; simp at hlen; exact hne hlen
  have hH : HMoho ≠ [] := by rintro rfl; simp at hlen; exact hne hlen
  obtain ⟨R, hR⟩ := c37_converse wc wr wp hn hK hH hP hrun
  exact ⟨R, hR, (c37_same_best hn hR hP hrun hplot).1, hb⟩

/-- **C101** the parallel pipeline on a larger grid: the values of the old models stay. -/
theorem c101_parallel_values {n n' : ℕ} {sols sols' : List (Sol ℝ)} {best best' : Best ℝ}
    (hK : KMoho ⊆ KMoho') (hH : HMoho ⊆ HMoho')
    (h : ParallelFit env rfs preonset HSed VpSed VpCrust rayp KMoho HMoho gaussian n wc wr wp sols best)
    (h' : ParallelFit env rfs preonset HSed VpSed VpCrust rayp KMoho' HMoho' gaussian n' wc' wr' wp' sols' best') :
    ∀ v, v ∈ sols.map judged ↔ v ∈ sols'.map judged ∧ v.1 ∈ HMoho ∧ v.2.1 ∈ KMoho := by
  obtain ⟨R, hR, hp, -⟩ := parallelFit_serial h
  obtain ⟨R', hR', hp', -⟩ := parallelFit_serial h'
  intro v
  rw [(hp.map judged).mem_iff, (hp'.map judged).mem_iff]
  exact c101_same_values hK hH hR hR' v

/-- **C101** the parallel pipeline on a larger grid: the best values get no worse, and stay if the best model lies on
the old grid. -/
theorem c101_parallel_best {n n' : ℕ} {sols sols' : List (Sol ℝ)} {best best' : Best ℝ}
    (hK : KMoho ⊆ KMoho') (hH : HMoho ⊆ HMoho')
    (h : ParallelFit env rfs preonset HSed VpSed VpCrust rayp KMoho HMoho gaussian n wc wr wp sols best)
    (h' : ParallelFit env rfs preonset HSed VpSed VpCrust rayp KMoho' HMoho' gaussian n' wc' wr' wp' sols' best') :
    best.corr.corr ≤ best'.corr.corr ∧ best'.rmse.rmse ≤ best.rmse.rmse ∧ best.pg.pg ≤ best'.pg.pg ∧
    (best'.corr.h ∈ HMoho → best'.corr.k ∈ KMoho → best'.corr.corr = best.corr.corr) ∧
    (best'.rmse.h ∈ HMoho → best'.rmse.k ∈ KMoho → best'.rmse.rmse = best.rmse.rmse) ∧
    (best'.pg.h ∈ HMoho → best'.pg.k ∈ KMoho → best'.pg.pg = best.pg.pg) := by
  have hv := c101_parallel_values hK hH h h'
  obtain ⟨-, -, -, hb⟩ := parallelFit_serial h
  obtain ⟨-, -, -, hb'⟩ := parallelFit_serial h'
  have fwd : ∀ s ∈ sols, ∃ s' ∈ sols', judged s' = judged s := fun s hs =>
    List.mem_map.1 ((hv (judged s)).1 (List.mem_map_of_mem hs)).1
  have bwd : ∀ s' ∈ sols', s'.h ∈ HMoho → s'.k ∈ KMoho → ∃ s ∈ sols, judged s = judged s' := fun s hs a b =>
    List.mem_map.1 ((hv (judged s)).2 ⟨List.mem_map_of_mem hs, a, b⟩)
  obtain ⟨⟨c1, c2⟩, ⟨r1, r2⟩, ⟨p1, p2⟩, _⟩ := best_four hb
  obtain ⟨⟨c1', c2'⟩, ⟨r1', r2'⟩, ⟨p1', p2'⟩, _⟩ := best_four hb'
  simp only [judged, Prod.mk.injEq] at fwd bwd
  have A : best.corr.corr ≤ best'.corr.corr := by
    obtain ⟨s', hs', e⟩ := fwd _ c1
    rw [← e.2.2.1]; exact c2' _ hs'
  have B : best'.rmse.rmse ≤ best.rmse.rmse := by
    obtain ⟨s', hs', e⟩ := fwd _ r1
    rw [← e.2.2.2.1]; exact r2' _ hs'
  have C : best.pg.pg ≤ best'.pg.pg := by
    obtain ⟨s', hs', e⟩ := fwd _ p1
    rw [← e.2.2.2.2]; exact p2' _ hs'
  refine ⟨A, B, C, fun x y => ?_, fun x y => ?_, fun x y => ?_⟩
  · obtain ⟨s, hs, e⟩ := bwd _ c1' x y
    exact le_antisymm (by rw [← e.2.2.1]; exact c2 _ hs) A
  · obtain ⟨s, hs, e⟩ := bwd _ r1' x y
    exact le_antisymm B (by rw [← e.2.2.2.1]; exact r2 _ hs)
  · obtain ⟨s, hs, e⟩ := bwd _ p1' x y
    exact le_antisymm (by rw [← e.2.2.2.2]; exact p2 _ hs) C

/-- **C101** the parallel pipeline: if the new models exceed none of the three largest values, all old rows stay,
with their overall goodness of fit. -/
theorem c101_parallel_gof {n n' : ℕ} {sols sols' : List (Sol ℝ)} {best best' : Best ℝ}
    (hK : KMoho ⊆ KMoho') (hH : HMoho ⊆ HMoho')
    (h : ParallelFit env rfs preonset HSed VpSed VpCrust rayp KMoho HMoho gaussian n wc wr wp sols best)
    (h' : ParallelFit env rfs preonset HSed VpSed VpCrust rayp KMoho' HMoho' gaussian n' wc wr wp sols' best')
    (hc : ∀ s' ∈ sols', ∃ s ∈ sols, s'.corr ≤ s.corr) (hr : ∀ s' ∈ sols', ∃ s ∈ sols, s'.rmse ≤ s.rmse)
    (hp : ∀ s' ∈ sols', ∃ s ∈ sols, s'.pg ≤ s.pg) : ∀ s ∈ sols, s ∈ sols' := by
  obtain ⟨R, hR, hq, -⟩ := parallelFit_serial h
  obtain ⟨R', hR', hq', -⟩ := parallelFit_serial h'
  have tr : ∀ {f : Sol ℝ → ℝ}, (∀ s' ∈ sols', ∃ s ∈ sols, f s' ≤ f s) →
      ∀ s' ∈ R'.WaveformSolutions, ∃ s ∈ R.WaveformSolutions, f s' ≤ f s := by
    intro f hf s' hs'
    obtain ⟨s, hs, e⟩ := hf s' (hq'.mem_iff.2 hs')
    exact ⟨s, hq.mem_iff.1 hs, e⟩
  intro s hs
  exact hq'.mem_iff.2 (c101_same_gof hK hH hR hR' (tr hc) (tr hr) (tr hp) s (hq.mem_iff.1 hs))

end

/-- The hypotheses of the theorems of C100 and C101 are met: two grids of depths, fitted with two and three processes
under some schedule. -/
example : ∃ (sols sols' : List (Sol ℝ)) (best best' : Best ℝ),
    ParallelFit vEnv [wTraceOf 0 1 2] 0 1 2 6 (6/100) [2] [30, 40] 1 2 (1/2) (1/2) 0 sols best ∧
    ParallelFit vEnv [wTraceOf 0 1 2] 0 1 2 6 (6/100) [2] [30, 40, 50] 1 3 (1/2) (1/2) 0 sols' best' ∧
    best.corr.corr ≤ best'.corr.corr := by
  have ok : ∀ H : List ℝ, H ≠ [] → ∀ n, 0 < n → ∃ sols best,
      ParallelFit vEnv [wTraceOf 0 1 2] 0 1 2 6 (6/100) [2] H 1 n (1/2) (1/2) 0 sols best := by
    intro H hH n hn
    obtain ⟨R, hR⟩ := (wRunOf (env := vEnv) (K := [2]) (H := H) 0 1 2 (1/2) (1/2) 0 (by simp) hH
      (fun _ => rfl) vEnv_three (fun _ _ _ => ⟨1, rfl⟩)).1
    obtain ⟨P, -, -, -, hP, -⟩ := WaveformFitting_ok hR
    rw [← WaveformPara_eq] at hP
    obtain ⟨out, log, hout⟩ := c46_has_outcome n (WaveformFit_multiproc vEnv P) H
    obtain ⟨res, rfl, -, -⟩ := c37_same_criteria hn hR hP ⟨log, hout⟩
    obtain ⟨sols, best, figs, hplot⟩ := c100_parallel_plotted (some (1/2)) (some (1/2)) (some 0) "out" "pdf" hn
      (by simp) hH hP ⟨log, hout⟩ rfl rfl (fun _ => rfl)
    exact ⟨sols, best, hn, P, res, "out", "pdf", figs, hP, ⟨log, hout⟩, hplot⟩
  obtain ⟨sols, best, h⟩ := ok [30, 40] (by simp) 2 (by norm_num)
  obtain ⟨sols', best', h'⟩ := ok [30, 40, 50] (by simp) 3 (by norm_num)
  exact ⟨sols, sols', best, best', h, h', (c101_parallel_best (by simp) (by simp) h h').1⟩

/-! ## C87 -/

/-- a table in which all models have the same criteria, the correlation being NaN: the first row is reported -/
theorem all_same_first {sols : List (Sol NReal)} {best : Best NReal} {wc wr wp : NReal}
    (hprod : Produced sols best wc wr wp) {rm q : NReal}
    (hall : ∀ s ∈ sols, s.corr = .nan ∧ s.rmse = rm ∧ s.pg = q) {s0 : Sol NReal} (hs0 : sols[0]? = some s0) :
    (∀ s ∈ sols, s.gof = .nan) ∧ best.corr = s0 ∧ best.rmse = s0 ∧ best.pg = s0 ∧ best.gof = s0 := by
  have hgof : ∀ s ∈ sols, s.gof = .nan := by
    intro s hs
    have := (c69_first_nan hprod (s0 := s0) hs0
      (.inl (by rw [(hall s0 (List.mem_of_getElem? hs0)).1]; rfl))).1 s hs
    cases hg : s.gof with
    | nan => rfl
    | num x => rw [hg] at this; cases this
  have hmx : ∀ {col : Sol NReal → NReal} {b : Sol NReal}, IsBestBy IsFirstMax col sols b →
      (∀ s ∈ sols, ∀ s' ∈ sols, col s = col s') → b = s0 := by
    rintro col b ⟨i, hi, hh⟩ hc
    have : i = 0 := firstMax_const (xs := sols.map col) (by
      intro a ha b hb
      obtain ⟨s, hs, rfl⟩ := List.mem_map.1 ha
      obtain ⟨s', hs', rfl⟩ := List.mem_map.1 hb
      exact hc s hs s' hs') hh
    rw [this, hs0] at hi
    exact (Option.some.inj hi).symm
  have hmn : ∀ {col : Sol NReal → NReal} {b : Sol NReal}, IsBestBy IsFirstMin col sols b →
      (∀ s ∈ sols, ∀ s' ∈ sols, col s = col s') → b = s0 := by
    rintro col b ⟨i, hi, hh⟩ hc
    have : i = 0 := firstMin_const (xs := sols.map col) (by
      intro a ha b hb
      obtain ⟨s, hs, rfl⟩ := List.mem_map.1 ha
      obtain ⟨s', hs', rfl⟩ := List.mem_map.1 hb
      exact hc s hs s' hs') hh
    rw [this, hs0] at hi
    exact (Option.some.inj hi).symm
  obtain ⟨b1, b2, b3, b4⟩ := c71_best hprod
  exact ⟨hgof, hmx b1 (fun s hs s' hs' => by rw [(hall s hs).1, (hall s' hs').1]),
    hmn b2 (fun s hs s' hs' => by rw [(hall s hs).2.1, (hall s' hs').2.1]),
    hmx b3 (fun s hs s' hs' => by rw [(hall s hs).2.2, (hall s' hs').2.2]),
    hmx b4 (fun s hs s' hs' => by rw [hgof s hs, hgof s' hs'])⟩

variable {HSed VpSed VpCrust p δ preonset gaussian : ℝ} {bp : Synrf.Bandpass} {f : ℝ → List ℝ → List ℝ}

/-- **C87** the parallel version: too large a slowness is not noticed there either, for every number of processes and
schedule. -/
theorem c87_parallel {stackR : List (Trace NReal) → Except PyErr (List (List NReal))}
    {pg : List NReal → List NReal → NReal → Except PyErr NReal} {draw : Fig NReal → Except PyErr Unit}
    {other : SynthArgs NReal → Except PyErr (List NReal)}
    {rfs : List (Trace NReal)} {tr0 : Trace NReal} {KMoho HMoho : List ℝ} {wc wr wp : NReal}
    {S : List (List NReal)} {sd : List NReal} {P : Para NReal} {nproc : ℕ} {res : List (List (Crit NReal))}
    {savepath format : String} {sols : List (Sol NReal)} {best : Best NReal} {figs : List (Fig NReal)} (hnp : 0 < nproc)
    (hP : WaveformPara ⟨stackR, synthData bp other, pg, draw⟩ rfs (.num preonset) (.num HSed) (.num VpSed)
      (.num VpCrust) (.num p) (KMoho.map .num) (HMoho.map .num) (.num gaussian) = .ok P)
    (hrun : RunWaveformfitting ⟨stackR, synthData bp other, pg, draw⟩ nproc (HMoho.map .num) P (.ok (res.map some)))
    (hplot : plotbestmodel ⟨stackR, synthData bp other, pg, draw⟩ res P (some wc) (some wr) (some wp) savepath format
      = .ok (sols, best, figs))
    (h0 : rfs[0]? = some tr0) (hδ : tr0.delta = .num δ) (hS : stackR rfs = .ok S) (hsd : S[0]? = some sd)
    (hn : 3 ≤ sd.length)
    (hbp : ∀ d x, bp fitBand d x = .ok (f d x)) (hlen : ∀ d x, (f d x).length = x.length)
    (hv1 : 0 < VpSed) (hv2 : 0 < vsPoly VpSed) (hv3 : 0 < rhoPoly VpSed) (hv4 : 0 < VpCrust)
    (hv5 : 0 < rhoPoly VpCrust) (hK : ∀ k ∈ KMoho, 0 < k)
    (hpost : 1 / VpSed ≤ |p| ∨ 1 / VpCrust ≤ |p| ∨ 1 / 8.045 ≤ |p|) :
    (∀ s ∈ sols, s.corr = .nan ∧ s.gof = .nan) ∧
    (∀ s ∈ sols, ∀ s' ∈ sols, s.rmse = s'.rmse ∧ s.pg = s'.pg) ∧
    ∀ H K, HMoho[0]? = some H → KMoho[0]? = some K →
      (best.corr.h, best.corr.k) = (.num H, .num K) ∧ (best.rmse.h, best.rmse.k) = (.num H, .num K) ∧
      (best.pg.h, best.pg.k) = (.num H, .num K) ∧ (best.gof.h, best.gof.k) = (.num H, .num K) := by
  have hprod : Produced sols best wc wr wp := .inr ⟨_, res, P, savepath, format, figs, hplot⟩
  obtain ⟨all, ha, hso, hb⟩ := plotbestmodel_ok hplot
  have hPe : P.HMoho = HMoho.map .num ∧ P.KMoho = KMoho.map .num := by
    have hP' := hP
    rw [WaveformPara_eq] at hP'
    obtain ⟨_, _, _, _, _, _, _, _, _, _, _, _, rfl⟩ := prepare_ok hP'; exact ⟨rfl, rfl⟩
  have hl : all.length = HMoho.length * KMoho.length := by
    have := fillRows_length ha
    rw [hPe.1, hPe.2, List.length_map, List.length_map] at this
    exact this
  have hne : all ≠ [] := by
    rintro rfl
    rw [normalise_nil] at hso
    cases hso
  have hKn : KMoho ≠ [] := by rintro rfl; simp at hl; exact hne hl
  have hHn : HMoho ≠ [] := by rintro rfl; simp at hl; exact hne hl
  obtain ⟨R, hR⟩ := c37_converse wc wr wp hnp (by simpa using hKn) (by simpa using hHn) hP hrun
  obtain ⟨hc1, hc2, -⟩ := c87_postcritical hR h0 hδ hS hsd hn hbp hlen hv1 hv2 hv3 hv4 hv5 hK hpost
  obtain ⟨res', hr, -, hperm⟩ := c37_same_criteria hnp hR hP hrun
  have hrr : res = res' := List.map_injective_iff.2 (Option.some_injective _) (Except.ok.inj hr)
  subst hrr
  -- the rows, one per model
  have hm : (HMoho.map NReal.num).mapM (fun h => WaveformFit_multiproc ⟨stackR, synthData bp other, pg, draw⟩ P h)
      = .ok res := by
    cases hm : (HMoho.map NReal.num).mapM (fun h => WaveformFit_multiproc ⟨stackR, synthData bp other, pg, draw⟩ P h) with
    | error e =>
      obtain ⟨e', he'⟩ := (parallel_results hnp hrun).2 e hm
      cases he'
    | ok res' =>
      have := (parallel_results hnp hrun).1 res' hm
      rw [List.map_injective_iff.2 (Option.some_injective _) (Except.ok.inj this)]
  have hf := flatten_results hm
  rw [hPe.2] at hf
  have hcount : res.flatten.length = HMoho.length * KMoho.length := by
    rw [mapM_length hf, length_flatMap_map, List.length_map, List.length_map]
  rw [hPe.1, hPe.2, List.length_map, List.length_map, ← hcount, fillRows_self] at ha
  cases Except.ok.inj ha
  simp only [Option.getD_some] at hso
  have hcrit : sols.map critOf = res.flatten := by
    obtain ⟨mc, mr, mp, _, _, _, rfl⟩ := normalise_ok hso
    rw [List.map_map]
    conv_rhs => rw [← List.map_id res.flatten]
    exact List.map_congr_left (fun c _ => rfl)
  have hcor : ∀ s ∈ sols, ∃ s' ∈ R.WaveformSolutions, critOf s' = critOf s := by
    intro s hs
    have : critOf s ∈ R.WaveformSolutions.map critOf := by
      rw [← hperm.mem_iff, ← hcrit]; exact List.mem_map_of_mem hs
    exact List.mem_map.1 this
  have hcorr : ∀ s ∈ sols, s.corr = .nan := by
    intro s hs
    obtain ⟨s', hs', e⟩ := hcor s hs
    have := congrArg Crit.corr e
    exact this.symm.trans (hc1 s' hs').1
  have hsame : ∀ s ∈ sols, ∀ s' ∈ sols, s.rmse = s'.rmse ∧ s.pg = s'.pg := by
    intro s hs t ht
    obtain ⟨s', hs', e⟩ := hcor s hs
    obtain ⟨t', ht', e'⟩ := hcor t ht
    obtain ⟨q1, q2⟩ := hc2 s' hs' t' ht'
    exact ⟨(congrArg Crit.rmse e).symm.trans (q1.trans (congrArg Crit.rmse e')),
      (congrArg Crit.pg e).symm.trans (q2.trans (congrArg Crit.pg e'))⟩
  obtain ⟨H0, Hs, rfl⟩ := List.exists_cons_of_ne_nil hHn
  obtain ⟨K0, Ks, rfl⟩ := List.exists_cons_of_ne_nil hKn
  obtain ⟨c, hc, hgp⟩ := mapM_getElem hf (i := 0) (x := (NReal.num H0, NReal.num K0)) (by simp)
  obtain ⟨e1, e2⟩ := gridPoint_hk hgp
  obtain ⟨s0, hs0, e0⟩ : ∃ s0, sols[0]? = some s0 ∧ critOf s0 = c := by
    rw [← hcrit, List.getElem?_map] at hc
    cases hx : sols[0]? with
    | none => rw [hx] at hc; cases hc
    | some s0 => rw [hx] at hc; exact ⟨s0, rfl, Option.some.inj hc⟩
  obtain ⟨hg, g1, g2, g3, g4⟩ := all_same_first hprod (rm := s0.rmse) (q := s0.pg)
    (fun s hs => ⟨hcorr s hs, (hsame s hs s0 (List.mem_of_getElem? hs0)).1, (hsame s hs s0 (List.mem_of_getElem? hs0)).2⟩) hs0
  refine ⟨fun s hs => ⟨hcorr s hs, hg s hs⟩, hsame, ?_⟩
  intro H K hH hKm
  cases hH; cases hKm
  have e3 : s0.h = .num H0 := by subst e0; exact e1
  have e4 : s0.k = .num K0 := by subst e0; exact e2
  rw [g1, g2, g3, g4, e3, e4]
  exact ⟨rfl, rfl, rfl, rfl⟩

/-- A slowness of 6.4 given to the parallel version, with two processes: 30 km and 1.75 are reported. -/
example : ∃ (P : Para NReal) (res : List (List (Crit NReal))) (sols : List (Sol NReal)) (best : Best NReal)
    (figs : List (Fig NReal)),
    WaveformPara pEnv [pTrace] (.num 0) (.num 2) (.num 2.5) (.num 6.5) (.num 6.4) ([1.75, 1.8].map .num)
      ([30, 40].map .num) (.num 1) = .ok P ∧
    RunWaveformfitting pEnv 2 ([30, 40].map .num) P (.ok (res.map some)) ∧
    plotbestmodel pEnv res P (some (.num 0.4)) (some (.num 0.4)) (some (.num 0.2)) "out" "pdf"
      = .ok (sols, best, figs) ∧
    (∀ s ∈ sols, s.corr = .nan) ∧ (best.gof.h, best.gof.k) = (.num 30, .num 1.75) := by
  obtain ⟨R, hR⟩ := pRun
  obtain ⟨P, -, -, -, hP, -⟩ := WaveformFitting_ok hR
  rw [← WaveformPara_eq] at hP
  obtain ⟨out, log, hout⟩ := c46_has_outcome 2 (WaveformFit_multiproc pEnv P) ([30, 40].map .num)
  obtain ⟨res, rfl, -, -⟩ := c37_same_criteria (by norm_num) hR hP ⟨log, hout⟩
  obtain ⟨sols, best, figs, hplot⟩ := c100_parallel_plotted (some (.num 0.4)) (some (.num 0.4)) (some (.num 0.2))
    "out" "pdf" (by norm_num) (by simp) (by simp) hP ⟨log, hout⟩ rfl rfl (fun _ => rfl)
  have hK : ∀ k ∈ ([1.75, 1.8] : List ℝ), 0 < k := by
    intro k hk
    simp only [List.mem_cons, List.not_mem_nil, or_false] at hk
    rcases hk with rfl | rfl <;> norm_num
  obtain ⟨h1, -, h3⟩ := c87_parallel (bp := fun _ _ x => .ok x) (other := fun _ => .ok []) (f := fun _ x => x)
    (S := [pTrace.data]) (sd := pTrace.data) (δ := 1) (by norm_num) hP ⟨log, hout⟩ hplot rfl rfl rfl rfl
    (by simp [pTrace]) (fun _ _ => rfl) (fun _ _ => rfl) (by norm_num) (by norm_num [vsPoly]) (by norm_num [rhoPoly])
    (by norm_num) (by norm_num [rhoPoly]) hK (.inl (by norm_num [abs_of_pos]))
  exact ⟨P, res, sols, best, figs, hP, ⟨log, hout⟩, hplot, fun s hs => (h1 s hs).1, (h3 30 1.75 rfl rfl).2.2.2⟩

end Rfsed.Props
