import Verif.Props.WaveformTotal

/-!
# Property C101: changing the grid of the waveform fit
-/

namespace Rfsed.Props
open Rfsed PyFloat Spec Waveform

section
variable {F : Type} [PyFloat F] [PyTrunc F] {env : WEnv F} {rfs : List (Trace F)}
  {preonset HSed VpSed VpCrust rayp gaussian wc wr wp wc' wr' wp' : F} {KMoho HMoho KMoho' HMoho' : List F}
  {R R' : WResult F}

/-- the three criteria of a model and the model -/
def judged (s : Sol F) : F × F × F × F × F := (s.h, s.k, s.corr, s.rmse, s.pg)

theorem gridPoint_hk {P : Para F} {H K : F} {c : Crit F} (h : gridPoint env P H K = .ok c) :
    c.h = H ∧ c.k = K := by
  simp only [gridPoint, criteria, bind_eq_ok, except_pure] at h
  obtain ⟨_, _, _, _, _, _, _, _, h⟩ := h
  cases Except.ok.inj h
  exact ⟨rfl, rfl⟩

/-- the parameters do not depend on the grid, except for storing it -/
theorem prepare_grid {P P' : Para F}
    (h : prepare env rfs preonset HSed VpSed VpCrust rayp KMoho HMoho gaussian = .ok P)
    (h' : prepare env rfs preonset HSed VpSed VpCrust rayp KMoho' HMoho' gaussian = .ok P') :
    P' = { P with KMoho := KMoho', HMoho := HMoho' } := by
  obtain ⟨tr0, S, sd, z, e, h0, hS, hsd, hl, hz, hd0, he, rfl⟩ := prepare_ok h
  obtain ⟨tr0', S', sd', z', e', h0', hS', hsd', hl', hz', hd0', he', rfl⟩ := prepare_ok h'
  rw [h0] at h0'; cases h0'
  rw [hS] at hS'; cases Except.ok.inj hS'
  rw [hsd] at hsd'; cases hsd'
  rw [hz] at hz'; cases hz'
  rw [he] at he'; cases Except.ok.inj he'
  rfl

/-- **C101** Enlarge the grid: what the fit says about the models of the old grid (correlation, misfit, phase
criterion) stays the same, and nothing about them is lost or added. -/
theorem c101_same_values (hK : KMoho ⊆ KMoho') (hH : HMoho ⊆ HMoho')
    (h : WaveformFitting env rfs preonset HSed VpSed VpCrust rayp KMoho HMoho gaussian wc wr wp = .ok R)
    (h' : WaveformFitting env rfs preonset HSed VpSed VpCrust rayp KMoho' HMoho' gaussian wc' wr' wp' = .ok R') :
    ∀ v, v ∈ R.WaveformSolutions.map judged ↔
      v ∈ R'.WaveformSolutions.map judged ∧ v.1 ∈ HMoho ∧ v.2.1 ∈ KMoho := by
  obtain ⟨P, all, sols, best, hP, ha, hs, hb, rfl⟩ := WaveformFitting_ok h
  obtain ⟨P', all', sols', best', hP', ha', hs', hb', rfl⟩ := WaveformFitting_ok h'
  obtain ⟨_, _, _, _, _, _, rfl⟩ := normalise_ok hs
  obtain ⟨_, _, _, _, _, _, rfl⟩ := normalise_ok hs'
  have eP := prepare_grid hP hP'
  have ga : ∀ c, c ∈ all ↔ ∃ H ∈ HMoho, ∃ K ∈ KMoho, gridPoint env P H K = .ok c := by
    intro c
    constructor
    · intro hc
      obtain ⟨p, hp, hpc⟩ := mapM_ok_mem_out ha hc
      obtain ⟨k, hk, hp⟩ := List.mem_flatMap.1 hp
      obtain ⟨h, hh, rfl⟩ := List.mem_map.1 hp
      exact ⟨h, hh, k, hk, hpc⟩
    · rintro ⟨H, hH, K, hK, hc⟩
      obtain ⟨i, hi⟩ := List.getElem?_of_mem hK
      obtain ⟨j, hj⟩ := List.getElem?_of_mem hH
      have hg := getElem?_flatMap_map KMoho HMoho (fun k h => (h, k)) i j K H hi hj
      obtain ⟨c', hc', hcv⟩ := mapM_getElem ha hg
      rw [hc] at hcv
      cases Except.ok.inj hcv
      exact List.mem_of_getElem? hc'
  have ga' : ∀ c, c ∈ all' ↔ ∃ H ∈ HMoho', ∃ K ∈ KMoho', gridPoint env P H K = .ok c := by
    intro c
    have e : ∀ H K, gridPoint env P' H K = gridPoint env P H K := by
      intro H K; rw [eP]; rfl
    constructor
    · intro hc
      obtain ⟨p, hp, hpc⟩ := mapM_ok_mem_out ha' hc
      obtain ⟨k, hk, hp⟩ := List.mem_flatMap.1 hp
      obtain ⟨h, hh, rfl⟩ := List.mem_map.1 hp
      exact ⟨h, hh, k, hk, by rw [← e]; exact hpc⟩
    · rintro ⟨H, hH, K, hK, hc⟩
      obtain ⟨i, hi⟩ := List.getElem?_of_mem hK
      obtain ⟨j, hj⟩ := List.getElem?_of_mem hH
      have hg := getElem?_flatMap_map KMoho' HMoho' (fun k h => (h, k)) i j K H hi hj
      obtain ⟨c', hc', hcv⟩ := mapM_getElem ha' hg
      simp only [e] at hcv
      rw [hc] at hcv
      cases Except.ok.inj hcv
      exact List.mem_of_getElem? hc'
  intro v
  simp only [List.map_map, List.mem_map, Function.comp_apply, judged]
  constructor
  · rintro ⟨c, hc, rfl⟩
    obtain ⟨H, hH', K, hK', e⟩ := (ga c).1 hc
    obtain ⟨e1, e2⟩ := gridPoint_hk e
    exact ⟨⟨c, (ga' c).2 ⟨H, hH hH', K, hK hK', e⟩, rfl⟩, by simpa [e1] using hH', by simpa [e2] using hK'⟩
  · rintro ⟨⟨c, hc, rfl⟩, hh, hk⟩
    obtain ⟨H, _, K, _, e⟩ := (ga' c).1 hc
    obtain ⟨e1, e2⟩ := gridPoint_hk e
    simp only [e1, e2] at hh hk
    exact ⟨c, (ga c).2 ⟨H, hh, K, hk, e⟩, rfl⟩
end

section
variable {env : WEnv ℝ} {rfs : List (Trace ℝ)}
  {preonset HSed VpSed VpCrust rayp gaussian wc wr wp wc' wr' wp' : ℝ} {KMoho HMoho KMoho' HMoho' : List ℝ}
  {R R' : WResult ℝ}

theorem best_four {sols : List (Sol ℝ)} {b : Best ℝ} (h : bestModels sols = .ok b) :
    (b.corr ∈ sols ∧ ∀ s ∈ sols, s.corr ≤ b.corr.corr) ∧
    (b.rmse ∈ sols ∧ ∀ s ∈ sols, b.rmse.rmse ≤ s.rmse) ∧
    (b.pg ∈ sols ∧ ∀ s ∈ sols, s.pg ≤ b.pg.pg) ∧ (b.gof ∈ sols ∧ ∀ s ∈ sols, s.gof ≤ b.gof.gof) := by
  obtain ⟨i, j, k, l, a1, a2, a3, a4, a5, a6, a7, a8⟩ := bestModels_ok h
  exact ⟨argmax_real a1 a2, argmin_real a3 a4, argmax_real a5 a6, argmax_real a7 a8⟩

/-- **C101** On the enlarged grid the best correlation and the best phase criterion are at least as large
and the best misfit at most as large; each is unchanged if its best model lies on the old grid. -/
theorem c101_best_no_worse (hK : KMoho ⊆ KMoho') (hH : HMoho ⊆ HMoho')
    (h : WaveformFitting env rfs preonset HSed VpSed VpCrust rayp KMoho HMoho gaussian wc wr wp = .ok R)
    (h' : WaveformFitting env rfs preonset HSed VpSed VpCrust rayp KMoho' HMoho' gaussian wc' wr' wp' = .ok R') :
    R.printed.corr.corr ≤ R'.printed.corr.corr ∧ R'.printed.rmse.rmse ≤ R.printed.rmse.rmse ∧
    R.printed.pg.pg ≤ R'.printed.pg.pg ∧
    (R'.printed.corr.h ∈ HMoho → R'.printed.corr.k ∈ KMoho → R'.printed.corr.corr = R.printed.corr.corr) ∧
    (R'.printed.rmse.h ∈ HMoho → R'.printed.rmse.k ∈ KMoho → R'.printed.rmse.rmse = R.printed.rmse.rmse) ∧
    (R'.printed.pg.h ∈ HMoho → R'.printed.pg.k ∈ KMoho → R'.printed.pg.pg = R.printed.pg.pg) := by
  have hv := c101_same_values hK hH h h'
  have fwd : ∀ s ∈ R.WaveformSolutions, ∃ s' ∈ R'.WaveformSolutions, judged s' = judged s := fun s hs =>
    List.mem_map.1 ((hv (judged s)).1 (List.mem_map_of_mem hs)).1
  have bwd : ∀ s' ∈ R'.WaveformSolutions, s'.h ∈ HMoho → s'.k ∈ KMoho →
      ∃ s ∈ R.WaveformSolutions, judged s = judged s' := fun s hs a b =>
    List.mem_map.1 ((hv (judged s)).2 ⟨List.mem_map_of_mem hs, a, b⟩)
  obtain ⟨P, all, sols, best, _, _, _, hb, rfl⟩ := WaveformFitting_ok h
  obtain ⟨P', all', sols', best', _, _, _, hb', rfl⟩ := WaveformFitting_ok h'
  obtain ⟨⟨c1, c2⟩, ⟨r1, r2⟩, ⟨p1, p2⟩, _⟩ := best_four hb
  obtain ⟨⟨c1', c2'⟩, ⟨r1', r2'⟩, ⟨p1', p2'⟩, _⟩ := best_four hb'
  simp only [judged, Prod.mk.injEq] at fwd bwd
  simp only
  have A : best.corr.corr ≤ best'.corr.corr := by
    obtain ⟨s', hs', e⟩ := fwd _ c1
    rw [← e.2.2.1]; exact c2' _ hs'
  have B : best'.rmse.rmse ≤ best.rmse.rmse := by
    obtain ⟨s', hs', e⟩ := fwd _ r1
    rw [← e.2.2.2.1]; exact r2' _ hs'
  have C : best.pg.pg ≤ best'.pg.pg := by
    obtain ⟨s', hs', e⟩ := fwd _ p1
    rw [← e.2.2.2.2]; exact p2' _ hs'
  refine ⟨A, B, C, fun x y => ?_, fun x y => ?_, fun x y => ?_⟩
  · obtain ⟨s, hs, e⟩ := bwd _ c1' x y
    exact le_antisymm (by rw [← e.2.2.1]; exact c2 _ hs) A
  · obtain ⟨s, hs, e⟩ := bwd _ r1' x y
    exact le_antisymm B (by rw [← e.2.2.2.1]; exact r2 _ hs)
  · obtain ⟨s, hs, e⟩ := bwd _ p1' x y
    exact le_antisymm (by rw [← e.2.2.2.2]; exact p2 _ hs) C

/-- **C101** The overall goodness of fit of an old model is unchanged when, with the same weights, the new
models reach neither a larger correlation, nor a larger misfit, nor a larger phase criterion than the old
ones do. -/
theorem c101_same_gof (hK : KMoho ⊆ KMoho') (hH : HMoho ⊆ HMoho')
    (h : WaveformFitting env rfs preonset HSed VpSed VpCrust rayp KMoho HMoho gaussian wc wr wp = .ok R)
    (h' : WaveformFitting env rfs preonset HSed VpSed VpCrust rayp KMoho' HMoho' gaussian wc wr wp = .ok R')
    (hc : ∀ s' ∈ R'.WaveformSolutions, ∃ s ∈ R.WaveformSolutions, s'.corr ≤ s.corr)
    (hr : ∀ s' ∈ R'.WaveformSolutions, ∃ s ∈ R.WaveformSolutions, s'.rmse ≤ s.rmse)
    (hp : ∀ s' ∈ R'.WaveformSolutions, ∃ s ∈ R.WaveformSolutions, s'.pg ≤ s.pg) :
    ∀ s ∈ R.WaveformSolutions, s ∈ R'.WaveformSolutions := by
  have hv := c101_same_values hK hH h h'
  have fwd : ∀ s ∈ R.WaveformSolutions, ∃ s' ∈ R'.WaveformSolutions, judged s' = judged s := fun s hs =>
    List.mem_map.1 ((hv (judged s)).1 (List.mem_map_of_mem hs)).1
  obtain ⟨mc, mr, mp, m1, m2, m3, hg⟩ := produced_gof (.inl ⟨_, _, _, _, _, _, _, _, _, _, R, h, rfl, rfl⟩)
  obtain ⟨mc', mr', mp', m1', m2', m3', hg'⟩ := produced_gof (.inl ⟨_, _, _, _, _, _, _, _, _, _, R', h', rfl, rfl⟩)
  have eq : ∀ {col : Sol ℝ → ℝ} {m m' : ℝ}, (∀ s s' : Sol ℝ, judged s' = judged s → col s' = col s) →
      IsMaxVal (R.WaveformSolutions.map col) m → IsMaxVal (R'.WaveformSolutions.map col) m' →
      (∀ s' ∈ R'.WaveformSolutions, ∃ s ∈ R.WaveformSolutions, col s' ≤ col s) → m' = m := by
    intro col m m' hcol a b c
    obtain ⟨s, hs, rfl⟩ := List.mem_map.1 a.1
    obtain ⟨s', hs', rfl⟩ := List.mem_map.1 b.1
    obtain ⟨t, ht, le⟩ := c s' hs'
    obtain ⟨t', ht', e⟩ := fwd s hs
    refine le_antisymm (le.trans (a.2 _ (List.mem_map_of_mem ht))) ?_
    rw [← hcol _ _ e]
    exact b.2 _ (List.mem_map_of_mem ht')
  have e1 : mc' = mc := eq (by intro s s' e; simp only [judged, Prod.mk.injEq] at e; exact e.2.2.1) m1 m1' hc
  have e2 : mr' = mr := eq (by intro s s' e; simp only [judged, Prod.mk.injEq] at e; exact e.2.2.2.1) m2 m2' hr
  have e3 : mp' = mp := eq (by intro s s' e; simp only [judged, Prod.mk.injEq] at e; exact e.2.2.2.2) m3 m3' hp
  intro s hs
  obtain ⟨s', hs', e⟩ := fwd s hs
  simp only [judged, Prod.mk.injEq] at e
  obtain ⟨a1, a2, a3, a4, a5⟩ := e
  have g := hg s hs
  have g' := hg' s' hs'
  rw [e1, e2, e3, a3, a4, a5, ← g] at g'
  have : s' = s := by
    cases s; cases s'
    simp only at a1 a2 a3 a4 a5 g'
    subst a1 a2 a3 a4 a5 g'
    rfl
  rwa [← this]
end

/-! ## the overall ranking is not stable -/

/-- like `wEnv`, with a hopeless synthetic for depth 50 -/
noncomputable def vEnv : WEnv ℝ where
  stackR rfs := .ok (rfs.map Trace.data)
  synthRF a := .ok (@ite _ (a.depth[1]? = some 30) (Classical.propDecidable _) [0, 2, 4]
    (@ite _ (a.depth[1]? = some 50) (Classical.propDecidable _) [0, -99, -198] [0, 1, 1]))
  pg _ _ _ := .ok 1

theorem vEnv_synth (a b c d e f g : ℝ) (n : ℕ) (H K : ℝ) :
    vEnv.synthRF (modelOf a b c d e f g n H K) =
      .ok (@ite _ (H = 30) (Classical.propDecidable _) [0, 2, 4]
        (@ite _ (H = 50) (Classical.propDecidable _) [0, -99, -198] [0, 1, 1])) := by
  simp [vEnv, modelOf]

theorem vEnv_three (m : SynthArgs ℝ) : ∃ x y z, vEnv.synthRF m = .ok [x, y, z] := by
  by_cases h : m.depth[1]? = some 30
  · exact ⟨0, 2, 4, by simp [vEnv, h]⟩
  · by_cases h' : m.depth[1]? = some 50
    · exact ⟨0, -99, -198, by simp [vEnv, h']⟩
    · exact ⟨0, 1, 1, by simp [vEnv, h, h']⟩

/-- the criteria of the three models against the data `0, 1, 2` -/
theorem vRow {H : List ℝ} {wc wr wp : ℝ} {R : WResult ℝ}
    (h : WaveformFitting vEnv [wTraceOf 0 1 2] 0 1 2 6 (6/100) [2] H 1 wc wr wp = .ok R) :
    ∀ s ∈ R.WaveformSolutions, s.pg = 1 ∧ (s.h = 30 → s.corr = 1 ∧ s.rmse = √(5/3)) ∧
      (s.h = 50 → s.corr = -1 ∧ s.rmse = √(50000/3)) ∧
      (s.h = 40 → s.corr = 1 / (√2 * √(2/3)) ∧ s.rmse = √(1/3)) := by
  obtain ⟨S, sd, hS, hsd, hcrit⟩ := c36_serial_window (tr0 := wTraceOf 0 1 2) rfl
    (show (0 : ℝ) < 1 by norm_num) h
  cases Except.ok.inj hS
  cases hsd
  have hx : window (wTraceOf 0 1 2).delta 0 (wTraceOf 0 1 2).data = [0, 1, 2] := wWindow _ _ _
  have n0 : ¬ Constant [0, 1, 2] := fun h => by have := h 0 (by simp) 1 (by simp); norm_num at this
  have n1 : ¬ Constant [0, 2, 4] := fun h => by have := h 0 (by simp) 2 (by simp); norm_num at this
  have n2 : ¬ Constant [0, 1, 1] := fun h => by have := h 0 (by simp) 1 (by simp); norm_num at this
  have n3 : ¬ Constant [0, -99, -198] := fun h => by have := h 0 (by simp) (-99) (by simp); norm_num at this
  intro s hs
  obtain ⟨y, hy, _, _, hr, _, _, hc, hp⟩ := hcrit s hs
  rw [vEnv_synth] at hy
  rw [hx] at hr hc
  refine ⟨(Except.ok.inj hp).symm, fun e => ?_, fun e => ?_, fun e => ?_⟩
  · rw [e, if_pos rfl] at hy
    cases Except.ok.inj hy
    have w : window (wTraceOf 0 1 2).delta 0 [0, 2, 4] = [0, 2, 4] := wWindow _ _ _
    rw [w] at hr hc
    refine ⟨?_, by rw [hr]; norm_num [rms]⟩
    rw [hc n0 n1]
    have : √(2 : ℝ) * √8 = 4 := by
      rw [← Real.sqrt_mul (by norm_num), show (2 : ℝ) * 8 = 4 ^ 2 by norm_num, Real.sqrt_sq (by norm_num)]
    norm_num [pearson, comoment, mean]
    rw [this]; norm_num
  · rw [e, if_neg (by norm_num), if_pos rfl] at hy
    cases Except.ok.inj hy
    have w : window (wTraceOf 0 1 2).delta 0 [0, -99, -198] = [0, -99, -198] := wWindow _ _ _
    rw [w] at hr hc
    refine ⟨?_, by rw [hr]; norm_num [rms]⟩
    rw [hc n0 n3]
    have : √(2 : ℝ) * √19602 = 198 := by
      rw [← Real.sqrt_mul (by norm_num), show (2 : ℝ) * 19602 = 198 ^ 2 by norm_num, Real.sqrt_sq (by norm_num)]
    norm_num [pearson, comoment, mean]
    rw [this]; norm_num
  · rw [e, if_neg (by norm_num), if_neg (by norm_num)] at hy
    cases Except.ok.inj hy
    have w : window (wTraceOf 0 1 2).delta 0 [0, 1, 1] = [0, 1, 1] := wWindow _ _ _
    rw [w] at hr hc
    refine ⟨?_, by rw [hr]; norm_num [rms]⟩
    rw [hc n0 n2]
    norm_num [pearson, comoment, mean]

/-- **C101** (rank reversal): the overall goodness of fit divides by the extremes over the whole grid, so
adding a hopeless model can change which of the other models is reported as the best one overall. -/
theorem c101_rank_reversal : ∃ (env : WEnv ℝ) (rfs : List (Trace ℝ)) (R R' : WResult ℝ),
    WaveformFitting env rfs 0 1 2 6 (6/100) [2] [30, 40] 1 (1/2) (1/2) 0 = .ok R ∧
    WaveformFitting env rfs 0 1 2 6 (6/100) [2] [30, 40, 50] 1 (1/2) (1/2) 0 = .ok R' ∧
    R.printed.gof.h = 40 ∧ R'.printed.gof.h = 30 ∧
    ∀ s ∈ R'.WaveformSolutions, s.h = 50 → ∀ s' ∈ R'.WaveformSolutions, s'.h ≠ 50 →
      s.corr < s'.corr ∧ s'.rmse < s.rmse ∧ s.pg ≤ s'.pg ∧ s.gof < s'.gof := by
  have ok := fun H (hH : H ≠ []) => (wRunOf (env := vEnv) (K := [2]) (H := H) 0 1 2 (1/2) (1/2) 0 (by simp) hH
    (fun _ => rfl) vEnv_three (fun _ _ _ => ⟨1, rfl⟩)).1
  obtain ⟨R, h⟩ := ok [30, 40] (by simp)
  obtain ⟨R', h'⟩ := ok [30, 40, 50] (by simp)
  refine ⟨vEnv, _, R, R', h, h', ?_⟩
  have v := vRow h
  have v' := vRow h'
  have g := row_in_grid h
  have g' := row_in_grid h'
  obtain ⟨mc, mr, mp, m1, m2, m3, hg⟩ := produced_gof (.inl ⟨_, _, _, _, _, _, _, _, _, _, R, h, rfl, rfl⟩)
  obtain ⟨mc', mr', mp', m1', m2', m3', hg'⟩ := produced_gof (.inl ⟨_, _, _, _, _, _, _, _, _, _, R', h', rfl, rfl⟩)
  obtain ⟨s30, hs30, e30, -⟩ := grid_row (H := 30) (K := 2) h (by simp) (by simp)
  obtain ⟨s40, hs40, e40, -⟩ := grid_row (H := 40) (K := 2) h (by simp) (by simp)
  obtain ⟨t30, ht30, f30, -⟩ := grid_row (H := 30) (K := 2) h' (by simp) (by simp)
  obtain ⟨t40, ht40, f40, -⟩ := grid_row (H := 40) (K := 2) h' (by simp) (by simp)
  obtain ⟨t50, ht50, f50, -⟩ := grid_row (H := 50) (K := 2) h' (by simp) (by simp)
  -- sizes of the roots
  have c0 : √(2 : ℝ) * √(2/3) = √(4/3) := by
    rw [← Real.sqrt_mul (by norm_num)]; norm_num
  have c1 : (8/10 : ℝ) < 1 / (√2 * √(2/3)) := by
    rw [c0, lt_div_iff₀ (by positivity)]
    have : √(4/3 : ℝ) < 5/4 := by rw [Real.sqrt_lt' (by norm_num)]; norm_num
    linarith
  have c2 : 1 / (√2 * √(2/3)) < (9/10 : ℝ) := by
    rw [c0, div_lt_iff₀ (by positivity)]
    have : (10/9 : ℝ) < √(4/3) := by rw [Real.lt_sqrt (by norm_num)]; norm_num
    linarith
  have r1 : √(1/3 : ℝ) < 6/10 := by rw [Real.sqrt_lt' (by norm_num)]; norm_num
  have r1' : 0 ≤ √(1/3 : ℝ) := Real.sqrt_nonneg _
  have r2 : √(5/3 : ℝ) < 13/10 := by rw [Real.sqrt_lt' (by norm_num)]; norm_num
  have r2' : (12/10 : ℝ) < √(5/3) := by rw [Real.lt_sqrt (by norm_num)]; norm_num
  have r3 : (100 : ℝ) < √(50000/3) := by rw [Real.lt_sqrt (by norm_num)]; norm_num
  -- every row
  have rowR : ∀ s ∈ R.WaveformSolutions, s.h = 30 ∨ s.h = 40 := fun s hs => by simpa using (g s hs).1
  have rowR' : ∀ s ∈ R'.WaveformSolutions, s.h = 30 ∨ s.h = 40 ∨ s.h = 50 := fun s hs => by
    simpa using (g' s hs).1
  -- the normalisers
  have emc : mc = 1 := by
    refine le_antisymm ?_ ?_
    · obtain ⟨s, hs, rfl⟩ := List.mem_map.1 m1.1
      rcases rowR s hs with e | e
      · rw [((v s hs).2.1 e).1]
      · rw [((v s hs).2.2.2 e).1]; linarith
    · have := m1.2 _ (List.mem_map_of_mem hs30)
      rwa [((v _ hs30).2.1 e30).1] at this
  have emr : mr = √(5/3) := by
    refine le_antisymm ?_ ?_
    · obtain ⟨s, hs, rfl⟩ := List.mem_map.1 m2.1
      rcases rowR s hs with e | e
      · rw [((v s hs).2.1 e).2]
      · rw [((v s hs).2.2.2 e).2]; linarith
    · have := m2.2 _ (List.mem_map_of_mem hs30)
      rwa [((v _ hs30).2.1 e30).2] at this
  have emc' : mc' = 1 := by
    refine le_antisymm ?_ ?_
    · obtain ⟨s, hs, rfl⟩ := List.mem_map.1 m1'.1
      rcases rowR' s hs with e | e | e
      · rw [((v' s hs).2.1 e).1]
      · rw [((v' s hs).2.2.2 e).1]; linarith
      · rw [((v' s hs).2.2.1 e).1]; norm_num
    · have := m1'.2 _ (List.mem_map_of_mem ht30)
      rwa [((v' _ ht30).2.1 f30).1] at this
  have emr' : mr' = √(50000/3) := by
    refine le_antisymm ?_ ?_
    · obtain ⟨s, hs, rfl⟩ := List.mem_map.1 m2'.1
      rcases rowR' s hs with e | e | e
      · rw [((v' s hs).2.1 e).2]; linarith
      · rw [((v' s hs).2.2.2 e).2]; linarith
      · rw [((v' s hs).2.2.1 e).2]
    · have := m2'.2 _ (List.mem_map_of_mem ht50)
      rwa [((v' _ ht50).2.2.1 f50).2] at this
  subst emc emr emc' emr'
  -- the goodness of fit
  have G30 : ∀ s ∈ R.WaveformSolutions, s.h = 30 → s.gof = 1/2 := fun s hs e => by
    rw [hg s hs, ((v s hs).2.1 e).1, ((v s hs).2.1 e).2, div_self (by positivity)]; norm_num
  have G40 : ∀ s ∈ R.WaveformSolutions, s.h = 40 → 1/2 < s.gof := fun s hs e => by
    rw [hg s hs, ((v s hs).2.2.2 e).1, ((v s hs).2.2.2 e).2]
    have : √(1/3 : ℝ) / √(5/3) ≤ 1/2 := by
      rw [div_le_iff₀ (by positivity)]; linarith
    linarith
  have T30 : ∀ s ∈ R'.WaveformSolutions, s.h = 30 → 98/100 < s.gof := fun s hs e => by
    rw [hg' s hs, ((v' s hs).2.1 e).1, ((v' s hs).2.1 e).2]
    have : √(5/3 : ℝ) / √(50000/3) ≤ 2/100 := by
      rw [div_le_iff₀ (by positivity)]; linarith
    linarith
  have T40 : ∀ s ∈ R'.WaveformSolutions, s.h = 40 → s.gof < 98/100 ∧ 0 < s.gof := fun s hs e => by
    rw [hg' s hs, ((v' s hs).2.2.2 e).1, ((v' s hs).2.2.2 e).2]
    have h1 : 0 ≤ √(1/3 : ℝ) / √(50000/3) := by positivity
    have h2 : √(1/3 : ℝ) / √(50000/3) ≤ 1 := by
      rw [div_le_iff₀ (by positivity)]; linarith
    constructor <;> linarith
  have T50 : ∀ s ∈ R'.WaveformSolutions, s.h = 50 → s.gof < 0 := fun s hs e => by
    rw [hg' s hs, ((v' s hs).2.2.1 e).1, ((v' s hs).2.2.1 e).2, div_self (by positivity)]; norm_num
  obtain ⟨P, all, sols, best, _, _, _, hb, rfl⟩ := WaveformFitting_ok h
  obtain ⟨P', all', sols', best', _, _, _, hb', rfl⟩ := WaveformFitting_ok h'
  obtain ⟨-, -, -, b1, b2⟩ := best_four hb
  obtain ⟨-, -, -, b1', b2'⟩ := best_four hb'
  simp only at *
  refine ⟨?_, ?_, ?_⟩
  · rcases rowR _ b1 with e | e
    · have h1 := G30 _ b1 e
      have h2 := G40 _ hs40 e40
      have h3 := b2 _ hs40
      exfalso; linarith
    · exact e
  · rcases rowR' _ b1' with e | e | e
    · exact e
    · have h1 := (T40 _ b1' e).1
      have h2 := T30 _ ht30 f30
      have h3 := b2' _ ht30
      exfalso; linarith
    · have h1 := T50 _ b1' e
      have h2 := T30 _ ht30 f30
      have h3 := b2' _ ht30
      exfalso; linarith
  · intro s hs e s' hs' e'
    obtain ⟨p, -, q, -⟩ := v' s hs
    obtain ⟨q1, q2⟩ := q e
    have p' := (v' s' hs').1
    have t := T50 s hs e
    rcases rowR' s' hs' with k | k | k
    · obtain ⟨w1, w2⟩ := (v' s' hs').2.1 k
      have := T30 s' hs' k
      exact ⟨by rw [q1, w1]; norm_num, by rw [q2, w2]; linarith, by rw [p, p'], by linarith⟩
    · obtain ⟨w1, w2⟩ := (v' s' hs').2.2.2 k
      have := (T40 s' hs' k).2
      exact ⟨by rw [q1, w1]; linarith, by rw [q2, w2]; linarith, by rw [p, p'], by linarith⟩
    · exact absurd k e'

/-- The hypotheses of `c101_same_values` and `c101_best_no_worse` are met by the two runs above. -/
example : ∃ R R' : WResult ℝ,
    WaveformFitting vEnv [wTraceOf 0 1 2] 0 1 2 6 (6/100) [2] [30, 40] 1 (1/2) (1/2) 0 = .ok R ∧
    WaveformFitting vEnv [wTraceOf 0 1 2] 0 1 2 6 (6/100) [2] [30, 40, 50] 1 (1/2) (1/2) 0 = .ok R' ∧
    R.printed.corr.corr ≤ R'.printed.corr.corr := by
  have ok := fun H (hH : H ≠ []) => (wRunOf (env := vEnv) (K := [2]) (H := H) 0 1 2 (1/2) (1/2) 0 (by simp) hH
    (fun _ => rfl) vEnv_three (fun _ _ _ => ⟨1, rfl⟩)).1
  obtain ⟨R, h⟩ := ok [30, 40] (by simp)
  obtain ⟨R', h'⟩ := ok [30, 40, 50] (by simp)
  exact ⟨R, R', h, h', (c101_best_no_worse (by simp) (by simp) h h').1⟩

/-- The hypotheses of `c101_same_gof` are met: the added depth has the synthetic of depth 40. -/
example : ∃ R R' : WResult ℝ,
    WaveformFitting vEnv [wTraceOf 0 1 2] 0 1 2 6 (6/100) [2] [30, 40] 1 (1/2) (1/2) 0 = .ok R ∧
    WaveformFitting vEnv [wTraceOf 0 1 2] 0 1 2 6 (6/100) [2] [30, 40, 35] 1 (1/2) (1/2) 0 = .ok R' ∧
    ∀ s ∈ R.WaveformSolutions, s ∈ R'.WaveformSolutions := by
  have ok := fun H (hH : H ≠ []) => (wRunOf (env := vEnv) (K := [2]) (H := H) 0 1 2 (1/2) (1/2) 0 (by simp) hH
    (fun _ => rfl) vEnv_three (fun _ _ _ => ⟨1, rfl⟩)).1
  obtain ⟨R, h⟩ := ok [30, 40] (by simp)
  obtain ⟨R', h'⟩ := ok [30, 40, 35] (by simp)
  refine ⟨R, R', h, h', ?_⟩
  have g' := row_in_grid h'
  obtain ⟨s40, hs40, e40, -⟩ := grid_row (H := 40) (K := 2) h (by simp) (by simp)
  have hv := c101_same_values (by simp) (by simp) h h'
  -- depth 35 has the same synthetic as depth 40
  have key : ∀ s' ∈ R'.WaveformSolutions, ∃ s ∈ R.WaveformSolutions, s'.corr = s.corr ∧ s'.rmse = s.rmse ∧
      s'.pg = s.pg := by
    intro s' hs'
    have hd := (g' s' hs').1
    by_cases e : s'.h = 35
    · refine ⟨s40, hs40, ?_⟩
      obtain ⟨S, sd, hS, hsd, hcrit⟩ := c36_serial_window (tr0 := wTraceOf 0 1 2) rfl
        (show (0 : ℝ) < 1 by norm_num) h'
      cases Except.ok.inj hS
      cases hsd
      obtain ⟨t, ht, q⟩ : ∃ t ∈ R'.WaveformSolutions, judged t = judged s40 :=
        List.mem_map.1 ((hv (judged s40)).1 (List.mem_map_of_mem hs40)).1
      simp only [judged, Prod.mk.injEq] at q
      obtain ⟨q1, -, q3, q4, q5⟩ := q
      obtain ⟨y, hy, _, _, hr, _, _, hc, hp⟩ := hcrit s' hs'
      obtain ⟨z, hz, _, _, hr', _, _, hc', hp'⟩ := hcrit t ht
      rw [vEnv_synth, e, if_neg (by norm_num), if_neg (by norm_num)] at hy
      rw [vEnv_synth, q1, e40, if_neg (by norm_num), if_neg (by norm_num)] at hz
      cases Except.ok.inj hy
      cases Except.ok.inj hz
      have w : window (wTraceOf 0 1 2).delta 0 [0, 1, 1] = [0, 1, 1] := wWindow _ _ _
      have x : window (wTraceOf 0 1 2).delta 0 (wTraceOf 0 1 2).data = [0, 1, 2] := wWindow _ _ _
      have n0 : ¬ Constant [0, 1, 2] := fun h => by have := h 0 (by simp) 1 (by simp); norm_num at this
      have n2 : ¬ Constant [0, 1, 1] := fun h => by have := h 0 (by simp) 1 (by simp); norm_num at this
      rw [w, x] at hr hr' hc hc'
      refine ⟨?_, ?_, ?_⟩
      · rw [← q3, hc n0 n2, hc' n0 n2]
      · rw [← q4, hr, hr']
      · rw [← q5, ← Except.ok.inj hp, ← Except.ok.inj hp']
    · have hm : s'.h ∈ ([30, 40] : List ℝ) := by simpa [e] using hd
      obtain ⟨s, hs, q⟩ := List.mem_map.1 ((hv (judged s')).2 ⟨List.mem_map_of_mem hs', hm, (g' s' hs').2⟩)
      simp only [judged, Prod.mk.injEq] at q
      exact ⟨s, hs, q.2.2.1.symm, q.2.2.2.1.symm, q.2.2.2.2.symm⟩
  refine c101_same_gof (by simp) (by simp) h h' ?_ ?_ ?_ <;>
  · intro s' hs'
    obtain ⟨s, hs, a, b, c⟩ := key s' hs'
    exact ⟨s, hs, by simp [a, b, c]⟩

end Rfsed.Props
