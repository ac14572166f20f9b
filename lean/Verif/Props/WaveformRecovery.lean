import Verif.Props.WaveformSample

/-!
# Property C86: data made by a model of the grid are explained
-/

namespace Rfsed.Props
open Rfsed PyFloat Spec Waveform

theorem pearson_self {x : List ℝ} (h : ¬ Constant x) : pearson x x = 1 := by
  have := comoment_pos h
  rw [pearson, Real.mul_self_sqrt this.le, div_self this.ne']

section
variable {env : WEnv ℝ} {rfs : List (Trace ℝ)} {tr0 : Trace ℝ}
  {preonset HSed VpSed VpCrust rayp gaussian wc wr wp : ℝ} {KMoho HMoho : List ℝ} {R : WResult ℝ}
  {S : List (List ℝ)} {sd syn : List ℝ} {H K : ℝ}

/-- the best models are rows of the table that no row beats -/
theorem best_rows {sols : List (Sol ℝ)} {best : Best ℝ} (h : Produced sols best wc wr wp) :
    (best.corr ∈ sols ∧ ∀ s ∈ sols, s.corr ≤ best.corr.corr) ∧
    (best.rmse ∈ sols ∧ ∀ s ∈ sols, best.rmse.rmse ≤ s.rmse) ∧
    (best.gof ∈ sols ∧ ∀ s ∈ sols, s.gof ≤ best.gof.gof) := by
  have hmax : ∀ {col : Sol ℝ → ℝ} {b : Sol ℝ}, IsBestBy IsFirstMax col sols b →
      b ∈ sols ∧ ∀ s ∈ sols, col s ≤ col b := by
    rintro col b ⟨i, hi, ⟨-, x, hx, h1, -⟩ | ⟨x, -, hx, -⟩⟩
    · refine ⟨List.mem_of_getElem? hi, fun s hs => ?_⟩
      rw [List.getElem?_map, hi] at hx
      cases Option.some.inj hx
      obtain ⟨n, hn⟩ := List.getElem?_of_mem hs
      simpa using h1 n (col s) (by rw [List.getElem?_map, hn]; rfl)
    · cases hx
  have hmin : ∀ {col : Sol ℝ → ℝ} {b : Sol ℝ}, IsBestBy IsFirstMin col sols b →
      b ∈ sols ∧ ∀ s ∈ sols, col b ≤ col s := by
    rintro col b ⟨i, hi, ⟨-, x, hx, h1, -⟩ | ⟨x, -, hx, -⟩⟩
    · refine ⟨List.mem_of_getElem? hi, fun s hs => ?_⟩
      rw [List.getElem?_map, hi] at hx
      cases Option.some.inj hx
      obtain ⟨n, hn⟩ := List.getElem?_of_mem hs
      simpa using h1 n (col s) (by rw [List.getElem?_map, hn]; rfl)
    · cases hx
  obtain ⟨b1, b2, -, b4⟩ := c71_best h
  exact ⟨hmax b1, hmin b2, hmax b4⟩

/-- every row belongs to a point of the grid -/
theorem row_in_grid
    (h : WaveformFitting env rfs preonset HSed VpSed VpCrust rayp KMoho HMoho gaussian wc wr wp = .ok R) :
    ∀ s ∈ R.WaveformSolutions, s.h ∈ HMoho ∧ s.k ∈ KMoho := by
  obtain ⟨hl, hg⟩ := c71_grid h
  intro s hs
  obtain ⟨n, hn⟩ := List.getElem?_of_mem hs
  have hlt : n < KMoho.length * HMoho.length := by
    rw [← hl]; exact (List.getElem?_eq_some_iff.1 hn).1
  have hpos : 0 < HMoho.length := by
    rcases Nat.eq_zero_or_pos HMoho.length with e | e
    · rw [e] at hlt; simp at hlt
    · exact e
  have hi : n / HMoho.length < KMoho.length := (Nat.div_lt_iff_lt_mul hpos).2 hlt
  have hj : n % HMoho.length < HMoho.length := Nat.mod_lt _ hpos
  obtain ⟨s', hs', e1, e2⟩ := hg _ _ _ _ (List.getElem?_eq_getElem hi) (List.getElem?_eq_getElem hj)
  rw [Nat.div_add_mod' n HMoho.length, hn] at hs'
  cases Option.some.inj hs'
  rw [e1, e2]
  exact ⟨List.getElem_mem _, List.getElem_mem _⟩

theorem grid_row
    (h : WaveformFitting env rfs preonset HSed VpSed VpCrust rayp KMoho HMoho gaussian wc wr wp = .ok R)
    (hH : H ∈ HMoho) (hK : K ∈ KMoho) : ∃ s ∈ R.WaveformSolutions, s.h = H ∧ s.k = K := by
  obtain ⟨i, hi⟩ := List.getElem?_of_mem hK
  obtain ⟨j, hj⟩ := List.getElem?_of_mem hH
  obtain ⟨s, hs, e⟩ := (c71_grid h).2 i j K H hi hj
  exact ⟨s, List.mem_of_getElem? hs, e⟩

/-- **C86** If the stacked data agree, in the fitted window, with the synthetic of a model of the grid, then
the best model by misfit has misfit zero and its synthetic is the data; it is that model if no
other model of the grid has the same synthetic; and the best correlation is 1. -/
theorem c86_recovers (h0 : rfs[0]? = some tr0) (hd : 0 < tr0.delta)
    (h : WaveformFitting env rfs preonset HSed VpSed VpCrust rayp KMoho HMoho gaussian wc wr wp = .ok R)
    (hS : env.stackR rfs = .ok S) (hsd : S[0]? = some sd) (hH : H ∈ HMoho) (hK : K ∈ KMoho)
    (hsyn : env.synthRF (modelOf HSed VpSed VpCrust rayp tr0.delta preonset gaussian sd.length H K) = .ok syn)
    (hw : window tr0.delta preonset syn = window tr0.delta preonset sd) :
    R.printed.rmse.rmse = 0 ∧
    (∃ syn', env.synthRF (modelOf HSed VpSed VpCrust rayp tr0.delta preonset gaussian sd.length
        R.printed.rmse.h R.printed.rmse.k) = .ok syn' ∧
      window tr0.delta preonset syn' = window tr0.delta preonset sd) ∧
    ((∀ H' ∈ HMoho, ∀ K' ∈ KMoho, ∀ syn', env.synthRF (modelOf HSed VpSed VpCrust rayp tr0.delta preonset
        gaussian sd.length H' K') = .ok syn' →
        window tr0.delta preonset syn' = window tr0.delta preonset sd → H' = H ∧ K' = K) →
      R.printed.rmse.h = H ∧ R.printed.rmse.k = K) ∧
    (¬ Constant (window tr0.delta preonset sd) → R.printed.corr.corr = 1) := by
  have hprod : Produced R.WaveformSolutions R.printed wc wr wp :=
    .inl ⟨env, rfs, preonset, HSed, VpSed, VpCrust, rayp, gaussian, KMoho, HMoho, R, h, rfl, rfl⟩
  obtain ⟨⟨c1, c2⟩, ⟨r1, r2⟩, -⟩ := best_rows hprod
  obtain ⟨S', sd', e1, e2, hcrit⟩ := c36_serial_window h0 hd h
  rw [hS] at e1; cases Except.ok.inj e1
  rw [hsd] at e2; cases e2
  obtain ⟨s, hs, sh, sk⟩ := grid_row h hH hK
  obtain ⟨y, hy, q1, q2, q3, q4, q5, q6, q7⟩ := hcrit s hs
  rw [sh, sk, hsyn] at hy
  cases Except.ok.inj hy
  have hs0 : s.rmse = 0 := by rw [q3, (c44_rms_zero q1).2 hw.symm]
  obtain ⟨y', hy', p1, p2, p3, -⟩ := hcrit _ r1
  have hb0 : R.printed.rmse.rmse = 0 := by
    have := r2 s hs
    rw [hs0] at this
    refine le_antisymm this ?_
    rw [p3]; exact rms_nonneg _ _
  have hmatch : window tr0.delta preonset y' = window tr0.delta preonset sd :=
    ((c44_rms_zero p1).1 (by rw [← p3, hb0])).symm
  refine ⟨hb0, ⟨y', hy', hmatch⟩, ?_, ?_⟩
  · intro huniq
    obtain ⟨g1, g2⟩ := row_in_grid h _ r1
    exact huniq _ g1 _ g2 y' hy' hmatch
  · intro hc
    have hs1 : s.corr = 1 := by
      rw [q6 hc (by rw [hw]; exact hc), hw, pearson_self hc]
    have := c2 s hs
    rw [hs1] at this
    obtain ⟨_, _, _, _, _, _, p5, _⟩ := hcrit _ c1
    exact le_antisymm p5 this

/-- **C86** The overall best model explains such data too, when the misfit has weight, not
every model of the grid does, the data are not constant and the phase criterion of identical
signals is the largest there is (obspy's is 10). -/
theorem c86_overall (h0 : rfs[0]? = some tr0) (hd : 0 < tr0.delta)
    (h : WaveformFitting env rfs preonset HSed VpSed VpCrust rayp KMoho HMoho gaussian wc wr wp = .ok R)
    (hS : env.stackR rfs = .ok S) (hsd : S[0]? = some sd) (hH : H ∈ HMoho) (hK : K ∈ KMoho)
    (hsyn : env.synthRF (modelOf HSed VpSed VpCrust rayp tr0.delta preonset gaussian sd.length H K) = .ok syn)
    (hw : window tr0.delta preonset syn = window tr0.delta preonset sd)
    (hne : ¬ Constant (window tr0.delta preonset sd)) (hc : 0 ≤ wc) (hr : 0 < wr) (hp : 0 ≤ wp)
    (hsum : wc + wr + wp = 1) (hbad : ∃ s ∈ R.WaveformSolutions, s.rmse ≠ 0) {top : ℝ} (htop : 0 < top)
    (hself : ∀ x d, env.pg x x d = .ok top) (hle : ∀ x y d v, env.pg x y d = .ok v → v ≤ top) :
    R.printed.gof.gof = 1 ∧ R.printed.gof.rmse = 0 ∧
    ∃ syn', env.synthRF (modelOf HSed VpSed VpCrust rayp tr0.delta preonset gaussian sd.length
        R.printed.gof.h R.printed.gof.k) = .ok syn' ∧
      window tr0.delta preonset syn' = window tr0.delta preonset sd := by
  have hprod : Produced R.WaveformSolutions R.printed wc wr wp :=
    .inl ⟨env, rfs, preonset, HSed, VpSed, VpCrust, rayp, gaussian, KMoho, HMoho, R, h, rfl, rfl⟩
  obtain ⟨-, -, ⟨g1, g2⟩⟩ := best_rows hprod
  obtain ⟨S', sd', e1, e2, hcrit⟩ := c36_serial_window h0 hd h
  rw [hS] at e1; cases Except.ok.inj e1
  rw [hsd] at e2; cases e2
  obtain ⟨s, hs, sh, sk⟩ := grid_row h hH hK
  obtain ⟨y, hy, q1, q2, q3, q4, q5, q6, q7⟩ := hcrit s hs
  rw [sh, sk, hsyn] at hy
  cases Except.ok.inj hy
  have hs0 : s.rmse = 0 := by rw [q3, (c44_rms_zero q1).2 hw.symm]
  have hs1 : s.corr = 1 := by rw [q6 hne (by rw [hw]; exact hne), hw, pearson_self hne]
  have hs2 : s.pg = top := by
    rw [hw, hself] at q7
    exact (Except.ok.inj q7).symm
  have hnn : ∀ s ∈ R.WaveformSolutions, 0 ≤ s.rmse := by
    intro s hs
    obtain ⟨_, _, _, _, p3, _⟩ := hcrit s hs
    rw [p3]; exact rms_nonneg _ _
  have hnorm : Normalisable R.WaveformSolutions := by
    obtain ⟨b, hb, hb0⟩ := hbad
    exact ⟨⟨s, hs, by rw [hs1]; norm_num⟩, ⟨b, hb, lt_of_le_of_ne (hnn b hb) (Ne.symm hb0)⟩,
      ⟨s, hs, by rw [hs2]; exact htop⟩, hnn⟩
  have hgs : s.gof = 1 := by
    rw [c38_gof_eq_one hprod hc hr.le hp hsum hnorm s hs]
    refine ⟨fun _ s' hs' => ?_, fun _ => hs0, fun _ s' hs' => ?_⟩
    · rw [hs1]
      obtain ⟨_, _, _, _, _, _, p5, _⟩ := hcrit s' hs'
      exact p5
    · rw [hs2]
      obtain ⟨_, _, _, _, _, _, _, _, p7⟩ := hcrit s' hs'
      exact hle _ _ _ _ p7
  have hgof : R.printed.gof.gof = 1 := by
    refine le_antisymm (c38_gof_le_one hprod hc hr.le hp hsum hnorm _ g1) ?_
    have := g2 s hs
    rwa [hgs] at this
  have hr0 : R.printed.gof.rmse = 0 :=
    ((c38_gof_eq_one hprod hc hr.le hp hsum hnorm _ g1).1 hgof).2.1 hr
  obtain ⟨y', hy', p1, p2, p3, -⟩ := hcrit _ g1
  exact ⟨hgof, hr0, y', hy', ((c44_rms_zero p1).1 (by rw [← p3, hr0])).symm⟩

/-- **C86** The same for the parallel version, any number of processes and schedule: the best model
marked by `plotbestmodel` has misfit zero and reproduces the data, and the best correlation is 1. -/
theorem c86_parallel {P : Para ℝ} {nproc : ℕ} {res : List (List (Crit ℝ))} {savepath format : String}
    {sols : List (Sol ℝ)} {best : Best ℝ} {figs : List (Fig ℝ)} (h0 : rfs[0]? = some tr0) (hd : 0 < tr0.delta)
    (hn : 0 < nproc)
    (hP : WaveformPara env rfs preonset HSed VpSed VpCrust rayp KMoho HMoho gaussian = .ok P)
    (h : RunWaveformfitting env nproc HMoho P (.ok (res.map some)))
    (hplot : plotbestmodel env res P (some wc) (some wr) (some wp) savepath format = .ok (sols, best, figs))
    (hS : env.stackR rfs = .ok S) (hsd : S[0]? = some sd) (hH : H ∈ HMoho) (hK : K ∈ KMoho)
    (hsyn : env.synthRF (modelOf HSed VpSed VpCrust rayp tr0.delta preonset gaussian sd.length H K) = .ok syn)
    (hw : window tr0.delta preonset syn = window tr0.delta preonset sd) :
    best.rmse.rmse = 0 ∧
    (∃ syn', env.synthRF (modelOf HSed VpSed VpCrust rayp tr0.delta preonset gaussian sd.length
        best.rmse.h best.rmse.k) = .ok syn' ∧
      window tr0.delta preonset syn' = window tr0.delta preonset sd) ∧
    ((∀ H' ∈ HMoho, ∀ K' ∈ KMoho, ∀ syn', env.synthRF (modelOf HSed VpSed VpCrust rayp tr0.delta preonset
        gaussian sd.length H' K') = .ok syn' →
        window tr0.delta preonset syn' = window tr0.delta preonset sd → H' = H ∧ K' = K) →
      best.rmse.h = H ∧ best.rmse.k = K) ∧
    (¬ Constant (window tr0.delta preonset sd) → best.corr.corr = 1) := by
  obtain ⟨R, hR⟩ := c37_converse wc wr wp hn (List.ne_nil_of_mem hK) (List.ne_nil_of_mem hH) hP h
  obtain ⟨hperm, e1, e2, -⟩ := c37_same_best hn hR hP h hplot
  obtain ⟨g1, -, -, g4⟩ := c86_recovers h0 hd hR hS hsd hH hK hsyn hw
  have hprod : Produced sols best wc wr wp := .inr ⟨env, res, P, savepath, format, figs, hplot⟩
  obtain ⟨-, ⟨r1, -⟩, -⟩ := best_rows hprod
  obtain ⟨S', sd', a1, a2, hcrit⟩ := c36_serial_window h0 hd hR
  rw [hS] at a1; cases Except.ok.inj a1
  rw [hsd] at a2; cases a2
  obtain ⟨y', hy', p1, p2, p3, -⟩ := hcrit _ (hperm.mem_iff.1 r1)
  have hmatch := ((c44_rms_zero p1).1 (by rw [← p3, e2, g1])).symm
  refine ⟨by rw [e2, g1], ⟨y', hy', hmatch⟩, fun huniq => ?_, fun hc => ?_⟩
  · obtain ⟨k1, k2⟩ := row_in_grid hR _ (hperm.mem_iff.1 r1)
    exact huniq _ k1 _ k2 y' hy' hmatch
  · rw [e1, g4 hc]

/-- **C86** The overall best model of the parallel version explains such data too, under the conditions of `c86_overall`. -/
theorem c86_parallel_overall {P : Para ℝ} {nproc : ℕ} {res : List (List (Crit ℝ))} {savepath format : String}
    {sols : List (Sol ℝ)} {best : Best ℝ} {figs : List (Fig ℝ)} (h0 : rfs[0]? = some tr0) (hd : 0 < tr0.delta)
    (hn : 0 < nproc)
    (hP : WaveformPara env rfs preonset HSed VpSed VpCrust rayp KMoho HMoho gaussian = .ok P)
    (h : RunWaveformfitting env nproc HMoho P (.ok (res.map some)))
    (hplot : plotbestmodel env res P (some wc) (some wr) (some wp) savepath format = .ok (sols, best, figs))
    (hS : env.stackR rfs = .ok S) (hsd : S[0]? = some sd) (hH : H ∈ HMoho) (hK : K ∈ KMoho)
    (hsyn : env.synthRF (modelOf HSed VpSed VpCrust rayp tr0.delta preonset gaussian sd.length H K) = .ok syn)
    (hw : window tr0.delta preonset syn = window tr0.delta preonset sd)
    (hne : ¬ Constant (window tr0.delta preonset sd)) (hc : 0 ≤ wc) (hr : 0 < wr) (hp : 0 ≤ wp)
    (hsum : wc + wr + wp = 1) (hbad : ∃ s ∈ sols, s.rmse ≠ 0) {top : ℝ} (htop : 0 < top)
    (hself : ∀ x d, env.pg x x d = .ok top) (hle : ∀ x y d v, env.pg x y d = .ok v → v ≤ top) :
    best.gof.gof = 1 ∧ best.gof.rmse = 0 ∧
    ∃ syn', env.synthRF (modelOf HSed VpSed VpCrust rayp tr0.delta preonset gaussian sd.length
        best.gof.h best.gof.k) = .ok syn' ∧
      window tr0.delta preonset syn' = window tr0.delta preonset sd := by
  obtain ⟨R, hR⟩ := c37_converse wc wr wp hn (List.ne_nil_of_mem hK) (List.ne_nil_of_mem hH) hP h
  obtain ⟨hperm, -, -, -, e4, -⟩ := c37_same_best hn hR hP h hplot
  obtain ⟨b, hb, hb0⟩ := hbad
  obtain ⟨hgof, hr0, y1, hy1, hm1⟩ := c86_overall h0 hd hR hS hsd hH hK hsyn hw hne hc hr hp hsum
    ⟨b, hperm.mem_iff.1 hb, hb0⟩ htop hself hle
  have hprod : Produced sols best wc wr wp := .inr ⟨env, res, P, savepath, format, figs, hplot⟩
  obtain ⟨-, -, ⟨g1, -⟩⟩ := best_rows hprod
  obtain ⟨S', sd', a1, a2, hcrit⟩ := c36_serial_window h0 hd hR
  rw [hS] at a1; cases Except.ok.inj a1
  rw [hsd] at a2; cases a2
  have hnn : ∀ s ∈ sols, 0 ≤ s.rmse := by
    intro s hs
    obtain ⟨_, _, _, _, p3, _⟩ := hcrit s (hperm.mem_iff.1 hs)
    rw [p3]; exact rms_nonneg _ _
  obtain ⟨s, hs, sh, sk⟩ := grid_row hR hH hK
  obtain ⟨y, hy, q1, q2, q3, q4, q5, q6, q7⟩ := hcrit s hs
  rw [sh, sk, hsyn] at hy
  cases Except.ok.inj hy
  have hs1 : s.corr = 1 := by rw [q6 hne (by rw [hw]; exact hne), hw, pearson_self hne]
  have hs2 : s.pg = top := by
    rw [hw, hself] at q7
    exact (Except.ok.inj q7).symm
  have hs' := hperm.mem_iff.2 hs
  have hnorm : Normalisable sols :=
    ⟨⟨s, hs', by rw [hs1]; norm_num⟩, ⟨b, hb, lt_of_le_of_ne (hnn b hb) (Ne.symm hb0)⟩,
      ⟨s, hs', by rw [hs2]; exact htop⟩, hnn⟩
  have hb1 : best.gof.gof = 1 := by rw [e4, hgof]
  have hr1 : best.gof.rmse = 0 := ((c38_gof_eq_one hprod hc hr.le hp hsum hnorm _ g1).1 hb1).2.1 hr
  obtain ⟨y', hy', p1, p2, p3, -⟩ := hcrit _ (hperm.mem_iff.1 g1)
  exact ⟨hb1, hr1, y', hy', ((c44_rms_zero p1).1 (by rw [← p3, hr1])).symm⟩

end

/-- the synthetic of Moho depth 30 is the data, others are not -/
noncomputable def rEnv : WEnv ℝ where
  stackR rfs := .ok (rfs.map Trace.data)
  synthRF a := .ok (@ite _ (a.depth[1]? = some 30) (Classical.propDecidable _) [0, 1, 2] [0, 1, 1])
  pg x y _ := .ok (@ite _ (x = y) (Classical.propDecidable _) 10 5)

theorem rRun (wc wr wp : ℝ) : ∃ R,
    WaveformFitting rEnv [wTrace] 0 1 2 6 (6/100) [2] [40, 30] 1 wc wr wp = .ok R := by
  obtain ⟨P, hP⟩ := (c36_index_error (env := rEnv) (rfs := [wTrace]) (tr0 := wTrace) (S := [[0, 1, 2]]) (sd := [0, 1, 2]) 0 1 2 6 (6/100) 1 wc wr wp [2]
    [40, 30] rfl (show (0 : ℝ) < wTrace.delta by norm_num [wTrace]) (by simp [wTrace]) rfl rfl).1
    ⟨0, by simp [wTrace], by simp⟩
  rw [WaveformPara_eq] at hP
  have hgp : ∀ p ∈ ([2] : List ℝ).flatMap (fun k => ([40, 30] : List ℝ).map (fun h => (h, k))),
      ∃ c, gridPoint rEnv P p.1 p.2 = .ok c := by
    intro p _
    obtain ⟨tr0, S, sd, z, e, h0, hS, hsd, hl, hz, hd0, he, rfl⟩ := prepare_ok hP
    cases h0
    cases Except.ok.inj hS
    cases hsd
    obtain ⟨_, hzt⟩ := whereEq_first hz
    have he : e = truncR (25 / wTrace.delta) := by
      have := Except.ok.inj he
      rw [← this, real_ofNat]; norm_num
    have hd : (0 : ℝ) < wTrace.delta := by simp [wTrace]
    obtain ⟨a, b, c, hsyn⟩ : ∃ a b c, rEnv.synthRF (synthArgs 1 2 (vsOf 2) (rhoOf 2) 6 (rhoOf 6) (6/100)
        wTrace.delta (PyFloat.abs (wTrace.delta * ofNat 0 - 0)) 1 wTrace.data.length p.1 p.2)
        = .ok [a, b, c] := by
      by_cases h : p.1 = 30
      · exact ⟨0, 1, 2, by simp [rEnv, synthArgs, h]⟩
      · exact ⟨0, 1, 1, by simp [rEnv, synthArgs, h]⟩
    unfold gridPoint
    simp only
    rw [hsyn, except_ok_bind]
    have hw : ∀ a b c : ℝ, pySlice [a, b, c] z ((z : ℤ) + e) = [a, b, c] := by
      intro a b c
      have := slice_window hd hzt [a, b, c]
      rw [he, this]
      exact wWindow a b c
    refine criteria_total ?_ ?_ rfl
    · have : wTrace.data = [0, 1, 2] := rfl
      rw [this, hw, hw]; rfl
    · have : wTrace.data = [0, 1, 2] := rfl
      rw [this, hw]; simp
  obtain ⟨all, hall⟩ := mapM_ok_of_forall hgp
  have hne : all ≠ [] := by
    rintro rfl
    have := mapM_length hall
    simp at this
  obtain ⟨sols, hs⟩ := normalise_total wc wr wp hne
  have hsne : sols ≠ [] := by
    obtain ⟨_, _, _, _, _, _, rfl⟩ := normalise_ok hs
    simpa using hne
  obtain ⟨best, hb⟩ := bestModels_total hsne
  exact ⟨_, WaveformFitting_of hP hall hs hb⟩

/-- A grid with Moho depths 40 and 30 km, data made with 30 km: found by the misfit and by the
overall goodness of fit. -/
example : ∃ R, WaveformFitting rEnv [wTrace] 0 1 2 6 (6/100) [2] [40, 30] 1 0.4 0.4 0.2 = .ok R ∧
    R.printed.rmse.h = 30 ∧ R.printed.corr.corr = 1 ∧ R.printed.gof.gof = 1 := by
  obtain ⟨R, hR⟩ := rRun 0.4 0.4 0.2
  have hsyn : ∀ H : ℝ, rEnv.synthRF (modelOf 1 2 6 (6/100) wTrace.delta 0 1 ([0, 1, 2] : List ℝ).length H 2) =
      .ok (@ite _ (H = 30) (Classical.propDecidable _) [0, 1, 2] [0, 1, 1]) := by
    intro H
    by_cases h : H = 30
    · rw [if_pos h]; simp [rEnv, modelOf, h]
    · rw [if_neg h]; simp [rEnv, modelOf, h]
  have hd : (0 : ℝ) < wTrace.delta := by norm_num [wTrace]
  have hw : ∀ a b c : ℝ, window wTrace.delta 0 [a, b, c] = [a, b, c] := wWindow
  have hnc : ¬ Constant (window wTrace.delta 0 [0, 1, 2]) := by
    rw [hw]; intro h; have := h 0 (by simp) 1 (by simp); norm_num at this
  obtain ⟨h1, -, h3, h4⟩ := c86_recovers (tr0 := wTrace) (H := 30) (K := 2) rfl hd hR (S := [[0, 1, 2]]) rfl rfl
    (by simp) (by simp) (by rw [hsyn, if_pos rfl]) rfl
  obtain ⟨g1, -⟩ := c86_overall (tr0 := wTrace) (H := 30) (K := 2) rfl hd hR (S := [[0, 1, 2]]) rfl rfl
    (by simp) (by simp) (by rw [hsyn, if_pos rfl]) rfl hnc (by norm_num) (by norm_num) (by norm_num) (by norm_num)
    (by
      obtain ⟨s, hs, e1, e2⟩ := grid_row hR (H := 40) (K := 2) (by simp) (by simp)
      refine ⟨s, hs, ?_⟩
      obtain ⟨S, sd, a1, a2, hc⟩ := c36_serial_window (tr0 := wTrace) rfl hd hR
      cases Except.ok.inj a1
      cases a2
      obtain ⟨y, hy, q1, -, q3, -⟩ := hc s hs
      rw [e1, e2] at hy
      have hy' := (hsyn 40).symm.trans hy
      rw [if_neg (by norm_num)] at hy'
      cases Except.ok.inj hy'
      intro h
      rw [q3, c44_rms_zero q1] at h
      have h' : ([0, 1, 2] : List ℝ) = [0, 1, 1] := by rw [← hw 0 1 2, ← hw 0 1 1]; exact h
      norm_num at h')
    (top := 10) (by norm_num) (fun x d => by simp [rEnv])
    (fun x y d v hv => by
      have := Except.ok.inj hv
      rw [← this]; split_ifs <;> norm_num)
  refine ⟨R, hR, ?_, h4 hnc, g1⟩
  refine (h3 ?_).1
  intro H' hH' K' hK' syn' hs' hm
  have hK2 : K' = 2 := by simpa using hK'
  refine ⟨?_, hK2⟩
  rw [hK2, hsyn] at hs'
  by_contra hne
  rw [if_neg hne] at hs'
  cases Except.ok.inj hs'
  rw [hw, hw] at hm
  norm_num at hm

end Rfsed.Props
