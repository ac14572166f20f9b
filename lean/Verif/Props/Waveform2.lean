import Verif.Props.Waveform

/-!
# Waveform fitting: goodness of fit (C38–C40), weights when plotting (C41), number of results (C42),
signs (C43), misfit and correlation (C44), NaN (C69), plotted synthetic (C70), grid and best (C71)
-/

namespace Rfsed.Props
open Rfsed PyFloat Spec Waveform

/-- The table of solutions `sols` with weights `wc wr wp` comes out of one of the two programs:
either `WaveformFitting` returned it, or `plotbestmodel` worked on it; `best` are the four best
models that program printed. -/
def Produced {F : Type} [PyFloat F] [PyTrunc F] (sols : List (Sol F)) (best : Best F)
    (wc wr wp : F) : Prop :=
  (∃ (env : WEnv F) (rfs : List (Trace F)) (preonset HSed VpSed VpCrust rayp gaussian : F)
      (KMoho HMoho : List F) (R : WResult F),
    WaveformFitting env rfs preonset HSed VpSed VpCrust rayp KMoho HMoho gaussian wc wr wp = .ok R ∧
    R.WaveformSolutions = sols ∧ R.printed = best) ∨
  (∃ (env : WEnv F) (res : List (List (Crit F))) (P : Para F) (savepath format : String)
      (figs : List (Fig F)),
    plotbestmodel env res P (some wc) (some wr) (some wp) savepath format = .ok (sols, best, figs))

theorem produced_normalised {F : Type} [PyFloat F] [PyTrunc F] {sols : List (Sol F)}
    {best : Best F} {wc wr wp : F} (h : Produced sols best wc wr wp) :
    ∃ all, normalise all wc wr wp = .ok sols ∧ bestModels sols = .ok best := by
  rcases h with ⟨env, rfs, p, a, b, c, d, e, K, H, R, h, rfl, rfl⟩ |
    ⟨env, res, P, savepath, format, figs, h⟩
  · obtain ⟨P', all, sols0, best0, hP', ha, hso, hb, rfl⟩ := WaveformFitting_ok h
    exact ⟨all, hso, hb⟩
  · obtain ⟨all, _, h1, h2⟩ := plotbestmodel_ok h
    exact ⟨all, by simpa using h1, h2⟩

/-- the goodness of fit of a produced table in terms of the table itself -/
theorem produced_gof {sols : List (Sol ℝ)} {best : Best ℝ} {wc wr wp : ℝ}
    (h : Produced sols best wc wr wp) :
    ∃ mc mr mp, IsMaxVal (sols.map Sol.corr) mc ∧ IsMaxVal (sols.map Sol.rmse) mr ∧
      IsMaxVal (sols.map Sol.pg) mp ∧
      ∀ s ∈ sols, s.gof = wc * (s.corr / mc) + wr * (1 - s.rmse / mr) + wp * (s.pg / mp) := by
  obtain ⟨all, hn, _⟩ := produced_normalised h
  obtain ⟨mc, mr, mp, h1, h2, h3, rfl⟩ := normalise_ok hn
  refine ⟨mc, mr, mp, ?_, ?_, ?_, ?_⟩
  · rw [List.map_map]; exact pyMax_real h1
  · rw [List.map_map]; exact pyMax_real h2
  · rw [List.map_map]; exact pyMax_real h3
  · intro s hs
    obtain ⟨c, hc, rfl⟩ := List.mem_map.1 hs
    simp

/-- some model has positive correlation, some positive misfit, some positive phase criterion, and
no misfit is negative: then all three normalisers are positive -/
def Normalisable (sols : List (Sol ℝ)) : Prop :=
  (∃ s ∈ sols, 0 < s.corr) ∧ (∃ s ∈ sols, 0 < s.rmse) ∧ (∃ s ∈ sols, 0 < s.pg) ∧
  ∀ s ∈ sols, 0 ≤ s.rmse

theorem maxVal_pos {sols : List (Sol ℝ)} {col : Sol ℝ → ℝ} {m : ℝ}
    (hm : IsMaxVal (sols.map col) m) (h : ∃ s ∈ sols, 0 < col s) : 0 < m := by
  obtain ⟨s, hs, h0⟩ := h
  exact lt_of_lt_of_le h0 (hm.2 _ (List.mem_map_of_mem hs))

/-- **C38**: with non-negative weights summing to one the goodness of fit of no model exceeds 1. -/
theorem c38_gof_le_one {sols : List (Sol ℝ)} {best : Best ℝ} {wc wr wp : ℝ}
    (h : Produced sols best wc wr wp) (hc : 0 ≤ wc) (hr : 0 ≤ wr) (hp : 0 ≤ wp)
    (hw : wc + wr + wp = 1) (hn : Normalisable sols) : ∀ s ∈ sols, s.gof ≤ 1 := by
  obtain ⟨mc, mr, mp, h1, h2, h3, h4⟩ := produced_gof h
  have pc := maxVal_pos h1 hn.1
  have pr := maxVal_pos h2 hn.2.1
  have pp := maxVal_pos h3 hn.2.2.1
  intro s hs
  rw [h4 s hs]
  have e1 : s.corr / mc ≤ 1 := (div_le_one pc).2 (h1.2 _ (List.mem_map_of_mem hs))
  have e3 : s.pg / mp ≤ 1 := (div_le_one pp).2 (h3.2 _ (List.mem_map_of_mem hs))
  have e2 : 0 ≤ s.rmse / mr := div_nonneg (hn.2.2.2 s hs) pr.le
  have f1 := mul_le_mul_of_nonneg_left e1 hc
  have f2 := mul_le_mul_of_nonneg_left (by linarith : 1 - s.rmse / mr ≤ 1) hr
  have f3 := mul_le_mul_of_nonneg_left e3 hp
  linarith

/-- **C38** (equality): the value 1 is reached exactly by the models that are best in every
criterion with positive weight and, if the misfit has positive weight, have zero misfit. -/
theorem c38_gof_eq_one {sols : List (Sol ℝ)} {best : Best ℝ} {wc wr wp : ℝ}
    (h : Produced sols best wc wr wp) (hc : 0 ≤ wc) (hr : 0 ≤ wr) (hp : 0 ≤ wp)
    (hw : wc + wr + wp = 1) (hn : Normalisable sols) : ∀ s ∈ sols,
    (s.gof = 1 ↔ (0 < wc → ∀ s' ∈ sols, s'.corr ≤ s.corr) ∧ (0 < wr → s.rmse = 0) ∧
      (0 < wp → ∀ s' ∈ sols, s'.pg ≤ s.pg)) := by
  obtain ⟨mc, mr, mp, h1, h2, h3, h4⟩ := produced_gof h
  have pc := maxVal_pos h1 hn.1
  have pr := maxVal_pos h2 hn.2.1
  have pp := maxVal_pos h3 hn.2.2.1
  intro s hs
  rw [h4 s hs]
  have e1 : s.corr / mc ≤ 1 := (div_le_one pc).2 (h1.2 _ (List.mem_map_of_mem hs))
  have e3 : s.pg / mp ≤ 1 := (div_le_one pp).2 (h3.2 _ (List.mem_map_of_mem hs))
  have e2 : 0 ≤ s.rmse / mr := div_nonneg (hn.2.2.2 s hs) pr.le
  have f1 := mul_le_mul_of_nonneg_left e1 hc
  have f2 := mul_le_mul_of_nonneg_left (by linarith : 1 - s.rmse / mr ≤ 1) hr
  have f3 := mul_le_mul_of_nonneg_left e3 hp
  constructor
  · intro heq
    have g1 : wc * (s.corr / mc) = wc := by linarith
    have g2 : wr * (1 - s.rmse / mr) = wr := by linarith
    have g3 : wp * (s.pg / mp) = wp := by linarith
    refine ⟨fun hpos s' hs' => ?_, fun hpos => ?_, fun hpos s' hs' => ?_⟩
    · have : s.corr / mc = 1 := mul_left_cancel₀ hpos.ne' (by rw [g1, mul_one])
      rw [(div_eq_one_iff_eq pc.ne').1 this]
      exact h1.2 _ (List.mem_map_of_mem hs')
    · have : 1 - s.rmse / mr = 1 := mul_left_cancel₀ hpos.ne' (by rw [g2, mul_one])
      have : s.rmse / mr = 0 := by linarith
      rcases div_eq_zero_iff.1 this with h | h
      · exact h
      · exact absurd h pr.ne'
    · have : s.pg / mp = 1 := mul_left_cancel₀ hpos.ne' (by rw [g3, mul_one])
      rw [(div_eq_one_iff_eq pp.ne').1 this]
      exact h3.2 _ (List.mem_map_of_mem hs')
  · rintro ⟨k1, k2, k3⟩
    have g1 : wc * (s.corr / mc) = wc := by
      rcases hc.eq_or_lt with h0 | h0
      · rw [← h0]; ring
      · obtain ⟨s', hs', he⟩ := List.mem_map.1 h1.1
        have : s.corr = mc := le_antisymm (h1.2 _ (List.mem_map_of_mem hs)) (by
          rw [← he]; exact k1 h0 s' hs')
        rw [this, div_self pc.ne', mul_one]
    have g2 : wr * (1 - s.rmse / mr) = wr := by
      rcases hr.eq_or_lt with h0 | h0
      · rw [← h0]; ring
      · rw [k2 h0]; simp
    have g3 : wp * (s.pg / mp) = wp := by
      rcases hp.eq_or_lt with h0 | h0
      · rw [← h0]; ring
      · obtain ⟨s', hs', he⟩ := List.mem_map.1 h3.1
        have : s.pg = mp := le_antisymm (h3.2 _ (List.mem_map_of_mem hs)) (by
          rw [← he]; exact k3 h0 s' hs')
        rw [this, div_self pp.ne', mul_one]
    rw [g1, g2, g3, hw]

/-- first-maximum position is determined by the order relation between entries only -/
theorem argmax_order_eq {f g : Sol ℝ → ℝ} {sols : List (Sol ℝ)} {i j : ℕ}
    (hord : ∀ a ∈ sols, ∀ b ∈ sols, f a ≤ f b ↔ g a ≤ g b)
    (hi : argmax (sols.map f) = .ok i) (hj : argmax (sols.map g) = .ok j) : i = j := by
  have h1 := argmax_firstMax (fun x _ => real_isNaN x) hi
  have h2 := argmax_firstMax (fun x _ => real_isNaN x) hj
  refine IsFirstMax.unique (xs := sols.map f) h1 ?_
  obtain ⟨x, hx, hmax, hlt⟩ := h2
  rw [List.getElem?_map] at hx
  obtain ⟨s, hs, rfl⟩ := Option.map_eq_some_iff.1 hx
  have hsm := List.mem_of_getElem? hs
  refine ⟨f s, by rw [List.getElem?_map, hs]; rfl, fun k y hy => ?_, fun k y hk hy => ?_⟩
  · rw [List.getElem?_map] at hy
    obtain ⟨r, hr, rfl⟩ := Option.map_eq_some_iff.1 hy
    have := hmax k (g r) (by rw [List.getElem?_map, hr]; rfl)
    rw [real_le] at this ⊢
    exact (hord r (List.mem_of_getElem? hr) s hsm).2 this
  · rw [List.getElem?_map] at hy
    obtain ⟨r, hr, rfl⟩ := Option.map_eq_some_iff.1 hy
    have := hlt k (g r) hk (by rw [List.getElem?_map, hr]; rfl)
    rw [real_lt] at this ⊢
    exact lt_of_not_ge (fun hc => not_le_of_gt this ((hord s hsm r (List.mem_of_getElem? hr)).1 hc))

/-- first minimum of `f` is the first maximum of an order-reversing `g` -/
theorem argmin_argmax_eq {f g : Sol ℝ → ℝ} {sols : List (Sol ℝ)} {i j : ℕ}
    (hord : ∀ a ∈ sols, ∀ b ∈ sols, f a ≤ f b ↔ g b ≤ g a)
    (hi : argmin (sols.map f) = .ok i) (hj : argmax (sols.map g) = .ok j) : i = j := by
  have h1 := argmin_firstMin (fun x _ => real_isNaN x) hi
  have h2 := argmax_firstMax (fun x _ => real_isNaN x) hj
  refine IsFirstMin.unique (xs := sols.map f) h1 ?_
  obtain ⟨x, hx, hmax, hlt⟩ := h2
  rw [List.getElem?_map] at hx
  obtain ⟨s, hs, rfl⟩ := Option.map_eq_some_iff.1 hx
  have hsm := List.mem_of_getElem? hs
  refine ⟨f s, by rw [List.getElem?_map, hs]; rfl, fun k y hy => ?_, fun k y hk hy => ?_⟩
  · rw [List.getElem?_map] at hy
    obtain ⟨r, hr, rfl⟩ := Option.map_eq_some_iff.1 hy
    have := hmax k (g r) (by rw [List.getElem?_map, hr]; rfl)
    rw [real_le] at this ⊢
    exact (hord s hsm r (List.mem_of_getElem? hr)).2 this
  · rw [List.getElem?_map] at hy
    obtain ⟨r, hr, rfl⟩ := Option.map_eq_some_iff.1 hy
    have := hlt k (g r) hk (by rw [List.getElem?_map, hr]; rfl)
    rw [real_lt] at this ⊢
    exact lt_of_not_ge (fun hc => not_le_of_gt this ((hord r (List.mem_of_getElem? hr) s hsm).1 hc))

/-- **C39**: weights (1,0,0): the overall best model is the best model by correlation. -/
theorem c39_only_corr {sols : List (Sol ℝ)} {best : Best ℝ}
    (h : Produced sols best 1 0 0) (hpos : ∃ s ∈ sols, 0 < s.corr) : best.gof = best.corr := by
  obtain ⟨mc, mr, mp, h1, h2, h3, h4⟩ := produced_gof h
  obtain ⟨all, _, hb⟩ := produced_normalised h
  have pc := maxVal_pos h1 hpos
  obtain ⟨i, j, k, l, a1, a2, a3, a4, a5, a6, a7, a8⟩ := bestModels_ok hb
  have := argmax_order_eq (f := Sol.gof) (g := Sol.corr) (fun a ha b hb => by
    rw [h4 a ha, h4 b hb]
    simp [div_le_div_iff_of_pos_right pc]) a7 a1
  subst this
  rw [a2] at a8
  exact (Option.some.inj a8).symm

/-- **C39**: weights (0,1,0): the overall best model is the best model by misfit. -/
theorem c39_only_rmse {sols : List (Sol ℝ)} {best : Best ℝ}
    (h : Produced sols best 0 1 0) (hpos : ∃ s ∈ sols, 0 < s.rmse) : best.gof = best.rmse := by
  obtain ⟨mc, mr, mp, h1, h2, h3, h4⟩ := produced_gof h
  obtain ⟨all, _, hb⟩ := produced_normalised h
  have pr := maxVal_pos h2 hpos
  obtain ⟨i, j, k, l, a1, a2, a3, a4, a5, a6, a7, a8⟩ := bestModels_ok hb
  have := argmin_argmax_eq (f := Sol.rmse) (g := Sol.gof) (fun a ha b hb => by
    rw [h4 a ha, h4 b hb, ← div_le_div_iff_of_pos_right pr]
    constructor <;> intro h <;> linarith) a3 a7
  subst this
  rw [a4] at a8
  exact (Option.some.inj a8).symm

/-- **C39**: weights (0,0,1): the overall best model is the best model by the phase criterion. -/
theorem c39_only_pg {sols : List (Sol ℝ)} {best : Best ℝ}
    (h : Produced sols best 0 0 1) (hpos : ∃ s ∈ sols, 0 < s.pg) : best.gof = best.pg := by
  obtain ⟨mc, mr, mp, h1, h2, h3, h4⟩ := produced_gof h
  obtain ⟨all, _, hb⟩ := produced_normalised h
  have pp := maxVal_pos h3 hpos
  obtain ⟨i, j, k, l, a1, a2, a3, a4, a5, a6, a7, a8⟩ := bestModels_ok hb
  have := argmax_order_eq (f := Sol.gof) (g := Sol.pg) (fun a ha b hb => by
    rw [h4 a ha, h4 b hb]
    simp [div_le_div_iff_of_pos_right pp]) a7 a5
  subst this
  rw [a6] at a8
  exact (Option.some.inj a8).symm

/-- **C40**: a model at least as good as another in all three criteria has at least its goodness of
fit, when the normalisers are positive. -/
theorem c40_monotone {sols : List (Sol ℝ)} {best : Best ℝ} {wc wr wp : ℝ}
    (h : Produced sols best wc wr wp) (hc : 0 ≤ wc) (hr : 0 ≤ wr) (hp : 0 ≤ wp)
    (hn : Normalisable sols) {a b : Sol ℝ} (ha : a ∈ sols) (hb : b ∈ sols)
    (h1 : a.corr ≤ b.corr) (h2 : b.rmse ≤ a.rmse) (h3 : a.pg ≤ b.pg) : a.gof ≤ b.gof := by
  obtain ⟨mc, mr, mp, m1, m2, m3, h4⟩ := produced_gof h
  have pc := maxVal_pos m1 hn.1
  have pr := maxVal_pos m2 hn.2.1
  have pp := maxVal_pos m3 hn.2.2.1
  rw [h4 a ha, h4 b hb]
  have e1 := mul_le_mul_of_nonneg_left (div_le_div_of_nonneg_right h1 pc.le) hc
  have e2 := mul_le_mul_of_nonneg_left (sub_le_sub_left (div_le_div_of_nonneg_right h2 pr.le) 1) hr
  have e3 := mul_le_mul_of_nonneg_left (div_le_div_of_nonneg_right h3 pp.le) hp
  linarith

/-- **C40** (limitation): when every correlation is negative the ranking by correlation is
inverted: with weights (1,0,0) the model with the smaller (worse) correlation scores higher. -/
theorem c40_inverted {sols : List (Sol ℝ)} {best : Best ℝ}
    (h : Produced sols best 1 0 0) (hneg : ∀ s ∈ sols, s.corr < 0) {a b : Sol ℝ}
    (ha : a ∈ sols) (hb : b ∈ sols) : a.corr ≤ b.corr ↔ b.gof ≤ a.gof := by
  obtain ⟨mc, mr, mp, m1, m2, m3, h4⟩ := produced_gof h
  have pc : mc < 0 := by
    obtain ⟨s, hs, he⟩ := List.mem_map.1 m1.1
    rw [← he]; exact hneg s hs
  rw [h4 a ha, h4 b hb]
  simp [div_le_div_right_of_neg pc]

/-! ## C71: grid order and best models -/

section generic
variable {F : Type} [PyFloat F] [PyTrunc F]

/-- **C71**: the table has one solution per grid point, Vp/Vs in the outer and depth in the inner
loop. -/
theorem c71_grid {env : WEnv F} {rfs : List (Trace F)}
    {preonset HSed VpSed VpCrust rayp gaussian wc wr wp : F} {KMoho HMoho : List F}
    {R : WResult F}
    (h : WaveformFitting env rfs preonset HSed VpSed VpCrust rayp KMoho HMoho gaussian wc wr wp
      = .ok R) :
    R.WaveformSolutions.length = KMoho.length * HMoho.length ∧
    ∀ i j : ℕ, ∀ k h : F, KMoho[i]? = some k → HMoho[j]? = some h →
      ∃ s, R.WaveformSolutions[i * HMoho.length + j]? = some s ∧ s.h = h ∧ s.k = k := by
  obtain ⟨P, all, sols, best, hP, ha, hs, hb, rfl⟩ := WaveformFitting_ok h
  obtain ⟨mc, mr, mp, _, _, _, rfl⟩ := normalise_ok hs
  constructor
  · simp only [List.length_map]
    rw [mapM_length ha, length_flatMap_map]
  · intro i j k h hk hh
    have hg := getElem?_flatMap_map KMoho HMoho (fun k h => (h, k)) i j k h hk hh
    obtain ⟨c, hc, hcv⟩ := mapM_getElem ha hg
    refine ⟨_, by rw [List.getElem?_map, hc]; rfl, ?_⟩
    simp only [gridPoint, criteria, bind_eq_ok, except_pure] at hcv
    obtain ⟨_, _, _, _, _, _, _, _, hcv⟩ := hcv
    cases Except.ok.inj hcv
    exact ⟨rfl, rfl⟩

/-- `s` is the row of the first largest (smallest) value of a column, or of the first NaN in it. -/
def IsBestBy [IEEEOrder F] (first : List F → ℕ → Prop) (col : Sol F → F) (sols : List (Sol F))
    (s : Sol F) : Prop :=
  ∃ i, sols[i]? = some s ∧
    ((NoNaN (sols.map col) ∧ first (sols.map col) i) ∨ IsFirstNaN (sols.map col) i)

omit [PyTrunc F] in
theorem best_spec [IEEEOrder F] {sols : List (Sol F)} {b : Best F} (h : bestModels sols = .ok b) :
    IsBestBy IsFirstMax Sol.corr sols b.corr ∧ IsBestBy IsFirstMin Sol.rmse sols b.rmse ∧
    IsBestBy IsFirstMax Sol.pg sols b.pg ∧ IsBestBy IsFirstMax Sol.gof sols b.gof := by
  obtain ⟨i, j, k, l, a1, a2, a3, a4, a5, a6, a7, a8⟩ := bestModels_ok h
  exact ⟨⟨i, a2, (argmax_spec a1).2⟩, ⟨j, a4, (argmin_spec a3).2⟩, ⟨k, a6, (argmax_spec a5).2⟩,
    ⟨l, a8, (argmax_spec a7).2⟩⟩

/-- **C71**: the best models either program reports are the first rows with the largest
correlation, smallest misfit, largest phase criterion and largest goodness of fit; if a column
contains a NaN, the row of its first NaN is reported instead. -/
theorem c71_best [IEEEOrder F] {sols : List (Sol F)} {best : Best F} {wc wr wp : F}
    (h : Produced sols best wc wr wp) :
    IsBestBy IsFirstMax Sol.corr sols best.corr ∧ IsBestBy IsFirstMin Sol.rmse sols best.rmse ∧
    IsBestBy IsFirstMax Sol.pg sols best.pg ∧ IsBestBy IsFirstMax Sol.gof sols best.gof := by
  obtain ⟨_, _, hb⟩ := produced_normalised h
  exact best_spec hb

/-! ## C41: weights given to the plotting function -/

omit [PyTrunc F] in
/-- **C41** (what the code does): the figures do not depend on the weights passed for plotting. -/
theorem c41_weights_ignored (env : WEnv F) (R : WResult F) (wc wr wp wc' wr' wp' : F)
    (savepath format : String) :
    PlotWaveformFitting env R wc wr wp savepath format =
    PlotWaveformFitting env R wc' wr' wp' savepath format := rfl

omit [PyTrunc F] in
theorem plotOne_ok {env : WEnv F} {rfs : List (Trace F)} {sta : String}
    {HSed VpSed VsSed SedDen VpCrust CrustDen rayp gaussian preonset : F} {xl yl : F × F}
    {sols : List (Sol F)} {suff : String} {crit : Sol F → F} {best : Sol F}
    {savepath format : String} {fig : Fig F}
    (h : plotOne env rfs sta HSed VpSed VsSed SedDen VpCrust CrustDen rayp gaussian preonset xl yl
      sols suff crit best savepath format = .ok fig) :
    ∃ tr0 onset S sd syn, rfs[0]? = some tr0 ∧ tr0.onset = some onset ∧ env.stackR rfs = .ok S ∧
      S[0]? = some sd ∧
      env.synthRF (synthArgs HSed VpSed VsSed SedDen VpCrust CrustDen rayp tr0.delta preonset
        gaussian sd.length best.h best.k) = .ok syn ∧
      fig.bestH = best.h ∧ fig.bestK = best.k ∧ fig.suff = suff ∧ fig.xlim = xl ∧ fig.ylim = yl ∧
      fig.points = sols.map (fun s => (s.h, s.k, crit s)) ∧
      fig.stackCurve = ((List.range tr0.data.length).map
        (fun i : Nat => ofNat i * tr0.delta + (tr0.starttime - onset)), sd) ∧
      fig.synthCurve = (timeAxis tr0.delta preonset syn.length, syn) ∧
      fig.filename = savepath ++ "/" ++ sta ++ "_" ++ suff ++ "." ++ format ∧
      fig.vsProfile = [VsSed, VsSed, VpCrust / best.k, VpCrust / best.k, dec 449 2, dec 449 2] ∧
      fig.depProfile = [zero, HSed, HSed, best.h, best.h, ofNat 50] := by
  unfold plotOne at h
  simp only [bind_eq_ok, item_ok] at h
  obtain ⟨tr0, h0, onset, hon, S, hS, sd, hsd, syn, hsyn, u, hu, h⟩ := h
  cases Except.ok.inj h
  refine ⟨tr0, onset, S, sd, syn, h0, ?_, hS, hsd, hsyn, rfl, rfl, rfl, rfl, rfl, rfl, rfl, rfl,
    rfl, rfl, rfl⟩
  unfold Trace.getOnset at hon
  split at hon
  · rename_i o ho
    cases Except.ok.inj hon
    exact ho
  · cases hon

/-- **C41** (what the code does): the figure titled "Overall Goodness of Fit" marks the best model
for the weights `WaveformFitting` was called with, whatever weights are passed for plotting; the
four figures, in order, mark the four models that `WaveformFitting` printed. -/
theorem c41_figures {env env' : WEnv F} {rfs : List (Trace F)}
    {preonset HSed VpSed VpCrust rayp gaussian wc wr wp : F} {KMoho HMoho : List F}
    {R : WResult F} {wc' wr' wp' : F} {savepath format : String} {figs : List (Fig F)}
    (h : WaveformFitting env rfs preonset HSed VpSed VpCrust rayp KMoho HMoho gaussian wc wr wp
      = .ok R)
    (hp : PlotWaveformFitting env' R wc' wr' wp' savepath format = .ok figs) :
    figs.map (fun f => (f.suff, f.bestH, f.bestK)) =
      [("Correlation Coefficient", R.printed.corr.h, R.printed.corr.k),
       ("Root-mean-square Error", R.printed.rmse.h, R.printed.rmse.k),
       ("Phase Goodness of Fit", R.printed.pg.h, R.printed.pg.k),
       ("Overall Goodness of Fit", R.printed.gof.h, R.printed.gof.k)] := by
  obtain ⟨P, all, sols, best, hP, ha, hs, hb, rfl⟩ := WaveformFitting_ok h
  unfold PlotWaveformFitting at hp
  obtain ⟨tr0, h0, hp⟩ := bind_eq_ok.1 hp
  obtain ⟨best', hb', hp⟩ := bind_eq_ok.1 hp
  simp only at hb'
  rw [hb] at hb'
  cases Except.ok.inj hb'
  refine (mapM_map_eq (B := fun p : String × (Sol F → F) × Sol F => (p.1, p.2.2.h, p.2.2.k)) hp
    (fun p _ f hpf => ?_)).trans rfl
  simp only [bind_eq_ok] at hpf
  obtain ⟨_, _, _, _, _, _, _, _, _, _, _, _, hpf⟩ := hpf
  obtain ⟨_, _, _, _, _, _, _, _, _, _, e1, e2, e3, _⟩ := plotOne_ok hpf
  rw [e1, e2, e3]

end generic

end Rfsed.Props
