import Verif.Props.Waveform3
import Verif.Proofs.Argmax

/-!
# Waveform fitting: NaN criteria (C69), plotted synthetic (C70), and a concrete run
-/

namespace Rfsed.Props
open Rfsed PyFloat Spec Waveform

/-! ## C69 -/

section generic
variable {F : Type} [PyFloat F]

/-- Python's `max` of a list starting with NaN is that NaN. -/
theorem pyMax_nan_head [IEEEOrder F] {x : F} (xs : List F) (hx : isNaN x = true) :
    pyMax (x :: xs) = .ok x := by
  show Except.ok (xs.foldl (fun m y => if lt m y then y else m) x) = _
  congr 1
  induction xs with
  | nil => rfl
  | cons y ys ih => rw [List.foldl_cons, IEEEOrder.lt_nan_left x y hx]; simpa using ih

/-- Python's `max` of a list starting with a number: NaNs are skipped, the result is the largest
of the numbers. -/
theorem pyMax_num_head [IEEEOrder F] {x m : F} {xs : List F} (hx : isNaN x = false)
    (h : pyMax (x :: xs) = .ok m) :
    m ∈ x :: xs ∧ isNaN m = false ∧ ∀ y ∈ x :: xs, isNaN y = false → le y m = true := by
  unfold pyMax at h
  have h := Except.ok.inj h
  have key : ∀ (ys : List F) (a : F), isNaN a = false →
      let r := ys.foldl (fun m y => if lt m y then y else m) a
      (r = a ∨ r ∈ ys) ∧ isNaN r = false ∧ le a r = true ∧
        ∀ y ∈ ys, isNaN y = false → le y r = true := by
    intro ys
    induction ys with
    | nil => intro a ha; exact ⟨.inl rfl, ha, le_refl_of_num a ha, fun y hy => by cases hy⟩
    | cons y ys ih =>
      intro a ha
      rw [List.foldl_cons]
      cases hl : lt a y with
      | true =>
        have hy : isNaN y = false := by
          cases hy : isNaN y with
          | false => rfl
          | true => rw [IEEEOrder.lt_nan_right a y hy] at hl; cases hl
        obtain ⟨h1, h2, h3, h4⟩ := ih y hy
        simp only [if_true]
        refine ⟨.inr ?_, h2, IEEEOrder.le_trans _ _ _ (le_of_lt' hl) h3, ?_⟩
        · rcases h1 with h1 | h1
          · rw [h1]; exact List.mem_cons_self
          · exact List.mem_cons_of_mem _ h1
        · intro z hz hzn
          rcases List.mem_cons.1 hz with rfl | hz
          · exact h3
          · exact h4 z hz hzn
      | false =>
        obtain ⟨h1, h2, h3, h4⟩ := ih a ha
        simp only [Bool.false_eq_true, if_false]
        refine ⟨?_, h2, h3, ?_⟩
        · rcases h1 with h1 | h1
          · exact .inl h1
          · exact .inr (List.mem_cons_of_mem _ h1)
        · intro z hz hzn
          rcases List.mem_cons.1 hz with rfl | hz
          · have : le z a = true := by
              cases hc : le z a with
              | true => rfl
              | false => rw [(IEEEOrder.lt_iff a z ha hzn).2 hc] at hl; cases hl
            exact IEEEOrder.le_trans _ _ _ this h3
          · exact h4 z hz hzn
  obtain ⟨h1, h2, h3, h4⟩ := key xs x hx
  rw [h] at h1 h2 h3 h4
  refine ⟨?_, h2, ?_⟩
  · rcases h1 with h1 | h1
    · rw [h1]; exact List.mem_cons_self
    · exact List.mem_cons_of_mem _ h1
  · intro y hy hyn
    rcases List.mem_cons.1 hy with rfl | hy
    · exact h3
    · exact h4 y hy hyn

theorem argmax_nan_head (x : F) (xs : List F) (hx : isNaN x = true) :
    argmax (x :: xs) = .ok 0 := by rw [argmax, if_pos hx]

/-- **C69**: if one of the three criteria of the first grid point is NaN, the overall goodness of
fit of *every* model is NaN and the first grid point is reported as the overall best model. -/
theorem c69_first_nan [PyTrunc F] [IEEEOrder F] [IEEENaN F] {sols : List (Sol F)} {best : Best F}
    {wc wr wp : F} (h : Produced sols best wc wr wp) {s0 : Sol F} (h0 : sols[0]? = some s0)
    (hnan : isNaN s0.corr = true ∨ isNaN s0.rmse = true ∨ isNaN s0.pg = true) :
    (∀ s ∈ sols, isNaN s.gof = true) ∧ best.gof = s0 := by
  obtain ⟨all, hn, hb⟩ := produced_normalised h
  obtain ⟨mc, mr, mp, h1, h2, h3, rfl⟩ := normalise_ok hn
  cases all with
  | nil => cases h0
  | cons c cs =>
    rw [List.map_cons] at h1 h2 h3
    have hs0 := h0
    simp only [List.map_cons, List.getElem?_cons_zero] at hs0
    have hs0 := Option.some.inj hs0
    have hall : ∀ s ∈ (c :: cs).map (fun c : Crit F => (⟨c.corr, c.rmse, c.pg,
        wc * (c.corr / mc) + wr * (one - c.rmse / mr) + wp * (c.pg / mp), c.h, c.k⟩ : Sol F)),
        isNaN s.gof = true := by
      intro s hs
      obtain ⟨d, hd, rfl⟩ := List.mem_map.1 hs
      simp only
      rw [← hs0] at hnan
      simp only at hnan
      rcases hnan with hx | hx | hx
      · rw [pyMax_nan_head _ hx] at h1
        cases Except.ok.inj h1
        exact IEEENaN.add_nan_left _ _ (IEEENaN.add_nan_left _ _ (IEEENaN.mul_nan_right _ _
          (IEEENaN.div_nan_right _ _ hx)))
      · rw [pyMax_nan_head _ hx] at h2
        cases Except.ok.inj h2
        exact IEEENaN.add_nan_left _ _ (IEEENaN.add_nan_right _ _ (IEEENaN.mul_nan_right _ _
          (IEEENaN.sub_nan_right _ _ (IEEENaN.div_nan_right _ _ hx))))
      · rw [pyMax_nan_head _ hx] at h3
        cases Except.ok.inj h3
        exact IEEENaN.add_nan_right _ _ (IEEENaN.mul_nan_right _ _ (IEEENaN.div_nan_right _ _ hx))
    refine ⟨hall, ?_⟩
    obtain ⟨i, j, k, l, _, _, _, _, _, _, a7, a8⟩ := bestModels_ok hb
    rw [List.map_cons, List.map_cons, argmax_nan_head _ _ (hall _ (by simp))] at a7
    cases Except.ok.inj a7
    rw [h0] at a8
    exact (Option.some.inj a8).symm

/-- **C69**: a NaN correlation that is not the first one leaves the normalising maximum alone (it is
the largest of the non-NaN values), but the row of the first NaN is reported as best by
correlation, and its overall goodness of fit is NaN. -/
theorem c69_later_nan [PyTrunc F] [IEEEOrder F] [IEEENaN F] {sols : List (Sol F)} {best : Best F}
    {wc wr wp : F} (h : Produced sols best wc wr wp) {s0 : Sol F} (h0 : sols[0]? = some s0)
    (hnum : isNaN s0.corr = false) (hnan : ∃ s ∈ sols, isNaN s.corr = true) :
    (∃ mc mr mp, (∃ s ∈ sols, s.corr = mc) ∧ isNaN mc = false ∧
      (∀ s ∈ sols, isNaN s.corr = false → le s.corr mc = true) ∧
      ∀ s ∈ sols, s.gof = wc * (s.corr / mc) + wr * (one - s.rmse / mr) + wp * (s.pg / mp)) ∧
    isNaN best.corr.corr = true ∧ isNaN best.gof.gof = true := by
  obtain ⟨all, hn, hb⟩ := produced_normalised h
  have hbest := c71_best h
  have hnb : isNaN best.corr.corr = true := by
    obtain ⟨i, hi, hh⟩ := hbest.1
    rcases hh with ⟨hno, _⟩ | ⟨x, hx, hxn, _⟩
    · obtain ⟨s, hs, hsn⟩ := hnan
      rw [hno _ (List.mem_map_of_mem hs)] at hsn
      cases hsn
    · rw [List.getElem?_map, hi] at hx
      cases Option.some.inj hx
      exact hxn
  obtain ⟨mc, mr, mp, h1, h2, h3, hsols⟩ := normalise_ok hn
  have hgof : ∀ s ∈ sols, s.gof = wc * (s.corr / mc) + wr * (one - s.rmse / mr) +
      wp * (s.pg / mp) := by
    intro s hs
    rw [hsols] at hs
    obtain ⟨d, _, rfl⟩ := List.mem_map.1 hs
    rfl
  have hcol : sols.map Sol.corr = all.map Crit.corr := by
    rw [hsols, List.map_map]; rfl
  refine ⟨⟨mc, mr, mp, ?_⟩, hnb, ?_⟩
  · rw [← hcol] at h1
    cases hsl : sols with
    | nil => rw [hsl] at h0; cases h0
    | cons a as =>
      rw [hsl] at h0
      cases Option.some.inj h0
      rw [hsl, List.map_cons] at h1
      obtain ⟨m1, m2, m3⟩ := pyMax_num_head hnum h1
      rw [← List.map_cons (f := Sol.corr)] at m1 m3
      obtain ⟨s, hs, he⟩ := List.mem_map.1 m1
      exact ⟨⟨s, hs, he⟩, m2, fun s hs hsn => m3 _ (List.mem_map_of_mem hs) hsn,
        fun s hs => hgof s (by rw [hsl]; exact hs)⟩
  · obtain ⟨i, hi, hh⟩ := hbest.2.2.2
    rcases hh with ⟨hno, _⟩ | ⟨x, hx, hxn, _⟩
    · obtain ⟨s, hs, hsn⟩ := hnan
      have := hno _ (List.mem_map_of_mem (f := Sol.gof) hs)
      rw [hgof s hs, IEEENaN.add_nan_left _ _ (IEEENaN.add_nan_left _ _ (IEEENaN.mul_nan_right _ _
        (IEEENaN.div_nan_left _ _ hsn)))] at this
      cases this
    · rw [List.getElem?_map, hi] at hx
      cases Option.some.inj hx
      exact hxn

end generic

/-! ### A dead station -/

theorem nreal_sum_const (c : ℝ) (n : ℕ) (a : ℝ) :
    (List.replicate n (NReal.num c)).foldl (· + ·) (NReal.num a) = NReal.num (a + n * c) := by
  induction n generalizing a with
  | zero => simp
  | succ n ih =>
    rw [List.replicate_succ, List.foldl_cons, nreal_add, ih]
    congr 1
    push_cast; ring

theorem nreal_centre_const (c : ℝ) {n : ℕ} (hn : n ≠ 0) :
    centre (List.replicate n (NReal.num c)) = List.replicate n (NReal.num 0) := by
  have : npMean (List.replicate n (NReal.num c)) = NReal.num c := by
    rw [npMean, nreal_zero, nreal_sum_const, List.length_replicate, nreal_ofNat,
      nreal_div _ _ (by exact_mod_cast hn)]
    congr 1
    field_simp
    ring
  rw [centre, this, List.map_replicate, nreal_sub, sub_self]

theorem nreal_dot_zero (n : ℕ) :
    dot (List.replicate n (NReal.num 0)) (List.replicate n (NReal.num 0)) = NReal.num 0 := by
  rw [dot, List.zipWith_replicate, nreal_zero, nreal_mul, nreal_sum_const]
  simp

theorem corrcoef01_const {c : ℝ} {n : ℕ} {y : List NReal} {r : NReal} (hn : n ≠ 0)
    (h : corrcoef01 (List.replicate n (NReal.num c)) y = .ok r) : r = .nan := by
  unfold corrcoef01 at h
  split at h
  · cases h
  · have h := Except.ok.inj h
    rw [← h]
    have hz : dot (centre (List.replicate n (NReal.num c)))
        (centre (List.replicate n (NReal.num c))) / ofNat ((List.replicate n (NReal.num c)).length
          - 1) = .nan ∨ dot (centre (List.replicate n (NReal.num c)))
        (centre (List.replicate n (NReal.num c))) / ofNat ((List.replicate n (NReal.num c)).length
          - 1) = .num 0 := by
      rw [nreal_centre_const c hn, nreal_dot_zero, nreal_ofNat]
      by_cases h1 : (((List.replicate n (NReal.num c)).length - 1 : ℕ) : ℝ) = 0
      · left; rw [h1, nreal_div_zero]
      · right; rw [nreal_div _ _ h1, zero_div]
    simp only
    rcases hz with hz | hz
    · rw [hz]; simp [npClip]
    · rw [hz, nreal_powHalf _ le_rfl, Real.sqrt_zero, nreal_div_zero]; simp [npClip]

/-- **C69**: a constant stacked receiver function (dead station): every correlation is NaN, every
overall goodness of fit is NaN, and the first grid point (first Vp/Vs, first depth) is reported as
best by correlation and as best overall model, whatever the synthetics are. -/
theorem c69_dead_station {env : WEnv NReal} {rfs : List (Trace NReal)}
    {preonset HSed VpSed VpCrust rayp gaussian wc wr wp : NReal} {KMoho HMoho : List NReal}
    {R : WResult NReal} {S : List (List NReal)} {sd : List NReal} {c : ℝ} {k0 h0 : NReal}
    (hS : env.stackR rfs = .ok S) (hsd : S[0]? = some sd) (hc : ∀ x ∈ sd, x = .num c)
    (hk0 : KMoho[0]? = some k0) (hh0 : HMoho[0]? = some h0)
    (h : WaveformFitting env rfs preonset HSed VpSed VpCrust rayp KMoho HMoho gaussian wc wr wp
      = .ok R) :
    (∀ s ∈ R.WaveformSolutions, s.corr = .nan ∧ s.gof = .nan) ∧
    (R.printed.corr.h, R.printed.corr.k) = (h0, k0) ∧
    (R.printed.gof.h, R.printed.gof.k) = (h0, k0) := by
  have hnan : ∀ x : NReal, isNaN x = true → x = .nan := by
    intro x hx; cases x with
    | nan => rfl
    | num x => cases hx
  obtain ⟨_, hgrid⟩ := c71_grid h
  obtain ⟨s0, hs0, hsh, hsk⟩ := hgrid 0 0 k0 h0 hk0 hh0
  rw [Nat.zero_mul, Nat.zero_add] at hs0
  have hcorr : ∀ s ∈ R.WaveformSolutions, s.corr = .nan := by
    obtain ⟨P, all, sols, best, hP, ha, hs, hb, rfl⟩ := WaveformFitting_ok h
    obtain ⟨tr0, S', sd', z, e, _, hS', hsd', _, _, _, _, rfl⟩ := prepare_ok hP
    rw [hS] at hS'
    cases Except.ok.inj hS'
    rw [hsd] at hsd'
    cases hsd'
    obtain ⟨mc, mr, mp, _, _, _, rfl⟩ := normalise_ok hs
    intro s hs
    obtain ⟨d, hd, rfl⟩ := List.mem_map.1 hs
    obtain ⟨p, _, hp⟩ := mapM_ok_mem_out ha hd
    simp only [gridPoint, criteria, bind_eq_ok, except_pure] at hp
    obtain ⟨syn, _, co, hco, mse, hmse, pgv, _, hd⟩ := hp
    cases Except.ok.inj hd
    simp only
    have hrep : pySlice sd z ((z : ℤ) + e) = List.replicate (pySlice sd z ((z : ℤ) + e)).length
        (NReal.num c) := by
      rw [List.eq_replicate_iff]
      refine ⟨rfl, fun x hx => hc x ?_⟩
      rw [pySlice] at hx
      exact List.mem_of_mem_take (List.mem_of_mem_drop hx)
    have hne : (pySlice sd z ((z : ℤ) + e)).length ≠ 0 := by
      intro hl
      rw [meanSquaredError, if_pos (.inr hl)] at hmse
      cases hmse
    rw [hrep] at hco
    exact corrcoef01_const hne hco
  have hprod : Produced R.WaveformSolutions R.printed wc wr wp :=
    .inl ⟨env, rfs, preonset, HSed, VpSed, VpCrust, rayp, gaussian, KMoho, HMoho, R, h, rfl, rfl⟩
  have hm0 := List.mem_of_getElem? hs0
  obtain ⟨hg, hb⟩ := c69_first_nan hprod hs0 (.inl (by rw [hcorr _ hm0]; rfl))
  refine ⟨fun s hs => ⟨hcorr s hs, hnan _ (hg s hs)⟩, ?_, by rw [hb, hsh, hsk]⟩
  obtain ⟨i, hi, hh⟩ := (c71_best hprod).1
  have : i = 0 := by
    rcases hh with ⟨hno, _⟩ | ⟨x, hx, hxn, hlt⟩
    · have := hno _ (List.mem_map_of_mem (f := Sol.corr) hm0)
      rw [hcorr _ hm0] at this
      cases this
    · by_contra hne
      have := hlt 0 s0.corr (by omega) (by rw [List.getElem?_map, hs0]; rfl)
      rw [hcorr _ hm0] at this
      cases this
  rw [this, hs0] at hi
  rw [← Option.some.inj hi, hsh, hsk]

/-! ## C70 -/

/-- **C70** (parallel): after `WaveformPara`, every figure of `plotbestmodel` draws the synthetic of
exactly the model `modelOf … best.h best.k` that was fitted for the best model it marks, against
time `delta * i - |preonset|`. -/
theorem c70_parallel {env : WEnv ℝ} {rfs : List (Trace ℝ)} {tr0 : Trace ℝ}
    {preonset HSed VpSed VpCrust rayp gaussian : ℝ} {KMoho HMoho : List ℝ} {P : Para ℝ}
    {res : List (List (Crit ℝ))} {wc wr wp : Option ℝ} {savepath format : String}
    {sols : List (Sol ℝ)} {best : Best ℝ} {figs : List (Fig ℝ)} (h0 : rfs[0]? = some tr0)
    (hP : WaveformPara env rfs preonset HSed VpSed VpCrust rayp KMoho HMoho gaussian = .ok P)
    (h : plotbestmodel env res P wc wr wp savepath format = .ok (sols, best, figs)) :
    figs.map (fun f => (f.suff, f.bestH, f.bestK)) =
      [("Correlation Coefficient", best.corr.h, best.corr.k),
       ("Root-mean-square Error", best.rmse.h, best.rmse.k),
       ("Phase Goodness of Fit", best.pg.h, best.pg.k),
       ("Overall Goodness of Fit", best.gof.h, best.gof.k)] ∧
    ∀ f ∈ figs, ∃ S sd syn, env.stackR rfs = .ok S ∧ S[0]? = some sd ∧ f.stackCurve.2 = sd ∧
      env.synthRF (modelOf HSed VpSed VpCrust rayp tr0.delta preonset gaussian sd.length f.bestH
        f.bestK) = .ok syn ∧
      f.synthCurve = ((List.range syn.length).map (fun i : Nat => tr0.delta * (i : ℝ) - |preonset|),
        syn) := by
  rw [WaveformPara_eq] at hP
  obtain ⟨tr0', S, sd, z, e, h0', hS, hsd, _, _, _, _, rfl⟩ := prepare_ok hP
  rw [h0] at h0'
  cases h0'
  unfold plotbestmodel at h
  obtain ⟨⟨sols', best'⟩, h1, h⟩ := bind_eq_ok.1 h
  obtain ⟨figs', h2, h⟩ := bind_eq_ok.1 h
  cases Except.ok.inj h
  constructor
  · refine (mapM_map_eq (B := fun p : String × (Sol ℝ → ℝ) × Sol ℝ => (p.1, p.2.2.h, p.2.2.k)) h2
      (fun p _ f hpf => ?_)).trans rfl
    simp only [bind_eq_ok] at hpf
    obtain ⟨_, _, _, _, _, _, _, _, hpf⟩ := hpf
    obtain ⟨_, _, _, _, _, _, _, _, _, _, e1, e2, e3, _⟩ := plotOne_ok hpf
    rw [e1, e2, e3]
  · intro f hf
    obtain ⟨p, _, hpf⟩ := mapM_ok_mem_out h2 hf
    simp only [bind_eq_ok] at hpf
    obtain ⟨_, _, _, _, _, _, _, _, hpf⟩ := hpf
    obtain ⟨tr1, onset, S', sd', syn, g0, _, gS, gsd, gsyn, e1, e2, e3, _, _, _, e4, e5, _⟩ :=
      plotOne_ok hpf
    rw [h0] at g0
    cases g0
    rw [hS] at gS
    cases Except.ok.inj gS
    rw [hsd] at gsd
    cases gsd
    refine ⟨S, sd, syn, hS, hsd, by rw [e4], ?_, ?_⟩
    · rw [← gsyn, e1, e2]
      congr 1
      rw [modelOf, synthArgs]
      simp only [vsOf_real, rhoOf_real, real_dec, real_abs, real_ofNat]
      congr 1 <;> norm_num
    · rw [e5, timeAxis]
      simp

/-- **C70** (serial): every figure of `PlotWaveformFitting` draws the synthetic of the model it
marks, computed like in the fit but with `starttime - onset` of the first trace in place of
`preonset`; so it is the fitted one if `|starttime - onset| = |preonset|`. -/
theorem c70_serial {env : WEnv ℝ} {rfs : List (Trace ℝ)} {tr0 : Trace ℝ} {onset : ℝ}
    {preonset HSed VpSed VpCrust rayp gaussian wc wr wp : ℝ} {KMoho HMoho : List ℝ}
    {R : WResult ℝ} {wc' wr' wp' : ℝ} {savepath format : String} {figs : List (Fig ℝ)}
    (h0 : rfs[0]? = some tr0) (hon : tr0.onset = some onset)
    (h : WaveformFitting env rfs preonset HSed VpSed VpCrust rayp KMoho HMoho gaussian wc wr wp
      = .ok R)
    (hp : PlotWaveformFitting env R wc' wr' wp' savepath format = .ok figs) :
    ∀ f ∈ figs, ∃ S sd syn, env.stackR rfs = .ok S ∧ S[0]? = some sd ∧ f.stackCurve.2 = sd ∧
      env.synthRF (modelOf HSed VpSed VpCrust rayp tr0.delta (tr0.starttime - onset) gaussian
        sd.length f.bestH f.bestK) = .ok syn ∧ f.synthCurve.2 = syn ∧
      (|tr0.starttime - onset| = |preonset| → env.synthRF (modelOf HSed VpSed VpCrust rayp tr0.delta
        preonset gaussian sd.length f.bestH f.bestK) = .ok syn) := by
  obtain ⟨P, all, sols, best, hP, ha, hs, hb, rfl⟩ := WaveformFitting_ok h
  unfold PlotWaveformFitting at hp
  obtain ⟨tr1, g0, hp⟩ := bind_eq_ok.1 hp
  rw [item_ok, h0] at g0
  cases g0
  obtain ⟨best', hb', hp⟩ := bind_eq_ok.1 hp
  intro f hf
  obtain ⟨p, _, hpf⟩ := mapM_ok_mem_out hp hf
  simp only [bind_eq_ok] at hpf
  obtain ⟨_, _, _, _, _, _, _, _, on1, hon1, t0, ht0, hpf⟩ := hpf
  rw [Trace.getOnset, hon] at hon1
  cases Except.ok.inj hon1
  obtain ⟨tr1, onset', S', sd', syn, g0, _, gS, gsd, gsyn, e1, e2, e3, _, _, _, e4, e5, _⟩ :=
    plotOne_ok hpf
  rw [h0] at g0
  cases g0
  have ht : t0 = tr0.starttime - onset := by
    rw [item_ok, List.getElem?_map] at ht0
    obtain ⟨n, hn, rfl⟩ := Option.map_eq_some_iff.1 ht0
    have : n = 0 := by
      cases hl : tr0.data.length with
      | zero => rw [hl] at hn; simp at hn
      | succ m =>
        rw [hl, List.getElem?_range (by omega)] at hn
        exact (Option.some.inj hn).symm
    rw [this]; simp
  have hsyn : env.synthRF (modelOf HSed VpSed VpCrust rayp tr0.delta (tr0.starttime - onset)
      gaussian sd'.length f.bestH f.bestK) = .ok syn := by
    rw [← gsyn, e1, e2, ht]
    congr 1
    rw [modelOf, synthArgs]
    simp only [vsOf_real, rhoOf_real, real_dec, real_abs]
    congr 1 <;> norm_num
  refine ⟨S', sd', syn, gS, gsd, by rw [e4], hsyn, by rw [e5], fun habs => ?_⟩
  rw [← hsyn, modelOf, modelOf, habs]

end Rfsed.Props
