import Verif.Props.HkZhu
import Verif.Proofs.HkMore

/-!
# Properties C06, C07, C10, C11, C15 of `hk`
-/

namespace Rfsed.Props
open PyFloat Spec HkZhu

theorem npMean_real (xs : List ℝ) : npMean xs = xs.sum / xs.length := by
  have h : ∀ (ys : List ℝ) (a : ℝ), ys.foldl (· + ·) a = a + ys.sum := by
    intro ys
    induction ys with
    | nil => intro a; simp
    | cons y ys ih => intro a; rw [List.foldl_cons, ih, List.sum_cons]; ring
  simp [npMean, h]

theorem slows_map {st : List (Trace ℝ)} {slows : List (Scalar ℝ)}
    (h : st.mapM Trace.getSlowness = .ok slows) : slows.map Scalar.val = st.map slownessOf := by
  have := mapM_ok_iff.1 h
  clear h
  induction this with
  | nil => rfl
  | cons h1 h2 ih =>
    rw [List.map_cons, List.map_cons, ih, slownessOf_eq (getSlowness_ok.1 h1)]

theorem avgSlow_eq {st : List (Trace ℝ)} {slows : List (Scalar ℝ)}
    (h : st.mapM Trace.getSlowness = .ok slows) :
    npMean (slows.map Scalar.val) = (st.map slownessOf).sum / st.length := by
  rw [npMean_real, slows_map h]; simp

/-! ## C06 -/

/-- with stacking every trace contributes the same amount -/
theorem cell_stack_true {env : Env ℝ} {st : List (Trace ℝ)} {t sd : List ℝ} {avg : ℝ}
    {Vp : Scalar ℝ} {w1 w2 w3 k x s : ℝ} (hne : st ≠ [])
    (h : cell env st t sd avg Vp w1 w2 w3 true k x = .ok s) :
    ∃ ts v, bestTimes Vp .np (env.km2deg1 * avg) x k = .ok ts ∧ weigh w1 w2 w3 sd t ts = .ok v ∧
      s = st.length * v := by
  obtain ⟨xs, hxs, rfl⟩ := cell_real_ok.1 h
  obtain ⟨g, hg, rfl⟩ := exists_fun_of_mapM hxs
  cases st with
  | nil => exact absurd rfl hne
  | cons tr0 rest =>
    obtain ⟨o, sl, ts, _, _, hts, hv⟩ := traceTerm_ok.1 (hg tr0 (by simp))
    simp only [if_true] at hts hv
    refine ⟨ts, _, hts, hv, ?_⟩
    have : (tr0 :: rest).map g = (tr0 :: rest).map (fun _ => g tr0) := by
      apply List.map_congr_left
      intro tr htr
      obtain ⟨o', sl', ts', _, _, hts', hv'⟩ := traceTerm_ok.1 (hg tr htr)
      simp only [if_true] at hts' hv'
      rw [hts] at hts'; cases hts'
      rw [hv] at hv'
      exact (Except.ok.inj hv').symm
    rw [this]
    simp
    ring

/-- **C06**: with `stack=True` the table is `N` times the table `hkSynth` computes from
the stacked receiver function alone, at the mean slowness, and the best model is the
same grid point.  (`draw` only concerns the preview figure.) -/
theorem c06_stack_true {env : Env ℝ} {st : List (Trace ℝ)} {preonset : ℝ} {H K : List ℝ}
    {Vp : Option (Scalar ℝ)} {w1 w2 w3 : Option ℝ} {layer : Option String} {r : HKResult ℝ}
    (h : hk env st preonset H K Vp w1 w2 w3 layer (some true) = .ok r) :
    (∃ more, env.stack st = .ok (r.RFStack :: more)) ∧
    r.AvgSlow = (st.map slownessOf).sum / st.length ∧
    ∃ r', SynthAnalysis.hkSynth { env with draw := fun _ => .ok () } r.RFStack r.time
        ⟨.np, env.km2deg1 * r.AvgSlow⟩ H K Vp w1 w2 w3 layer = .ok r' ∧
      r.stackvalues = r'.stackvalues.map (fun row => ⟨row.h, row.k, st.length * row.s⟩) ∧
      r.bestIdx = r'.bestIdx := by
  obtain ⟨tr0, rest, slows, f⟩ := hk_inv h
  have hne : st ≠ [] := by rw [f.hst]; simp
  have hN : (0 : ℝ) < st.length := by
    have : 0 < st.length := List.length_pos_iff.2 hne
    exact_mod_cast this
  refine ⟨f.hstack, by rw [f.havg, avgSlow_eq f.hslow], ?_⟩
  have hg := f.hgrid
  rw [f.hstk, f.hVp] at hg
  have hg' := gridLoop_map (g := fun s => s / st.length)
    (v' := SynthAnalysis.cell r.RFStack r.time ⟨.np, env.km2deg1 * r.AvgSlow⟩
      (Vp.getD ⟨.py, dec 65 1⟩) (w1.getD (dec 6 1)) (w2.getD (dec 3 1)) (w3.getD (dec 1 1))) hg (by
    intro k _ x _ s hs
    obtain ⟨ts, v, hts, hv, rfl⟩ := cell_stack_true hne hs
    rw [synthCell_eq, hts, except_ok_bind, hv, except_ok_bind]
    simp only [real_zero, add_zero, except_pure]
    rw [mul_div_cancel_left₀ _ hN.ne'])
  have hb : argmax ((r.stackvalues.map (fun r => (⟨r.h, r.k, r.s / st.length⟩ : Row ℝ))).map Row.s)
      = .ok r.bestIdx := by
    have := argmax_scale (c := (st.length : ℝ)⁻¹) (inv_pos.2 hN) f.hbest
    rw [List.map_map] at this ⊢
    rw [← this]
    congr 2
    funext row
    simp [div_eq_inv_mul]
  refine ⟨_, hkSynth_of hg' hb rfl, ?_, ?_⟩
  · simp only [List.map_map]
    conv_lhs => rw [← List.map_id r.stackvalues]
    apply List.map_congr_left
    intro row _
    simp only [Function.comp, id]
    rw [mul_div_cancel₀ _ hN.ne']
  · rfl

/-- **C06**, explicit formula: `N` times the weighted sum of the stacked trace at the
delay times for the mean slowness. -/
theorem c06_stack_value {env : Env ℝ} {st : List (Trace ℝ)} {preonset : ℝ} {H K : List ℝ}
    {Vp : Scalar ℝ} {w1 w2 w3 : ℝ} {layer : Option String} {r : HKResult ℝ}
    (h : hk env st preonset H K (some Vp) (some w1) (some w2) (some w3) layer (some true) = .ok r)
    (hVp : Vp.val ≠ 0)
    (p : ℝ) (hp : p = env.km2deg1 * ((st.map slownessOf).sum / st.length))
    (hpre : ∀ k ∈ K, PreCritical p Vp.val k) :
    ∀ row ∈ r.stackvalues, ∃ a1 a2 a3,
      ReadsNearest r.RFStack r.time (tPs p Vp.val row.h row.k) a1 ∧
      ReadsNearest r.RFStack r.time (tPpPs p Vp.val row.h row.k) a2 ∧
      ReadsNearest r.RFStack r.time (tPsPs p Vp.val row.h row.k) a3 ∧
      row.s = st.length * (w1 * a1 + w2 * a2 - w3 * a3) := by
  intro row hrow
  obtain ⟨tr0, rest, slows, f⟩ := hk_inv h
  obtain ⟨n, hn, hrow'⟩ := List.getElem_of_mem hrow
  obtain ⟨i, j, _, hk, hx, hv⟩ := (gridLoop_ok f.hgrid).2.2 n row (by simp [hn, hrow'])
  have hk' : row.k ∈ K := List.mem_of_getElem? hk
  rw [f.hstk, f.hVp] at hv
  simp only [Option.getD_some] at hv
  obtain ⟨xs, hxs, hsum⟩ := cell_real_ok.1 hv
  obtain ⟨g, hg, rfl⟩ := exists_fun_of_mapM hxs
  have havg : env.km2deg1 * r.AvgSlow = p := by rw [hp, f.havg, avgSlow_eq f.hslow]
  have key : ∀ tr ∈ st, ∃ a1 a2 a3,
      ReadsNearest r.RFStack r.time (tPs p Vp.val row.h row.k) a1 ∧
      ReadsNearest r.RFStack r.time (tPpPs p Vp.val row.h row.k) a2 ∧
      ReadsNearest r.RFStack r.time (tPsPs p Vp.val row.h row.k) a3 ∧
      g tr = w1 * a1 + w2 * a2 - w3 * a3 := by
    intro tr htr
    obtain ⟨o, sl, ho, hsl, _⟩ := traceTerm_ok_header (hg tr htr)
    have := (traceTerm_real_ok (stack := true) hVp ho hsl (by
      simpa [rpOf, havg] using (hpre row.k hk').2)).1 (hg tr htr)
    simpa [rpOf, havg] using this
  obtain ⟨a1, a2, a3, h1, h2, h3, hg0⟩ := key tr0 (by rw [f.hst]; simp)
  refine ⟨a1, a2, a3, h1, h2, h3, ?_⟩
  rw [hsum]
  have : st.map g = st.map (fun _ => w1 * a1 + w2 * a2 - w3 * a3) := by
    apply List.map_congr_left
    intro tr htr
    obtain ⟨b1, b2, b3, h1', h2', h3', hg'⟩ := key tr htr
    rw [hg', ReadsNearest.unique h1 h1', ReadsNearest.unique h2 h2', ReadsNearest.unique h3 h3']
  rw [this]
  simp

example : ∃ r, hk Sample.env Sample.stream 1 [30, 35] [1.7, 1.8, 1.9]
    (some ⟨.py, 6.5⟩) (some 0.6) (some 0.3) (some 0.1) none (some true) = .ok r ∧
    ∀ k ∈ [(1.7 : ℝ), 1.8, 1.9], PreCritical (Sample.env.km2deg1 *
      ((Sample.stream.map slownessOf).sum / Sample.stream.length)) 6.5 k := by
  obtain ⟨r, hr⟩ := sample_ok (some 0.6) (some 0.3) (some 0.1) (some true)
  refine ⟨r, hr, ?_⟩
  intro k hk
  simp at hk
  rcases hk with rfl | rfl | rfl <;>
    norm_num [PreCritical, slownessOf, Sample.trace, Sample.env, Sample.stream]

/-! ## C07 -/

theorem mapM_map_ok {α : Type} {st : List α} {f : α → Except PyErr ℝ} {g : α → ℝ}
    (h : ∀ a ∈ st, f a = .ok (g a)) : st.mapM f = .ok (st.map g) := by
  rw [mapM_congr_mem h, mapM_pure_eq]

theorem perm_mapM {α β : Type} {st st' : List α} {f : α → Except PyErr β} (hp : st.Perm st') :
    ∀ {xs}, st.mapM f = .ok xs → ∃ xs', st'.mapM f = .ok xs' ∧ xs.Perm xs' := by
  induction hp with
  | nil => intro xs h; exact ⟨xs, h, .refl _⟩
  | cons a _ ih =>
    intro xs h
    have h := mapM_ok_iff.1 h
    cases h with
    | cons h1 h2 =>
      obtain ⟨xs', h3, h4⟩ := ih (mapM_ok_iff.2 h2)
      exact ⟨_, mapM_ok_iff.2 (.cons h1 (mapM_ok_iff.1 h3)), h4.cons _⟩
  | swap a b l =>
    intro xs h
    have h := mapM_ok_iff.1 h
    cases h with
    | cons h1 h2 =>
      cases h2 with
      | cons h3 h4 =>
        exact ⟨_, mapM_ok_iff.2 (.cons h3 (.cons h1 h4)), .swap _ _ _⟩
  | trans _ _ ih1 ih2 =>
    intro xs h
    obtain ⟨ys, h1, h2⟩ := ih1 h
    obtain ⟨zs, h3, h4⟩ := ih2 h1
    exact ⟨zs, h3, h2.trans h4⟩

/-- **C07**: reordering the traces changes neither the table, nor the best model, nor
the time axis, provided all traces share sampling interval and length and the stack
does not depend on the order. -/
theorem c07_order_irrelevant {env : Env ℝ} {st st' : List (Trace ℝ)} {preonset : ℝ}
    {H K : List ℝ} {Vp : Option (Scalar ℝ)} {w1 w2 w3 : Option ℝ} {layer : Option String}
    {stack : Option Bool} {r : HKResult ℝ} (hperm : st.Perm st')
    (hshare : ∀ a ∈ st, ∀ b ∈ st, a.delta = b.delta ∧ a.data.length = b.data.length)
    (hstack : env.stack st' = env.stack st)
    (h : hk env st preonset H K Vp w1 w2 w3 layer stack = .ok r) :
    ∃ r', hk env st' preonset H K Vp w1 w2 w3 layer stack = .ok r' ∧
      r'.stackvalues = r.stackvalues ∧ r'.bestIdx = r.bestIdx ∧ r'.bestmodel = r.bestmodel ∧
      r'.time = r.time ∧ r'.AvgSlow = r.AvgSlow := by
  obtain ⟨tr0, rest, slows, f⟩ := hk_inv h
  obtain ⟨slows', hs', hps⟩ := perm_mapM hperm f.hslow
  have havg : npMean (slows'.map Scalar.val) = npMean (slows.map Scalar.val) := by
    rw [npMean_real, npMean_real, (hps.map Scalar.val).sum_eq, (hps.map Scalar.val).length_eq]
  cases st' with
  | nil =>
    have := hperm.length_eq
    rw [f.hst] at this; simp at this
  | cons tr0' rest' =>
    have hm0 : tr0 ∈ st := by rw [f.hst]; simp
    have hm1 : tr0' ∈ st := hperm.mem_iff.2 (by simp)
    obtain ⟨hd, hl⟩ := hshare tr0' hm1 tr0 hm0
    obtain ⟨more, hmore⟩ := f.hstack
    have hg := f.hgrid
    rw [f.hVp, f.hstk, f.htime, f.havg] at hg
    have hg' : gridLoop K H (cell env (tr0' :: rest')
        (timeAxis tr0'.delta preonset tr0'.data.length) r.RFStack
        (npMean (slows'.map Scalar.val)) (Vp.getD ⟨.py, dec 65 1⟩) (w1.getD (dec 6 1))
        (w2.getD (dec 3 1)) (w3.getD (dec 1 1)) (stack.getD false)) = .ok r.stackvalues := by
      rw [← List.map_id r.stackvalues]
      refine gridLoop_map (g := id) hg ?_
      intro k _ x _ s hs
      obtain ⟨xs, hxs, rfl⟩ := cell_real_ok.1 hs
      rw [hd, hl, havg]
      obtain ⟨xs', hxs', hpx⟩ := perm_mapM hperm hxs
      exact cell_real_ok.2 ⟨xs', hxs', hpx.sum_eq⟩
    refine ⟨_, hk_of_facts (hstack.trans hmore) hs' hg' f.hbest f.hdraw, rfl, rfl, rfl, ?_, ?_⟩
    · show timeAxis _ _ _ = _
      rw [f.htime, hd, hl]
    · show npMean _ = _
      rw [f.havg, havg]

example : ∃ r', hk Sample.env Sample.stream.reverse 1 [30, 35] [1.7, 1.8, 1.9]
    (some ⟨.py, 6.5⟩) none none none none none = .ok r' := by
  obtain ⟨r, hr⟩ := sample_ok none none none none
  obtain ⟨r', h, _⟩ := c07_order_irrelevant (List.reverse_perm _).symm (by
    intro a ha b hb
    simp [Sample.stream] at ha hb
    rcases ha with rfl | rfl <;> rcases hb with rfl | rfl <;> simp [Sample.trace]) (by
    simp [Sample.env, Sample.meanStack, Sample.stream, Sample.trace]
    intro a _; ring) hr
  exact ⟨r', h⟩

/-- two traces with different sampling intervals -/
noncomputable def mixedA : Trace ℝ := { Sample.trace [1, 2] 0 with delta := 1 }
/-- see `mixedA` -/
noncomputable def mixedB : Trace ℝ := { Sample.trace [0, 5] 0 with delta := 2 }

theorem tPs_mixed : tPs 0 1 1 2 = 1 := by
  unfold tPs eta
  rw [show (1 : ℝ) / (1 / 2) ^ 2 - 0 ^ 2 = 2 ^ 2 by norm_num, Real.sqrt_sq (by norm_num)]
  norm_num

/-- **C07**: the condition is needed.  With different sampling intervals the order of
the traces changes the stack value (7 versus 1). -/
theorem c07_needs_shared_axis :
    ∃ r r', hk Sample.env [mixedA, mixedB] 0 [1] [2] (some ⟨.py, 1⟩) (some 1) (some 0) (some 0)
        none (some false) = .ok r ∧
      hk Sample.env [mixedB, mixedA] 0 [1] [2] (some ⟨.py, 1⟩) (some 1) (some 0) (some 0)
        none (some false) = .ok r' ∧
      r.stackvalues.map Row.s = [7] ∧ r'.stackvalues.map Row.s = [1] := by
  have hv : ∀ v : Scalar ℝ, some (⟨.py, 1⟩ : Scalar ℝ) = some v →
      v.kind = .np ∨ PyFloat.eq v.val zero = false := by
    intro v hv; cases hv; right; rw [← Bool.not_eq_true, real_eq]; norm_num
  have e1 : ∃ r, hk Sample.env [mixedA, mixedB] 0 [1] [2] (some ⟨.py, 1⟩) (some 1) (some 0) (some 0)
        none (some false) = .ok r := by
    refine c03_succeeds (sd := _) (more := []) rfl ?_ ?_ ?_ ?_ hv (by simp) (by simp) (by simp) ?_
    · intro h; cases h
    · simp [mixedA, Sample.trace]
    · intro tr htr
      simp at htr
      rcases htr with rfl | rfl <;> simp [mixedA, mixedB, Sample.trace]
    · intro tr htr; simp at htr; subst htr; simp [mixedA, mixedB, Sample.trace]
    · intro _ _; rfl
  have e2 : ∃ r, hk Sample.env [mixedB, mixedA] 0 [1] [2] (some ⟨.py, 1⟩) (some 1) (some 0) (some 0)
        none (some false) = .ok r := by
    refine c03_succeeds (sd := _) (more := []) rfl ?_ ?_ ?_ ?_ hv (by simp) (by simp) (by simp) ?_
    · intro h; cases h
    · simp [mixedB, Sample.trace]
    · intro tr htr
      simp at htr
      rcases htr with rfl | rfl <;> simp [mixedA, mixedB, Sample.trace]
    · intro tr htr; simp at htr; subst htr; simp [mixedA, mixedB, Sample.trace]
    · intro _ _; rfl
  have hpre : ∀ tr ∈ [mixedA, mixedB], ∀ k ∈ [(2 : ℝ)],
      PreCritical (Sample.env.km2deg1 * slownessOf tr) 1 k := by
    intro tr htr k hk
    simp at htr hk
    subst hk
    rcases htr with rfl | rfl <;>
      norm_num [PreCritical, slownessOf, mixedA, mixedB, Sample.trace, Sample.env]
  have hpA : Sample.env.km2deg1 * slownessOf mixedA = 0 := by
    simp [slownessOf, mixedA, Sample.trace]
  have hpB : Sample.env.km2deg1 * slownessOf mixedB = 0 := by
    simp [slownessOf, mixedB, Sample.trace]
  obtain ⟨r, hr⟩ := e1
  obtain ⟨r', hr'⟩ := e2
  refine ⟨r, r', hr, hr', ?_, ?_⟩
  · obtain ⟨hl, hrow, _, tr0, rest, hst, ht⟩ := c03_table_shape hr
    cases hst
    obtain ⟨s, hs⟩ := hrow 0 0 2 1 rfl rfl
    have hlen : r.stackvalues = [⟨1, 2, s⟩] := by
      match hq : r.stackvalues with
      | [] => rw [hq] at hs; simp at hs
      | [x] => rw [hq] at hs; simp at hs; rw [hs]
      | _ :: _ :: _ => rw [hq] at hl; simp at hl
    rw [hlen]
    obtain ⟨A, hA, hsum⟩ := c04_stack_value hr (by norm_num) hpre ⟨1, 2, s⟩ (by rw [hlen]; simp)
    have hA1 := hA mixedA (by simp) 1 (by rw [hpA]; simp [tPs_mixed])
    have hA2 := hA mixedB (by simp) 1 (by rw [hpB]; simp [tPs_mixed])
    simp only [List.map_cons, List.map_nil, hpA, hpB, tPs_mixed, List.sum_cons, List.sum_nil] at hsum ⊢
    have hnear : NearestSample r.time 1 1 := by
      rw [ht]
      refine ⟨1, by simp [mixedA, Sample.trace], ?_, ?_⟩
      · intro j y hy; simp
      · intro j y hj hy
        have : j = 0 := by omega
        subst this
        simp [mixedA, Sample.trace] at hy
        subst hy; simp
    have u1 := ReadsNearest.unique hA1 ⟨1, hnear, by simp [mixedA, Sample.trace]; rfl⟩
    have u2 := ReadsNearest.unique hA2 ⟨1, hnear, by simp [mixedB, Sample.trace]; rfl⟩
    rw [u1, u2] at hsum
    norm_num at hsum ⊢
    exact hsum
  · obtain ⟨hl, hrow, _, tr0, rest, hst, ht⟩ := c03_table_shape hr'
    cases hst
    obtain ⟨s, hs⟩ := hrow 0 0 2 1 rfl rfl
    have hlen : r'.stackvalues = [⟨1, 2, s⟩] := by
      match hq : r'.stackvalues with
      | [] => rw [hq] at hs; simp at hs
      | [x] => rw [hq] at hs; simp at hs; rw [hs]
      | _ :: _ :: _ => rw [hq] at hl; simp at hl
    rw [hlen]
    obtain ⟨A, hA, hsum⟩ := c04_stack_value hr' (by norm_num) (by
      intro tr htr; exact hpre tr (by simp at htr ⊢; tauto)) ⟨1, 2, s⟩ (by rw [hlen]; simp)
    have hA1 := hA mixedA (by simp) 1 (by rw [hpA]; simp [tPs_mixed])
    have hA2 := hA mixedB (by simp) 1 (by rw [hpB]; simp [tPs_mixed])
    simp only [List.map_cons, List.map_nil, hpA, hpB, tPs_mixed, List.sum_cons, List.sum_nil] at hsum ⊢
    have hnear : NearestSample r'.time 1 0 := by
      rw [ht]
      refine ⟨0, by simp [mixedB, Sample.trace], ?_, ?_⟩
      · intro j y hy
        match j with
        | 0 => simp [mixedB, Sample.trace] at hy; subst hy; simp
        | 1 => simp [mixedB, Sample.trace] at hy; subst hy; norm_num
        | n + 2 => simp [mixedB, Sample.trace] at hy
      · intro j y hj; omega
    have u1 := ReadsNearest.unique hA1 ⟨0, hnear, by simp [mixedA, Sample.trace]; rfl⟩
    have u2 := ReadsNearest.unique hA2 ⟨0, hnear, by simp [mixedB, Sample.trace]; rfl⟩
    rw [u1, u2] at hsum
    norm_num at hsum ⊢
    exact hsum

/-! ## C10 -/

theorem weigh_bound {w1 w2 w3 M v : ℝ} {d t : List ℝ} {ts : PyNum ℝ × PyNum ℝ × PyNum ℝ}
    (h : weigh w1 w2 w3 d t ts = .ok v) (hM : ∀ a ∈ d, |a| ≤ M) :
    |v| ≤ (|w1| + |w2| + |w3|) * M := by
  obtain ⟨a1, a2, a3, h1, h2, h3, rfl⟩ := weigh_ok.1 h
  have b1 := hM _ (getamp_mem h1)
  have b2 := hM _ (getamp_mem h2)
  have b3 := hM _ (getamp_mem h3)
  have e1 : |w1 * a1| ≤ |w1| * M := by
    rw [abs_mul]; exact mul_le_mul_of_nonneg_left b1 (abs_nonneg _)
  have e2 : |w2 * a2| ≤ |w2| * M := by
    rw [abs_mul]; exact mul_le_mul_of_nonneg_left b2 (abs_nonneg _)
  have e3 : |w3 * a3| ≤ |w3| * M := by
    rw [abs_mul]; exact mul_le_mul_of_nonneg_left b3 (abs_nonneg _)
  calc |w1 * a1 + w2 * a2 - w3 * a3| ≤ |w1 * a1 + w2 * a2| + |w3 * a3| := abs_sub _ _
    _ ≤ |w1 * a1| + |w2 * a2| + |w3 * a3| := by gcongr; exact abs_add_le _ _
    _ ≤ _ := by linarith

theorem abs_sum_le {α : Type} (l : List α) (g : α → ℝ) {B : ℝ} (h : ∀ a ∈ l, |g a| ≤ B) :
    |(l.map g).sum| ≤ l.length * B := by
  induction l with
  | nil => simp
  | cons a l ih =>
    rw [List.map_cons, List.sum_cons]
    have h1 := h a (by simp)
    have h2 := ih (fun b hb => h b (by simp [hb]))
    calc |g a + (l.map g).sum| ≤ |g a| + |(l.map g).sum| := abs_add_le _ _
      _ ≤ _ := by push_cast [List.length_cons]; linarith

/-- **C10**, bound: no stack value exceeds `N·(|w1|+|w2|+|w3|)·M` in absolute value when
no amplitude (of the traces, or of the stacked trace with `stack=True`) exceeds `M`.
No condition on ray parameters, velocities or the grid. -/
theorem c10_bounded {env : Env ℝ} {st : List (Trace ℝ)} {preonset : ℝ} {H K : List ℝ}
    {Vp : Option (Scalar ℝ)} {w1 w2 w3 : ℝ} {layer : Option String} {stack : Bool}
    {r : HKResult ℝ} {M : ℝ}
    (h : hk env st preonset H K Vp (some w1) (some w2) (some w3) layer (some stack) = .ok r)
    (hM : ∀ tr ∈ st, ∀ a ∈ (if stack then r.RFStack else tr.data), |a| ≤ M) :
    ∀ row ∈ r.stackvalues, |row.s| ≤ st.length * ((|w1| + |w2| + |w3|) * M) := by
  intro row hrow
  obtain ⟨tr0, rest, slows, f⟩ := hk_inv h
  obtain ⟨n, hn, hrow'⟩ := List.getElem_of_mem hrow
  obtain ⟨i, j, _, _, _, hv⟩ := (gridLoop_ok f.hgrid).2.2 n row (by simp [hn, hrow'])
  obtain ⟨xs, hxs, hsum⟩ := cell_real_ok.1 hv
  obtain ⟨g, hg, rfl⟩ := exists_fun_of_mapM hxs
  rw [hsum]
  apply abs_sum_le
  intro tr htr
  obtain ⟨o, sl, ts, _, _, _, hw⟩ := traceTerm_ok.1 (hg tr htr)
  rw [f.hstk] at hw
  simp only [Option.getD_some] at hw
  exact weigh_bound hw (hM tr htr)

/-- **C10**, ideal receiver functions: if at the grid point `(x, k)` all traces show the
maximal amplitude `M` at `tPs` and `tPpPs` and `-M` at `tPsPs`, then the best model
attains the bound `N·(w1+w2+w3)·M` and no grid point scores more. -/
theorem c10_ideal {env : Env ℝ} {st : List (Trace ℝ)} {preonset : ℝ} {H K : List ℝ}
    {Vp : Scalar ℝ} {w1 w2 w3 : ℝ} {layer : Option String} {r : HKResult ℝ} {M : ℝ}
    (h : hk env st preonset H K (some Vp) (some w1) (some w2) (some w3) layer (some false) = .ok r)
    (hVp : Vp.val ≠ 0) (hw1 : 0 ≤ w1) (hw2 : 0 ≤ w2) (hw3 : 0 ≤ w3)
    (hM : ∀ tr ∈ st, ∀ a ∈ tr.data, |a| ≤ M)
    {x k : ℝ} (hx : x ∈ H) (hk : k ∈ K)
    (hpre : ∀ tr ∈ st, PreCritical (env.km2deg1 * slownessOf tr) Vp.val k)
    (hideal : ∀ tr ∈ st,
      ReadsNearest tr.data r.time (tPs (env.km2deg1 * slownessOf tr) Vp.val x k) M ∧
      ReadsNearest tr.data r.time (tPpPs (env.km2deg1 * slownessOf tr) Vp.val x k) M ∧
      ReadsNearest tr.data r.time (tPsPs (env.km2deg1 * slownessOf tr) Vp.val x k) (-M)) :
    ∃ best, r.bestmodel = some best ∧ best.s = st.length * ((w1 + w2 + w3) * M) ∧
      ∀ row ∈ r.stackvalues, row.s ≤ best.s := by
  obtain ⟨tr0, rest, slows, f⟩ := hk_inv h
  obtain ⟨best, hb, hb', _, _, hmax, _⟩ := c05_bestmodel_first_max h (fun _ _ => rfl)
  have hbound := c10_bounded h (M := M) (by simpa using hM)
  rw [abs_of_nonneg hw1, abs_of_nonneg hw2, abs_of_nonneg hw3] at hbound
  -- the ideal row
  obtain ⟨i, hi, rfl⟩ := List.getElem_of_mem hk
  obtain ⟨j, hj, rfl⟩ := List.getElem_of_mem hx
  obtain ⟨s, hs, hrow⟩ := (gridLoop_ok f.hgrid).2.1 i j K[i] H[j] (by simp [hi]) (by simp [hj])
  rw [f.hstk, f.hVp] at hs
  simp only [Option.getD_some] at hs
  obtain ⟨xs, hxs, hsum⟩ := cell_real_ok.1 hs
  obtain ⟨g, hg, rfl⟩ := exists_fun_of_mapM hxs
  have hval : s = st.length * ((w1 + w2 + w3) * M) := by
    rw [hsum]
    have : st.map g = st.map (fun _ => (w1 + w2 + w3) * M) := by
      apply List.map_congr_left
      intro tr htr
      obtain ⟨o, sl, ho, hsl, _⟩ := traceTerm_ok_header (hg tr htr)
      have hp := (hpre tr htr).2
      obtain ⟨i1, i2, i3⟩ := hideal tr htr
      rw [slownessOf_eq hsl] at hp i1 i2 i3
      obtain ⟨a1, a2, a3, h1, h2, h3, e⟩ :=
        (traceTerm_real_ok (stack := false) hVp ho hsl (by simpa [rpOf] using hp)).1 (hg tr htr)
      simp only [rpOf, Bool.false_eq_true, if_false] at h1 h2 h3
      rw [e, ReadsNearest.unique h1 i1, ReadsNearest.unique h2 i2, ReadsNearest.unique h3 i3]
      ring
    rw [this]; simp
  have h1 := hmax _ _ hrow
  rw [real_le] at h1
  have h2 := (abs_le.1 (hbound best (List.mem_of_getElem? hb'))).2
  refine ⟨best, hb, le_antisymm h2 (by rw [← hval]; exact h1), ?_⟩
  intro row hr
  obtain ⟨n, hn, hrow'⟩ := List.getElem_of_mem hr
  have := hmax n row (by simp [hn, hrow'])
  simpa using this

/-- an ideal receiver function for `H = 1`, `K = 2`, `Vp = 1`, vertical incidence:
arrivals at 1, 3 and 4 s -/
noncomputable def idealTrace : Trace ℝ := { Sample.trace [0, 1, 0, 1, -1] 0 with delta := 1 }

theorem eta_half : eta 0 (1 / 2) = 2 := by
  unfold eta
  rw [show (1 : ℝ) / (1 / 2) ^ 2 - 0 ^ 2 = 2 ^ 2 by norm_num, Real.sqrt_sq (by norm_num)]

theorem eta_unit : eta 0 1 = 1 := by simp [eta]

theorem axis5_nearest (n : Nat) (hn : n < 5) :
    NearestSample [(0 : ℝ), 1, 2, 3, 4] (n : ℝ) n := by
  have hget : ∀ (j : Nat) (y : ℝ), [(0 : ℝ), 1, 2, 3, 4][j]? = some y → y = j := by
    intro j y hy
    match j with
    | 0 | 1 | 2 | 3 | 4 => simp at hy; subst hy; norm_num
    | j + 5 => simp at hy
  have hn' : [(0 : ℝ), 1, 2, 3, 4][n]? = some (n : ℝ) := by
    match n with
    | 0 | 1 | 2 | 3 | 4 => norm_num
    | n + 5 => omega
  refine ⟨n, hn', ?_, ?_⟩
  · intro j y hy; rw [real_le]; simp
  · intro j y hj hy
    rw [real_lt, hget j y hy]
    simp only [real_abs, sub_self, abs_zero, abs_pos, ne_eq, sub_eq_zero, Nat.cast_inj]
    omega

/-- all hypotheses of `c10_ideal` hold for a stream of two ideal traces, and the best
model then has the value `2·(w1+w2+w3)·1` -/
example : ∃ r best, hk Sample.env [idealTrace, idealTrace] 0 [3, 1] [2] (some ⟨.py, 1⟩)
      (some 0.6) (some 0.3) (some 0.1) none (some false) = .ok r ∧ r.bestmodel = some best ∧
      best.s = 2 * ((0.6 + 0.3 + 0.1) * 1) := by
  have e1 : ∃ r, hk Sample.env [idealTrace, idealTrace] 0 [3, 1] [2] (some ⟨.py, 1⟩)
      (some 0.6) (some 0.3) (some 0.1) none (some false) = .ok r := by
    refine c03_succeeds (sd := _) (more := []) rfl ?_ ?_ ?_ ?_ ?_ (by simp) (by simp) (by simp) ?_
    · intro h; cases h
    · simp [idealTrace, Sample.trace]
    · intro tr htr
      simp at htr
      subst htr; simp [idealTrace, Sample.trace]
    · intro tr htr; simp at htr; subst htr; rfl
    · intro v hv; cases hv; right; rw [← Bool.not_eq_true, real_eq]; norm_num
    · intro _ _; rfl
  obtain ⟨r, hr⟩ := e1
  obtain ⟨_, _, _, tr0, rest, hst, ht⟩ := c03_table_shape hr
  cases hst
  have hax : r.time = [0, 1, 2, 3, 4] := by
    rw [ht]; simp [idealTrace, Sample.trace, List.range_succ]
  have hp : Sample.env.km2deg1 * slownessOf idealTrace = 0 := by
    simp [slownessOf, idealTrace, Sample.trace]
  obtain ⟨best, hb, hs, _⟩ := c10_ideal (M := 1) (x := 1) (k := 2) hr (by norm_num) (by norm_num)
    (by norm_num) (by norm_num) (by
      intro tr htr a ha
      simp at htr; subst htr
      simp [idealTrace, Sample.trace] at ha
      rcases ha with rfl | rfl | rfl | rfl | rfl <;> norm_num) (by simp) (by simp) (by
      intro tr htr
      simp at htr; subst htr
      rw [hp]; norm_num [PreCritical]) (by
      intro tr htr
      simp at htr; subst htr
      rw [hp, hax]
      simp only [tPs, tPpPs, tPsPs, eta_half, eta_unit]
      refine ⟨⟨1, ?_, ?_⟩, ⟨3, ?_, ?_⟩, ⟨4, ?_, ?_⟩⟩
      · have := axis5_nearest 1 (by norm_num); norm_num at this ⊢; exact this
      · simp [idealTrace, Sample.trace]
      · have := axis5_nearest 3 (by norm_num); norm_num at this ⊢; exact this
      · simp [idealTrace, Sample.trace]
      · have := axis5_nearest 4 (by norm_num); norm_num at this ⊢; exact this
      · simp [idealTrace, Sample.trace])
  exact ⟨r, best, hr, hb, by rw [hs]; norm_num⟩

/-! ## C11 -/

/-- multiply the data of a trace by `c` -/
def scaleTrace (c : ℝ) (tr : Trace ℝ) : Trace ℝ := { tr with data := tr.data.map (fun x => c * x) }

theorem getamp_scale {c : ℝ} {d t : List ℝ} {x : PyNum ℝ} {a : ℝ} (h : getamp d t x = .ok a) :
    getamp (d.map (fun x => c * x)) t x = .ok (c * a) := by
  unfold getamp at h ⊢
  obtain ⟨i, hi, h⟩ := bind_eq_ok.1 h
  rw [hi, except_ok_bind, item_ok, List.getElem?_map, item_ok.1 h]; rfl

theorem weigh_scale {c w1 w2 w3 v : ℝ} {d t : List ℝ} {ts : PyNum ℝ × PyNum ℝ × PyNum ℝ}
    (h : weigh w1 w2 w3 d t ts = .ok v) :
    weigh w1 w2 w3 (d.map (fun x => c * x)) t ts = .ok (c * v) := by
  obtain ⟨a1, a2, a3, h1, h2, h3, rfl⟩ := weigh_ok.1 h
  exact weigh_ok.2 ⟨_, _, _, getamp_scale h1, getamp_scale h2, getamp_scale h3, by ring⟩

/-- **C11**: multiplying every trace by the same `c > 0` multiplies every stack value by
`c` and leaves the best model's position (ties included) where it was.  The stack is
assumed to scale with its input; the preview figure of the scaled table must be
drawable. -/
theorem c11_scaling {env : Env ℝ} {st : List (Trace ℝ)} {preonset : ℝ}
    {H K : List ℝ} {Vp : Option (Scalar ℝ)} {w1 w2 w3 : Option ℝ} {layer : Option String}
    {stack : Option Bool} {r : HKResult ℝ} {c : ℝ} (hc : 0 < c)
    (h : hk env st preonset H K Vp w1 w2 w3 layer stack = .ok r)
    (hstack : ∃ more, env.stack (st.map (scaleTrace c))
      = .ok (r.RFStack.map (fun x => c * x) :: more))
    (hdraw : env.draw (r.stackvalues.map (fun row => ⟨row.h, row.k, c * row.s⟩)) = .ok ()) :
    ∃ r', hk env (st.map (scaleTrace c)) preonset H K Vp w1 w2 w3 layer stack = .ok r' ∧
      r'.stackvalues = r.stackvalues.map (fun row => ⟨row.h, row.k, c * row.s⟩) ∧
      r'.bestIdx = r.bestIdx ∧
      ∀ best, r.bestmodel = some best → r'.bestmodel = some ⟨best.h, best.k, c * best.s⟩ := by
  obtain ⟨tr0, rest, slows, f⟩ := hk_inv h
  obtain ⟨more, hmore⟩ := hstack
  have hslow : (st.map (scaleTrace c)).mapM Trace.getSlowness = .ok slows := by
    have := mapM_ok_iff.1 f.hslow
    rw [mapM_ok_iff, List.forall₂_map_left_iff]
    exact this.imp (fun _ _ h => h)
  have hg := f.hgrid
  rw [f.hVp, f.hstk, f.htime, f.havg] at hg
  have hg' : gridLoop K H (cell env (st.map (scaleTrace c))
      (timeAxis tr0.delta preonset tr0.data.length) (r.RFStack.map (fun x => c * x))
      (npMean (slows.map Scalar.val)) (Vp.getD ⟨.py, dec 65 1⟩) (w1.getD (dec 6 1))
      (w2.getD (dec 3 1)) (w3.getD (dec 1 1)) (stack.getD false))
      = .ok (r.stackvalues.map (fun row => ⟨row.h, row.k, c * row.s⟩)) := by
    refine gridLoop_map (g := fun s => c * s) hg ?_
    intro k _ x _ s hs
    obtain ⟨xs, hxs, rfl⟩ := cell_real_ok.1 hs
    refine cell_real_ok.2 ⟨xs.map (fun x => c * x), ?_, by rw [List.sum_map_mul_left]; simp⟩
    rw [mapM_ok_iff] at hxs ⊢
    rw [List.forall₂_map_left_iff, List.forall₂_map_right_iff]
    refine hxs.imp ?_
    intro tr v htr
    obtain ⟨o, sl, ts, h1, h2, h3, h4⟩ := traceTerm_ok.1 htr
    refine traceTerm_ok.2 ⟨o, sl, ts, h1, h2, h3, ?_⟩
    have := weigh_scale (c := c) h4
    rw [← this]
    congr 1
    cases stack.getD false <;> rfl
  have hb : argmax ((r.stackvalues.map (fun row => (⟨row.h, row.k, c * row.s⟩ : Row ℝ))).map Row.s)
      = .ok r.bestIdx := by
    have := argmax_scale hc f.hbest
    rw [List.map_map] at this ⊢
    exact this
  have hst : st.map (scaleTrace c) = scaleTrace c tr0 :: rest.map (scaleTrace c) := by
    rw [f.hst]; rfl
  rw [hst] at hmore hslow hg' ⊢
  have hl : (scaleTrace c tr0).data.length = tr0.data.length := by simp [scaleTrace]
  refine ⟨_, hk_of_facts hmore hslow (by rw [hl]; exact hg') hb hdraw, rfl, rfl, ?_⟩
  intro best hbest
  unfold HKResult.bestmodel at hbest ⊢
  simp only [List.getElem?_map, hbest, Option.map_some]

/-- hypotheses of C11 on the sample stream, `c = 2` -/
example (stack : Option Bool) : ∃ r r', hk Sample.env Sample.stream 1 [30, 35] [1.7, 1.8, 1.9]
      (some ⟨.py, 6.5⟩) none none none none stack = .ok r ∧
    hk Sample.env (Sample.stream.map (scaleTrace 2)) 1 [30, 35] [1.7, 1.8, 1.9]
      (some ⟨.py, 6.5⟩) none none none none stack = .ok r' ∧ r'.bestIdx = r.bestIdx := by
  obtain ⟨r, hr⟩ := sample_ok none none none stack
  obtain ⟨tr0, rest, slows, f⟩ := hk_inv hr
  obtain ⟨more, hm⟩ := f.hstack
  have hsd : r.RFStack = (List.range 5).map (fun i =>
      (Sample.stream.map (fun tr => tr.data.getD i 0)).sum / (Sample.stream.length : ℝ)) := by
    simp only [Sample.env, Sample.meanStack, Sample.stream] at hm
    injection hm with hm
    injection hm with hm _
    rw [← hm]
    simp [Sample.trace, Sample.stream]
  obtain ⟨r', h1, _, h2, _⟩ := c11_scaling (c := 2) (by norm_num) hr ⟨[], by
    rw [hsd]
    simp only [Sample.env, Sample.meanStack, Sample.stream, List.map_cons]
    simp [scaleTrace, Sample.trace]
    intro i hi
    match i with
    | 0 | 1 | 2 | 3 | 4 => norm_num
    | i + 5 => omega⟩ rfl
  exact ⟨r, r', hr, h1, h2⟩

/-! ## C15 -/

section
variable {F : Type} [PyFloat F] [IEEEOrder F]

theorem getamp_take {d t : List F} {x : PyNum F} {n : Nat} (hn : t.length ≤ n) :
    getamp (d.take n) t x = getamp d t x := by
  unfold getamp
  cases hi : argmin (t.map (fun y => PyNum.absSub y x)) with
  | error e => rfl
  | ok i =>
    have hlt : i < t.length := by simpa using argmin_lt hi
    simp only [except_ok_bind, item]
    rw [List.getElem?_take_of_lt (by omega)]

/-- **C15**, second half: samples of a trace beyond the first trace's length are never
read; cutting all traces to that length gives the same table and best model, or the
same exception. -/
theorem c15_tail_never_read (env : Env F) (tr0 : Trace F) (rest : List (Trace F))
    (preonset : F) (H K : List F) (Vp : Option (Scalar F)) (w1 w2 w3 : Option F)
    (layer : Option String)
    (hstack : env.stack ((tr0 :: rest).map
      (fun tr => { tr with data := tr.data.take tr0.data.length })) = env.stack (tr0 :: rest)) :
    (hk env ((tr0 :: rest).map (fun tr => { tr with data := tr.data.take tr0.data.length }))
        preonset H K Vp w1 w2 w3 layer (some false)).map (fun r => (r.stackvalues, r.bestIdx))
      = (hk env (tr0 :: rest) preonset H K Vp w1 w2 w3 layer (some false)).map
          (fun r => (r.stackvalues, r.bestIdx)) := by
  have hslow : ((tr0 :: rest).map (fun tr : Trace F =>
      { tr with data := tr.data.take tr0.data.length })).mapM Trace.getSlowness
      = (tr0 :: rest).mapM Trace.getSlowness := by
    generalize tr0 :: rest = l
    induction l with
    | nil => rfl
    | cons a l ih =>
      rw [List.map_cons, List.mapM_cons, List.mapM_cons, ih]; rfl
  have hcell : ∀ (st : List (Trace F)) (sd : List F) (avg : F) (Vp : Scalar F) (w1 w2 w3 k x : F),
      cell env (st.map (fun tr : Trace F => { tr with data := tr.data.take tr0.data.length }))
        (timeAxis tr0.delta preonset tr0.data.length) sd avg Vp w1 w2 w3 false k x
      = cell env st (timeAxis tr0.delta preonset tr0.data.length) sd avg Vp w1 w2 w3 false k x := by
    intro st sd avg Vp w1 w2 w3 k x
    rw [cell_eq, cell_eq]
    congr 1
    induction st with
    | nil => rfl
    | cons a st ih =>
      rw [List.map_cons, List.mapM_cons, List.mapM_cons, ih]
      congr 1
      rw [traceTerm_eq, traceTerm_eq]
      simp only [weigh, Bool.false_eq_true, if_false,
        getamp_take (n := tr0.data.length) (le_of_eq (timeAxis_length _ _ _))]
      rfl
  have hl : ({ tr0 with data := tr0.data.take tr0.data.length } : Trace F).data.length
      = tr0.data.length := by simp
  unfold hk
  rw [hstack, hslow]
  cases env.stack (tr0 :: rest) with
  | error e => rfl
  | ok stk =>
    simp only [except_ok_bind]
    cases item stk 0 with
    | error e => rfl
    | ok sd =>
      simp only [except_ok_bind]
      cases (tr0 :: rest).mapM Trace.getSlowness with
      | error e => rfl
      | ok sl =>
        simp only [except_ok_bind, List.map_cons, item, List.getElem?_cons_zero, hl]
        have := hcell (tr0 :: rest) sd (npMean (sl.map Scalar.val)) (Vp.getD ⟨.py, dec 65 1⟩)
          (w1.getD (dec 6 1)) (w2.getD (dec 3 1)) (w3.getD (dec 1 1))
        simp only [List.map_cons] at this
        simp only [Option.getD_some, funext (fun k => funext (this k))]
        cases gridLoop K H (cell env (tr0 :: rest) (timeAxis tr0.delta preonset tr0.data.length) sd
          (npMean (sl.map Scalar.val)) (Vp.getD ⟨.py, dec 65 1⟩)
          (w1.getD (dec 6 1)) (w2.getD (dec 3 1)) (w3.getD (dec 1 1)) false) with
        | error e => rfl
        | ok tb =>
          simp only [except_ok_bind]
          cases argmax (tb.map Row.s) with
          | error e => rfl
          | ok b =>
            simp only [except_ok_bind]
            cases env.draw tb <;> rfl

end

/-- **C15**, first half: on input that is fine otherwise, `hk` fails exactly when at some
grid point, for some trace and some arrival, the nearest sample on the first trace's
time axis lies beyond that trace's data, and then with `IndexError`. -/
theorem c15_indexError_iff {env : Env ℝ} {tr0 : Trace ℝ} {rest : List (Trace ℝ)} {preonset : ℝ}
    {H K : List ℝ} {Vp : Scalar ℝ} {w1 w2 w3 : Option ℝ} {layer : Option String}
    {sd : List ℝ} {more : List (List ℝ)} {e : PyErr}
    (hstack : env.stack (tr0 :: rest) = .ok (sd :: more))
    (hdata : tr0.data ≠ [])
    (hhead : ∀ tr ∈ tr0 :: rest, tr.onset.isSome ∧ tr.slowness.isSome)
    (hVp : Vp.val ≠ 0) (hK : K ≠ []) (hH : H ≠ [])
    (hpre : ∀ tr ∈ tr0 :: rest, ∀ k ∈ K, PreCritical (env.km2deg1 * slownessOf tr) Vp.val k)
    (hdraw : ∀ tb, env.draw tb = .ok ()) :
    hk env (tr0 :: rest) preonset H K (some Vp) w1 w2 w3 layer (some false) = .error e ↔
      e = .indexError ∧ ∃ k ∈ K, ∃ x ∈ H, ∃ tr ∈ tr0 :: rest,
        ∃ t ∈ [tPs (env.km2deg1 * slownessOf tr) Vp.val x k,
            tPpPs (env.km2deg1 * slownessOf tr) Vp.val x k,
            tPsPs (env.km2deg1 * slownessOf tr) Vp.val x k],
        ∃ i, NearestSample ((List.range tr0.data.length).map
              (fun i : Nat => tr0.delta * (i : ℝ) - preonset)) t i ∧ tr.data.length ≤ i := by
  have haxis : (List.range tr0.data.length).map (fun i : Nat => tr0.delta * (i : ℝ) - preonset)
      = timeAxis tr0.delta preonset tr0.data.length := by simp [timeAxis]
  rw [haxis]
  set axis := timeAxis tr0.delta preonset tr0.data.length with hax
  have hne : axis ≠ [] := by
    intro h
    have := timeAxis_length tr0.delta preonset tr0.data.length
    rw [← hax, h] at this
    exact hdata (List.length_eq_zero_iff.1 this.symm)
  obtain ⟨slows, hslows⟩ := mapM_ok_of_forall (f := Trace.getSlowness) (xs := tr0 :: rest) (by
    intro tr htr
    obtain ⟨s, hs⟩ := Option.isSome_iff_exists.1 (hhead tr htr).2
    exact ⟨s, getSlowness_ok.2 hs⟩)
  -- one trace at one grid point
  have term : ∀ tr ∈ tr0 :: rest, ∀ k ∈ K, ∀ x,
      (∀ e, traceTerm env axis sd (npMean (slows.map Scalar.val)) Vp (w1.getD (dec 6 1))
          (w2.getD (dec 3 1)) (w3.getD (dec 1 1)) false k x tr = .error e →
        e = .indexError ∧ ∃ t ∈ [tPs (env.km2deg1 * slownessOf tr) Vp.val x k,
            tPpPs (env.km2deg1 * slownessOf tr) Vp.val x k,
            tPsPs (env.km2deg1 * slownessOf tr) Vp.val x k],
          ∃ i, NearestSample axis t i ∧ tr.data.length ≤ i) ∧
      (∀ v, traceTerm env axis sd (npMean (slows.map Scalar.val)) Vp (w1.getD (dec 6 1))
          (w2.getD (dec 3 1)) (w3.getD (dec 1 1)) false k x tr = .ok v →
        ∀ t ∈ [tPs (env.km2deg1 * slownessOf tr) Vp.val x k,
            tPpPs (env.km2deg1 * slownessOf tr) Vp.val x k,
            tPsPs (env.km2deg1 * slownessOf tr) Vp.val x k],
          ∀ i, NearestSample axis t i → i < tr.data.length) := by
    intro tr htr k hk x
    obtain ⟨o, ho⟩ := Option.isSome_iff_exists.1 (hhead tr htr).1
    obtain ⟨sl, hsl⟩ := Option.isSome_iff_exists.1 (hhead tr htr).2
    have hp := (hpre tr htr k hk).2
    rw [slownessOf_eq hsl] at hp ⊢
    rw [traceTerm_real hVp ho hsl (by simpa [rpOf] using hp)]
    simp only [rpOf, Bool.false_eq_true, if_false]
    constructor
    · intro e he
      have fin : ∀ t, HkZhu.getamp tr.data axis (.real t) = .error e →
          e = .indexError ∧ ∃ i, NearestSample axis t i ∧ tr.data.length ≤ i := by
        intro t ht
        rcases (getamp_error_iff (distOk_real _ _)).1 ht with ⟨h, _⟩ | ⟨i, h1, h2, h3⟩
        · exact absurd h hne
        · exact ⟨h3, i, h1, h2⟩
      rcases bind_eq_error.1 he with he | ⟨a1, _, he⟩
      · obtain ⟨h1, h2⟩ := fin _ he; exact ⟨h1, _, by simp, h2⟩
      rcases bind_eq_error.1 he with he | ⟨a2, _, he⟩
      · obtain ⟨h1, h2⟩ := fin _ he
        exact ⟨h1, tPpPs (env.km2deg1 * sl.val) Vp.val x k, by simp, h2⟩
      rcases bind_eq_error.1 he with he | ⟨a3, _, he⟩
      · obtain ⟨h1, h2⟩ := fin _ he
        exact ⟨h1, tPsPs (env.km2deg1 * sl.val) Vp.val x k, by simp, h2⟩
      · cases he
    · intro v hv t ht i hi
      obtain ⟨a1, h1, hv⟩ := bind_eq_ok.1 hv
      obtain ⟨a2, h2, hv⟩ := bind_eq_ok.1 hv
      obtain ⟨a3, h3, hv⟩ := bind_eq_ok.1 hv
      have fin : ∀ a, HkZhu.getamp tr.data axis (.real t) = .ok a → i < tr.data.length := by
        intro a ha
        obtain ⟨i', hi', hd⟩ := (getamp_ok_iff (distOk_real _ _)).1 ha
        rw [NearestSample.unique hi hi']
        by_contra hc
        rw [List.getElem?_eq_none (by omega)] at hd; cases hd
      simp only [List.mem_cons, List.not_mem_nil, or_false] at ht
      rcases ht with rfl | rfl | rfl
      · exact fin _ h1
      · exact fin _ h2
      · exact fin _ h3
  -- how `hk` fails
  have step : ∀ e, hk env (tr0 :: rest) preonset H K (some Vp) w1 w2 w3 layer (some false) = .error e →
      ∃ k ∈ K, ∃ x ∈ H, ∃ tr ∈ tr0 :: rest,
        traceTerm env axis sd (npMean (slows.map Scalar.val)) Vp (w1.getD (dec 6 1))
          (w2.getD (dec 3 1)) (w3.getD (dec 1 1)) false k x tr = .error e := by
    intro e he
    cases hgl : gridLoop K H (cell env (tr0 :: rest) axis sd
      (npMean (slows.map Scalar.val)) Vp (w1.getD (dec 6 1))
      (w2.getD (dec 3 1)) (w3.getD (dec 1 1)) false) with
    | ok tb =>
      exfalso
      have hlen := (gridLoop_ok hgl).1
      have hne' : tb.map Row.s ≠ [] := by
        intro h0
        have : tb = [] := by simpa using h0
        rw [this] at hlen
        simp at hlen
        rcases hlen with h | h
        · exact hK h
        · exact hH h
      obtain ⟨b, hb⟩ := argmax_ok hne'
      have := hk_of_facts (Vp := some Vp) (w1 := w1) (w2 := w2) (w3 := w3) (layer := layer)
        (stack := some false) hstack hslows hgl hb (hdraw tb)
      rw [this] at he; cases he
    | error e' =>
      have : hk env (tr0 :: rest) preonset H K (some Vp) w1 w2 w3 layer (some false) = .error e' := by
        unfold hk
        rw [hstack, except_ok_bind]
        have h1 : item (sd :: more) 0 = .ok sd := rfl
        have h2 : item (tr0 :: rest) 0 = .ok tr0 := rfl
        rw [h1, except_ok_bind, hslows, except_ok_bind, h2, except_ok_bind]
        simp only [Option.getD_some]
        rw [← hax, hgl]; rfl
      rw [this] at he
      cases he
      obtain ⟨k, hk, x, hx, hc⟩ := gridLoop_error hgl
      rw [cell_eq] at hc
      rcases bind_eq_error.1 hc with hc | ⟨_, _, hc⟩
      · obtain ⟨tr, htr, ht⟩ := mapM_error_mem hc
        exact ⟨k, hk, x, hx, tr, htr, ht⟩
      · cases hc
  constructor
  · intro he
    obtain ⟨k, hk, x, hx, tr, htr, ht⟩ := step e he
    obtain ⟨h1, h2⟩ := (term tr htr k hk x).1 e ht
    exact ⟨h1, k, hk, x, hx, tr, htr, h2⟩
  · rintro ⟨rfl, k, hk, x, hx, tr, htr, t, ht, i, hi, hle⟩
    cases hres : HkZhu.hk env (tr0 :: rest) preonset H K (some Vp) w1 w2 w3 layer (some false) with
    | error e =>
      obtain ⟨k, hk, x, hx, tr, htr, ht⟩ := step e hres
      rw [((term tr htr k hk x).1 e ht).1]
    | ok r =>
      exfalso
      obtain ⟨tr0', rest', slows', f⟩ := hk_inv hres
      have hst := f.hst
      cases hst
      have hs' := f.hslow
      rw [hslows] at hs'
      cases hs'
      obtain ⟨s, hs⟩ := gridLoop_value_ok f.hgrid hk hx
      rw [f.htime, f.havg, f.hVp, f.hstk, ← hax] at hs
      obtain ⟨more', hm⟩ := f.hstack
      rw [hstack] at hm
      injection hm with hm
      injection hm with hm _
      rw [← hm] at hs
      simp only [Option.getD_some] at hs
      obtain ⟨xs, hxs, _⟩ := cell_real_ok.1 hs
      obtain ⟨v, hv⟩ := mapM_ok_mem hxs htr
      have := (term tr htr k hk x).2 v hv t ht i hi
      omega

/-- a stream whose second trace is too short: the hypotheses of `c15_indexError_iff`
hold, and so does its right-hand side -/
example : hk Sample.env [mixedA, { mixedA with data := [5] }] 0 [1] [2] (some ⟨.py, 1⟩)
    none none none none (some false) = .error .indexError := by
  refine (c15_indexError_iff (sd := _) (more := []) rfl ?_ ?_ ?_ ?_ ?_ ?_ ?_).2
    ⟨rfl, 2, by simp, 1, by simp, { mixedA with data := [5] }, by simp, 1, ?_, 1, ?_, ?_⟩
  · simp [mixedA, Sample.trace]
  · intro tr htr; simp at htr; rcases htr with rfl | rfl <;> simp [mixedA, Sample.trace]
  · norm_num
  · simp
  · simp
  · intro tr htr k hk
    simp at htr hk
    subst hk
    rcases htr with rfl | rfl <;>
      norm_num [PreCritical, slownessOf, mixedA, Sample.trace, Sample.env]
  · intro _; rfl
  · simp [slownessOf, mixedA, Sample.trace, tPs_mixed]
  · refine ⟨1, by simp [mixedA, Sample.trace], ?_, ?_⟩
    · intro j y hy; simp
    · intro j y hj hy
      have : j = 0 := by omega
      subst this
      simp [mixedA, Sample.trace] at hy
      subst hy; simp
  · simp

end Rfsed.Props
