import Verif.Props.Experiment
import Verif.Props.RoundingStack

/-!
# C140: `hk` on a stream of computed receiver functions, in sufficiently precise arithmetic
-/

namespace Rfsed.Props
open Rfsed HkZhu Spec Filter Topology

theorem accumulated_linear {u : ℝ} (h0 : 0 ≤ u) (h1 : u ≤ 1) (n : Nat) : accumulated u n ≤ (2 ^ n - 1) * u := by
  unfold accumulated
  have key : (1 + u) ^ n ≤ 1 + (2 ^ n - 1) * u := by
    induction n with
    | zero => simp
    | succ n ih =>
      have h2 : (1 : ℝ) ≤ 2 ^ n := one_le_pow₀ (by norm_num)
      rw [pow_succ, pow_succ]
      have := mul_le_mul_of_nonneg_right ih (show 0 ≤ 1 + u by linarith)
      nlinarith [mul_nonneg (mul_nonneg (sub_nonneg.2 h2) h0) (sub_nonneg.2 h1)]
  linarith

/-- a stream in the arithmetic `R` with the headers of `st` and data within `e` of its data -/
def NearStream {R : Rounding} (e : ℝ) (st : List (Trace ℝ)) (st' : List (Trace (FL R))) : Prop :=
  List.Forall₂ (fun tr tr' => NearTrace e tr (exactTrace tr')) st st'

theorem near_bounded {e A : ℝ} {x y : List ℝ} (h : Near e x y) (hA : ∀ a ∈ x, |a| ≤ A) : ∀ b ∈ y, |b| ≤ A + e := by
  unfold Near at h
  induction h with
  | nil => exact fun b hb => absurd hb List.not_mem_nil
  | @cons a b x y h1 _ ih =>
    intro c hc
    rcases List.mem_cons.1 hc with rfl | hc
    · have := abs_add_le a (c - a)
      rw [add_sub_cancel, abs_sub_comm c a] at this
      linarith [hA a (List.mem_cons_self ..)]
    · exact ih (fun a ha => hA a (List.mem_cons_of_mem _ ha)) c hc

theorem nearStream_mem {R : Rounding} {e : ℝ} {st : List (Trace ℝ)} {st' : List (Trace (FL R))}
    (h : NearStream e st st') {tr' : Trace (FL R)} (ht : tr' ∈ st') : ∃ tr ∈ st, NearTrace e tr (exactTrace tr') := by
  unfold NearStream at h
  induction h with
  | nil => exact absurd ht List.not_mem_nil
  | @cons a b x y h1 _ ih =>
    rcases List.mem_cons.1 ht with rfl | ht
    · exact ⟨a, List.mem_cons_self .., h1⟩
    · obtain ⟨tr, h2, h3⟩ := ih ht
      exact ⟨tr, List.mem_cons_of_mem _ h2, h3⟩

theorem streams_bounded (st : List (Trace ℝ)) : ∃ A, 0 ≤ A ∧ ∀ tr ∈ st, ∀ a ∈ tr.data, |a| ≤ A := by
  obtain ⟨A, h0, h⟩ := samples_bounded (st.flatMap Trace.data)
  exact ⟨A, h0, fun tr htr a ha => h a (List.mem_flatMap.2 ⟨tr, htr, ha⟩)⟩

/-- **C140** `hk` on single traces in arithmetic of precision `ε`, on data within `C ε` of the exact ones. -/
theorem c140_hk {env : Env ℝ} {tr0 : Trace ℝ} {rest : List (Trace ℝ)} {preonset : ℝ} {Vp : Scalar ℝ} {H K : List ℝ}
    {w1 w2 w3 : ℝ} {layer : Option String} {stack : Option Bool} {r : HKResult ℝ} (hs : stack ≠ some true)
    (h : hk env (tr0 :: rest) preonset H K (some Vp) (some w1) (some w2) (some w3) layer stack = .ok r)
    (hlen : ∀ tr ∈ rest, tr0.data.length ≤ tr.data.length)
    (hS : ∀ k ∈ K, ∀ tr ∈ tr0 :: rest, (env.km2deg1 * slownessOf tr) ^ 2 < (k / Vp.val) ^ 2)
    (hP : ∀ tr ∈ tr0 :: rest, (env.km2deg1 * slownessOf tr) ^ 2 < (1 / Vp.val) ^ 2)
    (hclear : ∀ k ∈ K, ∀ y ∈ H, ∀ tr ∈ tr0 :: rest,
      ClearArrivals (exactAxis tr0.delta preonset tr0.data.length) (env.km2deg1 * slownessOf tr) Vp.val y k 0)
    (hbest : Margin 0 r.stackvalues r.bestIdx) {C : ℝ} (hC : 0 ≤ C) :
    ∃ C' > 0, ∃ δ > 0, ∀ ε, 0 < ε → ε ≤ δ → ∀ R : Rounding, R.u ≤ ε →
      ∀ (env' : Env (FL R)) (st' : List (Trace (FL R))) (H' K' : List (FL R)) (pre' v1 v2 v3 : FL R)
        (Vp' : Scalar (FL R)) (layer' : Option String) (stack' : Option Bool),
        NearStream (C * ε) (tr0 :: rest) st' → env'.km2deg1.val = env.km2deg1 → pre'.val = preonset →
        H'.map FL.val = H → K'.map FL.val = K → Vp'.val.val = Vp.val → v1.val = w1 → v2.val = w2 → v3.val = w3 →
        stack' ≠ some true → (∃ sd more, env'.stack st' = .ok (sd :: more)) →
        (∀ tb, tb ≠ [] → env'.draw tb = .ok ()) →
        ∃ r', hk env' st' pre' H' K' (some Vp') (some v1) (some v2) (some v3) layer' stack' = .ok r' ∧
          NearTable (C' * ε) r.stackvalues (r'.stackvalues.map exactRow) ∧ r'.bestIdx = r.bestIdx := by
  obtain ⟨tr1, rest1, slows, f⟩ := hk_inv h
  have hst := f.hst
  injection hst with e1 e2
  subst e1 e2
  obtain ⟨hK, hH, k0, x0, s0, hs0⟩ := grid_ne f.hgrid f.hbest
  have hall : ∀ tr ∈ tr0 :: rest, tr.onset.isSome ∧ tr.slowness.isSome := by
    rw [cell_eq] at hs0
    obtain ⟨xs, hxs, -⟩ := bind_eq_ok.1 hs0
    intro tr htr
    obtain ⟨v, hv⟩ := mapM_ok_mem hxs htr
    obtain ⟨_, _, _, ho, hsl, -, -⟩ := traceTerm_ok.1 hv
    exact ⟨by rw [ho]; rfl, by rw [hsl]; rfl⟩
  have hne : tr0.data ≠ [] := by
    rw [cell_eq] at hs0
    obtain ⟨xs, hxs, -⟩ := bind_eq_ok.1 hs0
    obtain ⟨v, hv⟩ := mapM_ok_mem hxs (List.mem_cons_self ..)
    obtain ⟨_, _, _, -, -, -, hw⟩ := traceTerm_ok.1 hv
    have := weigh_axis hw
    rw [f.htime, ← List.length_pos_iff, timeAxis_length] at this
    exact List.length_pos_iff.1 this
  have hV := vp_ne_zero (hP tr0 (List.mem_cons_self ..))
  obtain ⟨A, hA0, hA⟩ := streams_bounded (tr0 :: rest)
  set n := (tr0 :: rest).length with hn
  set W := |w1| + |w2| + |w3| with hW
  have hW0 : 0 ≤ W := by positivity
  set L := |tr0.delta| * tr0.data.length + |preonset| with hL
  have h2n : (1 : ℝ) ≤ 2 ^ (n + 3) := one_le_pow₀ (by norm_num)
  set C' := n * (W * C) + (2 ^ (n + 3) - 1) * (n * (W * (A + C))) + 1 with hC'
  have hC'0 : 0 < C' := by
    have : 0 ≤ (2 ^ (n + 3) - 1 : ℝ) * (n * (W * (A + C))) := mul_nonneg (by linarith) (by positivity)
    have : 0 ≤ (n : ℝ) * (W * C) := by positivity
    linarith
  have ev : ∀ᶠ u in 𝓝 (0 : ℝ), u < 1 / 1000 ∧ Margin (2 * C' * u) r.stackvalues r.bestIdx ∧
      (∀ k ∈ K, ∀ tr ∈ tr0 :: rest, WellConditioned u (env.km2deg1 * slownessOf tr) Vp.val k) ∧
      ∀ k ∈ K, ∀ y ∈ H, ∀ tr ∈ tr0 :: rest, ClearArrivals (exactAxis tr0.delta preonset tr0.data.length)
        (env.km2deg1 * slownessOf tr) Vp.val y k (40 * (L + timeScale (env.km2deg1 * slownessOf tr) Vp.val y k) * u) := by
    filter_upwards [Iio_mem_nhds (show (0 : ℝ) < 1 / 1000 by norm_num), margin_eventually hbest (2 * C'),
      forall_mem_eventually (fun k hk => forall_mem_eventually (fun tr htr => well_eventually (hS k hk tr htr) (hP tr htr))),
      forall_mem_eventually (fun k hk => forall_mem_eventually (fun y hy => forall_mem_eventually (fun tr htr =>
        clearTimes_eventually (hclear k hk y hy tr htr)
        (40 * (L + timeScale (env.km2deg1 * slownessOf tr) Vp.val y k)))))] with u a b c d
    exact ⟨a, b, c, d⟩
  obtain ⟨δ, hδ, hev⟩ := exists_radius ev
  refine ⟨C', hC'0, δ, hδ, ?_⟩
  intro ε hε hεδ R hR env' st' H' K' pre' v1 v2 v3 Vp' layer' stack' hnear hkm rfl rfl rfl hVp rfl rfl rfl hs' hstk hdraw
  obtain ⟨hu3, -, hwell, hcl⟩ := hev R.u R.u_nonneg (hR.trans hεδ)
  obtain ⟨hε3, hmar, -, -⟩ := hev ε hε.le hεδ
  have hKf : K' ≠ [] := by simpa using hK
  have hHf : H' ≠ [] := by simpa using hH
  obtain ⟨tr0', rest', rfl⟩ : ∃ a b, st' = a :: b := by
    cases hnear with
    | cons _ _ => exact ⟨_, _, rfl⟩
  have hn0 : NearTrace (C * ε) tr0 (exactTrace tr0') ∧ NearStream (C * ε) rest rest' := by
    cases hnear with
    | cons a b => exact ⟨a, b⟩
  have hlen0 : tr0.data.length = tr0'.data.length := by
    have := hn0.1.2.2.2.length_eq
    simpa [exactTrace] using this
  have hdel : tr0'.delta.val = tr0.delta := hn0.1.2.2.1
  have hhead' : ∀ tr ∈ tr0' :: rest', tr.onset.isSome ∧ tr.slowness.isSome := by
    intro tr htr
    obtain ⟨b, hb, h1, h2, -, -⟩ := nearStream_mem hnear htr
    obtain ⟨q1, q2⟩ := hall b hb
    rw [← h2] at q1
    rw [← h1] at q2
    simpa [exactTrace] using And.intro q1 q2
  have hlen' : ∀ tr ∈ rest', tr0'.data.length ≤ tr.data.length := by
    intro tr htr
    obtain ⟨b, hb, -, -, -, h4⟩ := nearStream_mem hn0.2 htr
    have := h4.length_eq
    simp only [exactTrace, List.length_map] at this
    have := hlen b hb
    omega
  have hslow : ∀ tr ∈ tr0' :: rest', ∃ b ∈ tr0 :: rest, slownessOf (exactTrace tr) = slownessOf b := by
    intro tr htr
    obtain ⟨b, hb, h1, -⟩ := nearStream_mem hnear htr
    exact ⟨b, hb, by unfold slownessOf; rw [h1]⟩
  obtain ⟨sd, more, hsd⟩ := hstk
  obtain ⟨r', hr'⟩ := c03_succeeds (env := env') (preonset := pre') (Vp := some Vp') (w1 := some v1) (w2 := some v2) (w3 := some v3)
    (layer := layer') (stack := stack') hsd (fun e => absurd e hs')
    (by rw [← List.length_pos_iff, ← hlen0]; exact List.length_pos_iff.2 hne) hhead' hlen'
    (fun v hv => by cases hv; exact divisor_fl (by rw [hVp]; exact hV)) (by simp) hKf hHf (fun tb htb => hdraw tb (by
      rw [← List.length_pos_iff, htb]
      exact Nat.mul_pos (List.length_pos_iff.2 hKf) (List.length_pos_iff.2 hHf)))
  let env1 : Env ℝ := { env with draw := fun _ => .ok (), stack := fun _ => .ok [[]] }
  obtain ⟨r1, hr1⟩ := c03_succeeds (env := env1) (tr0 := exactTrace tr0') (rest := rest'.map exactTrace)
    (preonset := pre'.val) (H := H'.map FL.val) (K := K'.map FL.val) (Vp := some Vp) (w1 := some v1.val)
    (w2 := some v2.val) (w3 := some v3.val) (layer := layer) (stack := stack) (sd := []) (more := []) rfl
    (fun e => absurd e hs)
    (by simp only [exactTrace]; rw [← List.length_pos_iff, List.length_map, ← hlen0]; exact List.length_pos_iff.2 hne)
    (by
      intro tr htr
      rw [← List.map_cons] at htr
      obtain ⟨b, hb, rfl⟩ := List.mem_map.1 htr
      simpa [exactTrace] using hhead' b hb)
    (by
      intro tr htr
      obtain ⟨b, hb, rfl⟩ := List.mem_map.1 htr
      simpa [exactTrace] using hlen' b hb)
    (fun v hv => by cases hv; exact divisor_real (k := Vp.kind) hV) (by simp) hK hH (fun _ _ => rfl)
  have hnr : List.Forall₂ (NearTrace (C * ε)) (tr0 :: rest) (exactTrace tr0' :: rest'.map exactTrace) := by
    rw [← List.map_cons, List.forall₂_map_right_iff]
    exact hnear
  have n1 := (c95_hk (env := env) (env' := env1) hs rfl hnr h hr1).1
  have hr1' := hr1
  rw [show Vp = ⟨Vp.kind, Vp'.val.val⟩ by rw [hVp], ← List.map_cons] at hr1'
  have hslv : ∀ tr ∈ tr0' :: rest', ∀ sl, tr.slowness = some sl → slownessOf (exactTrace tr) = sl.val.val := by
    intro tr _ sl hsl
    simp [slownessOf, exactTrace, hsl]
  have n2 := (c105_hk_exact (A := A + C * ε) hu3.le hs' hs (by rw [hkm]) hr' hr1'
    (by
      intro tr htr a ha
      obtain ⟨b, hb, -, -, -, h4⟩ := nearStream_mem hnear htr
      exact near_bounded h4 (hA b hb) _ (List.mem_map_of_mem ha))
    (by
      intro k hk tr htr sl hsl
      obtain ⟨b, hb, he⟩ := hslow tr htr
      rw [hkm, hVp, ← hslv tr htr sl hsl, he]
      exact hwell _ (List.mem_map_of_mem hk) b hb)
    (by
      intro k hk y hy tr htr sl hsl
      obtain ⟨b, hb, he⟩ := hslow tr htr
      rw [hkm, hVp, ← hslv tr htr sl hsl, he, hdel, ← hlen0]
      have := hcl _ (List.mem_map_of_mem hk) _ (List.mem_map_of_mem hy) b hb
      unfold timeAccuracy
      rwa [mul_right_comm] at this)).1
  have hT : NearTable (C' * ε) r.stackvalues (r'.stackvalues.map exactRow) := by
    refine nearTable_mono ?_ (nearTable_trans n1 n2)
    have hnn : (tr0' :: rest').length = n := (hnear.length_eq).symm
    rw [hnn]
    have a4 := accumulated_linear R.u_nonneg (by linarith) (n + 3)
    have a5 : (2 ^ (n + 3) - 1) * R.u ≤ (2 ^ (n + 3) - 1) * ε := mul_le_mul_of_nonneg_left hR (by linarith)
    have h1 : accumulated R.u (n + 3) * (n * (W * (A + C * ε))) ≤ (2 ^ (n + 3) - 1) * ε * (n * (W * (A + C))) := by
      refine mul_le_mul (a4.trans a5) (mul_le_mul_of_nonneg_left (mul_le_mul_of_nonneg_left (by nlinarith) hW0)
        (Nat.cast_nonneg _)) (by positivity) (mul_nonneg (by linarith) hε.le)
    rw [hC']
    nlinarith
  obtain ⟨_, _, _, f'⟩ := hk_inv hr'
  exact ⟨r', hr', hT, nearTable_best hT f.hbest (best_fl f'.hbest) (by rwa [← mul_assoc])⟩

theorem meanAccuracy_eventually {P : ℝ → Prop} (n : Nat) (h : ∀ᶠ u in 𝓝 (0 : ℝ), P u) :
    ∀ᶠ u in 𝓝 (0 : ℝ), P (meanAccuracy u n) := by
  have hc : ContinuousAt (fun u : ℝ => meanAccuracy u n) 0 := by
    unfold meanAccuracy accumulated
    fun_prop
  have h0 : meanAccuracy 0 n = 0 := by simp [meanAccuracy, accumulated]
  have ht : Tendsto (fun u : ℝ => meanAccuracy u n) (𝓝 0) (𝓝 0) := by
    have := hc.tendsto
    rwa [h0] at this
  exact ht.eventually h

/-- `hk` with `stack=True` in exact arithmetic on two streams with the same headers and stacks within `e` -/
theorem hk_stacked_near {env env' : Env ℝ} {st st' : List (Trace ℝ)} {preonset : ℝ} {H K : List ℝ}
    {Vp : Option (Scalar ℝ)} {w1 w2 w3 e e' : ℝ} {layer layer' : Option String} {r r' : HKResult ℝ}
    {sd sd' : List ℝ} {more more' : List (List ℝ)}
    (hkm : env'.km2deg1 = env.km2deg1) (hn : List.Forall₂ (NearTrace e') st st')
    (hsd : env.stack st = .ok (sd :: more)) (hsd' : env'.stack st' = .ok (sd' :: more')) (hns : Near e sd sd')
    (h : hk env st preonset H K Vp (some w1) (some w2) (some w3) layer (some true) = .ok r)
    (h' : hk env' st' preonset H K Vp (some w1) (some w2) (some w3) layer' (some true) = .ok r') :
    NearTable (st.length * ((|w1| + |w2| + |w3|) * e)) r.stackvalues r'.stackvalues := by
  obtain ⟨tr0, rest, slows, f⟩ := hk_inv h
  obtain ⟨tr0', rest', slows', f'⟩ := hk_inv h'
  have h0 : NearTrace e' tr0 tr0' := by
    have := hn
    rw [f.hst, f'.hst] at this
    cases this with
    | cons a _ => exact a
  have ht : r'.time = r.time := by
    rw [f'.htime, f.htime, h0.2.2.1, h0.2.2.2.length_eq]
  have hslows : slows' = slows := by
    have key : ∀ {a b : List (Trace ℝ)}, List.Forall₂ (NearTrace e') a b →
        b.mapM Trace.getSlowness = a.mapM Trace.getSlowness := by
      intro a b hab
      induction hab with
      | nil => rfl
      | @cons x y a b hx _ ih =>
        have : y.getSlowness = x.getSlowness := by unfold Trace.getSlowness; rw [hx.1]
        rw [List.mapM_cons, List.mapM_cons, this, ih]
    have := f'.hslow
    rw [key hn, f.hslow] at this
    exact (Except.ok.inj this).symm
  obtain ⟨_, hq⟩ := f.hstack
  rw [hsd] at hq
  injection Except.ok.inj hq with hq _
  obtain ⟨_, hq'⟩ := f'.hstack
  rw [hsd'] at hq'
  injection Except.ok.inj hq' with hq' _
  have g := f.hgrid
  have g' := f'.hgrid
  rw [f.hVp, f.hstk, f.havg, ← hq] at g
  rw [f'.hVp, f'.hstk, ht, f'.havg, ← hq', hslows] at g'
  refine nearTable_of g g' ?_
  intro k _ x _ a b ha hb
  obtain ⟨ts, v, hts, hv, rfl⟩ := cell_stack_true (by rw [f.hst]; simp) ha
  obtain ⟨ts', v', hts', hv', rfl⟩ := cell_stack_true (by rw [f'.hst]; simp) hb
  rw [hkm, hts] at hts'
  cases Except.ok.inj hts'
  rw [← hn.length_eq, ← mul_sub, abs_mul, Nat.abs_cast]
  exact mul_le_mul_of_nonneg_left (near_weigh hns hv hv') (Nat.cast_nonneg _)

/-- **C140** `hk` with `stack=True` in arithmetic of precision `ε`, on a stacked receiver function within `C ε` of the
exact one. -/
theorem c140_hk_stacked {env : Env ℝ} {tr0 : Trace ℝ} {rest : List (Trace ℝ)} {preonset : ℝ} {Vp : Scalar ℝ}
    {H K : List ℝ} {w1 w2 w3 : ℝ} {layer : Option String} {r : HKResult ℝ} {sd : List ℝ} {more : List (List ℝ)} {p : ℝ}
    (h : hk env (tr0 :: rest) preonset H K (some Vp) (some w1) (some w2) (some w3) layer (some true) = .ok r)
    (hsd : env.stack (tr0 :: rest) = .ok (sd :: more)) (hlen : tr0.data.length ≤ sd.length)
    (hp : p = env.km2deg1 * (((tr0 :: rest).map slownessOf).sum / (tr0 :: rest).length))
    (hpos : ∀ tr ∈ tr0 :: rest, 0 ≤ slownessOf tr)
    (hall : ∀ tr ∈ rest, tr0.data.length ≤ tr.data.length)
    (hS : ∀ k ∈ K, p ^ 2 < (k / Vp.val) ^ 2) (hP : p ^ 2 < (1 / Vp.val) ^ 2)
    (hclear : ∀ k ∈ K, ∀ y ∈ H, ClearArrivals (exactAxis tr0.delta preonset tr0.data.length) p Vp.val y k 0)
    (hbest : Margin 0 r.stackvalues r.bestIdx) {C : ℝ} (hC : 0 ≤ C) :
    ∃ C' > 0, ∃ δ > 0, ∀ ε, 0 < ε → ε ≤ δ → ∀ R : Rounding, R.u ≤ ε →
      ∀ (env' : Env (FL R)) (st' : List (Trace (FL R))) (H' K' sd' : List (FL R)) (more' : List (List (FL R)))
        (pre' v1 v2 v3 : FL R) (Vp' : Scalar (FL R)) (layer' : Option String),
        NearStream (C * ε) (tr0 :: rest) st' → env'.stack st' = .ok (sd' :: more') → Near (C * ε) sd (sd'.map FL.val) →
        env'.km2deg1.val = env.km2deg1 → pre'.val = preonset →
        H'.map FL.val = H → K'.map FL.val = K → Vp'.val.val = Vp.val → v1.val = w1 → v2.val = w2 → v3.val = w3 →
        (∀ tb, tb ≠ [] → env'.draw tb = .ok ()) →
        ∃ r', hk env' st' pre' H' K' (some Vp') (some v1) (some v2) (some v3) layer' (some true) = .ok r' ∧
          NearTable (C' * ε) r.stackvalues (r'.stackvalues.map exactRow) ∧ r'.bestIdx = r.bestIdx := by
  obtain ⟨tr1, rest1, slows, f⟩ := hk_inv h
  have hst := f.hst
  injection hst with e1 e2
  subst e1 e2
  obtain ⟨hK, hH, k0, x0, s0, hs0⟩ := grid_ne f.hgrid f.hbest
  have hhead : ∀ tr ∈ tr0 :: rest, tr.onset.isSome ∧ tr.slowness.isSome := by
    rw [cell_eq] at hs0
    obtain ⟨xs, hxs, -⟩ := bind_eq_ok.1 hs0
    intro tr htr
    obtain ⟨v, hv⟩ := mapM_ok_mem hxs htr
    obtain ⟨_, _, _, ho, hsl, -, -⟩ := traceTerm_ok.1 hv
    exact ⟨by rw [ho]; rfl, by rw [hsl]; rfl⟩
  have hne : tr0.data ≠ [] := by
    rw [cell_eq] at hs0
    obtain ⟨xs, hxs, -⟩ := bind_eq_ok.1 hs0
    obtain ⟨v, hv⟩ := mapM_ok_mem hxs (List.mem_cons_self ..)
    obtain ⟨_, _, _, -, -, -, hw⟩ := traceTerm_ok.1 hv
    have := weigh_axis hw
    rw [f.htime, ← List.length_pos_iff, timeAxis_length] at this
    exact List.length_pos_iff.1 this
  have hV := vp_ne_zero hP
  obtain ⟨A, hA0, hA⟩ := samples_bounded sd
  set n := (tr0 :: rest).length with hn
  set W := |w1| + |w2| + |w3| with hW
  have hW0 : 0 ≤ W := by positivity
  set L := |tr0.delta| * tr0.data.length + |preonset| with hL
  have h2n : (1 : ℝ) ≤ 2 ^ (n + 3) := one_le_pow₀ (by norm_num)
  set C' := n * (W * C) + (2 ^ (n + 3) - 1) * (n * (W * (A + C))) + 1 with hC'
  have hC'0 : 0 < C' := by
    have : 0 ≤ (2 ^ (n + 3) - 1 : ℝ) * (n * (W * (A + C))) := mul_nonneg (by linarith) (by positivity)
    have : 0 ≤ (n : ℝ) * (W * C) := by positivity
    linarith
  have ev : ∀ᶠ u in 𝓝 (0 : ℝ), u < 1 / 1000 ∧ Margin (2 * C' * u) r.stackvalues r.bestIdx ∧
      meanAccuracy u n < 1 / 1000 ∧ (∀ k ∈ K, WellConditioned (meanAccuracy u n) p Vp.val k) ∧
      ∀ k ∈ K, ∀ y ∈ H, ClearArrivals (exactAxis tr0.delta preonset tr0.data.length)
        p Vp.val y k (40 * (L + timeScale p Vp.val y k) * meanAccuracy u n) := by
    have hio := Iio_mem_nhds (show (0 : ℝ) < 1 / 1000 by norm_num)
    filter_upwards [hio, margin_eventually hbest (2 * C'),
      meanAccuracy_eventually (P := fun u => u < 1 / 1000) n hio,
      meanAccuracy_eventually n (forall_mem_eventually (fun k hk => well_eventually (hS k hk) hP)),
      meanAccuracy_eventually n (forall_mem_eventually (fun k hk => forall_mem_eventually (fun y hy =>
        clearTimes_eventually (hclear k hk y hy) (40 * (L + timeScale p Vp.val y k)))))] with u a b c d e
    exact ⟨a, b, c, d, e⟩
  obtain ⟨δ, hδ, hev⟩ := exists_radius ev
  refine ⟨C', hC'0, δ, hδ, ?_⟩
  intro ε hε hεδ R hR env' st' H' K' sd' more' pre' v1 v2 v3 Vp' layer' hnear hsd' hnsd hkm rfl rfl rfl hVp rfl rfl rfl hdraw
  obtain ⟨hu3, -, hma, hwell, hcl⟩ := hev R.u R.u_nonneg (hR.trans hεδ)
  obtain ⟨hε3, hmar, -, -, -⟩ := hev ε hε.le hεδ
  have hKf : K' ≠ [] := by simpa using hK
  have hHf : H' ≠ [] := by simpa using hH
  obtain ⟨tr0', rest', rfl⟩ : ∃ a b, st' = a :: b := by
    cases hnear with
    | cons _ _ => exact ⟨_, _, rfl⟩
  have hn0 : NearTrace (C * ε) tr0 (exactTrace tr0') ∧ NearStream (C * ε) rest rest' := by
    cases hnear with
    | cons a b => exact ⟨a, b⟩
  have hnn : (tr0' :: rest').length = n := (hnear.length_eq).symm
  have hlen0 : tr0.data.length = tr0'.data.length := by
    have := hn0.1.2.2.2.length_eq
    simpa [exactTrace] using this
  have hdel : tr0'.delta.val = tr0.delta := hn0.1.2.2.1
  have hhead' : ∀ tr ∈ tr0' :: rest', tr.onset.isSome ∧ tr.slowness.isSome := by
    intro tr htr
    obtain ⟨b, hb, h1, h2, -, -⟩ := nearStream_mem hnear htr
    obtain ⟨q1, q2⟩ := hhead b hb
    rw [← h2] at q1
    rw [← h1] at q2
    simpa [exactTrace] using And.intro q1 q2
  have hlen' : ∀ tr ∈ rest', tr0'.data.length ≤ tr.data.length := by
    intro tr htr
    obtain ⟨b, hb, -, -, -, h4⟩ := nearStream_mem hn0.2 htr
    have := h4.length_eq
    simp only [exactTrace, List.length_map] at this
    have := hall b hb
    omega
  have hsdl : sd.length = sd'.length := by simpa using hnsd.length_eq
  have hslow : (tr0' :: rest').map (fun tr => slownessOf (exactTrace tr)) = (tr0 :: rest).map slownessOf := by
    unfold NearStream at hnear
    generalize tr0 :: rest = a at hnear
    generalize tr0' :: rest' = b at hnear
    induction hnear with
    | nil => rfl
    | cons hx _ ih =>
      rw [List.map_cons, List.map_cons, ih]
      congr 1
      unfold slownessOf
      rw [hx.1]
  have hray : meanRay env'.km2deg1.val (tr0' :: rest') = p := by
    unfold meanRay
    rw [hslow, hkm, hnn, hp]
  obtain ⟨r', hr'⟩ := c03_succeeds (env := env') (preonset := pre') (Vp := some Vp') (w1 := some v1) (w2 := some v2)
    (w3 := some v3) (layer := layer') (stack := some true) hsd' (fun _ => by omega)
    (by rw [← List.length_pos_iff, ← hlen0]; exact List.length_pos_iff.2 hne) hhead' hlen'
    (fun v hv => by cases hv; exact divisor_fl (by rw [hVp]; exact hV)) (by simp) hKf hHf (fun tb htb => hdraw tb (by
      rw [← List.length_pos_iff, htb]
      exact Nat.mul_pos (List.length_pos_iff.2 hKf) (List.length_pos_iff.2 hHf)))
  let env1 : Env ℝ := { env with draw := fun _ => .ok (), stack := fun _ => .ok [sd'.map FL.val] }
  obtain ⟨r1, hr1⟩ := c03_succeeds (env := env1) (tr0 := exactTrace tr0') (rest := rest'.map exactTrace)
    (preonset := pre'.val) (H := H'.map FL.val) (K := K'.map FL.val) (Vp := some Vp) (w1 := some v1.val)
    (w2 := some v2.val) (w3 := some v3.val) (layer := layer) (stack := some true) (sd := sd'.map FL.val) (more := []) rfl
    (fun _ => by simp only [exactTrace, List.length_map]; omega)
    (by simp only [exactTrace]; rw [← List.length_pos_iff, List.length_map, ← hlen0]; exact List.length_pos_iff.2 hne)
    (by
      intro tr htr
      rw [← List.map_cons] at htr
      obtain ⟨b, hb, rfl⟩ := List.mem_map.1 htr
      simpa [exactTrace] using hhead' b hb)
    (by
      intro tr htr
      obtain ⟨b, hb, rfl⟩ := List.mem_map.1 htr
      simpa [exactTrace] using hlen' b hb)
    (fun v hv => by cases hv; exact divisor_real (k := Vp.kind) hV) (by simp) hK hH (fun _ _ => rfl)
  have hnr : List.Forall₂ (NearTrace (C * ε)) (tr0 :: rest) (exactTrace tr0' :: rest'.map exactTrace) := by
    rw [← List.map_cons, List.forall₂_map_right_iff]
    exact hnear
  have n1 := hk_stacked_near (env := env) (env' := env1) rfl hnr hsd rfl hnsd h hr1
  have hr1' := hr1
  rw [show Vp = ⟨Vp.kind, Vp'.val.val⟩ by rw [hVp], ← List.map_cons] at hr1'
  have n2 := (c105_hk_stacked_exact (A := A + C * ε) (env' := env1) (more' := []) (by rw [hnn]; exact hma.le)
    (by rw [hkm]) hr' hr1' hsd' rfl
    (by
      intro tr htr
      have : slownessOf (exactTrace tr) ∈ (tr0 :: rest).map slownessOf := by
        rw [← hslow]
        exact List.mem_map_of_mem (f := fun tr => slownessOf (exactTrace tr)) htr
      obtain ⟨b, hb, he⟩ := List.mem_map.1 this
      rw [← he]
      exact hpos b hb)
    (fun a ha => near_bounded hnsd hA _ (List.mem_map_of_mem ha))
    (by
      intro k hk
      rw [hray, hVp, hnn]
      exact hwell _ (List.mem_map_of_mem hk))
    (by
      intro k hk y hy
      rw [hray, hVp, hnn, hdel, ← hlen0]
      have := hcl _ (List.mem_map_of_mem hk) _ (List.mem_map_of_mem hy)
      unfold timeAccuracy
      rwa [mul_right_comm] at this)).1
  have hT : NearTable (C' * ε) r.stackvalues (r'.stackvalues.map exactRow) := by
    refine nearTable_mono ?_ (nearTable_trans n1 n2)
    rw [hnn]
    have a4 := accumulated_linear R.u_nonneg (by linarith) (n + 3)
    have a5 : (2 ^ (n + 3) - 1) * R.u ≤ (2 ^ (n + 3) - 1) * ε := mul_le_mul_of_nonneg_left hR (by linarith)
    have h1 : accumulated R.u (n + 3) * (n * (W * (A + C * ε))) ≤ (2 ^ (n + 3) - 1) * ε * (n * (W * (A + C))) := by
      refine mul_le_mul (a4.trans a5) (mul_le_mul_of_nonneg_left (mul_le_mul_of_nonneg_left (by nlinarith) hW0)
        (Nat.cast_nonneg _)) (by positivity) (mul_nonneg (by linarith) hε.le)
    rw [hC']
    nlinarith
  obtain ⟨_, _, _, f'⟩ := hk_inv hr'
  exact ⟨r', hr', hT, nearTable_best hT f.hbest (best_fl f'.hbest) (by rwa [← mul_assoc])⟩

end Rfsed.Props
