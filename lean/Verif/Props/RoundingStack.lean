import Verif.Proofs.Rounded3
import Verif.Props.Rounding2

/-!
# C105, C116 with stacking of the traces

With `stack=True` the delay times belong to the mean slowness, which is itself a sum and a quotient of rounded numbers.
-/

namespace Rfsed.Props
open Rfsed PyFloat Spec HkZhu

section
variable {R : Rounding}

/-- ray parameter (s/km) of the mean slowness of the traces, exactly -/
noncomputable def meanRay (c : ℝ) (st : List (Trace (FL R))) : ℝ :=
  c * ((st.map (fun tr => slownessOf (exactTrace tr))).sum / st.length)

/-- no slowness is negative (a missing one counts as zero; the code rejects it) -/
def Slownesses (st : List (Trace (FL R))) : Prop := ∀ tr ∈ st, 0 ≤ slownessOf (exactTrace tr)

/-- relative accuracy of a rounded mean of `n` numbers times a constant -/
noncomputable def meanAccuracy (u : ℝ) (n : Nat) : ℝ := accumulated u (n + 5)

theorem meanAccuracy_ge (n : Nat) : R.u ≤ meanAccuracy R.u n := by
  have := accumulated_mono (R := R) (show 1 ≤ n + 5 by omega)
  have e : accumulated R.u 1 = R.u := by unfold accumulated; ring
  rw [e] at this
  exact this

/-- the rounded ray parameter of the mean slowness -/
theorem meanRay_approx (hu : R.u ≤ 1 / 1000) {st : List (Trace (FL R))} {slows : List (Scalar (FL R))}
    (h : st.mapM Trace.getSlowness = .ok slows) (hp : Slownesses st) (c : FL R) :
    |(c * npMean (slows.map Scalar.val)).val - meanRay c.val st| ≤ meanAccuracy R.u st.length * |meanRay c.val st| := by
  have hl : slows.length = st.length := mapM_length h
  have hmap : (slows.map Scalar.val).map FL.val = st.map (fun tr => slownessOf (exactTrace tr)) := by
    clear hp hl
    rw [mapM_ok_iff] at h
    induction h with
    | nil => rfl
    | @cons tr s st slows h1 _ ih =>
      rw [List.map_cons, List.map_cons, List.map_cons, ih]
      congr 1
      rw [getSlowness_ok] at h1
      have : (exactTrace tr).slowness = some ⟨s.kind, s.val.val⟩ := by
        show tr.slowness.map _ = _
        rw [h1]; rfl
      rw [slownessOf_eq this]
  have hpos : ∀ x ∈ slows.map Scalar.val, 0 ≤ x.val := by
    intro x hx
    have : x.val ∈ (slows.map Scalar.val).map FL.val := List.mem_map_of_mem hx
    rw [hmap] at this
    obtain ⟨tr, htr, e⟩ := List.mem_map.1 this
    rw [← e]
    exact hp tr htr
  obtain ⟨h1, h2⟩ := mean_approx hu hpos
  rw [hmap, List.length_map, hl] at h1 h2
  set m := (st.map (fun tr => slownessOf (exactTrace tr))).sum / (st.length : ℝ)
  have e : meanRay c.val st = c.val * m := rfl
  rw [e]
  refine accumulated_fl (n := st.length + 4) ?_ le_rfl
  rw [← mul_sub, abs_mul, abs_mul, abs_of_nonneg h2]
  have := mul_le_mul_of_nonneg_left h1 (abs_nonneg c.val)
  linarith

/-- weighing samples read at delay times of an approximate ray parameter -/
theorem weigh_reads_v {v : ℝ} (hv : R.u ≤ v) (hu : v ≤ 1 / 1000) {Vp : Scalar (FL R)} {kd : Kind}
    {rp x k w1 w2 w3 s : FL R} {p L : ℝ} {ts : PyNum (FL R) × PyNum (FL R) × PyNum (FL R)} {axis d : List (FL R)}
    {axis' : List ℝ} (hp : |rp.val - p| ≤ v * |p|) (hax : AxisApprox R L axis axis')
    (hw : WellConditioned v p Vp.val.val k.val) (h : bestTimes Vp kd rp x k = .ok ts)
    (hs : weigh w1 w2 w3 d axis ts = .ok s) :
    ∃ a : ℝ × ℝ × ℝ, ReadsArrivals (d.map FL.val) axis' p Vp.val.val x.val k.val
        (40 * v * (L + timeScale p Vp.val.val x.val k.val)) a ∧
      |s.val - (w1.val * a.1 + w2.val * a.2.1 - w3.val * a.2.2)| ≤
        accumulated R.u 3 * (|w1.val * a.1| + |w2.val * a.2.1| + |w3.val * a.2.2|) := by
  obtain ⟨t1, t2, t3, rfl, e1, e2, e3, f1, f2, f3⟩ := bestTimes_approx_v hv hu hp hw h
  obtain ⟨a1, a2, a3, g1, g2, g3, rfl⟩ := weigh_ok.1 hs
  have hT := timeScale_nonneg p Vp.val.val x.val k.val
  exact ⟨(a1.val, a2.val, a3.val), ⟨read_approx_v hv hu hax hT e1 f1 g1, read_approx_v hv hu hax hT e2 f2 g2,
    read_approx_v hv hu hax hT e3 f3 g3⟩, weigh_approx⟩

/-- one grid point of `hk` with stacking: every trace contributes the same number -/
theorem cell_stacked {v : ℝ} (hv : R.u ≤ v) (hu : v ≤ 1 / 1000) {env : Env (FL R)} {st : List (Trace (FL R))}
    {t sd : List (FL R)} {avg : FL R} {Vp : Scalar (FL R)} {w1 w2 w3 k x s : FL R} {p L : ℝ} {axis' : List ℝ}
    (hne : st ≠ []) (hax : AxisApprox R L t axis') (hp : |(env.km2deg1 * avg).val - p| ≤ v * |p|)
    (hw : WellConditioned v p Vp.val.val k.val)
    (h : cell env st t sd avg Vp w1 w2 w3 true k x = .ok s) :
    ∃ a : ℝ × ℝ × ℝ, ReadsArrivals (sd.map FL.val) axis' p Vp.val.val x.val k.val
        (40 * v * (L + timeScale p Vp.val.val x.val k.val)) a ∧
      |s.val - st.length * (w1.val * a.1 + w2.val * a.2.1 - w3.val * a.2.2)| ≤
        accumulated R.u (st.length + 3) *
          (st.length * (|w1.val * a.1| + |w2.val * a.2.1| + |w3.val * a.2.2|)) := by
  rw [cell_eq] at h
  obtain ⟨xs, hxs, h2⟩ := bind_eq_ok.1 h
  clear h
  have h3 := Except.ok.inj h2
  clear h2
  subst h3
  have hlen : xs.length = st.length := mapM_length hxs
  obtain ⟨tr0, rest, rfl⟩ := List.exists_cons_of_ne_nil hne
  obtain ⟨y0, hy0⟩ := mapM_ok_mem hxs (List.mem_cons_self ..)
  obtain ⟨o, sl, ts, -, -, hts, hwt⟩ := traceTerm_ok.1 hy0
  simp only [if_true] at hts hwt
  have hall : ∀ y ∈ xs, y = y0 := by
    intro y hy
    obtain ⟨tr, -, htr⟩ := mapM_ok_mem_out hxs hy
    obtain ⟨o', sl', ts', -, -, hts', hwt'⟩ := traceTerm_ok.1 htr
    simp only [if_true] at hts' hwt'
    rw [hts] at hts'
    cases hts'
    rw [hwt] at hwt'
    exact (Except.ok.inj hwt').symm
  obtain ⟨a, ha, he⟩ := weigh_reads_v hv hu hp hax hw hts hwt
  refine ⟨a, ha, ?_⟩
  have hxr : xs = List.replicate (tr0 :: rest).length y0 := by
    rw [← hlen]; exact List.eq_replicate_of_mem hall
  set n := (tr0 :: rest).length
  have hf : List.Forall₂ (fun (x : FL R) (e : ℝ × ℝ) => |x.val - e.1| ≤ accumulated R.u 3 * e.2 ∧ |e.1| ≤ e.2) xs
      (List.replicate n (w1.val * a.1 + w2.val * a.2.1 - w3.val * a.2.2,
          |w1.val * a.1| + |w2.val * a.2.1| + |w3.val * a.2.2|)) := by
    rw [hxr]
    clear_value n
    clear hxr hlen hall hxs hy0 hne
    induction n with
    | zero => exact .nil
    | succ n ih => exact .cons ⟨he, weighted_le _ _ _ _ _ _⟩ ih
  have := fold_approx hf (n := 3) le_rfl (s0 := zero) (s := 0) (M := 0) (by simp) (by simp)
  rw [List.map_replicate, List.map_replicate, List.sum_replicate, List.sum_replicate, add_zero, add_zero, hlen,
    Nat.add_comm, nsmul_eq_mul, nsmul_eq_mul] at this
  exact this

/-- **C105** `hk` with `stack=True` in floating-point arithmetic: every stack value is the number of traces times the
weighted sum of samples of the stacked receiver function, up to the relative error of as many operations as there are
traces plus three; each sample is nearest to the exact delay time of its phase for the exact mean slowness, up to
the stated accuracy. -/
theorem c105_hk_stacked {env : Env (FL R)} {tr0 : Trace (FL R)} {rest : List (Trace (FL R))}
    {preonset : FL R} {H K : List (FL R)} {Vp : Scalar (FL R)} {w1 w2 w3 : FL R} {layer : Option String}
    {r : HKResult (FL R)} {sd : List (FL R)} {more : List (List (FL R))}
    (hu : meanAccuracy R.u (tr0 :: rest).length ≤ 1 / 1000)
    (h : hk env (tr0 :: rest) preonset H K (some Vp) (some w1) (some w2) (some w3) layer (some true) = .ok r)
    (hsd : env.stack (tr0 :: rest) = .ok (sd :: more)) (hpos : Slownesses (tr0 :: rest))
    {row : Row (FL R)} (hrow : row ∈ r.stackvalues)
    (hw : WellConditioned (meanAccuracy R.u (tr0 :: rest).length) (meanRay env.km2deg1.val (tr0 :: rest)) Vp.val.val
      row.k.val) :
    ∃ a : ℝ × ℝ × ℝ,
      ReadsArrivals (sd.map FL.val) (exactAxis tr0.delta.val preonset.val tr0.data.length)
        (meanRay env.km2deg1.val (tr0 :: rest)) Vp.val.val row.h.val row.k.val
        (timeAccuracy (meanAccuracy R.u (tr0 :: rest).length) tr0.delta.val preonset.val tr0.data.length
          (meanRay env.km2deg1.val (tr0 :: rest)) Vp.val.val row.h.val row.k.val) a ∧
      |row.s.val - (tr0 :: rest).length * (w1.val * a.1 + w2.val * a.2.1 - w3.val * a.2.2)| ≤
        accumulated R.u ((tr0 :: rest).length + 3) *
          ((tr0 :: rest).length * (|w1.val * a.1| + |w2.val * a.2.1| + |w3.val * a.2.2|)) := by
  obtain ⟨tr0', rest', slows, f⟩ := hk_inv h
  have hst := f.hst
  injection hst with e1 e2
  subst e1 e2
  have hv := meanAccuracy_ge (R := R) (tr0 :: rest).length
  have hu' := hv.trans hu
  obtain ⟨more', hst'⟩ := f.hstack
  rw [hsd] at hst'
  injection Except.ok.inj hst' with e1 _
  have g := f.hgrid
  rw [f.hVp, f.hstk, f.htime, ← e1, f.havg] at g
  have hc := ((gridLoop_mem g row).1 hrow).2.2
  exact cell_stacked hv hu (by simp) (axisApprox_timeAxis hu' tr0.delta preonset tr0.data.length)
    (meanRay_approx hu' f.hslow hpos env.km2deg1) hw hc

/-- **C105** `hk` with `stack=True` in floating-point and in exact arithmetic on the same numbers and the same stacked
receiver function. -/
theorem c105_hk_stacked_exact {env : Env (FL R)} {env' : Env ℝ} {tr0 : Trace (FL R)} {rest : List (Trace (FL R))}
    {preonset : FL R} {H K : List (FL R)} {Vp : Scalar (FL R)} {w1 w2 w3 : FL R} {layer layer' : Option String}
    {kd : Kind} {r : HKResult (FL R)} {r' : HKResult ℝ} {sd : List (FL R)} {more : List (List (FL R))}
    {more' : List (List ℝ)} {A : ℝ} (hu : meanAccuracy R.u (tr0 :: rest).length ≤ 1 / 1000)
    (hkm : env'.km2deg1 = env.km2deg1.val)
    (h : hk env (tr0 :: rest) preonset H K (some Vp) (some w1) (some w2) (some w3) layer (some true) = .ok r)
    (h' : hk env' ((tr0 :: rest).map exactTrace) preonset.val (H.map FL.val) (K.map FL.val) (some ⟨kd, Vp.val.val⟩)
      (some w1.val) (some w2.val) (some w3.val) layer' (some true) = .ok r')
    (hsd : env.stack (tr0 :: rest) = .ok (sd :: more))
    (hsd' : env'.stack ((tr0 :: rest).map exactTrace) = .ok (sd.map FL.val :: more'))
    (hpos : Slownesses (tr0 :: rest)) (hA : ∀ a ∈ sd, |a.val| ≤ A)
    (hw : ∀ k ∈ K, WellConditioned (meanAccuracy R.u (tr0 :: rest).length) (meanRay env.km2deg1.val (tr0 :: rest))
      Vp.val.val k.val)
    (hclear : ∀ k ∈ K, ∀ x ∈ H, ClearArrivals (exactAxis tr0.delta.val preonset.val tr0.data.length)
      (meanRay env.km2deg1.val (tr0 :: rest)) Vp.val.val x.val k.val
      (timeAccuracy (meanAccuracy R.u (tr0 :: rest).length) tr0.delta.val preonset.val tr0.data.length
        (meanRay env.km2deg1.val (tr0 :: rest)) Vp.val.val x.val k.val)) :
    let B := accumulated R.u ((tr0 :: rest).length + 3) *
      ((tr0 :: rest).length * ((|w1.val| + |w2.val| + |w3.val|) * A))
    NearTable B r'.stackvalues (r.stackvalues.map exactRow) ∧
      (Margin (2 * B) r'.stackvalues r'.bestIdx → r.bestIdx = r'.bestIdx) := by
  intro B
  obtain ⟨tr1, rest1, slows, f⟩ := hk_inv h
  have hst := f.hst
  injection hst with e1 e2
  subst e1 e2
  obtain ⟨tr2, rest2, slows', f'⟩ := hk_inv h'
  have hst' := f'.hst
  rw [List.map_cons] at hst'
  injection hst' with e1 e2
  subst e1 e2
  have hv := meanAccuracy_ge (R := R) (tr0 :: rest).length
  have hu' := hv.trans hu
  have hv0 : 0 ≤ meanAccuracy R.u (tr0 :: rest).length := R.u_nonneg.trans hv
  obtain ⟨_, hq⟩ := f.hstack
  rw [hsd] at hq
  injection Except.ok.inj hq with hq _
  obtain ⟨_, hq'⟩ := f'.hstack
  rw [hsd'] at hq'
  injection Except.ok.inj hq' with hq' _
  have g := f.hgrid
  rw [f.hVp, f.hstk, f.htime, ← hq, f.havg] at g
  have g' := f'.hgrid
  have ht' : r'.time = exactAxis tr0.delta.val preonset.val tr0.data.length := by
    rw [f'.htime]
    unfold timeAxis exactAxis exactTrace
    simp only [real_ofNat, List.length_map]
  have ha' : env'.km2deg1 * r'.AvgSlow = meanRay env.km2deg1.val (tr0 :: rest) := by
    rw [f'.havg, avgSlow_eq f'.hslow, hkm, List.map_map, List.length_map]
    rfl
  rw [f'.hVp, f'.hstk, ht', ← hq'] at g'
  simp only [Option.getD_some] at g g'
  have hT : NearTable B r'.stackvalues (r.stackvalues.map exactRow) := by
    refine nearTable_fl g g' ?_
    intro k hk x hx a b ha hb
    obtain ⟨amp, h1, h2⟩ := cell_stacked hv hu (by simp)
      (axisApprox_timeAxis hu' tr0.delta preonset tr0.data.length)
      (meanRay_approx hu' f.hslow hpos env.km2deg1) (hw k hk) ha
    obtain ⟨ts, y, hts, hy, rfl⟩ := cell_stack_true (by simp) hb
    obtain ⟨hV, hp⟩ := well_pre hv0 (hw k hk)
    rw [ha', bestTimes_real (Vp := ⟨kd, Vp.val.val⟩) hV hp] at hts
    cases Except.ok.inj hts
    obtain ⟨b1, b2, b3, q1, q2, q3, rfl⟩ := weigh_real.1 hy
    obtain ⟨c1, c2, c3⟩ := hclear k hk x hx
    unfold timeAccuracy at c1 c2 c3
    have hTs := timeScale_nonneg (meanRay env.km2deg1.val (tr0 :: rest)) Vp.val.val x.val k.val
    have hE : 0 ≤ 40 * meanAccuracy R.u (tr0 :: rest).length * (|tr0.delta.val| * tr0.data.length + |preonset.val| +
        timeScale (meanRay env.km2deg1.val (tr0 :: rest)) Vp.val.val x.val k.val) := by positivity
    obtain ⟨r1, r2, r3⟩ := h1
    rw [almost_unique c1 (almost_of_nearest hE q1) r1, almost_unique c2 (almost_of_nearest hE q2) r2,
      almost_unique c3 (almost_of_nearest hE q3) r3, List.length_map, abs_sub_comm]
    refine h2.trans ?_
    apply mul_le_mul_of_nonneg_left _ (accumulated_nonneg _)
    apply mul_le_mul_of_nonneg_left _ (Nat.cast_nonneg _)
    have hm : ∀ {z : ℝ}, z ∈ sd.map FL.val → |z| ≤ A := by
      intro z hz
      obtain ⟨y, hy, rfl⟩ := List.mem_map.1 hz
      exact hA y hy
    have k1 := mul_le_mul_of_nonneg_left (hm (almost_mem r1)) (abs_nonneg w1.val)
    have k2 := mul_le_mul_of_nonneg_left (hm (almost_mem r2)) (abs_nonneg w2.val)
    have k3 := mul_le_mul_of_nonneg_left (hm (almost_mem r3)) (abs_nonneg w3.val)
    simp only [abs_mul]
    linarith
  exact ⟨hT, nearTable_best hT f'.hbest (best_fl f.hbest)⟩

/-! ## hkSeq -/

theorem single_almost_v {e : ℝ} (he : R.u ≤ e) (hu : e ≤ 1 / 1000) {Vp : Scalar (FL R)} {kd : Kind}
    {rp x k w1 w2 w3 v : FL R} {p L : ℝ} {ts : PyNum (FL R) × PyNum (FL R) × PyNum (FL R)} {axis d : List (FL R)}
    {axis' : List ℝ} (hp : |rp.val - p| ≤ e * |p|) (hax : AxisApprox R L axis axis')
    (hw : WellConditioned e p Vp.val.val k.val) (h : bestTimes Vp kd rp x k = .ok ts)
    (hv : weigh w1 w2 w3 d axis ts = .ok v) :
    AlmostStack w1.val w2.val w3.val (d.map FL.val) axis' (tPs p Vp.val.val x.val k.val)
      (tPpPs p Vp.val.val x.val k.val) (tPsPs p Vp.val.val x.val k.val)
      (40 * e * (L + timeScale p Vp.val.val x.val k.val)) (accumulated R.u 4) (v + zero).val := by
  obtain ⟨t1, t2, t3, rfl, e1, e2, e3, f1, f2, f3⟩ := bestTimes_approx_v he hu hp hw h
  exact weigh_almost_v he hu hax (timeScale_nonneg _ _ _ _) e1 e2 e3 f1 f2 f3 le_rfl hv

theorem moho_almost_v {e : ℝ} (he : R.u ≤ e) (hu : e ≤ 1 / 1000) {VpS vm : Scalar (FL R)} {kd : Kind}
    {rp H1 K1 x k w1 w2 w3 v : FL R} {p L : ℝ} {ts : PyNum (FL R) × PyNum (FL R) × PyNum (FL R)}
    {axis d : List (FL R)} {axis' : List ℝ} (hL : 0 ≤ L) (hp : |rp.val - p| ≤ e * |p|) (hax : AxisApprox R L axis axis')
    (hw1 : WellConditioned e p VpS.val.val K1.val) (hw2 : WellConditioned e p vm.val.val k.val)
    (h : HkSeqYeck.mohoTimes VpS (some vm) kd rp H1 K1 x k = .ok ts) (hv : weigh w1 w2 w3 d axis ts = .ok v) :
    AlmostStack w1.val w2.val w3.val (d.map FL.val) axis'
      (mohoPs p VpS.val.val H1.val K1.val vm.val.val x.val k.val)
      (mohoPpPs p VpS.val.val H1.val K1.val vm.val.val x.val k.val)
      (mohoPsPs p VpS.val.val H1.val K1.val vm.val.val x.val k.val)
      (50 * e * (L + (timeScale p VpS.val.val H1.val K1.val + timeScale p vm.val.val x.val k.val)))
      (accumulated R.u 4) (v + zero).val := by
  have hS := timeScale_nonneg p VpS.val.val H1.val K1.val
  have hT := timeScale_nonneg p vm.val.val x.val k.val
  obtain ⟨t1, t2, t3, rfl, e1, e2, e3, f1, f2, f3⟩ := mohoTimes_approx_v he hu hp hw1 hw2 h
  exact weigh_almost_v he hu hax (by positivity) e1 e2 e3 f1 f2 f3
    (scale_le (R.u_nonneg.trans he) hL (add_nonneg hS hT) (by norm_num) (by norm_num)) hv

theorem sedTerm_stacked {e : ℝ} (he : R.u ≤ e) (hu : e ≤ 1 / 1000) {env : Env (FL R)} {t sd : List (FL R)} {avg : FL R}
    {Vp : Scalar (FL R)} {w1 w2 w3 k x s : FL R} {st : List (Trace (FL R))} {p L : ℝ} {axis' : List ℝ}
    (hax : AxisApprox R L t axis') (hp : |(env.km2deg1 * avg).val - p| ≤ e * |p|)
    (hw : WellConditioned e p Vp.val.val k.val)
    (h : HkSeqYeck.lastTrace (HkSeqYeck.sedTerm env t sd avg Vp w1 w2 w3 true k x) st = .ok s) :
    AlmostStack w1.val w2.val w3.val (sd.map FL.val) axis' (tPs p Vp.val.val x.val k.val)
      (tPpPs p Vp.val.val x.val k.val) (tPsPs p Vp.val.val x.val k.val)
      (40 * e * (L + timeScale p Vp.val.val x.val k.val)) (accumulated R.u 4) s.val := by
  obtain ⟨_, tr, -, -, h⟩ := lastTrace_ok.1 h
  rw [sedTerm_eq] at h
  obtain ⟨o, -, h⟩ := bind_eq_ok.1 h
  obtain ⟨sl', -, h⟩ := bind_eq_ok.1 h
  obtain ⟨ts, hts, h⟩ := bind_eq_ok.1 h
  obtain ⟨v, hv, h⟩ := bind_eq_ok.1 h
  rw [← Except.ok.inj h]
  exact single_almost_v he hu hp hax hw hts hv

theorem mohoTerm_stacked {e : ℝ} (he : R.u ≤ e) (hu : e ≤ 1 / 1000) {env : Env (FL R)} {stM st : List (Trace (FL R))}
    {t sd : List (FL R)} {avg : FL R} {VpS vm : Scalar (FL R)} {H1 K1 w1 w2 w3 k x s : FL R} {p L : ℝ} {axis' : List ℝ}
    (hL : 0 ≤ L) (hax : AxisApprox R L t axis') (hp : |(env.km2deg1 * avg).val - p| ≤ e * |p|)
    (hw1 : WellConditioned e p VpS.val.val K1.val) (hw2 : WellConditioned e p vm.val.val k.val)
    (h : HkSeqYeck.lastTrace (HkSeqYeck.mohoTerm env stM t sd avg VpS H1 K1 (some vm) (some w1) (some w2) (some w3)
      true k x) st = .ok s) :
    AlmostStack w1.val w2.val w3.val (sd.map FL.val) axis'
      (mohoPs p VpS.val.val H1.val K1.val vm.val.val x.val k.val)
      (mohoPpPs p VpS.val.val H1.val K1.val vm.val.val x.val k.val)
      (mohoPsPs p VpS.val.val H1.val K1.val vm.val.val x.val k.val)
      (50 * e * (L + (timeScale p VpS.val.val H1.val K1.val + timeScale p vm.val.val x.val k.val)))
      (accumulated R.u 4) s.val := by
  obtain ⟨_, tr, -, -, h⟩ := lastTrace_ok.1 h
  rw [mohoTerm_eq] at h
  obtain ⟨tr0, -, h⟩ := bind_eq_ok.1 h
  obtain ⟨o, -, h⟩ := bind_eq_ok.1 h
  obtain ⟨sl', -, h⟩ := bind_eq_ok.1 h
  obtain ⟨ts, hts, h⟩ := bind_eq_ok.1 h
  obtain ⟨v, hv, h⟩ := bind_eq_ok.1 h
  rw [← Except.ok.inj h]
  exact moho_almost_v he hu hL hp hax hw1 hw2 hts hv

/-- **C116** `hkSeq` with `stack=True` in floating-point arithmetic: sediment values are weighted sums of samples of the
stacked sediment receiver function nearest to the exact single-layer delay times, Moho values (before clipping) of
samples of the stacked Moho receiver function nearest to the sums of the exact delay times of the best sediment and the
candidate crust; both for the exact mean slowness of the Moho traces. -/
theorem c116_hkSeq_stacked {env : Env (FL R)} {stS stM : List (Trace (FL R))} {preonset : FL R}
    {HS KS HM KM : List (FL R)} {VpS vm : Scalar (FL R)} {w1S w2S w3S w1M w2M w3M : FL R}
    {r : HkSeqYeck.SeqResult (FL R)} {first : Trace (FL R)} {sdS sdM : List (FL R)} {moreS moreM : List (List (FL R))}
    (hu : meanAccuracy R.u stM.length ≤ 1 / 1000)
    (h : HkSeqYeck.hkSeq env stS stM preonset HS KS (some VpS) (some w1S) (some w2S) (some w3S) HM KM (some vm)
      (some w1M) (some w2M) (some w3M) (some true) = .ok r)
    (h0 : stS.head? = some first) (h1 : env.stack stS = .ok (sdS :: moreS)) (h2 : env.stack stM = .ok (sdM :: moreM))
    (hpos : Slownesses stM)
    (hwS : ∀ k ∈ KS, WellConditioned (meanAccuracy R.u stM.length) (meanRay env.km2deg1.val stM) VpS.val.val k.val)
    (hwM : ∀ k ∈ KM, WellConditioned (meanAccuracy R.u stM.length) (meanRay env.km2deg1.val stM) vm.val.val k.val) :
    let axis := exactAxis first.delta.val preonset.val first.data.length
    let L := |first.delta.val| * first.data.length + |preonset.val|
    let p := meanRay env.km2deg1.val stM
    let e := meanAccuracy R.u stM.length
    (∀ row ∈ r.stackvalueSed, AlmostStack w1S.val w2S.val w3S.val (sdS.map FL.val) axis
      (tPs p VpS.val.val row.h.val row.k.val) (tPpPs p VpS.val.val row.h.val row.k.val)
      (tPsPs p VpS.val.val row.h.val row.k.val)
      (40 * e * (L + timeScale p VpS.val.val row.h.val row.k.val)) (accumulated R.u 4) row.s.val) ∧
    ∃ b, r.bestmodelSed = some b ∧ ∀ row ∈ r.stackvalueMoho, ∃ s : ℝ, row.s.val = max s 0 ∧
      AlmostStack w1M.val w2M.val w3M.val (sdM.map FL.val) axis
        (mohoPs p VpS.val.val b.h.val b.k.val vm.val.val row.h.val row.k.val)
        (mohoPpPs p VpS.val.val b.h.val b.k.val vm.val.val row.h.val row.k.val)
        (mohoPsPs p VpS.val.val b.h.val b.k.val vm.val.val row.h.val row.k.val)
        (50 * e * (L + (timeScale p VpS.val.val b.h.val b.k.val +
          timeScale p vm.val.val row.h.val row.k.val))) (accumulated R.u 4) s := by
  intro axis L p e
  obtain ⟨tr0, rest, slows, bm, raw, f⟩ := hkSeq_inv h
  have e0 : tr0 = first := by
    rw [f.hst] at h0
    exact Option.some.inj h0
  subst e0
  have hv := meanAccuracy_ge (R := R) stM.length
  have hu' := hv.trans hu
  have hax := axisApprox_timeAxis hu' tr0.delta preonset tr0.data.length
  have hL0 : 0 ≤ L := by positivity
  obtain ⟨_, hq⟩ := f.hstackS
  rw [h1] at hq
  injection Except.ok.inj hq with hq _
  obtain ⟨_, hq2⟩ := f.hstackM
  rw [h2] at hq2
  injection Except.ok.inj hq2 with hq2 _
  have gS := f.hgridS
  have gM := f.hgridM
  rw [f.hVpSed, f.hstk, f.htime, f.havg] at gS gM
  rw [← hq] at gS
  rw [← hq2] at gM
  simp only [Option.getD_some] at gS gM
  have hp := meanRay_approx hu' f.hslow hpos env.km2deg1
  refine ⟨fun row hrow => ?_, bm, f.hrowS, fun row hrow => ?_⟩
  · obtain ⟨hk, -, hs⟩ := gridLoop_row gS hrow
    exact sedTerm_stacked hv hu hax hp (hwS _ hk) hs
  · rw [f.hclip] at hrow
    obtain ⟨s, q1, q2⟩ := clip_row hrow
    obtain ⟨hk, -, hs⟩ := gridLoop_row gM q1
    have hb := (gridLoop_row gS (List.mem_of_getElem? f.hrowS)).1
    exact ⟨s.val, q2, mohoTerm_stacked hv hu hL0 hax hp (hwS _ hb) (hwM _ hk) hs⟩

/-- **C116** `hkSeq` with `stack=True` in floating-point and in exact arithmetic on the same numbers and the same stacked
receiver functions -/
theorem c116_hkSeq_stacked_exact {env : Env (FL R)} {env' : Env ℝ} {stS stM : List (Trace (FL R))} {preonset : FL R}
    {HS KS HM KM : List (FL R)} {VpS vm : Scalar (FL R)} {w1S w2S w3S w1M w2M w3M : FL R}
    {r : HkSeqYeck.SeqResult (FL R)} {r' : HkSeqYeck.SeqResult ℝ} {first : Trace (FL R)} {sdS sdM : List (FL R)}
    {moreS moreM : List (List (FL R))} {moreS' moreM' : List (List ℝ)} {k1 k2 : Kind} {AS AM : ℝ}
    (hu : meanAccuracy R.u stM.length ≤ 1 / 1000) (hkm : env'.km2deg1 = env.km2deg1.val)
    (h : HkSeqYeck.hkSeq env stS stM preonset HS KS (some VpS) (some w1S) (some w2S) (some w3S) HM KM (some vm)
      (some w1M) (some w2M) (some w3M) (some true) = .ok r)
    (h' : HkSeqYeck.hkSeq env' (stS.map exactTrace) (stM.map exactTrace) preonset.val (HS.map FL.val) (KS.map FL.val)
      (some ⟨k1, VpS.val.val⟩) (some w1S.val) (some w2S.val) (some w3S.val) (HM.map FL.val) (KM.map FL.val)
      (some ⟨k2, vm.val.val⟩) (some w1M.val) (some w2M.val) (some w3M.val) (some true) = .ok r')
    (h0 : stS.head? = some first) (h1 : env.stack stS = .ok (sdS :: moreS)) (h2 : env.stack stM = .ok (sdM :: moreM))
    (h1' : env'.stack (stS.map exactTrace) = .ok (sdS.map FL.val :: moreS'))
    (h2' : env'.stack (stM.map exactTrace) = .ok (sdM.map FL.val :: moreM'))
    (hpos : Slownesses stM) (hAS : ∀ a ∈ sdS, |a.val| ≤ AS) (hAM : ∀ a ∈ sdM, |a.val| ≤ AM) (hAM0 : 0 ≤ AM)
    (hwS : ∀ k ∈ KS, WellConditioned (meanAccuracy R.u stM.length) (meanRay env.km2deg1.val stM) VpS.val.val k.val)
    (hwM : ∀ k ∈ KM, WellConditioned (meanAccuracy R.u stM.length) (meanRay env.km2deg1.val stM) vm.val.val k.val) :
    let axis := exactAxis first.delta.val preonset.val first.data.length
    let L := |first.delta.val| * first.data.length + |preonset.val|
    let p := meanRay env.km2deg1.val stM
    let e := meanAccuracy R.u stM.length
    let BS := accumulated R.u 4 * ((|w1S.val| + |w2S.val| + |w3S.val|) * AS)
    let BM := accumulated R.u 4 * ((|w1M.val| + |w2M.val| + |w3M.val|) * AM)
    (∀ k ∈ KS, ∀ x ∈ HS, ClearTimes axis (tPs p VpS.val.val x.val k.val) (tPpPs p VpS.val.val x.val k.val)
      (tPsPs p VpS.val.val x.val k.val) (40 * e * (L + timeScale p VpS.val.val x.val k.val))) →
    (∀ b, r.bestmodelSed = some b → ∀ k ∈ KM, ∀ x ∈ HM, ClearTimes axis
      (mohoPs p VpS.val.val b.h.val b.k.val vm.val.val x.val k.val)
      (mohoPpPs p VpS.val.val b.h.val b.k.val vm.val.val x.val k.val)
      (mohoPsPs p VpS.val.val b.h.val b.k.val vm.val.val x.val k.val)
      (50 * e * (L + (timeScale p VpS.val.val b.h.val b.k.val + timeScale p vm.val.val x.val k.val)))) →
    NearTable BS r'.stackvalueSed (r.stackvalueSed.map exactRow) ∧
    (Margin (2 * BS) r'.stackvalueSed r'.bestIdxSed → r.bestIdxSed = r'.bestIdxSed ∧
      NearTable BM r'.stackvalueMoho (r.stackvalueMoho.map exactRow) ∧
      (Margin (2 * BM) r'.stackvalueMoho r'.bestIdxMoho → r.bestIdxMoho = r'.bestIdxMoho)) := by
  intro axis L p e BS BM hcS hcM
  obtain ⟨tr0, rest, slows, bm, raw, f⟩ := hkSeq_inv h
  obtain ⟨tr0', rest', slows', bm', raw', f'⟩ := hkSeq_inv h'
  have e0 : tr0 = first := by
    rw [f.hst] at h0
    exact Option.some.inj h0
  subst e0
  have ht' : r'.time = axis := by
    have hst' := f'.hst
    rw [f.hst, List.map_cons] at hst'
    injection hst' with e1 e2
    rw [f'.htime, ← e1]
    unfold axis timeAxis exactAxis exactTrace
    simp only [real_ofNat, List.length_map]
  have hv := meanAccuracy_ge (R := R) stM.length
  have hu' := hv.trans hu
  have he0 : 0 ≤ e := R.u_nonneg.trans hv
  have hax := axisApprox_timeAxis hu' tr0.delta preonset tr0.data.length
  have hL0 : 0 ≤ L := by positivity
  have hp := meanRay_approx hu' f.hslow hpos env.km2deg1
  have ha' : env'.km2deg1 * r'.AvgSlow = p := by
    rw [f'.havg, avgSlow_eq f'.hslow, hkm, List.map_map, List.length_map]
    rfl
  obtain ⟨_, hq⟩ := f.hstackS
  rw [h1] at hq
  injection Except.ok.inj hq with hq _
  obtain ⟨_, hq2⟩ := f.hstackM
  rw [h2] at hq2
  injection Except.ok.inj hq2 with hq2 _
  obtain ⟨_, hq'⟩ := f'.hstackS
  rw [h1'] at hq'
  injection Except.ok.inj hq' with hq' _
  obtain ⟨_, hq2'⟩ := f'.hstackM
  rw [h2'] at hq2'
  injection Except.ok.inj hq2' with hq2' _
  have gS := f.hgridS
  have gM := f.hgridM
  rw [f.hVpSed, f.hstk, f.htime, f.havg] at gS gM
  rw [← hq] at gS
  rw [← hq2] at gM
  have gS' := f'.hgridS
  have gM' := f'.hgridM
  rw [f'.hVpSed, f'.hstk, ht'] at gS' gM'
  rw [← hq'] at gS'
  rw [← hq2'] at gM'
  simp only [Option.getD_some] at gS gM gS' gM'
  have hmem : ∀ {d : List (FL R)} {A : ℝ}, (∀ a ∈ d, |a.val| ≤ A) → ∀ a ∈ d.map FL.val, |a| ≤ A := by
    intro d A hA z hz
    obtain ⟨y, hy, rfl⟩ := List.mem_map.1 hz
    exact hA y hy
  have hT : NearTable BS r'.stackvalueSed (r.stackvalueSed.map exactRow) := by
    refine nearTable_fl gS gS' ?_
    intro k hk x hx s s' hs hs'
    have hwc := hwS k hk
    obtain ⟨hV, hpp⟩ := well_pre he0 hwc
    have q := sedTerm_stacked hv hu hax hp hwc hs
    obtain ⟨_, tr, -, -, hs'⟩ := lastTrace_ok.1 hs'
    rw [sedTerm_eq] at hs'
    obtain ⟨o, -, hs'⟩ := bind_eq_ok.1 hs'
    obtain ⟨sl', -, hs'⟩ := bind_eq_ok.1 hs'
    simp only [if_true] at hs'
    rw [ha', bestTimes_real (Vp := ⟨k1, VpS.val.val⟩) (p := p) hV hpp, except_ok_bind] at hs'
    obtain ⟨v, hv, hs'⟩ := bind_eq_ok.1 hs'
    have hs' := Except.ok.inj hs'
    rw [real_zero, add_zero] at hs'
    subst hs'
    have hT := timeScale_nonneg p VpS.val.val x.val k.val
    exact almost_exact (by positivity) (accumulated_nonneg _) q (hcS k hk x hx) (weigh_real.1 hv) (hmem hAS)
  refine ⟨hT, fun hm => ?_⟩
  have hbest := nearTable_best hT f'.hbestS (best_fl f.hbestS) hm
  obtain ⟨e1, e2⟩ := best_same hT hbest f.hrowS f'.hrowS
  have hR : NearTable BM raw' (raw.map exactRow) := by
    rw [e1, e2] at gM'
    refine nearTable_fl gM gM' ?_
    intro k hk x hx s s' hs hs'
    have hb := (gridLoop_row gS (List.mem_of_getElem? f.hrowS)).1
    have hwc := hwS _ hb
    have hwc2 := hwM k hk
    obtain ⟨hV, hp1⟩ := well_pre he0 hwc
    obtain ⟨hV2, hp2⟩ := well_pre he0 hwc2
    have q := mohoTerm_stacked hv hu hL0 hax hp hwc hwc2 hs
    obtain ⟨_, tr, -, -, hs'⟩ := lastTrace_ok.1 hs'
    rw [mohoTerm_eq] at hs'
    obtain ⟨m0, -, hs'⟩ := bind_eq_ok.1 hs'
    obtain ⟨o, -, hs'⟩ := bind_eq_ok.1 hs'
    obtain ⟨sl', -, hs'⟩ := bind_eq_ok.1 hs'
    simp only [if_true] at hs'
    rw [ha', mohoTimes_real (VpS := ⟨k1, VpS.val.val⟩) (vm := ⟨k2, vm.val.val⟩) (p := p) hV hV2 hp1 hp2,
      except_ok_bind] at hs'
    obtain ⟨v, hv, hs'⟩ := bind_eq_ok.1 hs'
    have hs' := Except.ok.inj hs'
    rw [real_zero, add_zero] at hs'
    subst hs'
    have hS := timeScale_nonneg p VpS.val.val bm.h.val bm.k.val
    have hT := timeScale_nonneg p vm.val.val x.val k.val
    exact almost_exact (by positivity) (accumulated_nonneg _) q (hcM bm f.hrowS k hk x hx) (weigh_real.1 hv) (hmem hAM)
  refine ⟨hbest, ?_, fun hm2 => ?_⟩
  · rw [f.hclip, f'.hclip, clip_exact]
    exact near_clip hR
  · rw [f'.hclip] at hm2
    have hB : 0 ≤ 2 * BM := by
      have := accumulated_nonneg (R := R) 4
      positivity
    exact nearTable_best hR f'.hbestM (best_fl f.hbestM) (margin_of_clip hB hm2)

end
/-! ## Concrete cases

Double precision, the numbers of C105 and C116, two traces and `stack=True`. -/

theorem dbl_pair {tr : Trace (FL Dbl)} (h : tr ∈ [dblTrace, dblTrace]) : tr = dblTrace := by
  simpa using h

theorem dbl_meanRay : meanRay 0.01 [dblTrace, dblTrace] = 0.1 := by
  show (0.01 : ℝ) * ((10 + (10 + 0)) / ((2 : ℕ) : ℝ)) = 0.1
  norm_num

theorem dbl_mean_acc : meanAccuracy Dbl.u 2 ≤ 1 / 10 ^ 14 := by
  unfold meanAccuracy accumulated
  rw [dbl_u]
  norm_num

theorem dbl_mean_nonneg : 0 ≤ meanAccuracy Dbl.u 2 := Dbl.u_nonneg.trans (meanAccuracy_ge 2)

theorem dbl_slownesses : Slownesses [dblTrace, dblTrace] := by
  intro tr htr
  rw [dbl_pair htr]
  show (0 : ℝ) ≤ 10
  norm_num

theorem well_dbl_mean {e : ℝ} (he : 0 ≤ e) (h : e ≤ 1 / 10 ^ 14) : WellConditioned e 0.1 6 1.85 ∧
    WellConditioned e 0.1 (50 / 13) (101 / 52) := by
  unfold WellConditioned
  norm_num
  norm_num at h
  refine ⟨⟨?_, ?_⟩, ?_, ?_⟩ <;> linarith

theorem small_mean {c T : ℝ} (hc : c ≤ 60) (hc0 : 0 ≤ c) (hT : T ≤ 100) :
    c * meanAccuracy Dbl.u 2 * (16 + T) ≤ 0.1 := by
  have h0 := dbl_mean_nonneg
  have h1 := dbl_mean_acc
  have a : c * meanAccuracy Dbl.u 2 ≤ 60 * meanAccuracy Dbl.u 2 := mul_le_mul_of_nonneg_right hc h0
  have b : c * meanAccuracy Dbl.u 2 * (16 + T) ≤ c * meanAccuracy Dbl.u 2 * 116 :=
    mul_le_mul_of_nonneg_left (by linarith) (mul_nonneg hc0 h0)
  norm_num at h1 ⊢
  linarith

attribute [local irreducible] meanAccuracy meanRay accumulated timeScale ClearArrivals ClearTimes WellConditioned

/-- `hk`: both runs exist and meet every hypothesis, so the tables differ by less than 10⁻¹³ -/
example : ∃ r r', hk (dblEnv (FL Dbl) ⟨0.01⟩) [dblTrace, dblTrace] ⟨0⟩ [⟨24⟩, ⟨12⟩] [⟨1.85⟩] (some ⟨.py, ⟨6⟩⟩)
        (some ⟨1⟩) (some ⟨1⟩) (some ⟨1⟩) none (some true) = .ok r ∧
      hk (dblEnv ℝ 0.01) ([dblTrace, dblTrace].map exactTrace) 0 [24, 12] [1.85] (some ⟨.py, 6⟩) (some 1) (some 1)
        (some 1) none (some true) = .ok r' ∧
      NearTable (1 / 10 ^ 13) r'.stackvalues (r.stackvalues.map exactRow) := by
  have hlen : dblTrace.data.length = 16 := by simp [dblTrace]
  obtain ⟨r, hr⟩ := (c104_hk (env := dblEnv (FL Dbl) ⟨0.01⟩) (st := [dblTrace, dblTrace]) (preonset := ⟨0⟩)
    (H := [⟨24⟩, ⟨12⟩]) (K := [⟨1.85⟩]) (Vp := some ⟨.py, ⟨6⟩⟩) (w1 := some ⟨1⟩) (w2 := some ⟨1⟩) (w3 := some ⟨1⟩)
    (layer := none) (stack := some true) (by
      intro a ha b hb
      rw [dbl_pair ha, dbl_pair hb]) (by
      intro sd more h a ha
      injection Except.ok.inj h with h1 _
      rw [← h1, dbl_pair ha]) (fun _ _ => rfl)).2 ⟨by simp, ⟨_, [dblTrace.data], rfl⟩, by
      intro tr htr
      rw [dbl_pair htr]
      simp [dblTrace], Or.inr (by simp [PyFloat.eq]), by simp, by simp⟩
  have hpair : ∀ {tr : Trace ℝ}, tr ∈ [dblTrace, dblTrace].map exactTrace → tr = exactTrace dblTrace := by
    intro tr h
    simpa using h
  obtain ⟨r', hr'⟩ := (c104_hk (env := dblEnv ℝ 0.01) (st := [dblTrace, dblTrace].map exactTrace) (preonset := 0)
    (H := [24, 12]) (K := [1.85]) (Vp := some ⟨.py, 6⟩) (w1 := some 1) (w2 := some 1) (w3 := some 1)
    (layer := none) (stack := some true) (by
      intro a ha b hb
      rw [hpair ha, hpair hb]) (by
      intro sd more h a ha
      injection Except.ok.inj h with h1 _
      rw [← h1, hpair ha]) (fun _ _ => rfl)).2 ⟨by simp, ⟨_, [(exactTrace dblTrace).data], rfl⟩, by
      intro tr htr
      rw [hpair htr]
      simp [dblTrace, exactTrace], divisor_real (by norm_num), by simp, by simp⟩
  refine ⟨r, r', hr, hr', ?_⟩
  have ha := dbl_mean_acc
  have key := (c105_hk_stacked_exact (tr0 := dblTrace) (rest := [dblTrace]) (A := 3) (kd := .py) (sd := dblTrace.data) (more := [dblTrace.data])
    (more' := [dblTrace.data.map FL.val]) (show meanAccuracy Dbl.u 2 ≤ 1 / 1000 from ha.trans (by norm_num)) rfl hr hr' rfl
    rfl dbl_slownesses dbl_amp (by
      show ∀ k ∈ [(⟨1.85⟩ : FL Dbl)], WellConditioned (meanAccuracy Dbl.u 2) (meanRay 0.01 [dblTrace, dblTrace]) 6 k.val
      rw [dbl_meanRay]
      intro k hk
      rw [List.mem_singleton.1 hk]
      exact (well_dbl_mean dbl_mean_nonneg ha).1) (by
      show ∀ k ∈ [(⟨1.85⟩ : FL Dbl)], ∀ x ∈ [(⟨24⟩ : FL Dbl), ⟨12⟩], ClearArrivals (exactAxis 1 0 dblTrace.data.length)
        (meanRay 0.01 [dblTrace, dblTrace]) 6 x.val k.val (40 * meanAccuracy Dbl.u 2 *
          (|(1 : ℝ)| * dblTrace.data.length + |(0 : ℝ)| + timeScale (meanRay 0.01 [dblTrace, dblTrace]) 6 x.val k.val))
      have eL : |(1 : ℝ)| * (16 : ℕ) + |(0 : ℝ)| = 16 := by norm_num
      rw [hlen, dbl_axis, dbl_meanRay, eL]
      intro k hk x hx
      rw [List.mem_singleton.1 hk]
      have hx2 : x.val = 24 ∨ x.val = 12 := by
        simp only [List.mem_cons, List.not_mem_nil, or_false] at hx
        rcases hx with rfl | rfl <;> simp
      refine dbl_clear hx2 (small_mean (by norm_num) (by norm_num) ?_)
      have h2 := dbl_scale (x := x.val) (by rcases hx2 with h | h <;> rw [h] <;> norm_num)
        (by rcases hx2 with h | h <;> rw [h] <;> norm_num)
      simp only
      linarith)).1
  have hB : accumulated Dbl.u (2 + 3) * ((2 : ℕ) * ((|(1 : ℝ)| + |(1 : ℝ)| + |(1 : ℝ)|) * 3)) ≤ 1 / 10 ^ 13 := by
    rw [dbl_u]
    unfold accumulated
    norm_num
  unfold NearTable at key ⊢
  exact key.imp (fun a b h => ⟨h.1, h.2.1, h.2.2.trans hB⟩)

/-- `hkSeq` on the same numbers -/
example : ∃ r r', HkSeqYeck.hkSeq (dblEnv (FL Dbl) ⟨0.01⟩) [dblTrace] [dblTrace, dblTrace] ⟨0⟩ [⟨4⟩, ⟨0⟩] [⟨101 / 52⟩]
        (some ⟨.py, ⟨50 / 13⟩⟩) (some ⟨1⟩) (some ⟨1⟩) (some ⟨1⟩) [⟨12⟩, ⟨0⟩] [⟨1.85⟩] (some ⟨.py, ⟨6⟩⟩) (some ⟨1⟩)
        (some ⟨1⟩) (some ⟨1⟩) (some true) = .ok r ∧
      HkSeqYeck.hkSeq (dblEnv ℝ 0.01) ([dblTrace].map exactTrace) ([dblTrace, dblTrace].map exactTrace) 0 [4, 0]
        [101 / 52] (some ⟨.py, 50 / 13⟩) (some 1) (some 1) (some 1) [12, 0] [1.85] (some ⟨.py, 6⟩) (some 1) (some 1)
        (some 1) (some true) = .ok r' ∧
      NearTable (1 / 10 ^ 14) r'.stackvalueSed (r.stackvalueSed.map exactRow) := by
  have hlen : dblTrace.data.length = 16 := by simp [dblTrace]
  have hpair : ∀ {tr : Trace ℝ}, tr ∈ [dblTrace, dblTrace].map exactTrace → tr = exactTrace dblTrace := by
    intro tr h
    simpa using h
  obtain ⟨r, hr⟩ := (c104_hkSeq (env := dblEnv (FL Dbl) ⟨0.01⟩) (tr0 := dblTrace) (restS := [])
    (stM := [dblTrace, dblTrace])
    (preonset := ⟨0⟩) (HS := [⟨4⟩, ⟨0⟩]) (KS := [⟨101 / 52⟩]) (VpSed := some ⟨.py, ⟨50 / 13⟩⟩)
    (w1S := some ⟨1⟩) (w2S := some ⟨1⟩) (w3S := some ⟨1⟩) (HM := [⟨12⟩, ⟨0⟩]) (KM := [⟨1.85⟩])
    (VpMoho := some ⟨.py, ⟨6⟩⟩) (w1M := some ⟨1⟩) (w2M := some ⟨1⟩) (w3M := some ⟨1⟩) (stack := some true)
    (by intro tr htr; have : tr = dblTrace := by simpa using htr
        rw [this]) (by
      intro st hst sd more hsd
      simp only [List.mem_cons, List.not_mem_nil, or_false] at hst
      rcases hst with hst | hst <;> rw [hst] at hsd <;> have := Except.ok.inj hsd <;> injection this with h1 h2 <;>
        rw [← h1]) (fun _ _ => rfl)).2 ⟨⟨_, _, rfl⟩, ⟨_, _, rfl⟩, by rw [← List.length_pos_iff, hlen]; norm_num, by
      intro tr htr
      rw [List.mem_singleton.1 htr]
      exact ⟨rfl, rfl⟩, ⟨_, _, rfl, rfl⟩, by
      intro tr htr
      rw [dbl_pair htr]
      rfl, Or.inr (by simp [PyFloat.eq]), ⟨_, rfl, Or.inr (by simp [PyFloat.eq])⟩, rfl, rfl, rfl, by simp, by simp, by simp,
      by simp⟩
  obtain ⟨r', hr'⟩ := (c104_hkSeq (env := dblEnv ℝ 0.01) (tr0 := exactTrace dblTrace) (restS := [])
    (stM := [dblTrace, dblTrace].map exactTrace) (preonset := 0) (HS := [4, 0]) (KS := [101 / 52])
    (VpSed := some ⟨.py, 50 / 13⟩)
    (w1S := some 1) (w2S := some 1) (w3S := some 1) (HM := [12, 0]) (KM := [1.85]) (VpMoho := some ⟨.py, 6⟩)
    (w1M := some 1) (w2M := some 1) (w3M := some 1) (stack := some true)
    (by intro tr htr; have : tr = exactTrace dblTrace := by simpa using htr
        rw [this]) (by
      intro st hst sd more hsd
      simp only [List.mem_cons, List.not_mem_nil, or_false, List.map_cons, List.map_nil] at hst
      rcases hst with hst | hst <;> rw [hst] at hsd <;> have := Except.ok.inj hsd <;> injection this with h1 h2 <;>
        rw [← h1]) (fun _ _ => rfl)).2 ⟨⟨_, _, rfl⟩, ⟨_, _, rfl⟩, by
      rw [← List.length_pos_iff]
      show 0 < (dblTrace.data.map FL.val).length
      rw [List.length_map, hlen]; norm_num, by
      intro tr htr
      rw [List.mem_singleton.1 htr]
      exact ⟨rfl, rfl⟩, ⟨_, _, rfl, rfl⟩, by
      intro tr htr
      rw [hpair htr]
      rfl, divisor_real (by norm_num), ⟨_, rfl, divisor_real (by norm_num)⟩, rfl, rfl, rfl, by simp, by simp, by simp,
      by simp⟩
  refine ⟨r, r', hr, hr', ?_⟩
  have ha := dbl_mean_acc
  have hn := dbl_mean_nonneg
  have hb : ∀ b, r.bestmodelSed = some b → b.h ∈ [(⟨4⟩ : FL Dbl), ⟨0⟩] ∧ b.k ∈ [(⟨101 / 52⟩ : FL Dbl)] := by
    intro b hb
    obtain ⟨_, _, _, bm, raw, f⟩ := hkSeq_inv hr
    have := gridLoop_row f.hgridS (List.mem_of_getElem? hb)
    exact ⟨this.2.1, this.1⟩
  have ep := dbl_meanRay
  have eL : |(1 : ℝ)| * (16 : ℕ) + |(0 : ℝ)| = 16 := by norm_num
  have key := c116_hkSeq_stacked_exact (stM := [dblTrace, dblTrace]) (AS := 3) (AM := 3) (first := dblTrace) (sdS := dblTrace.data)
    (sdM := dblTrace.data) (moreS := []) (moreM := [dblTrace.data]) (moreS' := []) (moreM' := [dblTrace.data.map FL.val])
    (show meanAccuracy Dbl.u 2 ≤ 1 / 1000 from ha.trans (by norm_num)) rfl hr hr' rfl rfl rfl rfl rfl dbl_slownesses
    dbl_amp dbl_amp (by norm_num)
    (by
      show ∀ k ∈ [(⟨101 / 52⟩ : FL Dbl)], WellConditioned (meanAccuracy Dbl.u 2) (meanRay 0.01 [dblTrace, dblTrace])
        (50 / 13) k.val
      rw [ep]
      intro k hk
      rw [List.mem_singleton.1 hk]
      exact (well_dbl_mean hn ha).2)
    (by
      show ∀ k ∈ [(⟨1.85⟩ : FL Dbl)], WellConditioned (meanAccuracy Dbl.u 2) (meanRay 0.01 [dblTrace, dblTrace]) 6 k.val
      rw [ep]
      intro k hk
      rw [List.mem_singleton.1 hk]
      exact (well_dbl_mean hn ha).1)
  have key2 := key (by
      show ∀ k ∈ [(⟨101 / 52⟩ : FL Dbl)], ∀ x ∈ [(⟨4⟩ : FL Dbl), ⟨0⟩], ClearTimes (exactAxis 1 0 dblTrace.data.length)
        (tPs (meanRay 0.01 [dblTrace, dblTrace]) (50 / 13) x.val k.val)
        (tPpPs (meanRay 0.01 [dblTrace, dblTrace]) (50 / 13) x.val k.val)
        (tPsPs (meanRay 0.01 [dblTrace, dblTrace]) (50 / 13) x.val k.val)
        (40 * meanAccuracy Dbl.u 2 * (|(1 : ℝ)| * dblTrace.data.length + |(0 : ℝ)| +
          timeScale (meanRay 0.01 [dblTrace, dblTrace]) (50 / 13) x.val k.val))
      rw [hlen, dbl_axis, ep, eL]
      intro k hk x hx
      rw [List.mem_singleton.1 hk]
      have hx2 : x.val = 4 ∨ x.val = 0 := by
        simp only [List.mem_cons, List.not_mem_nil, or_false] at hx
        rcases hx with rfl | rfl <;> simp
      refine sed_clear hx2 (small_mean (by norm_num) (by norm_num) ?_)
      have := sed_scale (x := x.val) (by rcases hx2 with h | h <;> rw [h] <;> norm_num)
        (by rcases hx2 with h | h <;> rw [h] <;> norm_num)
      simp only
      linarith) (by
      intro b h
      show ∀ k ∈ [(⟨1.85⟩ : FL Dbl)], ∀ x ∈ [(⟨12⟩ : FL Dbl), ⟨0⟩], ClearTimes (exactAxis 1 0 dblTrace.data.length)
        (mohoPs (meanRay 0.01 [dblTrace, dblTrace]) (50 / 13) b.h.val b.k.val 6 x.val k.val)
        (mohoPpPs (meanRay 0.01 [dblTrace, dblTrace]) (50 / 13) b.h.val b.k.val 6 x.val k.val)
        (mohoPsPs (meanRay 0.01 [dblTrace, dblTrace]) (50 / 13) b.h.val b.k.val 6 x.val k.val)
        (50 * meanAccuracy Dbl.u 2 * (|(1 : ℝ)| * dblTrace.data.length + |(0 : ℝ)| +
          (timeScale (meanRay 0.01 [dblTrace, dblTrace]) (50 / 13) b.h.val b.k.val +
            timeScale (meanRay 0.01 [dblTrace, dblTrace]) 6 x.val k.val)))
      rw [hlen, dbl_axis, ep, eL]
      intro k hk' x hx
      rw [List.mem_singleton.1 (hb b h).2, List.mem_singleton.1 hk']
      have hh2 : b.h.val = 4 ∨ b.h.val = 0 := by
        have := (hb b h).1
        simp only [List.mem_cons, List.not_mem_nil, or_false] at this
        rcases this with h | h <;> rw [h] <;> simp
      have hx2 : x.val = 12 ∨ x.val = 0 := by
        simp only [List.mem_cons, List.not_mem_nil, or_false] at hx
        rcases hx with rfl | rfl <;> simp
      refine moho_clear hh2 hx2 (small_mean (by norm_num) (by norm_num) ?_)
      have h1 := sed_scale (x := b.h.val) (by rcases hh2 with h | h <;> rw [h] <;> norm_num)
        (by rcases hh2 with h | h <;> rw [h] <;> norm_num)
      have h2 := dbl_scale (x := x.val) (by rcases hx2 with h | h <;> rw [h] <;> norm_num)
        (by rcases hx2 with h | h <;> rw [h] <;> norm_num)
      simp only
      linarith)
  have key3 := key2.1
  unfold NearTable at key3 ⊢
  exact key3.imp (fun a b h => ⟨h.1, h.2.1, h.2.2.trans seq_small⟩)

end Rfsed.Props
