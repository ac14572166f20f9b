import Verif.Spec.Units
import Verif.Proofs.Superpose

/-!
# Lemmas for C96: units of length and time
-/

namespace Rfsed
open PyFloat Spec

/-- a delay time in another unit of time -/
noncomputable def numIn (b : ℝ) : PyNum ℝ → PyNum ℝ
  | .real x => .real (b * x)
  | .cplx x y => .cplx (b * x) (b * y)

/-- three delay times -/
noncomputable def timesIn (b : ℝ) (ts : PyNum ℝ × PyNum ℝ × PyNum ℝ) : PyNum ℝ × PyNum ℝ × PyNum ℝ :=
  (numIn b ts.1, numIn b ts.2.1, numIn b ts.2.2)

theorem argminGo_scale {b : ℝ} (hb : 0 < b) (xs : List ℝ) : ∀ (mp : ℝ) (idx i : Nat),
    argminGo (b * mp) idx i (xs.map (fun x : ℝ => b * x)) = argminGo mp idx i xs := by
  induction xs with
  | nil => intros; rfl
  | cons x xs ih =>
    intro mp idx i
    have : le (b * mp) (b * x) = le mp x := by
      rw [Bool.eq_iff_iff, real_le, real_le, mul_le_mul_iff_right₀ hb]
    simp only [List.map_cons, argminGo, this, real_isNaN, ih]

theorem argmin_scale {b : ℝ} (hb : 0 < b) (xs : List ℝ) :
    argmin (xs.map (fun x : ℝ => b * x)) = argmin xs := by
  cases xs with
  | nil => rfl
  | cons x xs => simp only [List.map_cons, argmin, real_isNaN, argminGo_scale hb]

theorem absSub_scale {b : ℝ} (hb : 0 < b) (x : ℝ) (t : PyNum ℝ) :
    PyNum.absSub (b * x) (numIn b t) = b * PyNum.absSub x t := by
  cases t with
  | real t =>
    simp only [numIn, PyNum.absSub, real_abs]
    rw [← mul_sub, abs_mul, abs_of_pos hb]
  | cplx u v =>
    simp only [numIn, PyNum.absSub, real_hypot]
    have : (b * x - b * u) ^ 2 + (-(b * v)) ^ 2 = b ^ 2 * ((x - u) ^ 2 + (-v) ^ 2) := by ring
    rw [this, Real.sqrt_mul (by positivity), Real.sqrt_sq hb.le]

namespace HkZhu

theorem getamp_scale {b : ℝ} (hb : 0 < b) (d t : List ℝ) (x : PyNum ℝ) :
    getamp d (allIn b t) (numIn b x) = getamp d t x := by
  unfold getamp allIn
  have : (t.map (fun x : ℝ => b * x)).map (fun y => PyNum.absSub y (numIn b x)) =
      (t.map (fun y => PyNum.absSub y x)).map (fun x : ℝ => b * x) := by
    rw [List.map_map, List.map_map]
    apply List.map_congr_left
    intro y _
    exact absSub_scale hb y x
  rw [this, argmin_scale hb]

theorem weigh_units {b : ℝ} (hb : 0 < b) (w1 w2 w3 : ℝ) (d t : List ℝ) (ts : PyNum ℝ × PyNum ℝ × PyNum ℝ) :
    weigh w1 w2 w3 d (allIn b t) (timesIn b ts) = weigh w1 w2 w3 d t ts := by
  unfold weigh timesIn
  simp only [getamp_scale hb]

end HkZhu

theorem oneOver_scale {a b : ℝ} (ha : 0 < a) (hb : 0 < b) (v : Scalar ℝ) :
    oneOver (velocityIn a b v) = (oneOver v).map (fun x : ℝ => b / a * x) := by
  obtain ⟨k, v⟩ := v
  have h : one / (a / b * v) = b / a * (one / v) := by
    rw [real_one]; field_simp
  have e : PyFloat.eq (a / b * v) zero = PyFloat.eq v zero := by
    rw [Bool.eq_iff_iff, real_eq, real_eq, real_zero]
    simp [ha.ne', hb.ne']
  unfold oneOver velocityIn
  cases k with
  | np => simp only [h]; rfl
  | py =>
    simp only [e]
    split
    · rfl
    · simp only [h]; rfl

theorem sq_scale (c x p : ℝ) : square (c * x) - square (c * p) = c ^ 2 * (square x - square p) := by
  simp only [real_square]; ring

theorem powHalf_scale {c : ℝ} (hc : 0 < c) (x : ℝ) : powHalf (c ^ 2 * x) = c * powHalf x := by
  rw [real_powHalf, Real.sqrt_mul (by positivity), Real.sqrt_sq hc.le]; rfl

theorem powHalfK_scale {c : ℝ} (hc : 0 < c) (k : Kind) (x : ℝ) :
    powHalfK k (c ^ 2 * x) = numIn c (powHalfK k x) := by
  cases k with
  | np => simp only [powHalfK, powHalf_scale hc, numIn]
  | py =>
    have : lt (c ^ 2 * x) zero = lt x zero := by
      rw [Bool.eq_iff_iff, real_lt, real_lt, real_zero]
      have := pow_pos hc 2
      constructor
      · intro h; by_contra hx; push Not at hx; have := mul_nonneg this.le hx; linarith
      · intro h; exact mul_neg_of_pos_of_neg this h
    simp only [powHalfK, this]
    split
    · simp only [numIn, real_powHalfCplx]
      have e : -(c ^ 2 * x) = c ^ 2 * (-x) := by ring
      rw [e, Real.sqrt_mul (by positivity), Real.sqrt_sq hc.le, mul_zero]
    · simp only [powHalf_scale hc, numIn]

theorem numIn_rmul {a b : ℝ} (ha : 0 < a) (x : ℝ) (t : PyNum ℝ) :
    PyNum.rmul (a * x) (numIn (b / a) t) = numIn b (PyNum.rmul x t) := by
  cases t with
  | real t => simp only [numIn, PyNum.rmul]; congr 1; field_simp
  | cplx u v => simp only [numIn, PyNum.rmul]; congr 1 <;> field_simp

theorem numIn_rsub (c x : ℝ) (t : PyNum ℝ) : PyNum.rsub (c * x) (numIn c t) = numIn c (PyNum.rsub x t) := by
  cases t with
  | real t => simp only [numIn, PyNum.rsub]; congr 1; ring
  | cplx u v => simp only [numIn, PyNum.rsub]; congr 1 <;> ring

theorem numIn_radd (c x : ℝ) (t : PyNum ℝ) : PyNum.radd (c * x) (numIn c t) = numIn c (PyNum.radd x t) := by
  cases t with
  | real t => simp only [numIn, PyNum.radd]; congr 1; ring
  | cplx u v => simp only [numIn, PyNum.radd]; congr 1; ring

theorem numIn_add (c : ℝ) (s t : PyNum ℝ) : PyNum.add (numIn c s) (numIn c t) = numIn c (PyNum.add s t) := by
  cases s with
  | real s => exact numIn_radd c s t
  | cplx u v =>
    cases t with
    | real t => simp only [numIn, PyNum.add]; congr 1; ring
    | cplx u' v' => simp only [numIn, PyNum.add]; congr 1 <;> ring

theorem numIn_addr (c x : ℝ) (t : PyNum ℝ) : PyNum.addr (numIn c t) (c * x) = numIn c (PyNum.addr t x) := by
  cases t with
  | real t => simp only [numIn, PyNum.addr]; congr 1; ring
  | cplx u v => simp only [numIn, PyNum.addr]; congr 1; ring

theorem numIn_subr (c x : ℝ) (t : PyNum ℝ) : PyNum.subr (numIn c t) (c * x) = numIn c (PyNum.subr t x) := by
  cases t with
  | real t => simp only [numIn, PyNum.subr]; congr 1; ring
  | cplx u v => simp only [numIn, PyNum.subr]; congr 1; ring

theorem ratio_scale {a b : ℝ} (ha : 0 < a) (hb : 0 < b) (k v : ℝ) : k / (a / b * v) = b / a * (k / v) := by
  field_simp

namespace HkZhu

theorem bestTimes_scale {a b : ℝ} (ha : 0 < a) (hb : 0 < b) (Vp : Scalar ℝ) (kd : Kind) (p x k : ℝ) :
    bestTimes (velocityIn a b Vp) kd (b / a * p) (a * x) k = (bestTimes Vp kd p x k).map (timesIn b) := by
  have hc : 0 < b / a := by positivity
  unfold bestTimes
  rw [oneOver_scale ha hb]
  have e1 : k / (velocityIn a b Vp).val = b / a * (k / Vp.val) := ratio_scale ha hb _ _
  have e2 : (velocityIn a b Vp).kind = Vp.kind := rfl
  cases oneOver Vp with
  | error e => rfl
  | ok iv =>
    simp only [Except.map, except_ok_bind, except_pure, e1, e2, sq_scale, powHalf_scale hc, powHalfK_scale hc,
      numIn_rsub, numIn_radd, numIn_rmul ha, timesIn, real_two]
    have : a * x * 2 * (b / a * powHalf (square (k / Vp.val) - square p)) =
        b * (x * 2 * powHalf (square (k / Vp.val) - square p)) := by field_simp
    rw [this]; rfl

theorem mohoTimes_scale {a b : ℝ} (ha : 0 < a) (hb : 0 < b) (VpS vm : Scalar ℝ) (kd : Kind) (p h1 k1 x k : ℝ) :
    HkSeqYeck.mohoTimes (velocityIn a b VpS) (some (velocityIn a b vm)) kd (b / a * p) (a * h1) k1 (a * x) k =
      (HkSeqYeck.mohoTimes VpS (some vm) kd p h1 k1 x k).map (timesIn b) := by
  have hc : 0 < b / a := by positivity
  unfold HkSeqYeck.mohoTimes
  rw [oneOver_scale ha hb]
  have e1 : ∀ k (V : Scalar ℝ), k / (velocityIn a b V).val = b / a * (k / V.val) := fun _ _ => ratio_scale ha hb _ _
  have e2 : ∀ V, (velocityIn a b V).kind = V.kind := fun _ => rfl
  cases oneOver VpS with
  | error e => rfl
  | ok iv =>
    simp only [HkSeqYeck.need, Except.map, except_ok_bind]
    rw [oneOver_scale ha hb]
    cases oneOver vm with
    | error e => rfl
    | ok iv' =>
      simp only [Except.map, except_ok_bind, except_pure, e1, e2, sq_scale, powHalf_scale hc, powHalfK_scale hc,
        numIn_rsub, numIn_radd, numIn_rmul ha, numIn_add, timesIn, real_two]
      have : 2 * (a * h1) * (b / a * powHalf (square (k1 / VpS.val) - square p)) +
          2 * (a * x) * (b / a * powHalf (square (k / vm.val) - square p)) =
          b * (2 * h1 * powHalf (square (k1 / VpS.val) - square p) +
            2 * x * powHalf (square (k / vm.val) - square p)) := by field_simp
      rw [this]; rfl

/-- a grid in another unit of length -/
theorem gridLoop_scale {a : ℝ} {K H : List ℝ} {v v' : ℝ → ℝ → Except PyErr ℝ} {tb : List (Row ℝ)}
    (h : gridLoop K H v = .ok tb) (hv : ∀ k ∈ K, ∀ x ∈ H, v' k (a * x) = v k x) :
    gridLoop K (allIn a H) v' = .ok (tableIn a tb) := by
  rw [gridLoop_eq, mapM_ok_iff] at h ⊢
  have hmem : ∀ p ∈ gridPoints K H, p.1 ∈ K ∧ p.2 ∈ H := fun p hp => mem_gridPoints.1 hp
  have e : gridPoints K (allIn a H) = (gridPoints K H).map (fun p => (p.1, a * p.2)) := by
    unfold gridPoints allIn
    rw [List.map_flatMap]
    congr 1
    funext k
    rw [List.map_map, List.map_map]; rfl
  rw [e]
  unfold tableIn
  rw [List.forall₂_map_left_iff, List.forall₂_map_right_iff]
  generalize gridPoints K H = ps at h hmem
  induction h with
  | nil => exact .nil
  | @cons p r ps rs h1 h2 ih =>
    refine .cons ?_ (ih (fun q hq => hmem q (by simp [hq])))
    obtain ⟨s, hs, h⟩ := bind_eq_ok.1 h1
    cases h
    have hp := hmem p (by simp)
    rw [hv _ hp.1 _ hp.2, hs]; rfl

theorem tableIn_s (a : ℝ) (tb : List (Row ℝ)) : (tableIn a tb).map Row.s = tb.map Row.s := by
  unfold tableIn
  rw [List.map_map]; rfl

theorem tableIn_get (a : ℝ) (tb : List (Row ℝ)) (n : Nat) :
    (tableIn a tb)[n]? = (tb[n]?).map (fun x : Row ℝ => (⟨a * x.h, x.k, x.s⟩ : Row ℝ)) := by
  unfold tableIn
  rw [List.getElem?_map]

theorem tableIn_clip (a : ℝ) (tb : List (Row ℝ)) : clipLoop (tableIn a tb) = tableIn a (clipLoop tb) := by
  rw [clipLoop_real, clipLoop_real]
  unfold tableIn tableClip
  rw [List.map_map, List.map_map]; rfl

theorem timeAxis_scale (b delta pre : ℝ) (l : Nat) :
    timeAxis (b * delta) (b * pre) l = allIn b (timeAxis delta pre l) := by
  unfold timeAxis allIn
  rw [List.map_map]
  apply List.map_congr_left
  intro i _
  simp only [Function.comp]
  ring

theorem slowness_scale {a b : ℝ} {st : List (Trace ℝ)} {slows : List (Scalar ℝ)}
    (h : st.mapM Trace.getSlowness = .ok slows) :
    (st.map (traceIn a b)).mapM Trace.getSlowness = .ok (slows.map (slownessIn a b)) := by
  rw [mapM_ok_iff] at h ⊢
  rw [List.forall₂_map_left_iff, List.forall₂_map_right_iff]
  refine h.imp ?_
  intro tr s hs
  rw [getSlowness_ok] at hs ⊢
  simp only [traceIn, hs]; rfl

theorem avg_scale (a b : ℝ) (slows : List (Scalar ℝ)) :
    npMean ((slows.map (slownessIn a b)).map Scalar.val) = b / a * npMean (slows.map Scalar.val) := by
  rw [npMean_real, npMean_real]
  have : (slows.map (slownessIn a b)).map Scalar.val = (slows.map Scalar.val).map (fun x : ℝ => b / a * x) := by
    rw [List.map_map, List.map_map]; rfl
  rw [this, List.sum_map_mul_left, List.length_map, List.map_id']
  ring

theorem cell_scale {env env' : Env ℝ} {a b : ℝ} (ha : 0 < a) (hb : 0 < b) (hkm : env'.km2deg1 = env.km2deg1)
    (st : List (Trace ℝ)) (t sd : List ℝ) (avg : ℝ) (Vp : Scalar ℝ) (w1 w2 w3 : ℝ) (stack : Bool) (k x : ℝ) :
    cell env' (st.map (traceIn a b)) (allIn b t) sd (b / a * avg) (velocityIn a b Vp) w1 w2 w3 stack k (a * x) =
      cell env st t sd avg Vp w1 w2 w3 stack k x := by
  have ht : ∀ tr, traceTerm env' (allIn b t) sd (b / a * avg) (velocityIn a b Vp) w1 w2 w3 stack k (a * x)
      (traceIn a b tr) = traceTerm env t sd avg Vp w1 w2 w3 stack k x tr := by
    intro tr
    rw [traceTerm_eq, traceTerm_eq]
    have o : (traceIn a b tr).getOnset = tr.getOnset.map (fun t : ℝ => b * t) := by
      unfold Trace.getOnset traceIn
      cases tr.onset <;> rfl
    have s : (traceIn a b tr).getSlowness = tr.getSlowness.map (slownessIn a b) := by
      unfold Trace.getSlowness traceIn
      cases tr.slowness <;> rfl
    rw [o, s]
    cases tr.getOnset with
    | error e => rfl
    | ok o =>
      cases tr.getSlowness with
      | error e => rfl
      | ok sl =>
        simp only [Except.map, except_ok_bind]
        have e1 : (if stack = true then env'.km2deg1 * (b / a * avg) else env'.km2deg1 * (slownessIn a b sl).val) =
            b / a * (if stack = true then env.km2deg1 * avg else env.km2deg1 * sl.val) := by
          rw [hkm]; split
          · ring
          · simp only [slownessIn]; ring
        have e2 : (slownessIn a b sl).kind = sl.kind := rfl
        have e3 : (traceIn a b tr).data = tr.data := rfl
        rw [e1, e2, e3, bestTimes_scale ha hb]
        cases bestTimes Vp (if stack = true then Kind.np else sl.kind)
          (if stack = true then env.km2deg1 * avg else env.km2deg1 * sl.val) x k with
        | error e => rfl
        | ok ts => simp only [Except.map, except_ok_bind, weigh_units hb]
  unfold cell
  rw [List.foldlM_map]
  simp only [ht]

theorem times_scale {b : ℝ} (hb : 0 < b) (w1 w2 w3 : ℝ) (d t : List ℝ)
    (ts : Except PyErr (PyNum ℝ × PyNum ℝ × PyNum ℝ)) :
    (do let u ← ts.map (timesIn b); let v ← weigh w1 w2 w3 d (allIn b t) u; pure (v + zero) : Except PyErr ℝ) =
    (do let u ← ts; let v ← weigh w1 w2 w3 d t u; pure (v + zero)) := by
  cases ts with
  | error e => rfl
  | ok u => simp only [Except.map, except_ok_bind, weigh_units hb]

theorem synthCell_scale {a b : ℝ} (ha : 0 < a) (hb : 0 < b) (d t : List ℝ) (rp Vp : Scalar ℝ) (w1 w2 w3 k x : ℝ) :
    SynthAnalysis.cell d (allIn b t) (slownessIn a b rp) (velocityIn a b Vp) w1 w2 w3 k (a * x) =
      SynthAnalysis.cell d t rp Vp w1 w2 w3 k x := by
  rw [synthCell_eq, synthCell_eq, ← times_scale hb w1 w2 w3 d t (bestTimes Vp rp.kind rp.val x k),
    ← bestTimes_scale ha hb]; rfl

theorem seqMohoCell_scale {a b : ℝ} (ha : 0 < a) (hb : 0 < b) (d t : List ℝ) (rp VpS vm : Scalar ℝ)
    (h1 k1 w1 w2 w3 k x : ℝ) :
    SynthAnalysis.seqMohoCell d (allIn b t) (slownessIn a b rp) (velocityIn a b VpS) (a * h1) k1
      (some (velocityIn a b vm)) (some w1) (some w2) (some w3) k (a * x) =
      SynthAnalysis.seqMohoCell d t rp VpS h1 k1 (some vm) (some w1) (some w2) (some w3) k x := by
  rw [seqMohoCell_eq, seqMohoCell_eq,
    ← times_scale hb w1 w2 w3 d t (HkSeqYeck.mohoTimes VpS (some vm) rp.kind rp.val h1 k1 x k),
    ← mohoTimes_scale ha hb]; rfl

theorem onset_scale (a b : ℝ) (tr : Trace ℝ) :
    (traceIn a b tr).getOnset = tr.getOnset.map (fun t : ℝ => b * t) := by
  unfold Trace.getOnset traceIn
  cases tr.onset <;> rfl

theorem slow_scale (a b : ℝ) (tr : Trace ℝ) :
    (traceIn a b tr).getSlowness = tr.getSlowness.map (slownessIn a b) := by
  unfold Trace.getSlowness traceIn
  cases tr.slowness <;> rfl

theorem rp_scale {km km' a b : ℝ} (hkm : km' = km) (stack : Bool) (avg : ℝ) (sl : Scalar ℝ) :
    (if stack = true then km' * (b / a * avg) else km' * (slownessIn a b sl).val) =
      b / a * (if stack = true then km * avg else km * sl.val) := by
  rw [hkm]; split
  · ring
  · simp only [slownessIn]; ring

theorem sedTerm_scale {env env' : Env ℝ} {a b : ℝ} (ha : 0 < a) (hb : 0 < b) (hkm : env'.km2deg1 = env.km2deg1)
    (t sd : List ℝ) (avg : ℝ) (Vp : Scalar ℝ) (w1 w2 w3 : ℝ) (stack : Bool) (k x : ℝ) (tr : Trace ℝ) :
    HkSeqYeck.sedTerm env' (allIn b t) sd (b / a * avg) (velocityIn a b Vp) w1 w2 w3 stack k (a * x)
      (traceIn a b tr) = HkSeqYeck.sedTerm env t sd avg Vp w1 w2 w3 stack k x tr := by
  rw [sedTerm_eq, sedTerm_eq, onset_scale, slow_scale]
  cases tr.getOnset with
  | error e => rfl
  | ok o =>
    cases tr.getSlowness with
    | error e => rfl
    | ok sl =>
      simp only [Except.map, except_ok_bind]
      rw [rp_scale hkm, bestTimes_scale ha hb]
      exact times_scale hb w1 w2 w3 _ t _

theorem mohoTerm_scale {env env' : Env ℝ} {a b : ℝ} (ha : 0 < a) (hb : 0 < b) (hkm : env'.km2deg1 = env.km2deg1)
    (stM : List (Trace ℝ)) (t sd : List ℝ) (avg : ℝ) (VpS vm : Scalar ℝ) (h1 k1 w1 w2 w3 : ℝ) (stack : Bool)
    (k x : ℝ) (tr : Trace ℝ) :
    HkSeqYeck.mohoTerm env' (stM.map (traceIn a b)) (allIn b t) sd (b / a * avg) (velocityIn a b VpS) (a * h1) k1
      (some (velocityIn a b vm)) (some w1) (some w2) (some w3) stack k (a * x) (traceIn a b tr) =
    HkSeqYeck.mohoTerm env stM t sd avg VpS h1 k1 (some vm) (some w1) (some w2) (some w3) stack k x tr := by
  rw [mohoTerm_eq, mohoTerm_eq, slow_scale]
  cases stM with
  | nil => rfl
  | cons tr0 rest =>
    simp only [List.map_cons, item, List.getElem?_cons_zero, except_ok_bind, onset_scale]
    cases tr0.getOnset with
    | error e => rfl
    | ok o =>
      cases tr.getSlowness with
      | error e => rfl
      | ok sl =>
        simp only [Except.map, except_ok_bind]
        rw [rp_scale hkm, mohoTimes_scale ha hb]
        exact times_scale hb w1 w2 w3 _ t _

theorem lastTrace_scale {a b : ℝ} {f g : Trace ℝ → Except PyErr ℝ} (st : List (Trace ℝ))
    (h : ∀ tr, f (traceIn a b tr) = g tr) :
    HkSeqYeck.lastTrace f (st.map (traceIn a b)) = HkSeqYeck.lastTrace g st := by
  unfold HkSeqYeck.lastTrace
  rw [List.foldlM_map]
  simp only [h]

end HkZhu
end Rfsed
