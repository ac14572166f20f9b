import Verif.Proofs.PostCritical
import Verif.Props.HkZhu
import Mathlib.Tactic.NormNum

/-!
# Property C14: post-critical ray parameters

Numbers are `NReal`, exact reals with NaN, except where the theorem is stated for
every number type with IEEE NaN propagation.  That the calls do not fail is
`c03_succeeds` and `c25_hkSynth_succeeds`, `c25_hkYu_succeeds`, which put no condition
on the ray parameter.
-/

namespace Rfsed.Props
open PyFloat Spec HkZhu NReal

/-! ## No NaN appears -/

theorem foldl_isNum {xs : List NReal} : ∀ {s : NReal}, IsNum s → (∀ x ∈ xs, IsNum x) →
    IsNum (xs.foldl (fun s x => x + s) s) := by
  induction xs with
  | nil => intro s hs _; exact hs
  | cons x xs ih =>
    intro s hs h
    exact ih ((h x (by simp)).add hs) (fun y hy => h y (by simp [hy]))

/-- **C14**, `hk`: whatever the ray parameters, velocities, times and grids are (even
NaN), numeric data and weights give numeric stack values. -/
theorem c14_hk_no_nan {env : Env NReal} {st : List (Trace NReal)} {preonset : NReal}
    {H K : List NReal} {Vp : Option (Scalar NReal)} {w1 w2 w3 : NReal} {layer : Option String}
    {stack : Bool} {r : HKResult NReal}
    (h : hk env st preonset H K Vp (some w1) (some w2) (some w3) layer (some stack) = .ok r)
    (h1 : IsNum w1) (h2 : IsNum w2) (h3 : IsNum w3)
    (hd : ∀ tr ∈ st, ∀ a ∈ (if stack then r.RFStack else tr.data), IsNum a) :
    ∀ row ∈ r.stackvalues, IsNum row.s := by
  intro row hrow
  obtain ⟨tr0, rest, slows, f⟩ := hk_inv h
  obtain ⟨n, hn, hrow'⟩ := List.getElem_of_mem hrow
  obtain ⟨i, j, _, _, _, hv⟩ := (gridLoop_ok f.hgrid).2.2 n row (by simp [hn, hrow'])
  rw [cell_eq] at hv
  obtain ⟨xs, hxs, hv⟩ := bind_eq_ok.1 hv
  rw [← Except.ok.inj hv]
  refine foldl_isNum isNum_zero ?_
  intro x hx
  obtain ⟨m, hm, rfl⟩ := List.getElem_of_mem hx
  obtain ⟨tr, htr, ht⟩ := mapM_getElem' hxs (i := m) (y := xs[m]) (by simp [hm])
  obtain ⟨o, sl, ts, _, _, _, hw⟩ := traceTerm_ok.1 ht
  rw [f.hstk] at hw
  exact weigh_isNum hw h1 h2 h3 (hd tr (List.mem_of_getElem? htr))

/-- **C14**, `hkSynth`. -/
theorem c14_hkSynth_no_nan {env : Env NReal} {d t : List NReal} {rp : Scalar NReal}
    {H K : List NReal} {Vp : Option (Scalar NReal)} {w1 w2 w3 : NReal} {layer : Option String}
    {r : SynthAnalysis.SynthResult NReal}
    (h : SynthAnalysis.hkSynth env d t rp H K Vp (some w1) (some w2) (some w3) layer = .ok r)
    (h1 : IsNum w1) (h2 : IsNum w2) (h3 : IsNum w3) (hd : ∀ a ∈ d, IsNum a) :
    ∀ row ∈ r.stackvalues, IsNum row.s := by
  intro row hrow
  have f := hkSynth_inv h
  obtain ⟨n, hn, hrow'⟩ := List.getElem_of_mem hrow
  obtain ⟨i, j, _, _, _, hv⟩ := (gridLoop_ok f.hgrid).2.2 n row (by simp [hn, hrow'])
  rw [synthCell_eq] at hv
  obtain ⟨ts, _, hv⟩ := bind_eq_ok.1 hv
  obtain ⟨v, hw, hv⟩ := bind_eq_ok.1 hv
  rw [← Except.ok.inj hv]
  exact (weigh_isNum hw h1 h2 h3 hd).add isNum_zero

/-! ## Which samples are read -/

section generic
variable {F : Type} [PyFloat F] [IEEENaN F]

/-- **C14**, `hk`, S leg post-critical (`(K/Vp)² - p² < 0` in floating point, every IEEE
number type): that trace contributes its first sample three times. -/
theorem c14_hk_S_postcritical {env : Env F} {st : List (Trace F)} {preonset : F} {H K : List F}
    {Vp : Scalar F} {w1 w2 w3 : F} {layer : Option String} {r : HKResult F}
    (h : hk env st preonset H K (some Vp) (some w1) (some w2) (some w3) layer (some false) = .ok r) :
    ∀ row ∈ r.stackvalues, ∃ g : List F, g.length = st.length ∧
      row.s = g.foldl (fun s x => x + s) zero ∧
      ∀ (m : Nat) (tr : Trace F) (sl : Scalar F), st[m]? = some tr → tr.slowness = some sl →
        lt (square (row.k / Vp.val) - square (env.km2deg1 * sl.val)) zero = true →
        ∃ d0, tr.data[0]? = some d0 ∧ g[m]? = some (w1 * d0 + w2 * d0 - w3 * d0) := by
  intro row hrow
  obtain ⟨tr0, rest, slows, f⟩ := hk_inv h
  obtain ⟨n, hn, hrow'⟩ := List.getElem_of_mem hrow
  obtain ⟨i, j, _, _, _, hv⟩ := (gridLoop_ok f.hgrid).2.2 n row (by simp [hn, hrow'])
  rw [f.hstk, f.hVp] at hv
  simp only [Option.getD_some] at hv
  rw [cell_eq] at hv
  obtain ⟨xs, hxs, hv⟩ := bind_eq_ok.1 hv
  refine ⟨xs, (mapM_ok_iff.1 hxs).length_eq.symm, (Except.ok.inj hv).symm, ?_⟩
  intro m tr sl hm hsl hpost
  obtain ⟨y, hy, hterm⟩ := mapM_getElem hxs hm
  obtain ⟨o, sl', ts, _, hsl', hts, hw⟩ := traceTerm_ok.1 hterm
  rw [hsl] at hsl'; cases hsl'
  simp only [Bool.false_eq_true, if_false] at hts hw
  obtain ⟨n1, n2, n3⟩ := bestTimes_postS hts hpost
  obtain ⟨d0, hd0, hval⟩ := weigh_nan (weigh_axis_ne hw) hw n1 n2 n3
  exact ⟨d0, hd0, by rw [hy, hval]⟩

/-- **C14**, `hkSynth`, S leg post-critical. -/
theorem c14_hkSynth_S_postcritical {env : Env F} {d t : List F} {rp : Scalar F}
    {H K : List F} {Vp : Scalar F} {w1 w2 w3 : F} {layer : Option String}
    {r : SynthAnalysis.SynthResult F}
    (h : SynthAnalysis.hkSynth env d t rp H K (some Vp) (some w1) (some w2) (some w3) layer = .ok r) :
    ∀ row ∈ r.stackvalues, lt (square (row.k / Vp.val) - square rp.val) zero = true →
      ∃ d0, d[0]? = some d0 ∧ row.s = w1 * d0 + w2 * d0 - w3 * d0 + zero := by
  intro row hrow hpost
  have f := hkSynth_inv h
  obtain ⟨n, hn, hrow'⟩ := List.getElem_of_mem hrow
  obtain ⟨i, j, _, _, _, hv⟩ := (gridLoop_ok f.hgrid).2.2 n row (by simp [hn, hrow'])
  rw [synthCell_eq] at hv
  obtain ⟨ts, hts, hv⟩ := bind_eq_ok.1 hv
  obtain ⟨v, hw, hv⟩ := bind_eq_ok.1 hv
  obtain ⟨n1, n2, n3⟩ := bestTimes_postS hts hpost
  obtain ⟨d0, hd0, hval⟩ := weigh_nan (weigh_axis_ne hw) hw n1 n2 n3
  exact ⟨d0, hd0, by rw [← Except.ok.inj hv, hval]; rfl⟩

end generic

/-- the value one trace contributes, P leg post-critical, S leg not -/
theorem weigh_P_numpy {Vp : Scalar NReal} {kd : Kind} {p vp x k : ℝ} {w1 w2 w3 v : NReal}
    {d t : List NReal} {ts : PyNum NReal × PyNum NReal × PyNum NReal} (hvp : Vp.val = num vp)
    (h0 : vp ≠ 0) (hax : ∀ a ∈ t, IsNum a)
    (hts : bestTimes Vp kd (num p) (num x) (num k) = .ok ts) (hw : weigh w1 w2 w3 d t ts = .ok v)
    (hS : p ^ 2 ≤ (k / vp) ^ 2) (hP : (1 / vp) ^ 2 < p ^ 2) (hnp : Vp.kind = .np ∨ kd = .np) :
    ∃ d0 a3, d[0]? = some d0 ∧ ReadsNearest d t (num (tPsPs p vp x k)) a3 ∧
      v = w1 * d0 + w2 * d0 - w3 * a3 := by
  obtain ⟨n1, n2, e3⟩ := bestTimes_postP hts hnp (by
    rw [hvp, nreal_one, nreal_div _ _ h0, nreal_square, nreal_square, nreal_sub, nreal_zero, nreal_lt]
    linarith)
  obtain ⟨d0, a3, hd0, ha3, hval⟩ := weigh_nan2 (weigh_axis_ne hw) hw n1 n2
  refine ⟨d0, a3, hd0, ?_, hval⟩
  rw [e3, hvp, nreal_div _ _ h0, nreal_square, nreal_square, nreal_sub,
    nreal_powHalf _ (by linarith), nreal_two, nreal_mul, nreal_mul] at ha3
  have := getamp_num hax ha3
  rwa [show tPsPs p vp x k = x * 2 * Real.sqrt ((k / vp) ^ 2 - p ^ 2) by
    rw [tPsPs, eta_ratio]; ring]

theorem weigh_P_python {Vp : Scalar NReal} {kd : Kind} {p vp x k : ℝ} {w1 w2 w3 v : NReal}
    {d t : List NReal} {ts : PyNum NReal × PyNum NReal × PyNum NReal} (hvp : Vp.val = num vp)
    (h0 : vp ≠ 0) (hax : ∀ a ∈ t, IsNum a)
    (hts : bestTimes Vp kd (num p) (num x) (num k) = .ok ts) (hw : weigh w1 w2 w3 d t ts = .ok v)
    (hS : p ^ 2 ≤ (k / vp) ^ 2) (hP : (1 / vp) ^ 2 < p ^ 2) (hpy : Vp.kind = .py ∧ kd = .py) :
    ∃ a a3, ReadsNearest d t (num (x * eta p (vp / k))) a ∧
      ReadsNearest d t (num (tPsPs p vp x k)) a3 ∧
      v = w1 * a + w2 * a - w3 * a3 := by
  have he := bestTimes_ok hts
  obtain ⟨a1, a2, a3, e1, e2, e3, hval⟩ := weigh_ok.1 hw
  have hlt : PyFloat.lt (num ((1 / vp) ^ 2 - p ^ 2)) (PyFloat.zero : NReal) = true := by
    rw [nreal_zero, nreal_lt]; linarith
  rw [hpy.1, hpy.2, hvp, nreal_one, nreal_div _ _ h0, nreal_div _ _ h0, nreal_square, nreal_square,
    nreal_square, nreal_sub, nreal_sub, nreal_powHalf _ (by linarith)] at he
  simp only [Kind.join, powHalfK, hlt, if_true, nreal_powHalfCplx, PyNum.rsub, PyNum.radd,
    PyNum.rmul, nreal_sub, nreal_add, nreal_mul, sub_zero, add_zero, nreal_two] at he
  subst he
  have heta : eta p (vp / k) = Real.sqrt ((k / vp) ^ 2 - p ^ 2) := eta_ratio _ _ _
  have neg : ∀ y : ℝ, (-(num y) : NReal) = num (-y) := fun _ => rfl
  simp only [neg, nreal_mul] at e1
  have r1 := getamp_cplx hax e1
  have r2 := getamp_cplx hax e2
  have r3 := getamp_num hax e3
  rw [← heta] at r1 r2 r3
  have : a2 = a1 := ReadsNearest.unique r2 r1
  subst this
  refine ⟨a2, a3, r1, ?_, hval⟩
  rwa [show tPsPs p vp x k = x * 2 * eta p (vp / k) by rw [tPsPs]; ring]

/-- **C14**, `hkSynth`, only the P leg post-critical.  With a numpy ray parameter or
velocity, Ps and PpPs read the first sample of the record; with Python floats both
read the sample nearest to `H·η_S`, the real part of the complex delay times. -/
theorem c14_hkSynth_P_postcritical {env : Env NReal} {d t : List NReal} {rp Vp : Scalar NReal}
    {H K : List NReal} {w1 w2 w3 : NReal} {layer : Option String}
    {r : SynthAnalysis.SynthResult NReal} {p vp : ℝ}
    (h : SynthAnalysis.hkSynth env d t rp H K (some Vp) (some w1) (some w2) (some w3) layer = .ok r)
    (hax : ∀ a ∈ t, IsNum a) (hvp : Vp.val = num vp) (h0 : vp ≠ 0) (hrp : rp.val = num p)
    (hP : (1 / vp) ^ 2 < p ^ 2) :
    ∀ (x k : ℝ) (s : NReal), (⟨num x, num k, s⟩ : Row NReal) ∈ r.stackvalues →
      p ^ 2 ≤ (k / vp) ^ 2 →
      (Vp.kind = .np ∨ rp.kind = .np → ∃ d0 a3, d[0]? = some d0 ∧
        ReadsNearest d t (num (tPsPs p vp x k)) a3 ∧ s = w1 * d0 + w2 * d0 - w3 * a3 + num 0) ∧
      (Vp.kind = .py ∧ rp.kind = .py → ∃ a a3, ReadsNearest d t (num (x * eta p (vp / k))) a ∧
        ReadsNearest d t (num (tPsPs p vp x k)) a3 ∧ s = w1 * a + w2 * a - w3 * a3 + num 0) := by
  intro x k s hrow hS
  have f := hkSynth_inv h
  obtain ⟨n, hn, hrow'⟩ := List.getElem_of_mem hrow
  obtain ⟨i, j, _, _, _, hv⟩ := (gridLoop_ok f.hgrid).2.2 n _ (by simp [hn, hrow']; rfl)
  rw [synthCell_eq, hrp] at hv
  obtain ⟨ts, hts, hv⟩ := bind_eq_ok.1 hv
  obtain ⟨v, hw, hv⟩ := bind_eq_ok.1 hv
  have hs : s = v + num 0 := by rw [← nreal_zero]; exact (Except.ok.inj hv).symm
  constructor
  · intro hnp
    obtain ⟨d0, a3, h1, h2, h3⟩ := weigh_P_numpy hvp h0 hax hts hw hS hP hnp
    exact ⟨d0, a3, h1, h2, by rw [hs, h3]; rfl⟩
  · intro hpy
    obtain ⟨a, a3, h1, h2, h3⟩ := weigh_P_python hvp h0 hax hts hw hS hP hpy
    exact ⟨a, a3, h1, h2, by rw [hs, h3]; rfl⟩

/-- **C14**, `hk`, only the P leg post-critical for a trace (its ray parameter
`kilometer2degrees(1)·slowness` exceeds `1/Vp`). -/
theorem c14_hk_P_postcritical {env : Env NReal} {st : List (Trace NReal)} {preonset : NReal}
    {H K : List NReal} {Vp : Scalar NReal} {w1 w2 w3 : NReal} {layer : Option String}
    {r : HKResult NReal} {vp : ℝ}
    (h : hk env st preonset H K (some Vp) (some w1) (some w2) (some w3) layer (some false) = .ok r)
    (hax : ∀ a ∈ r.time, IsNum a) (hvp : Vp.val = num vp) (h0 : vp ≠ 0) :
    ∀ (x k : ℝ) (s : NReal), (⟨num x, num k, s⟩ : Row NReal) ∈ r.stackvalues →
      ∃ g : List NReal, g.length = st.length ∧ s = g.foldl (fun s x => x + s) (num 0) ∧
      ∀ (m : Nat) (tr : Trace NReal) (sl : Scalar NReal) (p : ℝ), st[m]? = some tr →
        tr.slowness = some sl → env.km2deg1 * sl.val = num p →
        p ^ 2 ≤ (k / vp) ^ 2 → (1 / vp) ^ 2 < p ^ 2 →
        (Vp.kind = .np ∨ sl.kind = .np → ∃ d0 a3, tr.data[0]? = some d0 ∧
          ReadsNearest tr.data r.time (num (tPsPs p vp x k)) a3 ∧
          g[m]? = some (w1 * d0 + w2 * d0 - w3 * a3)) ∧
        (Vp.kind = .py ∧ sl.kind = .py → ∃ a a3,
          ReadsNearest tr.data r.time (num (x * eta p (vp / k))) a ∧
          ReadsNearest tr.data r.time (num (tPsPs p vp x k)) a3 ∧
          g[m]? = some (w1 * a + w2 * a - w3 * a3)) := by
  intro x k s hrow
  obtain ⟨tr0, rest, slows, f⟩ := hk_inv h
  obtain ⟨n, hn, hrow'⟩ := List.getElem_of_mem hrow
  obtain ⟨i, j, _, _, _, hv⟩ := (gridLoop_ok f.hgrid).2.2 n _ (by simp [hn, hrow']; rfl)
  rw [f.hstk, f.hVp] at hv
  simp only [Option.getD_some] at hv
  rw [cell_eq] at hv
  obtain ⟨xs, hxs, hv⟩ := bind_eq_ok.1 hv
  refine ⟨xs, (mapM_ok_iff.1 hxs).length_eq.symm, by
    rw [← nreal_zero]; exact (Except.ok.inj hv).symm, ?_⟩
  intro m tr sl p hm hsl hp hS hP
  obtain ⟨y, hy, hterm⟩ := mapM_getElem hxs hm
  obtain ⟨o, sl', ts, _, hsl', hts, hw⟩ := traceTerm_ok.1 hterm
  rw [hsl] at hsl'; cases hsl'
  simp only [Bool.false_eq_true, if_false] at hts hw
  rw [hp] at hts
  constructor
  · intro hnp
    obtain ⟨d0, a3, h1, h2, h3⟩ := weigh_P_numpy hvp h0 hax hts hw hS hP hnp
    exact ⟨d0, a3, h1, h2, by rw [hy, h3]⟩
  · intro hpy
    obtain ⟨a, a3, h1, h2, h3⟩ := weigh_P_python hvp h0 hax hts hw hS hP hpy
    exact ⟨a, a3, h1, h2, by rw [hy, h3]⟩

/-- environment for the examples: `kilometer2degrees(1)` is 1, the stack is the first
trace -/
noncomputable def nEnv : Env NReal where
  km2deg1 := num 1
  stack := fun st => .ok (st.map Trace.data)
  draw := fun _ => .ok ()

/-- a numeric trace; `kd` tells whether its slowness (1.5) is a Python float -/
noncomputable def nTrace (kd : Kind) : Trace NReal where
  station := "STA"
  channel := "R"
  data := [num 7, num 1, num 2, num 3]
  delta := num 1
  starttime := num 0
  onset := some (num 0)
  slowness := some ⟨kd, num (3 / 2)⟩
  backAzimuth := none
  distance := none

/-- A stream with one numpy and one Python slowness, `Vp = 1`, `K = 2`: S propagates
(`p = 1.5 < 2`), P is post-critical (`1.5 > 1`); with `K = 1` both are.  The call
succeeds, so `c14_hk_no_nan`, `c14_hk_S_postcritical` and `c14_hk_P_postcritical`
apply. -/
example : ∃ r, hk nEnv [nTrace .np, nTrace .py] (num 0) [num 1] [num 1, num 2]
    (some ⟨.py, num 1⟩) (some (num 0.6)) (some (num 0.3)) (some (num 0.1)) none (some false) = .ok r ∧
    (∀ a ∈ r.time, IsNum a) ∧ (∀ row ∈ r.stackvalues, IsNum row.s) ∧
    lt (square (num 1 / num 1) - square (nEnv.km2deg1 * num (3 / 2))) (zero : NReal) = true ∧
    nEnv.km2deg1 * num (3 / 2) = num (3 / 2) ∧
    ((3 / 2 : ℝ)) ^ 2 ≤ (2 / 1) ^ 2 ∧ ((1 : ℝ) / 1) ^ 2 < (3 / 2) ^ 2 := by
  have e : ∃ r, hk nEnv [nTrace .np, nTrace .py] (num 0) [num 1] [num 1, num 2]
      (some ⟨.py, num 1⟩) (some (num 0.6)) (some (num 0.3)) (some (num 0.1)) none (some false)
      = .ok r := by
    refine c03_succeeds (sd := _) (more := _) rfl ?_ ?_ ?_ ?_ ?_ (by simp) (by simp) (by simp) ?_
    · intro h; cases h
    · simp [nTrace]
    · intro tr htr
      simp at htr
      rcases htr with rfl | rfl <;> simp [nTrace]
    · intro tr htr; simp at htr; subst htr; simp [nTrace]
    · intro v hv; cases hv; right
      rw [← Bool.not_eq_true, PyFloat.eq, Bool.and_eq_true, nreal_zero, nreal_le, nreal_le]
      norm_num
    · intro _ _; rfl
  obtain ⟨r, hr⟩ := e
  obtain ⟨_, _, _, tr0, rest, hst, ht⟩ := c03_table_shape hr
  cases hst
  refine ⟨r, hr, ?_, ?_, ?_, ?_, by norm_num, by norm_num⟩
  · rw [ht]
    intro a ha
    obtain ⟨i, _, rfl⟩ := List.mem_map.1 ha
    simp [nTrace, IsNum]
  · refine c14_hk_no_nan hr rfl rfl rfl ?_
    intro tr htr a ha
    simp at htr
    rcases htr with rfl | rfl <;> simp [nTrace] at ha <;>
      rcases ha with rfl | rfl | rfl | rfl <;> rfl
  · rw [nreal_div _ _ one_ne_zero, nEnv, nreal_mul, nreal_square, nreal_square, nreal_sub,
      nreal_zero, nreal_lt]; norm_num
  · simp [nEnv]

end Rfsed.Props
