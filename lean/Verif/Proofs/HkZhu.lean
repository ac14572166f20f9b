import Verif.Proofs.GetAmp
import Mathlib.Algebra.BigOperators.Group.List.Basic
import Mathlib.Tactic.Ring
import Mathlib.Tactic.Linarith
import Mathlib.Tactic.FieldSimp
import Mathlib.Tactic.Positivity

namespace Rfsed
open PyFloat Spec
set_option linter.unusedSectionVars false
variable {F : Type} [PyFloat F]

namespace HkZhu

/-- everything a successful call of `hk` tells -/
structure HkFacts (env : Env F) (st : List (Trace F)) (preonset : F) (H K : List F)
    (Vp : Option (Scalar F)) (w1 w2 w3 : Option F) (layer : Option String)
    (stack : Option Bool) (r : HKResult F) (tr0 : Trace F) (rest : List (Trace F))
    (slows : List (Scalar F)) : Prop where
  hst : st = tr0 :: rest
  hslow : st.mapM Trace.getSlowness = .ok slows
  havg : r.AvgSlow = npMean (slows.map Scalar.val)
  hRF : r.RF = st
  hstack : ∃ more, env.stack st = .ok (r.RFStack :: more)
  htime : r.time = timeAxis tr0.delta preonset tr0.data.length
  hgrid : gridLoop K H (cell env st r.time r.RFStack r.AvgSlow r.Vp (w1.getD (dec 6 1))
    (w2.getD (dec 3 1)) (w3.getD (dec 1 1)) r.stack) = .ok r.stackvalues
  hbest : argmax (r.stackvalues.map Row.s) = .ok r.bestIdx
  hdraw : env.draw r.stackvalues = .ok ()
  hVp : r.Vp = Vp.getD ⟨.py, dec 65 1⟩
  hlayer : r.layer = layer.getD "Moho"
  hstk : r.stack = stack.getD false
  hH : r.H = H
  hK : r.K = K
  hsta : r.staname = tr0.station
  hcomp : r.comp = tr0.channel

theorem hk_inv {env : Env F} {st : List (Trace F)} {preonset : F} {H K : List F}
    {Vp : Option (Scalar F)} {w1 w2 w3 : Option F} {layer : Option String}
    {stack : Option Bool} {r : HKResult F}
    (h : hk env st preonset H K Vp w1 w2 w3 layer stack = .ok r) :
    ∃ tr0 rest slows, HkFacts env st preonset H K Vp w1 w2 w3 layer stack r tr0 rest slows := by
  unfold hk at h
  obtain ⟨stk, h1, h⟩ := bind_eq_ok.1 h
  obtain ⟨sd, h2, h⟩ := bind_eq_ok.1 h
  obtain ⟨slows, h3, h⟩ := bind_eq_ok.1 h
  obtain ⟨tr0, h4, h⟩ := bind_eq_ok.1 h
  obtain ⟨tb, h5, h⟩ := bind_eq_ok.1 h
  obtain ⟨best, h6, h⟩ := bind_eq_ok.1 h
  obtain ⟨u, h7, h⟩ := bind_eq_ok.1 h
  cases h
  cases st with
  | nil => simp [item] at h4
  | cons t0 rest =>
    have ht0 : t0 = tr0 := by simpa [item] using h4
    subst ht0
    refine ⟨t0, rest, slows, rfl, h3, rfl, rfl, ?_, rfl, h5, h6, h7, rfl, rfl, rfl, rfl, rfl, rfl, rfl⟩
    rw [item_ok] at h2
    cases stk with
    | nil => simp at h2
    | cons a more => 
      simp at h2
      exact ⟨more, by rw [h1, h2]⟩

theorem hk_of_facts {env : Env F} {tr0 : Trace F} {rest : List (Trace F)} {preonset : F}
    {H K : List F} {Vp : Option (Scalar F)} {w1 w2 w3 : Option F} {layer : Option String}
    {stack : Option Bool} {sd : List F} {more : List (List F)} {slows : List (Scalar F)}
    {tb : List (Row F)} {best : Nat}
    (h1 : env.stack (tr0 :: rest) = .ok (sd :: more))
    (h3 : (tr0 :: rest).mapM Trace.getSlowness = .ok slows)
    (h5 : gridLoop K H (cell env (tr0 :: rest) (timeAxis tr0.delta preonset tr0.data.length) sd
      (npMean (slows.map Scalar.val)) (Vp.getD ⟨.py, dec 65 1⟩) (w1.getD (dec 6 1))
      (w2.getD (dec 3 1)) (w3.getD (dec 1 1)) (stack.getD false)) = .ok tb)
    (h6 : argmax (tb.map Row.s) = .ok best) (h7 : env.draw tb = .ok ()) :
    hk env (tr0 :: rest) preonset H K Vp w1 w2 w3 layer stack = .ok
      { RF := tr0 :: rest, RFStack := sd, time := timeAxis tr0.delta preonset tr0.data.length,
        bestIdx := best, staname := tr0.station, Vp := Vp.getD ⟨.py, dec 65 1⟩,
        stackvalues := tb, layer := layer.getD "Moho", stack := stack.getD false,
        comp := tr0.channel, AvgSlow := npMean (slows.map Scalar.val), H := H, K := K } := by
  unfold hk
  rw [h1, except_ok_bind]
  have : item (sd :: more) 0 = .ok sd := rfl
  rw [this, except_ok_bind, h3, except_ok_bind]
  have : item (tr0 :: rest) 0 = .ok tr0 := rfl
  rw [this, except_ok_bind]
  simp only [h5, h6, h7, except_ok_bind, except_pure]

/-- one grid point: the accumulated sum is the fold of the traces' terms -/
theorem foldlM_terms (term : Trace F → Except PyErr F) (st : List (Trace F)) :
    ∀ (s0 : F), st.foldlM (fun s tr => do
        let x ← term tr
        pure (x + s)) s0
      = (do let xs ← st.mapM term
            pure (xs.foldl (fun s x => x + s) s0)) := by
  induction st with
  | nil => intro s0; rfl
  | cons tr st ih =>
    intro s0
    rw [List.foldlM_cons, List.mapM_cons]
    cases h : term tr with
    | error e => rfl
    | ok x =>
      simp only [except_ok_bind, except_pure]
      have := ih (x + s0)
      simp only [except_pure] at this
      rw [this]
      cases List.mapM term st <;> rfl

theorem cell_eq (env : Env F) (st : List (Trace F)) (t sd : List F) (avg : F) (Vp : Scalar F)
    (w1 w2 w3 : F) (stack : Bool) (k x : F) :
    cell env st t sd avg Vp w1 w2 w3 stack k x
      = (do let xs ← st.mapM (traceTerm env t sd avg Vp w1 w2 w3 stack k x)
            pure (xs.foldl (fun s x => x + s) zero)) :=
  foldlM_terms _ st zero

theorem foldl_add_real (xs : List ℝ) : ∀ s0, xs.foldl (fun s x => x + s) s0 = xs.sum + s0 := by
  induction xs with
  | nil => intro s0; simp
  | cons x xs ih => intro s0; rw [List.foldl_cons, ih, List.sum_cons]; ring

theorem cell_real_ok {env : Env ℝ} {st : List (Trace ℝ)} {t sd : List ℝ} {avg : ℝ}
    {Vp : Scalar ℝ} {w1 w2 w3 : ℝ} {stack : Bool} {k x s : ℝ} :
    cell env st t sd avg Vp w1 w2 w3 stack k x = .ok s ↔
      ∃ xs, st.mapM (traceTerm env t sd avg Vp w1 w2 w3 stack k x) = .ok xs ∧ s = xs.sum := by
  rw [cell_eq, bind_eq_ok]
  constructor
  · rintro ⟨xs, h1, h2⟩
    cases h2
    exact ⟨xs, h1, by rw [foldl_add_real]; simp⟩
  · rintro ⟨xs, h1, rfl⟩
    exact ⟨xs, h1, by rw [foldl_add_real]; simp⟩

/-- `1 / Vp` is defined -/
def VpOk (Vp : Scalar F) : Prop := ∃ v, oneOver Vp = .ok v

theorem oneOver_ok {Vp : Scalar F} {v : F} (h : oneOver Vp = .ok v) : v = one / Vp.val := by
  unfold oneOver at h
  split at h
  · cases h; rfl
  · split at h
    · cases h
    · cases h; rfl

theorem oneOver_real {Vp : Scalar ℝ} (h : Vp.val ≠ 0) : oneOver Vp = .ok (1 / Vp.val) := by
  unfold oneOver
  split
  · simp
  · rw [if_neg]
    · simp
    · rw [real_eq]; simpa using h

/-- success of one trace at one grid point does not depend on the ray parameter -/
theorem traceTerm_total [IEEEOrder F] {env : Env F} {t sd : List F} {avg : F} {Vp : Scalar F}
    {w1 w2 w3 : F} {stack : Bool} {k x : F} {tr : Trace F} (hVp : VpOk Vp) (hne : t ≠ [])
    (hon : tr.onset.isSome) (hsl : tr.slowness.isSome)
    (hd : t.length ≤ (if stack then sd else tr.data).length) :
    ∃ v, traceTerm env t sd avg Vp w1 w2 w3 stack k x tr = .ok v := by
  obtain ⟨v, hv⟩ := hVp
  obtain ⟨o, ho⟩ := Option.isSome_iff_exists.1 hon
  obtain ⟨sl, hsl⟩ := Option.isSome_iff_exists.1 hsl
  unfold traceTerm
  simp only [Trace.getOnset, ho, Trace.getSlowness, hsl, except_ok_bind, hv]
  obtain ⟨_, a1, _, _, h1⟩ := getamp_total (t := PyNum.rmul x (PyNum.rsub (powHalf (square (k / Vp.val) - square (if stack then env.km2deg1 * avg else env.km2deg1 * sl.val)))
    (powHalfK (Vp.kind.join (if stack then Kind.np else sl.kind)) (square v - square (if stack then env.km2deg1 * avg else env.km2deg1 * sl.val))))) hne hd
  obtain ⟨_, a2, _, _, h2⟩ := getamp_total (t := PyNum.rmul x (PyNum.radd (powHalf (square (k / Vp.val) - square (if stack then env.km2deg1 * avg else env.km2deg1 * sl.val)))
    (powHalfK (Vp.kind.join (if stack then Kind.np else sl.kind)) (square v - square (if stack then env.km2deg1 * avg else env.km2deg1 * sl.val))))) hne hd
  obtain ⟨_, a3, _, _, h3⟩ := getamp_total (t := PyNum.real (x * two * powHalf (square (k / Vp.val) - square (if stack then env.km2deg1 * avg else env.km2deg1 * sl.val)))) hne hd
  rw [h1, h2, h3]
  exact ⟨_, rfl⟩

/-- ray parameter used for a trace -/
noncomputable def rpOf (env : Env ℝ) (avg : ℝ) (stack : Bool) (sl : ℝ) : ℝ :=
  if stack then env.km2deg1 * avg else env.km2deg1 * sl

theorem eta_ratio (p Vp K : ℝ) : eta p (Vp / K) = Real.sqrt ((K / Vp) ^ 2 - p ^ 2) := by
  unfold eta
  congr 2
  rw [div_pow, div_pow, one_div_div]

theorem eta_one (p Vp : ℝ) : eta p Vp = Real.sqrt ((1 / Vp) ^ 2 - p ^ 2) := by
  unfold eta
  congr 2
  rw [div_pow, one_pow]

theorem powHalfK_real_nonneg {k : Kind} {x : ℝ} (h : 0 ≤ x) :
    powHalfK k x = .real (Real.sqrt x) := by
  cases k
  · unfold powHalfK
    simp [h]
  · rfl

/-- A trace's contribution for pre-critical ray parameters, in terms of the
specification delay times. -/
theorem traceTerm_real {env : Env ℝ} {t sd : List ℝ} {avg : ℝ} {Vp : Scalar ℝ}
    {w1 w2 w3 : ℝ} {stack : Bool} {k x : ℝ} {tr : Trace ℝ} {o : ℝ} {sl : Scalar ℝ}
    (hVp : Vp.val ≠ 0) (ho : tr.onset = some o) (hs : tr.slowness = some sl)
    (hpre : (rpOf env avg stack sl.val) ^ 2 ≤ (1 / Vp.val) ^ 2) :
    traceTerm env t sd avg Vp w1 w2 w3 stack k x tr = (do
      let d := if stack then sd else tr.data
      let p := rpOf env avg stack sl.val
      let a1 ← getamp d t (.real (tPs p Vp.val x k))
      let a2 ← getamp d t (.real (tPpPs p Vp.val x k))
      let a3 ← getamp d t (.real (tPsPs p Vp.val x k))
      pure (w1 * a1 + w2 * a2 - w3 * a3)) := by
  unfold traceTerm
  simp only [Trace.getOnset, ho, Trace.getSlowness, hs, except_ok_bind, oneOver_real hVp]
  have hp : (if stack = true then env.km2deg1 * avg else env.km2deg1 * sl.val)
      = rpOf env avg stack sl.val := rfl
  rw [hp]
  rw [powHalfK_real_nonneg (by simpa using hpre)]
  have e1 : PyNum.rmul x (PyNum.rsub (powHalf (square (k / Vp.val) - square (rpOf env avg stack sl.val)))
      (PyNum.real (Real.sqrt (square (1 / Vp.val) - square (rpOf env avg stack sl.val)))))
      = .real (tPs (rpOf env avg stack sl.val) Vp.val x k) := by
    simp only [PyNum.rmul, PyNum.rsub, tPs, eta_ratio, eta_one _ Vp.val, real_powHalf, real_square]
  have e2 : PyNum.rmul x (PyNum.radd (powHalf (square (k / Vp.val) - square (rpOf env avg stack sl.val)))
      (PyNum.real (Real.sqrt (square (1 / Vp.val) - square (rpOf env avg stack sl.val)))))
      = .real (tPpPs (rpOf env avg stack sl.val) Vp.val x k) := by
    simp only [PyNum.rmul, PyNum.radd, tPpPs, eta_ratio, eta_one _ Vp.val, real_powHalf, real_square]
  have e3 : PyNum.real (x * two * powHalf (square (k / Vp.val) - square (rpOf env avg stack sl.val)))
      = .real (tPsPs (rpOf env avg stack sl.val) Vp.val x k) := by
    simp only [tPsPs, eta_ratio, real_powHalf, real_square, real_two]
    rw [mul_comm x 2]
  rw [e1, e2, e3]

theorem traceTerm_real_ok {env : Env ℝ} {t sd : List ℝ} {avg : ℝ} {Vp : Scalar ℝ}
    {w1 w2 w3 : ℝ} {stack : Bool} {k x : ℝ} {tr : Trace ℝ} {o : ℝ} {sl : Scalar ℝ} {v : ℝ}
    (hVp : Vp.val ≠ 0) (ho : tr.onset = some o) (hs : tr.slowness = some sl)
    (hpre : (rpOf env avg stack sl.val) ^ 2 ≤ (1 / Vp.val) ^ 2) :
    traceTerm env t sd avg Vp w1 w2 w3 stack k x tr = .ok v ↔
      ∃ a1 a2 a3, ReadsNearest (if stack then sd else tr.data) t
          (tPs (rpOf env avg stack sl.val) Vp.val x k) a1 ∧
        ReadsNearest (if stack then sd else tr.data) t
          (tPpPs (rpOf env avg stack sl.val) Vp.val x k) a2 ∧
        ReadsNearest (if stack then sd else tr.data) t
          (tPsPs (rpOf env avg stack sl.val) Vp.val x k) a3 ∧
        v = w1 * a1 + w2 * a2 - w3 * a3 := by
  rw [traceTerm_real hVp ho hs hpre]
  simp only [bind_eq_ok, except_pure, Except.ok.injEq, getamp_ok_iff (distOk_real _ _)]
  constructor
  · rintro ⟨a1, h1, a2, h2, a3, h3, rfl⟩; exact ⟨a1, a2, a3, h1, h2, h3, rfl⟩
  · rintro ⟨a1, a2, a3, h1, h2, h3, rfl⟩; exact ⟨a1, h1, a2, h2, a3, h3, rfl⟩

/-- if a term is defined, the trace has onset and slowness -/
theorem traceTerm_ok_header {env : Env F} {t sd : List F} {avg : F} {Vp : Scalar F}
    {w1 w2 w3 : F} {stack : Bool} {k x : F} {tr : Trace F} {v : F}
    (h : traceTerm env t sd avg Vp w1 w2 w3 stack k x tr = .ok v) :
    ∃ o sl, tr.onset = some o ∧ tr.slowness = some sl ∧ VpOk Vp := by
  unfold traceTerm at h
  obtain ⟨o, h1, h⟩ := bind_eq_ok.1 h
  obtain ⟨sl, h2, h⟩ := bind_eq_ok.1 h
  obtain ⟨v, h3, h⟩ := bind_eq_ok.1 h
  refine ⟨o, sl, ?_, ?_, v, h3⟩
  · unfold Trace.getOnset at h1; split at h1 <;> simp_all
  · unfold Trace.getSlowness at h2; split at h2 <;> simp_all

theorem timeAxis_length (d p : F) (l : Nat) : (timeAxis d p l).length = l := by
  simp [timeAxis]

theorem getSlowness_ok {tr : Trace F} {s : Scalar F} : tr.getSlowness = .ok s ↔ tr.slowness = some s := by
  unfold Trace.getSlowness; split <;> simp_all

end HkZhu
end Rfsed
