import Verif.Props.ExperimentSeq
import Verif.Props.IterClearRF

/-!
# C140: a whole synthetic experiment - forward modelling, deconvolution, grid search - in sufficiently precise arithmetic
-/

namespace Rfsed.Props
open Rfsed HkZhu Spec Synrf

/-- the arguments of `hkSynth` besides the receiver function, as numbers of one arithmetic -/
structure Search (F : Type) where
  time : List F
  H : List F
  K : List F
  rayp : Scalar F
  Vp : Scalar F
  w1 : F
  w2 : F
  w3 : F
  layer : Option String

/-- `hkSynth` with these arguments -/
def Search.run {F : Type} [PyFloat F] (S : Search F) (env : Env F) (rf : List F) :
    Except PyErr (SynthAnalysis.SynthResult F) :=
  SynthAnalysis.hkSynth env rf S.time S.rayp S.H S.K (some S.Vp) (some S.w1) (some S.w2) (some S.w3) S.layer

/-- the same arguments as real numbers -/
def Search.exact {R : Rounding} (S : Search (FL R)) : Search ℝ where
  time := S.time.map FL.val
  H := S.H.map FL.val
  K := S.K.map FL.val
  rayp := ⟨S.rayp.kind, S.rayp.val.val⟩
  Vp := ⟨S.Vp.kind, S.Vp.val.val⟩
  w1 := S.w1.val
  w2 := S.w2.val
  w3 := S.w3.val
  layer := S.layer

/-- The exact search on the receiver function `x` returns `r`, and nothing about it is a coin toss: all models of the grid let
P and S waves through, every delay time has one nearest sample, the best model is the only best one. -/
structure Decided (S : Search ℝ) (env : Env ℝ) (x : List ℝ) (r : SynthAnalysis.SynthResult ℝ) : Prop where
  run : S.run env x = .ok r
  long : S.time.length ≤ x.length
  shear : ∀ k ∈ S.K, S.rayp.val ^ 2 < (k / S.Vp.val) ^ 2
  compression : S.rayp.val ^ 2 < (1 / S.Vp.val) ^ 2
  clear : ∀ k ∈ S.K, ∀ h ∈ S.H, ClearArrivals S.time S.rayp.val S.Vp.val h k 0
  unique : Margin 0 r.stackvalues r.bestIdx

/-- **C140** the search alone -/
theorem c140_search {S : Search ℝ} {env : Env ℝ} {x : List ℝ} {r : SynthAnalysis.SynthResult ℝ} (h : Decided S env x r)
    {C : ℝ} (hC : 0 ≤ C) :
    ∃ C' > 0, ∃ δ > 0, ∀ ε, 0 < ε → ε ≤ δ → ∀ R : Rounding, R.u ≤ ε → ∀ (S' : Search (FL R)) (env' : Env (FL R))
      (d : List (FL R)), S'.exact = S → SamplesWithin (C * ε) x (d.map FL.val) →
      (∀ tb, tb ≠ [] → env'.draw tb = .ok ()) →
      ∃ r', S'.run env' d = .ok r' ∧ NearTable (C' * ε) r.stackvalues (r'.stackvalues.map exactRow) ∧
        r'.bestIdx = r.bestIdx := by
  obtain ⟨C', h1, δ, h2, h3⟩ := c140_hkSynth h.run h.long h.shear h.compression h.clear h.unique hC
  refine ⟨C', h1, δ, h2, fun ε hε hεδ R hR S' env' d hS hd hdraw => ?_⟩
  subst hS
  exact h3 ε hε hεδ R hR env' d S'.time S'.H S'.K S'.rayp S'.Vp S'.w1 S'.w2 S'.w3 S'.layer hd rfl rfl rfl rfl rfl rfl rfl rfl
    hdraw

section
variable {l : Layer} {rest : List Layer} {depth r : List ℝ} {rayp : RaypArg} {dt pre g : ℝ} {npts : ℕ} {ipha : ℤ} {o : Obj}
  {bp : Bandpass} {f : FilterArgs → ℝ → List ℝ → List ℝ} {calls : List Call} {pf : Option (List ℝ)} {kw : KwArgs}
  {meth : Option String}

/-- **C140** The default method: if the exact deconvolutions make their decisions clearly and the exact search on the `i`-th
receiver function is decided, then all computations of sufficient precision - the seismograms, the filters, the
deconvolution, the stacking - end with the same best model, and with stack values within `C ε` of the exact ones. -/
theorem c140_experiment (hmeth : (meth.getD "iter").toLower = "iter") (hnp : 3 ≤ npts) (hdt : dt ≠ 0)
    (hp : ∀ p ∈ r, ∀ k ∈ l :: rest, k.Propagating p) (hdepth : thicknesses depth = hs (l :: rest))
    (ho : init depth (alphas (l :: rest)) (betas (l :: rest)) (rhos (l :: rest)) rayp dt npts ipha = .ok o)
    (hr : slownesses rayp = some r) (hc : ∀ c ∈ calls, c.isFwd = false)
    (hpf : pf = none ∨ (Call.deconv pf pre g meth kw).pass ≠ none)
    (hbp : ∀ c ∈ calls ++ [Call.deconv pf pre g meth kw], ∀ a, c.pass = some a →
      ∀ d x, bp a d x = .ok (f a d x))
    (hkw : kw.wlevel = none ∧ kw.normalize = none) (hnt : kw.nt = none ∨ kw.nt = some npts)
    (hm : 0 ≤ kw.minderr.getD 0.001)
    (hcos : Real.cos (2 * Real.pi * (pyInt (pre / dt) : ℝ) / nextPow2 npts) ≠ 0)
    (hsteady : ∀ c ∈ calls ++ [Call.deconv pf pre g meth kw], ∀ a, c.pass = some a → ProportionalFilter (f a dt))
    (hrun : ∀ p ∈ r, ∀ u z, fwd_seis p dt npts ipha (alphas (l :: rest)) (betas (l :: rest)) (rhos (l :: rest))
        (hs (l :: rest)) = .ok (.num u, .num z) →
      let n := nextPow2 npts
      let passed := fun x => ((calls ++ [Call.deconv pf pre g meth kw]).filterMap Call.pass).foldl (fun x a => f a dt x) x
      ∃ k ≤ kw.itmax.getD 400, ∃ P, SteadyRun n dt (lowpass n dt g (passed u)) (lowpass n dt g (passed z))
        (kw.phase.getD "P") (kw.minderr.getD 0.001) (kw.itmax.getD 400) k P) :
    ∃ rfs, (run_deconvolution bp (after bp (run_fwd o).1 calls) pf pre g meth kw).2 = .ok rfs ∧
      rfs.length = r.length ∧ ∀ (i : Nat) t x (S : Search ℝ) env res, rfs[i]? = some t → t.data = some x →
        Decided S env x res →
        ∃ C > 0, ∃ δ > 0, ∀ ε, 0 < ε → ε ≤ δ → ∀ outs : List (List ℝ × Nat),
          List.Forall₂ (fun p out => SynthIterRun ε p dt npts ipha l rest
            (fun x => ((calls ++ [Call.deconv pf pre g meth kw]).filterMap Call.pass).foldl (fun x a => f a dt x) x)
            pre g (kw.itmax.getD 400) (kw.minderr.getD 0.001) (kw.phase.getD "P") out.1 out.2) r outs →
          ∀ R : Rounding, R.u ≤ ε → ∀ (S' : Search (FL R)) (env' : Env (FL R)) (d : List (FL R)) (k : Nat),
            outs[i]? = some (d.map FL.val, k) → S'.exact = S → (∀ tb, tb ≠ [] → env'.draw tb = .ok ()) →
            ∃ res', S'.run env' d = .ok res' ∧
              NearTable (C * ε) res.stackvalues (res'.stackvalues.map exactRow) ∧ res'.bestIdx = res.bestIdx := by
  obtain ⟨rfs, h1, h2, C, hC, δ, hδ, h3⟩ := c139_session (o := o) (f := f) hmeth hnp hdt hp hdepth ho hr hc hpf hbp hkw hnt hm
    hcos hsteady hrun
  refine ⟨rfs, h1, h2, fun i t x S env res ht hx hdec => ?_⟩
  obtain ⟨C', hC', δ', hδ', h4⟩ := c140_search hdec hC.le
  refine ⟨C', hC', min δ δ', lt_min hδ hδ', fun ε hε hεδ outs houts R hR S' env' d k hi hS hdraw => ?_⟩
  have hall := h3 ε hε (hεδ.trans (min_le_left _ _)) outs houts
  obtain ⟨l1, e1⟩ := List.getElem?_eq_some_iff.1 ht
  obtain ⟨l2, e2⟩ := List.getElem?_eq_some_iff.1 hi
  obtain ⟨-, y, hy, hw⟩ := (List.forall₂_iff_get.1 hall).2 i l1 l2
  simp only [List.get_eq_getElem, e1, e2] at hy hw
  rw [hx] at hy
  cases hy
  exact h4 ε hε (hεδ.trans (min_le_right _ _)) R hR S' env' d hS hw hdraw

/-- **C140** The water-level method: nothing has to be assumed of the deconvolutions, besides a vertical component that is not
zero. -/
theorem c140_water (hnp : 2 ≤ npts) (hdt : dt ≠ 0) (hp : ∀ p ∈ r, ∀ k ∈ l :: rest, k.Propagating p)
    (hdepth : thicknesses depth = hs (l :: rest))
    (ho : init depth (alphas (l :: rest)) (betas (l :: rest)) (rhos (l :: rest)) rayp dt npts ipha = .ok o)
    (hr : slownesses rayp = some r) (hc : ∀ c ∈ calls, c.isFwd = false)
    (hpf : pf = none ∨ (Call.deconv pf pre g (some "water") kw).pass ≠ none)
    (hbp : ∀ c ∈ calls ++ [Call.deconv pf pre g (some "water") kw], ∀ a, c.pass = some a →
      ∀ d x, bp a d x = .ok (f a d x))
    (hkw : kw.nt = none ∧ kw.itmax = none ∧ kw.minderr = none)
    (hw : 0 < kw.wlevel.getD 0.05) (hw1 : kw.wlevel.getD 0.05 ≤ 1)
    (hsteady : ∀ c ∈ calls ++ [Call.deconv pf pre g (some "water") kw], ∀ a, c.pass = some a → ProportionalFilter (f a dt))
    (hz : ∀ p ∈ r, ∀ u z, fwd_seis p dt npts ipha (alphas (l :: rest)) (betas (l :: rest)) (rhos (l :: rest))
        (hs (l :: rest)) = .ok (.num u, .num z) →
      ∃ v ∈ ((calls ++ [Call.deconv pf pre g (some "water") kw]).filterMap Call.pass).foldl (fun x a => f a dt x) z,
        v ≠ 0) :
    ∃ rfs, (run_deconvolution bp (after bp (run_fwd o).1 calls) pf pre g (some "water") kw).2 = .ok rfs ∧
      ∀ (i : Nat) t x (S : Search ℝ) env res, rfs[i]? = some t → t.data = some x → Decided S env x res →
        ∃ C > 0, ∃ δ > 0, ∀ ε, 0 < ε → ε ≤ δ → ∀ outs,
          List.Forall₂ (fun p out => SynthRun ε p dt npts ipha l rest
            (fun x => ((calls ++ [Call.deconv pf pre g (some "water") kw]).filterMap Call.pass).foldl (fun x a => f a dt x) x)
            pre (kw.wlevel.getD 0.05) g (kw.normalize.getD false) out) r outs →
          ∀ R : Rounding, R.u ≤ ε → ∀ (S' : Search (FL R)) (env' : Env (FL R)) (d : List (FL R)),
            outs[i]? = some (d.map FL.val) → S'.exact = S → (∀ tb, tb ≠ [] → env'.draw tb = .ok ()) →
            ∃ res', S'.run env' d = .ok res' ∧
              NearTable (C * ε) res.stackvalues (res'.stackvalues.map exactRow) ∧ res'.bestIdx = res.bestIdx := by
  obtain ⟨rfs, h1, C, hC, δ, hδ, h3⟩ := c135_rate (o := o) (f := f) hnp hdt hp hdepth ho hr hc hpf hbp hkw hw hw1 hsteady hz
  refine ⟨rfs, h1, fun i t x S env res ht hx hdec => ?_⟩
  obtain ⟨C', hC', δ', hδ', h4⟩ := c140_search hdec hC.le
  refine ⟨C', hC', min δ δ', lt_min hδ hδ', fun ε hε hεδ outs houts R hR S' env' d hi hS hdraw => ?_⟩
  have hall := h3 ε hε (hεδ.trans (min_le_left _ _)) outs houts
  obtain ⟨l1, e1⟩ := List.getElem?_eq_some_iff.1 ht
  obtain ⟨l2, e2⟩ := List.getElem?_eq_some_iff.1 hi
  obtain ⟨y, hy, hw⟩ := (List.forall₂_iff_get.1 hall).2 i l1 l2
  simp only [List.get_eq_getElem, e1, e2] at hy hw
  rw [hx] at hy
  cases hy
  exact h4 ε hε (hεδ.trans (min_le_right _ _)) R hR S' env' d hS hw hdraw

end

end Rfsed.Props
