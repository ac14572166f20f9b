import Verif.Props.ExperimentResonance
import Verif.Props.ExperimentRF

/-!
# C140: forward modelling, deconvolution, resonance filter and `hkYu` in sufficiently precise arithmetic
-/

namespace Rfsed.Props
open Rfsed HkZhu Spec Synrf ReverbFilter

section
variable {l : Layer} {rest : List Layer} {depth r : List ℝ} {rayp : RaypArg} {dt pre g : ℝ} {npts : ℕ} {ipha : ℤ} {o : Obj}
  {bp : Bandpass} {f : FilterArgs → ℝ → List ℝ → List ℝ} {calls : List Call} {pf : Option (List ℝ)} {kw : KwArgs}
  {meth : Option String}

/-- The exact resonance filter returned `Q`, the exact `hkYu` on it returned `res`, and nothing about it is a coin toss: the
autocorrelation has a clear first trough, all models of the grid let P and S waves through, every delay time has one nearest
sample, the best model is the only best one. -/
structure DecidedYu (Q : FltResults) (L : ℕ) (env : Env ℝ) (p VpM VpS VsS : Scalar ℝ) (H K : List ℝ) (w1 w2 w3 : ℝ)
    (res : HkYu.YuResult ℝ) : Prop where
  filtered : Returned Q
  varies : NotLinear Q.rf
  trough : ClearTrough 0 Q.autoc L
  run : HkYu.hkYu env Q.toYu p H K (some VpM) (some VpS) (some VsS) (some w1) (some w2) (some w3) = .ok res
  long : Q.time.length ≤ Q.rf.length
  shearVel : VsS.val ≠ 0
  compVel : VpS.val ≠ 0
  shear : ∀ k ∈ K, p.val ^ 2 < (k / VpM.val) ^ 2
  compression : p.val ^ 2 < (1 / VpM.val) ^ 2
  clear : ∀ k ∈ K, ∀ y ∈ H, ClearTimes Q.time
    (tPs p.val VpM.val y k + sedimentDelay Q.tlag.val VpS.val VsS.val)
    (tPpPs p.val VpM.val y k + Q.tlag.val - sedimentDelay Q.tlag.val VpS.val VsS.val)
    (tPsPs p.val VpM.val y k + Q.tlag.val) 0
  unique : Margin 0 res.stackvaluesSubSed res.bestIdx

/-- **C140** The whole analysis of a sedimentary basin - seismograms, filters, iterative deconvolution, resonance filter,
`hkYu` - carried out in sufficiently precise arithmetic: it succeeds, the reported P delay of the sediments and every stack
value are within `C ε` of the exact ones, and the best model is the exact one. -/
theorem c140_sediment (hmeth : (meth.getD "iter").toLower = "iter") (hnp : 3 ≤ npts) (hdt : dt ≠ 0)
    (hp : ∀ p ∈ r, ∀ k ∈ l :: rest, k.Propagating p) (hdepth : thicknesses depth = hs (l :: rest))
    (ho : init depth (alphas (l :: rest)) (betas (l :: rest)) (rhos (l :: rest)) rayp dt npts ipha = .ok o)
    (hr : slownesses rayp = some r) (hc : ∀ c ∈ calls, c.isFwd = false)
    (hpf : pf = none ∨ (Call.deconv pf pre g meth kw).pass ≠ none)
    (hbp : ∀ c ∈ calls ++ [Call.deconv pf pre g meth kw], ∀ a, c.pass = some a →
      ∀ d x, bp a d x = .ok (f a d x))
    (hkw : kw.wlevel = none ∧ kw.normalize = none) (hnt : kw.nt = none ∨ kw.nt = some npts)
    (hm : 0 ≤ kw.minderr.getD 0.001)
    (hcos : Real.cos (2 * Real.pi * (pyInt (pre / dt) : ℝ) / nextPow2 npts) ≠ 0)
    (hsteady : ∀ c ∈ calls ++ [Call.deconv pf pre g meth kw], ∀ a, c.pass = some a → ProportionalFilter (f a dt))
    (hrun : ∀ p ∈ r, ∀ u z, fwd_seis p dt npts ipha (alphas (l :: rest)) (betas (l :: rest)) (rhos (l :: rest))
        (hs (l :: rest)) = .ok (.num u, .num z) →
      let n := nextPow2 npts
      let passed := fun x => ((calls ++ [Call.deconv pf pre g meth kw]).filterMap Call.pass).foldl (fun x a => f a dt x) x
      ∃ k ≤ kw.itmax.getD 400, ∃ P, SteadyRun n dt (lowpass n dt g (passed u)) (lowpass n dt g (passed z))
        (kw.phase.getD "P") (kw.minderr.getD 0.001) (kw.itmax.getD 400) k P) :
    ∃ rfs, (run_deconvolution bp (after bp (run_fwd o).1 calls) pf pre g meth kw).2 = .ok rfs ∧
      rfs.length = r.length ∧ ∀ (i : Nat) t (Q : FltResults) L env p VpM VpS VsS H K w1 w2 w3 res, rfs[i]? = some t →
        t.data = some Q.rf → DecidedYu Q L env p VpM VpS VsS H K w1 w2 w3 res →
        ∃ C > 0, ∃ δ > 0, ∀ ε, 0 < ε → ε ≤ δ → ∀ outs : List (List ℝ × Nat),
          List.Forall₂ (fun p out => SynthIterRun ε p dt npts ipha l rest
            (fun x => ((calls ++ [Call.deconv pf pre g meth kw]).filterMap Call.pass).foldl (fun x a => f a dt x) x)
            pre g (kw.itmax.getD 400) (kw.minderr.getD 0.001) (kw.phase.getD "P") out.1 out.2) r outs →
          ∀ R : Rounding, R.u ≤ ε → ∀ (env' : Env (FL R)) (flt' : HkYu.FltInput (FL R)) (H' K' : List (FL R))
            (p' VpM' VpS' VsS' : Scalar (FL R)) (v1 v2 v3 : FL R) (x' : List ℝ) (k : Nat) ac s,
            outs[i]? = some (x', k) →
            Nonempty (ResonanceRun ε x' Q.delta ac s flt'.tlag.val.val (flt'.filteredrf.map FL.val)) →
            flt'.time.map FL.val = Q.time → H'.map FL.val = H → K'.map FL.val = K →
            p'.val.val = p.val → VpM'.val.val = VpM.val → VpS'.val.val = VpS.val → VsS'.val.val = VsS.val →
            v1.val = w1 → v2.val = w2 → v3.val = w3 → (∀ tb, tb ≠ [] → env'.draw tb = .ok ()) →
            ∃ res', HkYu.hkYu env' flt' p' H' K' (some VpM') (some VpS') (some VsS') (some v1) (some v2) (some v3) = .ok res' ∧
              |res'.Pdelay.val - res.Pdelay| ≤ C * ε ∧
              NearTable (C * ε) res.stackvaluesSubSed (res'.stackvaluesSubSed.map exactRow) ∧
              res'.bestIdx = res.bestIdx := by
  obtain ⟨rfs, h1, h2, C, hC, δ, hδ, h3⟩ := c139_session (o := o) (f := f) hmeth hnp hdt hp hdepth ho hr hc hpf hbp hkw hnt hm
    hcos hsteady hrun
  refine ⟨rfs, h1, h2, fun i t Q L env p VpM VpS VsS H K w1 w2 w3 res ht hx hd => ?_⟩
  obtain ⟨C', hC', δ', hδ', h4⟩ := c140_resonance hd.filtered hd.varies hd.trough hd.run hd.long hd.shearVel hd.compVel hd.shear
    hd.compression hd.clear hd.unique hC.le
  refine ⟨C', hC', min δ δ', lt_min hδ hδ', ?_⟩
  intro ε hε hεδ outs houts R hR env' flt' H' K' p' VpM' VpS' VsS' v1 v2 v3 x' k ac s hi
  have hall := h3 ε hε (hεδ.trans (min_le_left _ _)) outs houts
  obtain ⟨l1, e1⟩ := List.getElem?_eq_some_iff.1 ht
  obtain ⟨l2, e2⟩ := List.getElem?_eq_some_iff.1 hi
  obtain ⟨-, y, hy, hw⟩ := (List.forall₂_iff_get.1 hall).2 i l1 l2
  simp only [List.get_eq_getElem, e1, e2] at hy hw
  rw [hx] at hy
  cases hy
  exact h4 ε hε (hεδ.trans (min_le_right _ _)) x' ac s hw R hR env' flt' H' K' p' VpM' VpS' VsS' v1 v2 v3

end

end Rfsed.Props
