import Verif.Props.TiesCopy
import Verif.Props.SensitivityRF

/-!
# C137: the default synthetic receiver functions change in proportion to the Earth model, unless an iteration is a tie
-/

namespace Rfsed.Props
open Rfsed Synrf Spec

theorem deconvTr_iter {u w : List ℝ} {dt pre g : ℝ} {meth : Option String} (hmeth : (meth.getD "iter").toLower = "iter")
    {kw : KwArgs} (hkw : kw.wlevel = none ∧ kw.normalize = none) {R : IterResult}
    (h : deconv_iterative u w dt kw.nt pre g (kw.itmax.getD 400) (kw.minderr.getD 0.001) (kw.phase.getD "P") = .ok R) :
    ∃ t, deconvTr ⟨.num u, dt⟩ ⟨.num w, dt⟩ meth { kw with preonset := some pre, gaussian := some g } = .ok t ∧
      t.data = R.rf ∧ t.iter = some R.it := by
  simp only [deconvTr, RFTrace_deconvolve, hmeth, if_true, callIter, hkw.1, hkw.2, Option.getD_some]
  simp [h, bind, Except.bind, pure, Except.pure]

/-- a steady run is the run of the program -/
theorem steady_it {uin win : List ℝ} {dt preonset a minderr : ℝ} {nt : Option Nat} {itmax k : Nat} {phase : String}
    {R : IterResult} {P : Nat → List ℝ}
    (h : deconv_iterative uin win dt nt preonset a itmax minderr phase = .ok R)
    (hnt : nt = none ∨ nt = some uin.length)
    (hP : let n := nextPow2 uin.length
      SteadyRun n dt (lowpass n dt a uin) (lowpass n dt a win) phase minderr itmax k P) (hk : k ≤ itmax) : R.it = k := by
  have hnt' : nt.getD uin.length = uin.length := by rcases hnt with rfl | rfl <;> rfl
  obtain ⟨hdt, hn2, hit, hcase⟩ := deconv_master h hnt'
  by_cases h0 : k = 0
  · rcases hP.halt with e | ⟨j, e, -⟩ <;> omega
  · obtain ⟨hU, hE⟩ := no_bestSpike (by omega) (hP.spike 0 (by omega))
    rcases hcase with ⟨P', rf, hg, -⟩ | ⟨-, -, -, -, -, e2⟩
    · exact (greedyRun_unique hP.toGreedyRun hg hk hit hU).1
    · rcases e2 with e | e
      · exact absurd e hE
      · exact absurd e hU

/-- one slowness: the deconvolved synthetics of nearby models -/
theorem rf_near_iter {p dt pre g : ℝ} {npts : Nat} {ipha : ℤ} {ls : List Layer} {pass : List ℝ → List ℝ} {kw : KwArgs}
    {meth : Option String} (hmeth : (meth.getD "iter").toLower = "iter")
    (hkw : kw.wlevel = none ∧ kw.normalize = none) (hnt : kw.nt = none ∨ kw.nt = some npts)
    (hnp : 3 ≤ npts) (hdt : dt ≠ 0) (hn : ls ≠ []) (hp : ∀ l ∈ ls, l.Propagating p) (hpass : ProportionalFilter pass)
    (hm : 0 ≤ kw.minderr.getD 0.001)
    (hcos : Real.cos (2 * Real.pi * (pyInt (pre / dt) : ℝ) / nextPow2 npts) ≠ 0)
    (hrun : ∀ u z, fwd_seis p dt npts ipha (alphas ls) (betas ls) (rhos ls) (hs ls) = .ok (.num u, .num z) →
      let n := nextPow2 npts
      ∃ k ≤ kw.itmax.getD 400, ∃ P, SteadyRun n dt (lowpass n dt g (pass u)) (lowpass n dt g (pass z)) (kw.phase.getD "P")
        (kw.minderr.getD 0.001) (kw.itmax.getD 400) k P) :
    ∃ u z t x, fwd_seis p dt npts ipha (alphas ls) (betas ls) (rhos ls) (hs ls) = .ok (.num u, .num z) ∧
      deconvTr ⟨.num (pass u), dt⟩ ⟨.num (pass z), dt⟩ meth
        { kw with preonset := some pre, gaussian := some g } = .ok t ∧ t.data = some x ∧
      ∃ C > 0, ∃ δ₀ > 0, ∀ δ, 0 < δ → δ ≤ δ₀ → ∀ (p' : ℝ) (ls' : List Layer), |p' - p| < δ →
        List.Forall₂ (Layer.Within δ) ls ls' →
        ∃ u' z' t' x', fwd_seis p' dt npts ipha (alphas ls') (betas ls') (rhos ls') (hs ls') = .ok (.num u', .num z') ∧
          deconvTr ⟨.num (pass u'), dt⟩ ⟨.num (pass z'), dt⟩ meth
            { kw with preonset := some pre, gaussian := some g } = .ok t' ∧ t'.iter = t.iter ∧ t'.data = some x' ∧
          SamplesWithin (C * δ) x x' := by
  obtain ⟨u, z, hf, C1, hC1, δ1, hδ1, hball⟩ := c136_sensitivity (npts := npts) (ipha := ipha) (by omega) hdt hn hp
  have hlen : u.length = npts ∧ z.length = npts := by
    rcases c62_shape hf with ⟨a1, -⟩ | ⟨x, y, a1, a2, a3, a4⟩
    · cases a1
    · cases a1; cases a2; exact ⟨a3, a4⟩
  obtain ⟨lu, Lu, hLu, cu⟩ := hpass u
  obtain ⟨lz, Lz, hLz, cz⟩ := hpass z
  have hl : (pass u).length = npts := by omega
  obtain ⟨R, hR⟩ := (c112_iterative (uin := pass u) (win := pass z) (dt := dt) (nt := kw.nt) (preonset := pre) (a := g)
    (itmax := kw.itmax.getD 400) (minderr := kw.minderr.getD 0.001) (phase := kw.phase.getD "P") hm).2
    ⟨by omega, hdt, by rw [hl]; exact hnt.imp id Or.inl, Or.inl (by
      rcases hnt with e | e <;> rw [e]
      · simp [hl]; omega
      · simpa using hnp)⟩
  obtain ⟨k, hk, P, hP⟩ := hrun u z hf
  have hnt2 : kw.nt = none ∨ kw.nt = some (pass u).length := by rw [hl]; exact hnt
  have hit := steady_it hR hnt2 (by rw [hl]; exact hP) hk
  obtain ⟨x, hx, C2, hC2, δ2, hδ2, hnear⟩ := c137_proportional hR hnt2 hm (by rw [hl, hit]; exact ⟨P, hP⟩)
    (by rw [hl]; exact hcos)
  obtain ⟨t, ht, htx, hti⟩ := deconvTr_iter hmeth hkw hR
  have hK : 0 < (Lu + Lz) * C1 := by positivity
  refine ⟨u, z, t, x, hf, ht, htx.trans hx, C2 * ((Lu + Lz) * C1), by positivity, min δ1 (δ2 / ((Lu + Lz) * C1)),
    lt_min hδ1 (by positivity), fun δ hδ hδδ p' ls' hp' hls => ?_⟩
  obtain ⟨-, u', z', hf', hu', hz'⟩ := hball δ hδ (hδδ.trans (min_le_left _ _)) p' dt ls' hp' (by simpa using hδ) hls
  have hb : (Lu + Lz) * C1 * δ ≤ δ2 := by
    have := hδδ.trans (min_le_right _ _)
    rw [le_div_iff₀ hK] at this
    linarith
  have hC1δ : 0 < C1 * δ := by positivity
  obtain ⟨R', x', hR', hit', hx', hxx⟩ := hnear ((Lu + Lz) * C1 * δ) (by positivity) hb _ _
    (samplesWithin_mono (by nlinarith) (cu (C1 * δ) hC1δ u' hu'))
    (samplesWithin_mono (by nlinarith) (cz (C1 * δ) hC1δ z' hz'))
  obtain ⟨t', ht', htx', hti'⟩ := deconvTr_iter hmeth hkw hR'
  exact ⟨u', z', t', x', hf', ht', by rw [hti', hti, hit'], htx'.trans hx',
    by rw [← mul_assoc] at hxx; exact samplesWithin_mono (by linarith) hxx⟩

section
variable {ls : List Layer} {depth r : List ℝ} {rayp : RaypArg} {dt pre g : ℝ} {npts : ℕ} {ipha : ℤ} {o : Obj}
  {bp : Bandpass} {f : FilterArgs → ℝ → List ℝ → List ℝ} {calls : List Call} {pf : Option (List ℝ)} {kw : KwArgs}
  {meth : Option String}

/-- **C137** Whole sessions with the default method: around every model in which both waves propagate, and for whose
(filtered) synthetics the iterative deconvolution makes all its decisions clearly, the change of every sample of every
synthetic receiver function is at most a fixed multiple of the largest change of slownesses, depths, velocities and
densities, and the numbers of iterations do not change. -/
theorem c137_receiver_functions (hmeth : (meth.getD "iter").toLower = "iter") (hnp : 3 ≤ npts) (hdt : dt ≠ 0)
    (hn : ls ≠ []) (hp : ∀ p ∈ r, ∀ l ∈ ls, l.Propagating p) (hdepth : thicknesses depth = hs ls)
    (ho : init depth (alphas ls) (betas ls) (rhos ls) rayp dt npts ipha = .ok o)
    (hr : slownesses rayp = some r) (hc : ∀ c ∈ calls, c.isFwd = false)
    (hpf : pf = none ∨ (Call.deconv pf pre g meth kw).pass ≠ none)
    (hbp : ∀ c ∈ calls ++ [Call.deconv pf pre g meth kw], ∀ a, c.pass = some a →
      ∀ d x, bp a d x = .ok (f a d x))
    (hkw : kw.wlevel = none ∧ kw.normalize = none) (hnt : kw.nt = none ∨ kw.nt = some npts)
    (hm : 0 ≤ kw.minderr.getD 0.001)
    (hcos : Real.cos (2 * Real.pi * (pyInt (pre / dt) : ℝ) / nextPow2 npts) ≠ 0)
    (hsteady : ∀ c ∈ calls ++ [Call.deconv pf pre g meth kw], ∀ a, c.pass = some a → ProportionalFilter (f a dt))
    (hrun : ∀ p ∈ r, ∀ u z, fwd_seis p dt npts ipha (alphas ls) (betas ls) (rhos ls) (hs ls) = .ok (.num u, .num z) →
      let n := nextPow2 npts
      let passed := fun x => ((calls ++ [Call.deconv pf pre g meth kw]).filterMap Call.pass).foldl (fun x a => f a dt x) x
      ∃ k ≤ kw.itmax.getD 400, ∃ P, SteadyRun n dt (lowpass n dt g (passed u)) (lowpass n dt g (passed z))
        (kw.phase.getD "P") (kw.minderr.getD 0.001) (kw.itmax.getD 400) k P) :
    ∃ rfs, (run_deconvolution bp (after bp (run_fwd o).1 calls) pf pre g meth kw).2 = .ok rfs ∧
      rfs.length = r.length ∧ ∃ C > 0, ∃ δ₀ > 0, ∀ δ, 0 < δ → δ ≤ δ₀ →
        ∀ (depth' vp' vs' rho' r' : List ℝ) (rayp' : RaypArg) (o' : Obj),
        SamplesWithin δ depth depth' → SamplesWithin δ (alphas ls) vp' → SamplesWithin δ (betas ls) vs' →
        SamplesWithin δ (rhos ls) rho' → slownesses rayp' = some r' → SamplesWithin δ r r' →
        init depth' vp' vs' rho' rayp' dt npts ipha = .ok o' →
        ∃ rfs', (run_deconvolution bp (after bp (run_fwd o').1 calls) pf pre g meth kw).2 = .ok rfs' ∧
          List.Forall₂ (fun t t' => t'.iter = t.iter ∧
            ∃ x x', t.data = some x ∧ t'.data = some x' ∧ SamplesWithin (C * δ) x x') rfs rfs' := by
  obtain ⟨ps, hps⟩ : ∃ ps, ps = (calls ++ [Call.deconv pf pre g meth kw]).filterMap Call.pass := ⟨_, rfl⟩
  simp only [← hps] at hrun
  have hsp : ProportionalFilter (fun x => ps.foldl (fun x a => f a dt x) x) := by
    apply proportional_passes (fs := fun a x => f a dt x) ps
    intro a ha
    rw [hps, List.mem_filterMap] at ha
    obtain ⟨c, hc1, hc2⟩ := ha
    exact hsteady c hc1 a hc2
  -- one distance for all slownesses
  have hall : ∃ ts, List.Forall₂ (fun p t => ∃ u z, fwd_seis p dt npts ipha (alphas ls) (betas ls) (rhos ls) (hs ls) =
        .ok (.num u, .num z) ∧
      deconvTr ⟨.num (ps.foldl (fun x a => f a dt x) u), dt⟩ ⟨.num (ps.foldl (fun x a => f a dt x) z), dt⟩ meth
        { kw with preonset := some pre, gaussian := some g } = .ok t) r ts ∧
      ∃ C > 0, ∃ δ₀ > 0, ∀ δ, 0 < δ → δ ≤ δ₀ → ∀ (ls' : List Layer) (r' : List ℝ), List.Forall₂ (Layer.Within δ) ls ls' → SamplesWithin δ r r' →
        ∃ ts', List.Forall₂ (fun p t => ∃ u z, fwd_seis p dt npts ipha (alphas ls') (betas ls') (rhos ls') (hs ls') =
            .ok (.num u, .num z) ∧
          deconvTr ⟨.num (ps.foldl (fun x a => f a dt x) u), dt⟩ ⟨.num (ps.foldl (fun x a => f a dt x) z), dt⟩
            meth { kw with preonset := some pre, gaussian := some g } = .ok t) r' ts' ∧
          List.Forall₂ (fun t t' => t'.iter = t.iter ∧
            ∃ x x', t.data = some x ∧ t'.data = some x' ∧ SamplesWithin (C * δ) x x') ts ts' := by
    clear hr ho
    induction r with
    | nil =>
      refine ⟨[], .nil, 1, one_pos, 1, one_pos, fun δ _ _ ls' r' _ h => ?_⟩
      cases h
      exact ⟨[], .nil, .nil⟩
    | cons p r ih =>
      obtain ⟨ts, h1, C1, hC1, δ1, hδ1, h2⟩ := ih (fun q hq => hp q (List.mem_cons_of_mem _ hq))
        (fun q hq => hrun q (List.mem_cons_of_mem _ hq))
      obtain ⟨u, z, t, x, hf, ht, htx, C2, hC2, δ2, hδ2, h3⟩ := rf_near_iter (pre := pre) (g := g) hmeth hkw hnt hnp hdt hn
        (hp p (List.mem_cons_self ..)) hsp hm hcos (hrun p (List.mem_cons_self ..))
      refine ⟨t :: ts, .cons ⟨u, z, hf, ht⟩ h1, C1 + C2, by positivity, min δ1 δ2, lt_min hδ1 hδ2,
        fun δ hδ hδδ ls' r' hls hr' => ?_⟩
      cases hr' with
      | @cons _ p' _ r' hp' hr' =>
        obtain ⟨ts', g1, g2⟩ := h2 δ hδ (hδδ.trans (min_le_left _ _)) ls' r' hls hr'
        obtain ⟨u', z', t', x', hf', ht', hti, htx', hxx⟩ := h3 δ hδ (hδδ.trans (min_le_right _ _)) p' ls' hp' hls
        exact ⟨t' :: ts', .cons ⟨u', z', hf', ht'⟩ g1,
          .cons ⟨hti, x, x', htx, htx', samplesWithin_mono (by nlinarith) hxx⟩
          (g2.imp (fun a b ⟨k0, y, y', k1, k2, k3⟩ => ⟨k0, y, y', k1, k2, samplesWithin_mono (by nlinarith) k3⟩))⟩
  obtain ⟨ts, hts, C, hC, δ₀, hδ₀, hnear⟩ := hall
  refine ⟨ts, session_value (by omega) hdt hn hdepth ho hr hc hpf hbp hps hts, hts.length_eq.symm, 2 * C, by positivity, δ₀ / 2, by linarith,
    ?_⟩
  intro δ hδ hδδ depth' vp' vs' rho' r' rayp' o' hd ha hb hrh hray hr' ho'
  have hth : SamplesWithin (2 * δ) (hs ls) (thicknesses depth') := by
    rw [← hdepth]
    exact thick_near hd hδ
  obtain ⟨ls', rfl, rfl, rfl, hh⟩ := layers_of (α := vp') (β := vs') (ρ := rho') (h := thicknesses depth')
    (n := ls.length) (by rw [← ha.length_eq]; simp [alphas]) (by rw [← hb.length_eq]; simp [betas])
    (by rw [← hrh.length_eq]; simp [rhos]) (by rw [← hth.length_eq]; simp [hs])
  have hle : δ ≤ 2 * δ := by linarith
  have hls := layers_near (samplesWithin_mono hle ha) (samplesWithin_mono hle hb) (samplesWithin_mono hle hrh)
    (by rw [hh]; exact hth)
  obtain ⟨ts', h1, h2⟩ := hnear (2 * δ) (by linarith) (by linarith) ls' r' hls (samplesWithin_mono hle hr')
  have hn' : ls' ≠ [] := by
    rw [← List.length_pos_iff, ← hls.length_eq]
    exact List.length_pos_iff.2 hn
  exact ⟨ts', session_value (by omega) hdt hn' hh.symm ho' hray hc hpf hbp hps h1,
    h2.imp (fun a b ⟨k0, y, y', k1, k2, k3⟩ => ⟨k0, y, y', k1, k2, samplesWithin_mono (by linarith) k3⟩)⟩

end

/-- four samples of a seismogram with a flat spectrum -/
theorem flat_four (c : ℝ) (j : Nat) : synthSample 4 1 (fun _ => (c : ℂ)) j =
    c * (Real.cos ((j + 1) * (Real.pi / 2)) + Real.cos ((j + 1) * Real.pi)) / 16 := by
  have e1 : Finset.Icc 1 (4 / 2) = ({1, 2} : Finset ℕ) := by decide
  simp only [synthSample, e1]
  rw [Finset.sum_pair (by norm_num)]
  have h : ∀ θ : ℝ, ((c : ℂ) * Complex.exp (-(θ * Complex.I))).re = c * Real.cos θ := by
    intro θ
    rw [Complex.re_ofReal_mul, ← neg_mul, ← Complex.ofReal_neg, Complex.exp_ofReal_mul_I_re, Real.cos_neg]
  have h1 : -Complex.I * (((2 * Real.pi * ((1 : ℕ) : ℝ) / (((4 : ℕ) : ℝ) * 1) : ℝ) : ℂ) *
      ((((j : ℝ) + 1) * 1 : ℝ) : ℂ)) = -((((j + 1) * (Real.pi / 2) : ℝ) : ℂ) * Complex.I) := by
    push_cast; ring
  have h2 : -Complex.I * (((2 * Real.pi * ((2 : ℕ) : ℝ) / (((4 : ℕ) : ℝ) * 1) : ℝ) : ℂ) *
      ((((j : ℝ) + 1) * 1 : ℝ) : ℂ)) = -((((j + 1) * Real.pi : ℝ) : ℂ) * Complex.I) := by
    push_cast; ring
  rw [h1, h2, h, h]
  norm_num
  ring

/-- the seismograms of a half-space, four samples -/
theorem hs_four {u z : List ℝ} (h : fwd_seis 0.06 1 4 1 [6] [3.5] [2.7] [35] = .ok (.num u, .num z)) :
    ∃ x y : ℝ, x ≠ 0 ∧ y ≠ 0 ∧ u = [-x, 0, -x, 2 * x] ∧ z = [-y, 0, -y, 2 * y] := by
  have hp := hsLayer_propagating
  have hξ := vert_pos (c := 6) (p := 0.06) (by norm_num) (by rw [abs_of_pos (by norm_num)]; norm_num)
  have hη := vert_pos (c := 3.5) (p := 0.06) (by norm_num) (by rw [abs_of_pos (by norm_num)]; norm_num)
  set ξ := vert 6 0.06
  set η := vert 3.5 0.06
  set b : ℝ := 1 - 2 * 3.5 ^ 2 * 0.06 ^ 2 with hb
  have hb0 : 0 < b := by rw [hb]; norm_num
  set R : ℝ := b ^ 2 + 4 * 3.5 ^ 4 * 0.06 ^ 2 * ξ * η with hR
  have hRpos : 0 < R := by positivity
  have key : ∀ ω : ℝ, ω ≠ 0 → haskell ω 0.06 ([35] : List ℝ).length 1 [6] [3.5] [2.7] [35] =
      .ok (some (((4 * 6 * 3.5 ^ 2 * 0.06 * ξ * η / R : ℝ) : ℂ), ((-(2 * 6 * ξ * b / R) : ℝ) : ℂ))) := by
    intro ω hω
    have := c78_halfspace (ipha := 1) hω hp
    exact this
  have hval := fwd_seis_some (npts := 4) (by norm_num) (one_ne_zero)
    (fun _ => ((4 * 6 * 3.5 ^ 2 * 0.06 * ξ * η / R : ℝ) : ℂ)) (fun _ => ((-(2 * 6 * ξ * b / R) : ℝ) : ℂ)) key
  have n4 : nextPow2 4 = 4 := by decide
  rw [h, n4] at hval
  have hu := congrArg Prod.fst (Except.ok.inj hval)
  have hz := congrArg Prod.snd (Except.ok.inj hval)
  simp only [Samples.num.injEq, flat_four] at hu hz
  have c1 : Real.cos (Real.pi * (3 / 2)) = 0 := by
    rw [show Real.pi * (3 / 2) = Real.pi / 2 + Real.pi by ring, Real.cos_add_pi, Real.cos_pi_div_two, neg_zero]
  have c2 : Real.cos (Real.pi * 2) = 1 := by rw [mul_comm]; exact Real.cos_two_pi
  have c3 : Real.cos (Real.pi * 3) = -1 := by
    rw [show Real.pi * 3 = Real.pi + 2 * Real.pi by ring, Real.cos_add_two_pi, Real.cos_pi]
  have c4 : Real.cos (Real.pi * 4) = 1 := by
    rw [show Real.pi * 4 = 2 * Real.pi + 2 * Real.pi by ring, Real.cos_add_two_pi, Real.cos_two_pi]
  have hk : ∀ c : ℝ, (List.range 4).map (fun j : Nat =>
      c * (Real.cos ((j + 1) * (Real.pi / 2)) + Real.cos ((j + 1) * Real.pi)) / 16) =
      [-(c / 16), 0, -(c / 16), 2 * (c / 16)] := by
    intro c
    simp only [List.range_succ, List.range_zero, List.nil_append, List.map_append, List.map_cons, List.map_nil,
      List.cons_append, List.cons.injEq, and_true]
    refine ⟨?_, ?_, ?_, ?_⟩
    · have e : ((0 : ℕ) + 1 : ℝ) * (Real.pi / 2) = Real.pi / 2 := by push_cast; ring
      have e' : ((0 : ℕ) + 1 : ℝ) * Real.pi = Real.pi := by push_cast; ring
      rw [e, e', Real.cos_pi_div_two, Real.cos_pi]; ring
    · have e : ((1 : ℕ) + 1 : ℝ) * (Real.pi / 2) = Real.pi := by push_cast; ring
      have e' : ((1 : ℕ) + 1 : ℝ) * Real.pi = Real.pi * 2 := by push_cast; ring
      rw [e, e', c2, Real.cos_pi]; ring
    · have e : ((2 : ℕ) + 1 : ℝ) * (Real.pi / 2) = Real.pi * (3 / 2) := by push_cast; ring
      have e' : ((2 : ℕ) + 1 : ℝ) * Real.pi = Real.pi * 3 := by push_cast; ring
      rw [e, e', c1, c3]; ring
    · have e : ((3 : ℕ) + 1 : ℝ) * (Real.pi / 2) = Real.pi * 2 := by push_cast; ring
      have e' : ((3 : ℕ) + 1 : ℝ) * Real.pi = Real.pi * 4 := by push_cast; ring
      rw [e, e', c2, c4]; ring
  refine ⟨4 * 6 * 3.5 ^ 2 * 0.06 * ξ * η / R / 16, 2 * 6 * ξ * b / R / 16, by positivity, by positivity, ?_, ?_⟩
  · rw [hu, hk]
  · rw [hz]
    rw [← hk (2 * 6 * ξ * b / R)]
    apply List.map_congr_left
    intro j _
    ring

/-- a half-space, all lags admissible, otherwise the parameters of the package -/
example : ∃ o, init [35] [6] [3.5] [2.7] (.float 0.06) 1 4 1 = .ok o ∧
    ∃ rfs, (run_deconvolution delay2 (run_fwd o).1 none 0 2 none { phase := some "S" }).2 = .ok rfs ∧
      rfs.length = 1 ∧ ∃ C > 0, ∃ δ₀ > 0, ∀ δ, 0 < δ → δ ≤ δ₀ → ∀ (depth' vp' vs' rho' r' : List ℝ) (rayp' : RaypArg) (o' : Obj),
        SamplesWithin δ [35] depth' → SamplesWithin δ [6] vp' → SamplesWithin δ [3.5] vs' →
        SamplesWithin δ [2.7] rho' → slownesses rayp' = some r' → SamplesWithin δ [0.06] r' →
        init depth' vp' vs' rho' rayp' 1 4 1 = .ok o' →
        ∃ rfs', (run_deconvolution delay2 (run_fwd o').1 none 0 2 none { phase := some "S" }).2 = .ok rfs' ∧
          List.Forall₂ (fun t t' => t'.iter = t.iter ∧
            ∃ x x', t.data = some x ∧ t'.data = some x' ∧ SamplesWithin (C * δ) x x') rfs rfs' := by
  refine ⟨_, rfl, ?_⟩
  have hz : pyInt ((0 : ℝ) / 1) = 0 := by simp [pyInt]
  have n4 : nextPow2 4 = 4 := by decide
  refine c137_receiver_functions (ls := [hsLayer]) (depth := [35]) (r := [0.06]) (rayp := .float 0.06) (npts := 4)
    (f := fun _ _ x => (0 :: 0 :: x).take x.length) (calls := []) (toLower_eq (by decide)) (by norm_num) (by norm_num)
    (by simp) ?_ ?_ rfl rfl
    (by simp) (Or.inl rfl) (fun _ _ _ _ _ _ => rfl) ⟨rfl, rfl⟩ (Or.inl rfl) (by norm_num) (by rw [hz]; simp)
    (fun _ _ _ _ => linear_proportional delay_linear) ?_
  · intro p hp l hl
    rw [List.mem_singleton] at hp hl
    subst hp hl
    exact hsLayer_propagating
  · simp [thicknesses, hs, hsLayer]
  · intro p hp u z h
    rw [List.mem_singleton] at hp
    subst hp
    obtain ⟨x, y, hx, hy, rfl, rfl⟩ := hs_four h
    have hpass : List.filterMap Call.pass ([] ++ [Call.deconv none 0 2 none { phase := some "S" }]) = [] := by
      simp [Call.pass]
    simp only [hpass, List.foldl_nil]
    obtain ⟨R, hR⟩ := (c112_iterative (uin := [-x, 0, -x, 2 * x]) (win := [-y, 0, -y, 2 * y]) (dt := 1) (nt := none)
      (preonset := 0) (a := 2) (itmax := 400) (minderr := 0.001) (phase := "S") (by norm_num)).2
      ⟨rfl, by norm_num, Or.inl rfl, Or.inl (by simp)⟩
    have key := steady_copy (L := 0) (b := x / y) hR (Or.inl rfl) (by norm_num) (by norm_num) (by norm_num)
      (Or.inl (by norm_num)) ⟨2 * x, by simp, by simpa using hx⟩
    simp only [List.length_cons, List.length_nil, zero_add, Nat.reduceAdd, n4] at key
    obtain ⟨P, rf, hP, -⟩ := key ⟨by norm_num, fun h => absurd h (by decide)⟩
      (by
        intro m hm
        interval_cases m <;> simp [smp, cyc] <;> field_simp)
      (by
        intro i c hi hne
        by_contra hcon
        push Not at hcon
        have hi4 := hi.1
        have a0 := hcon 0 (by norm_num)
        have a1 := hcon 1 (by norm_num)
        have : i = 1 ∨ i = 2 ∨ i = 3 := by omega
        rcases this with rfl | rfl | rfl <;> simp [smp, cyc, hy] at a0 a1 <;> simp [a1, hy] at a0)
    have hit : R.it ≤ 400 := (deconv_master hR rfl).2.2.1
    exact ⟨R.it, hit, P, hP⟩

end Rfsed.Props
