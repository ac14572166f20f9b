import Verif.Props.IterClear
import Verif.Props.TiesRF
import Verif.Props.SynthRate

/-!
# C139: the default synthetic receiver functions in inexact arithmetic, away from ties
-/

namespace Rfsed.Props
open Rfsed Synrf Spec Finset

/-- one slowness -/
theorem synth_iter_rate {p dt pre g : ℝ} {npts : Nat} {ipha : ℤ} {l : Layer} {rest : List Layer}
    {pass : List ℝ → List ℝ} {kw : KwArgs} {meth : Option String} (hmeth : (meth.getD "iter").toLower = "iter")
    (hkw : kw.wlevel = none ∧ kw.normalize = none) (hnt : kw.nt = none ∨ kw.nt = some npts)
    (hnp : 3 ≤ npts) (hdt : dt ≠ 0) (hp : ∀ k ∈ l :: rest, k.Propagating p) (hpass : ProportionalFilter pass)
    (hm : 0 ≤ kw.minderr.getD 0.001)
    (hcos : Real.cos (2 * Real.pi * (pyInt (pre / dt) : ℝ) / nextPow2 npts) ≠ 0)
    (hrun : ∀ u z, fwd_seis p dt npts ipha (alphas (l :: rest)) (betas (l :: rest)) (rhos (l :: rest)) (hs (l :: rest)) =
        .ok (.num u, .num z) →
      let n := nextPow2 npts
      ∃ k ≤ kw.itmax.getD 400, ∃ P, SteadyRun n dt (lowpass n dt g (pass u)) (lowpass n dt g (pass z)) (kw.phase.getD "P")
        (kw.minderr.getD 0.001) (kw.itmax.getD 400) k P) :
    ∃ u z t x, fwd_seis p dt npts ipha (alphas (l :: rest)) (betas (l :: rest)) (rhos (l :: rest)) (hs (l :: rest)) =
        .ok (.num u, .num z) ∧
      deconvTr ⟨.num (pass u), dt⟩ ⟨.num (pass z), dt⟩ meth
        { kw with preonset := some pre, gaussian := some g } = .ok t ∧ t.data = some x ∧
      ∃ C > 0, ∃ δ > 0, ∀ ε, 0 < ε → ε ≤ δ → ∀ out k, SynthIterRun ε p dt npts ipha l rest pass pre g (kw.itmax.getD 400)
          (kw.minderr.getD 0.001) (kw.phase.getD "P") out k →
        t.iter = some k ∧ SamplesWithin (C * ε) x out := by
  obtain ⟨u, z, hf, Cf, hCf, δf, hδf, hr⟩ := c134_rate (npts := npts) (ipha := ipha) (by omega) hdt hp
  have hlen : u.length = npts ∧ z.length = npts := by
    rcases c62_shape hf with ⟨a1, -⟩ | ⟨x, y, a1, a2, a3, a4⟩
    · cases a1
    · cases a1; cases a2; exact ⟨a3, a4⟩
  have lu := (hpass u).1
  have lz := (hpass z).1
  have hl : (pass u).length = npts := by omega
  obtain ⟨R, hR⟩ := (c112_iterative (uin := pass u) (win := pass z) (dt := dt) (nt := kw.nt) (preonset := pre) (a := g)
    (itmax := kw.itmax.getD 400) (minderr := kw.minderr.getD 0.001) (phase := kw.phase.getD "P") hm).2
    ⟨by omega, hdt, by rw [hl]; exact hnt.imp id Or.inl, Or.inl (by
      rcases hnt with e | e <;> rw [e]
      · simp [hl]; omega
      · simpa using hnp)⟩
  obtain ⟨k, hk, P, hP⟩ := hrun u z hf
  have hnt2 : kw.nt = none ∨ kw.nt = some (pass u).length := by rw [hl]; exact hnt
  have hit := steady_it hR hnt2 (by rw [hl]; exact hP) hk
  obtain ⟨x, hx, C1, hC1, δ1, hδ1, h1⟩ := c139_deconvolution hR hnt2 hm (by rw [hl, hit]; exact ⟨P, hP⟩)
    (by rw [hl]; exact hcos)
  obtain ⟨t, ht, htx, hti⟩ := deconvTr_iter hmeth hkw hR
  obtain ⟨Cu, hCu, h2⟩ := passRun_rate hpass u
  obtain ⟨Cz, hCz, h3⟩ := passRun_rate hpass z
  set D := Cf + 1 with hD
  have hD0 : 0 < D := by linarith
  set G := Cu * D + Cz * D + 1 with hG
  have hu0 : 0 < Cu * D := by positivity
  have hz0 : 0 < Cz * D := by positivity
  have hG0 : 0 < G := by linarith
  refine ⟨u, z, t, x, hf, ht, htx.trans hx, C1 * G, by positivity, min δf (min (1 / D) (δ1 / G)),
    lt_min hδf (lt_min (by positivity) (by positivity)), ?_⟩
  intro ε hε hεδ out k ⟨ur, uz, hfr, hout⟩
  have q1 : ε ≤ δf := hεδ.trans (min_le_left _ _)
  have q2 : D * ε ≤ 1 := by
    have := hεδ.trans ((min_le_right _ _).trans (min_le_left _ _))
    rw [le_div_iff₀ hD0] at this
    linarith
  have q3 : G * ε ≤ δ1 := by
    have := hεδ.trans ((min_le_right _ _).trans (min_le_right _ _))
    rw [le_div_iff₀ hG0] at this
    linarith
  have q4 : ε ≤ D * ε := by nlinarith
  have q5 : ε ≤ G * ε := by nlinarith
  have q6 : Cf * ε ≤ D * ε := by nlinarith
  obtain ⟨a, b, rfl, rfl, ha, hb⟩ := hr ε hε q1 ur uz hfr
  obtain ⟨a', b', rms, pa, pb, hrun⟩ := hout a b rfl rfl
  have k1 := h2 (D * ε) (by positivity) q2 ε hε.le q4 a a' (samplesWithin_mono q6 ha) pa
  have k2 := h3 (D * ε) (by positivity) q2 ε hε.le q4 b b' (samplesWithin_mono q6 hb) pb
  obtain ⟨g1, g2, -⟩ := h1 (G * ε) (by positivity) q3 ε hε.le q5 a' b' out k rms (samplesWithin_mono (by nlinarith) k1)
    (samplesWithin_mono (by nlinarith) k2) hrun
  exact ⟨by rw [hti, g1], by rwa [mul_assoc]⟩

section
variable {l : Layer} {rest : List Layer} {depth r : List ℝ} {rayp : RaypArg} {dt pre g : ℝ} {npts : ℕ} {ipha : ℤ} {o : Obj}
  {bp : Bandpass} {f : FilterArgs → ℝ → List ℝ → List ℝ} {calls : List Call} {pf : Option (List ℝ)} {kw : KwArgs}
  {meth : Option String}

/-- **C139** A whole session with the default method - the forward modelling, the filters, the iterative deconvolution -
carried out in inexact arithmetic of tolerance `ε`: if the exact deconvolutions make all their decisions clearly, the
computed ones make the same numbers of iterations, and every sample of every receiver function is within `C ε` of the exact
one. -/
theorem c139_session (hmeth : (meth.getD "iter").toLower = "iter") (hnp : 3 ≤ npts) (hdt : dt ≠ 0)
    (hp : ∀ p ∈ r, ∀ k ∈ l :: rest, k.Propagating p) (hdepth : thicknesses depth = hs (l :: rest))
    (ho : init depth (alphas (l :: rest)) (betas (l :: rest)) (rhos (l :: rest)) rayp dt npts ipha = .ok o)
    (hr : slownesses rayp = some r) (hc : ∀ c ∈ calls, c.isFwd = false)
    (hpf : pf = none ∨ (Call.deconv pf pre g meth kw).pass ≠ none)
    (hbp : ∀ c ∈ calls ++ [Call.deconv pf pre g meth kw], ∀ a, c.pass = some a →
      ∀ d x, bp a d x = .ok (f a d x))
    (hkw : kw.wlevel = none ∧ kw.normalize = none) (hnt : kw.nt = none ∨ kw.nt = some npts)
    (hm : 0 ≤ kw.minderr.getD 0.001)
    (hcos : Real.cos (2 * Real.pi * (pyInt (pre / dt) : ℝ) / nextPow2 npts) ≠ 0)
    (hsteady : ∀ c ∈ calls ++ [Call.deconv pf pre g meth kw], ∀ a, c.pass = some a → ProportionalFilter (f a dt))
    (hrun : ∀ p ∈ r, ∀ u z, fwd_seis p dt npts ipha (alphas (l :: rest)) (betas (l :: rest)) (rhos (l :: rest))
        (hs (l :: rest)) = .ok (.num u, .num z) →
      let n := nextPow2 npts
      let passed := fun x => ((calls ++ [Call.deconv pf pre g meth kw]).filterMap Call.pass).foldl (fun x a => f a dt x) x
      ∃ k ≤ kw.itmax.getD 400, ∃ P, SteadyRun n dt (lowpass n dt g (passed u)) (lowpass n dt g (passed z))
        (kw.phase.getD "P") (kw.minderr.getD 0.001) (kw.itmax.getD 400) k P) :
    ∃ rfs, (run_deconvolution bp (after bp (run_fwd o).1 calls) pf pre g meth kw).2 = .ok rfs ∧
      rfs.length = r.length ∧ ∃ C > 0, ∃ δ > 0, ∀ ε, 0 < ε → ε ≤ δ → ∀ outs : List (List ℝ × Nat),
        List.Forall₂ (fun p out => SynthIterRun ε p dt npts ipha l rest
          (fun x => ((calls ++ [Call.deconv pf pre g meth kw]).filterMap Call.pass).foldl (fun x a => f a dt x) x)
          pre g (kw.itmax.getD 400) (kw.minderr.getD 0.001) (kw.phase.getD "P") out.1 out.2) r outs →
        List.Forall₂ (fun t out => t.iter = some out.2 ∧ ∃ x, t.data = some x ∧ SamplesWithin (C * ε) x out.1) rfs outs := by
  obtain ⟨ps, hps⟩ : ∃ ps, ps = (calls ++ [Call.deconv pf pre g meth kw]).filterMap Call.pass := ⟨_, rfl⟩
  simp only [← hps] at hrun ⊢
  have hsp : ProportionalFilter (fun x => ps.foldl (fun x a => f a dt x) x) := by
    apply proportional_passes (fs := fun a x => f a dt x) ps
    intro a ha
    rw [hps, List.mem_filterMap] at ha
    obtain ⟨c, hc1, hc2⟩ := ha
    exact hsteady c hc1 a hc2
  have hall : ∃ ts, List.Forall₂ (fun p t => ∃ u z, fwd_seis p dt npts ipha (alphas (l :: rest)) (betas (l :: rest))
        (rhos (l :: rest)) (hs (l :: rest)) = .ok (.num u, .num z) ∧
      deconvTr ⟨.num (ps.foldl (fun x a => f a dt x) u), dt⟩ ⟨.num (ps.foldl (fun x a => f a dt x) z), dt⟩ meth
        { kw with preonset := some pre, gaussian := some g } = .ok t) r ts ∧
      ∃ C > 0, ∃ δ > 0, ∀ ε, 0 < ε → ε ≤ δ → ∀ outs : List (List ℝ × Nat), List.Forall₂ (fun p out =>
          SynthIterRun ε p dt npts ipha l rest
          (fun x => ps.foldl (fun x a => f a dt x) x) pre g (kw.itmax.getD 400) (kw.minderr.getD 0.001)
            (kw.phase.getD "P") out.1 out.2) r outs →
        List.Forall₂ (fun t out => t.iter = some out.2 ∧ ∃ x, t.data = some x ∧ SamplesWithin (C * ε) x out.1) ts outs := by
    clear hr ho
    induction r with
    | nil =>
      refine ⟨[], .nil, 1, one_pos, 1, one_pos, fun ε _ _ outs h => ?_⟩
      cases h
      exact .nil
    | cons p r ih =>
      obtain ⟨ts, h1, C1, hC1, δ1, hδ1, h2⟩ := ih (fun q hq => hp q (List.mem_cons_of_mem _ hq))
        (fun q hq => hrun q (List.mem_cons_of_mem _ hq))
      obtain ⟨u, z, t, x, hf, ht, htx, C2, hC2, δ2, hδ2, h3⟩ := synth_iter_rate (pre := pre) (g := g) hmeth hkw hnt hnp hdt
        (hp p (List.mem_cons_self ..)) hsp hm hcos (hrun p (List.mem_cons_self ..))
      refine ⟨t :: ts, .cons ⟨u, z, hf, ht⟩ h1, C1 + C2, by positivity, min δ1 δ2, lt_min hδ1 hδ2,
        fun ε hε hεδ outs ho => ?_⟩
      cases ho with
      | cons a b =>
        obtain ⟨k1, k2⟩ := h3 ε hε (hεδ.trans (min_le_right _ _)) _ _ a
        exact .cons ⟨k1, x, htx, samplesWithin_mono (by nlinarith) k2⟩
          ((h2 ε hε (hεδ.trans (min_le_left _ _)) _ b).imp (fun a b ⟨k0, y, k1, k3⟩ =>
            ⟨k0, y, k1, samplesWithin_mono (by nlinarith) k3⟩))
  obtain ⟨ts, hts, hrest⟩ := hall
  exact ⟨ts, session_value (by omega) hdt (by simp) hdepth ho hr hc hpf hbp hps hts, hts.length_eq.symm, hrest⟩

end

/-- **C139** the exact receiver function is one of the results of `SynthIterRun`, for every tolerance -/
theorem c139_session_exact {p dt ε pre g minderr : ℝ} {nt : Option Nat} {itmax : Nat} {phase : String} {npts : Nat} {ipha : ℤ}
    {l : Layer} {rest : List Layer} {pass : List ℝ → List ℝ} {u z : List ℝ} {R : IterResult} (hnp : 0 < npts) (hdt : dt ≠ 0)
    (hp : ∀ k ∈ l :: rest, k.Propagating p) (hε : 0 ≤ ε)
    (hf : fwd_seis p dt npts ipha (alphas (l :: rest)) (betas (l :: rest)) (rhos (l :: rest)) (hs (l :: rest)) =
      .ok (.num u, .num z)) (hR : deconv_iterative (pass u) (pass z) dt nt pre g itmax minderr phase = .ok R)
    (hnt : nt = none ∨ nt = some (pass u).length)
    (hU : 0 < energy (nextPow2 (pass u).length) (lowpass (nextPow2 (pass u).length) dt g (pass u)))
    (hW : 0 < energy (nextPow2 (pass u).length) (lowpass (nextPow2 (pass u).length) dt g (pass z)))
    (hcos : Real.cos (2 * Real.pi * (pyInt (pre / dt) : ℝ) / nextPow2 (pass u).length) ≠ 0) :
    ∃ rf, R.rf = some rf ∧ SynthIterRun ε p dt npts ipha l rest pass pre g itmax minderr phase rf R.it := by
  obtain ⟨rf, rms, h1, -, h2⟩ := c139_exact (ε := ε) hR hnt hU hW hε hcos
  obtain ⟨u', z', hf', hr, -⟩ := c134_runs (npts := npts) (ipha := ipha) hε hnp hdt hp
  rw [hf] at hf'
  cases hf'
  refine ⟨rf, h1, some u, some z, hr, fun a b ha hb => ?_⟩
  cases ha; cases hb
  have hself : ∀ v, PassRun pass ε v (pass v) := fun v => ⟨rfl, fun j _ => by
    rw [sub_self, abs_zero]
    exact mul_nonneg hε (sum_nonneg (fun _ _ => abs_nonneg _))⟩
  exact ⟨_, _, rms, hself _, hself _, h2⟩

/-- the deconvolution of four samples of a half-space makes its decisions clearly -/
theorem hs_four_steady {u z : List ℝ} (h : fwd_seis 0.06 1 4 1 [6] [3.5] [2.7] [35] = .ok (.num u, .num z)) :
    ∃ k ≤ 400, ∃ P, SteadyRun 4 1 (lowpass 4 1 2 u) (lowpass 4 1 2 z) "S" 0.001 400 k P := by
  have n4 : nextPow2 4 = 4 := by decide
  obtain ⟨x, y, hx, hy, rfl, rfl⟩ := hs_four h
  obtain ⟨R, hR⟩ := (c112_iterative (uin := [-x, 0, -x, 2 * x]) (win := [-y, 0, -y, 2 * y]) (dt := 1) (nt := none)
    (preonset := 0) (a := 2) (itmax := 400) (minderr := 0.001) (phase := "S") (by norm_num)).2
    ⟨rfl, by norm_num, Or.inl rfl, Or.inl (by simp)⟩
  have key := steady_copy (L := 0) (b := x / y) hR (Or.inl rfl) (by norm_num) (by norm_num) (by norm_num)
    (Or.inl (by norm_num)) ⟨2 * x, by simp, by simpa using hx⟩
  simp only [List.length_cons, List.length_nil, zero_add, Nat.reduceAdd, n4] at key
  obtain ⟨P, rf, hP, -⟩ := key ⟨by norm_num, fun h => absurd h (by decide)⟩
    (by
      intro m hm
      interval_cases m <;> simp [smp, cyc] <;> field_simp)
    (by
      intro i c hi hne
      by_contra hcon
      push Not at hcon
      have hi4 := hi.1
      have a0 := hcon 0 (by norm_num)
      have a1 := hcon 1 (by norm_num)
      have : i = 1 ∨ i = 2 ∨ i = 3 := by omega
      rcases this with rfl | rfl | rfl <;> simp [smp, cyc, hy] at a0 a1 <;> simp [a1, hy] at a0)
  have hit : R.it ≤ 400 := (deconv_master hR rfl).2.2.1
  exact ⟨R.it, hit, P, hP⟩

/-- a half-space, all lags admissible, otherwise the parameters of the package -/
example : ∃ o, init [35] [6] [3.5] [2.7] (.float 0.06) 1 4 1 = .ok o ∧
    ∃ rfs, (run_deconvolution delay2 (run_fwd o).1 none 0 2 none { phase := some "S" }).2 = .ok rfs ∧
      rfs.length = 1 ∧ ∃ C > 0, ∃ δ > 0, ∀ ε, 0 < ε → ε ≤ δ → ∀ out k,
        SynthIterRun ε 0.06 1 4 1 hsLayer [] (fun x => x) 0 2 400 0.001 "S" out k →
        ∃ t x, rfs = [t] ∧ t.iter = some k ∧ t.data = some x ∧ SamplesWithin (C * ε) x out := by
  refine ⟨_, rfl, ?_⟩
  have hz : pyInt ((0 : ℝ) / 1) = 0 := by simp [pyInt]
  have n4 : nextPow2 4 = 4 := by decide
  have hpass : List.filterMap Call.pass ([] ++ [Call.deconv none 0 2 none { phase := some "S" }]) = [] := by
    simp [Call.pass]
  have key := c139_session (l := hsLayer) (rest := []) (depth := [35]) (r := [0.06]) (rayp := .float 0.06) (npts := 4)
    (dt := 1) (ipha := 1) (pre := 0) (g := 2) (bp := delay2) (kw := { phase := some "S" }) (pf := none) (meth := none)
    (f := fun _ _ x => (0 :: 0 :: x).take x.length) (calls := []) (toLower_eq (by decide)) (by norm_num) (by norm_num)
    (fun p hp l hl => by
      rw [List.mem_singleton] at hp hl
      subst hp hl
      exact hsLayer_propagating) (by simp [thicknesses, hs, hsLayer]) rfl rfl
    (by simp) (Or.inl rfl) (fun _ _ _ _ _ _ => rfl) ⟨rfl, rfl⟩ (Or.inl rfl) (by norm_num) (by rw [hz]; simp)
    (fun _ _ _ _ => linear_proportional delay_linear)
    (by
      intro p hp u z h
      rw [List.mem_singleton] at hp
      subst hp
      simp only [hpass, List.foldl_nil, n4]
      exact hs_four_steady h)
  obtain ⟨rfs, h1, h2, C, hC, δ, hδ, h3⟩ := key
  refine ⟨rfs, h1, h2, C, hC, δ, hδ, fun ε hε hεδ out k hout => ?_⟩
  have := h3 ε hε hεδ [(out, k)] (.cons (by simp only [hpass, List.foldl_nil]; exact hout) .nil)
  cases this with
  | @cons t _ _ _ a b =>
    cases b
    obtain ⟨a1, x, a2, a3⟩ := a
    exact ⟨t, x, rfl, a1, a2, a3⟩

end Rfsed.Props
