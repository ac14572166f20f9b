import Verif.Model.SynthRounded
import Verif.Props.ForwardRounded
import Verif.Props.WaterRounded
import Verif.Props.ContinuityRF

/-! # C135: rounding errors of a whole synthetic receiver function -/

namespace Rfsed.Props
open Rfsed Synrf Spec Finset

/-- the water-level deconvolution of nearby traces in inexact arithmetic -/
theorem water_rounded_near {uin win : List ℝ} {dt preonset wlevel a η : ℝ} {normalize : Bool} {rft : List ℝ} {rms : ℝ}
    (h : deconv_waterlevel uin win dt preonset wlevel a normalize = .ok (rft, rms)) (hw : 0 < wlevel)
    (hw1 : wlevel ≤ 1) (hwin : ∃ v ∈ win, v ≠ 0) (hη : 0 < η) :
    ∃ δ > 0, ∀ ε, 0 ≤ ε → ε ≤ δ → ∀ x y out, SamplesWithin δ uin x → SamplesWithin δ win y →
      Nonempty (WaterRun ε x y dt preonset wlevel a normalize out) → SamplesWithin η rft out := by
  obtain ⟨hlen, hdt, ⟨k, hk, hn⟩, d, hd, hl, -, -⟩ := water_master h
  have hle := le_nextPow2 uin.length
  have hd0 : 0 < d := maxPower_pos (by omega) hwin hd
  have hs0 : 0 < √d := Real.sqrt_pos.2 hd0
  have hsw : 0 < √wlevel := Real.sqrt_pos.2 hw
  obtain ⟨δ1, hδ1, hnear⟩ := water_near h hw hw1 hwin (half_pos hη)
  set n : ℝ := (uin.length : ℝ) with hnR
  have hn0 : 0 < n := by
    rw [hnR]
    have : uin.length ≠ 0 := by intro h0; rw [h0, nextPow2_zero] at hn; omega
    exact_mod_cast Nat.pos_of_ne_zero this
  set A := ∑ j ∈ range uin.length, |smp uin j| with hA
  set B := ∑ j ∈ range uin.length, |smp win j| with hB
  have hA0 : 0 ≤ A := sum_nonneg (fun _ _ => abs_nonneg _)
  have hB0 : 0 ≤ B := sum_nonneg (fun _ _ => abs_nonneg _)
  set γ := gaussPulse dt (nextPow2 uin.length) a 0 with hγ
  have hγ0 : 0 < γ := gaussPulse_zero_pos (by omega)
  have hγ1 : γ ≤ 1 := gaussPulse_zero_le (by omega)
  have hdt0 : 0 < |dt| := abs_pos.2 hdt
  set s := √d / 2 with hs
  have hs00 : 0 < s := by positivity
  set P := (A + n) / (√wlevel * s) with hP
  set Q := 6 * (A + n) * (B + n) / (wlevel * √wlevel * s ^ 2) with hQ
  have hP0 : 0 ≤ P := by positivity
  have hQ0 : 0 ≤ Q := by positivity
  set K := (1 / γ) * (31 * P / γ + Q) + (23 * P + Q) / |dt| with hK
  have hK1 : 0 ≤ (1 / γ) * (31 * P / γ + Q) := by positivity
  have hK2 : 0 ≤ (23 * P + Q) / |dt| := by positivity
  refine ⟨min (min δ1 (min 1 (s / n))) (min (γ / 100) (min (s / 2 / (B + n)) (η / 2 / (K + 1)))), ?_, ?_⟩
  · refine lt_min (lt_min hδ1 (lt_min one_pos (by positivity))) (lt_min (by positivity) (lt_min (by positivity) ?_))
    exact div_pos (half_pos hη) (by linarith)
  intro ε hε hεδ x y out hx hy ⟨r⟩
  set δ := min (min δ1 (min 1 (s / n))) (min (γ / 100) (min (s / 2 / (B + n)) (η / 2 / (K + 1)))) with hδ
  have d1 : δ ≤ δ1 := (min_le_left _ _).trans (min_le_left _ _)
  have d2 : δ ≤ 1 := (min_le_left _ _).trans ((min_le_right _ _).trans (min_le_left _ _))
  have d3 : δ ≤ s / n := (min_le_left _ _).trans ((min_le_right _ _).trans (min_le_right _ _))
  have d4 : δ ≤ γ / 100 := (min_le_right _ _).trans (min_le_left _ _)
  have d5 : δ ≤ s / 2 / (B + n) := (min_le_right _ _).trans ((min_le_right _ _).trans (min_le_left _ _))
  have d6 : δ ≤ η / 2 / (K + 1) := (min_le_right _ _).trans ((min_le_right _ _).trans (min_le_right _ _))
  obtain ⟨rft', rms', h', hrr⟩ := hnear x y (samplesWithin_mono d1 hx) (samplesWithin_mono d1 hy)
  obtain ⟨hxl, hxd⟩ := samplesWithin_iff.1 hx
  obtain ⟨hyl, hyd⟩ := samplesWithin_iff.1 hy
  obtain ⟨hrl, hrd⟩ := samplesWithin_iff.1 hrr
  obtain ⟨hlen', _, _, d', hd', hl', -, -⟩ := water_master h'
  -- the size of the nearby traces
  have hsum : ∀ {u v : List ℝ}, u.length = uin.length → (∀ m < u.length, |smp v m - smp u m| < δ) →
      ∑ j ∈ range uin.length, |smp v j - smp u j| ≤ n * δ := by
    intro u v hu huv
    have := sum_le_card_nsmul (range uin.length) (fun j => |smp v j - smp u j|) δ
      (fun j hj => (huv j (by rw [hu]; exact mem_range.1 hj)).le)
    simpa using this
  have hsize : ∀ {u v : List ℝ}, u.length = uin.length → (∀ m < u.length, |smp v m - smp u m| < δ) →
      ∑ j ∈ range uin.length, |smp v j| ≤ (∑ j ∈ range uin.length, |smp u j|) + n := by
    intro u v hu huv
    have h1 : ∑ j ∈ range uin.length, |smp v j| ≤ ∑ j ∈ range uin.length, (|smp u j| + |smp v j - smp u j|) :=
      sum_le_sum (fun j _ => by
        have := abs_add_le (smp u j) (smp v j - smp u j)
        rwa [add_sub_cancel] at this)
    rw [sum_add_distrib] at h1
    have h2 := hsum hu huv
    nlinarith
  have hA' : ∑ j ∈ range x.length, |smp x j| ≤ A + n := by rw [← hxl]; exact hsize rfl hxd
  have hB' : ∑ j ∈ range x.length, |smp y j| ≤ B + n := by rw [← hxl]; exact hsize hlen.symm hyd
  have hA0' : 0 ≤ ∑ j ∈ range x.length, |smp x j| := sum_nonneg (fun _ _ => abs_nonneg _)
  have hB0' : 0 ≤ ∑ j ∈ range x.length, |smp y j| := sum_nonneg (fun _ _ => abs_nonneg _)
  have hd1 : IsMaxPower (nextPow2 uin.length) (traceSpectrum (nextPow2 uin.length) y) d' := by rw [hxl]; exact hd'
  have hmove := maxPower_move hd hd1 (fun k _ => by
    have := spectrum_move (nextPow2 uin.length) win y k
    rw [sum_smp_pad (by omega) (by omega), ← hlen] at this
    exact this.trans (hsum hlen.symm hyd))
  have hns : n * δ ≤ s := by
    rw [le_div_iff₀ hn0] at d3
    linarith
  have hlo : s ≤ √d' := by
    have := (abs_le.1 hmove).1
    rw [hs] at hns ⊢
    linarith
  have hd0' : 0 < d' := Real.sqrt_pos.1 (by linarith)
  have hsd : s ^ 2 ≤ d' := by
    have := pow_le_pow_left₀ hs00.le hlo 2
    rwa [Real.sq_sqrt hd0'.le] at this
  have hεB : ε * ∑ j ∈ range x.length, |smp y j| ≤ √d' / 2 := by
    have h1 : ε * ∑ j ∈ range x.length, |smp y j| ≤ δ * (B + n) :=
      mul_le_mul hεδ hB' hB0' (by linarith)
    rw [le_div_iff₀ (by positivity)] at d5
    linarith
  have hPle : (∑ j ∈ range x.length, |smp x j|) / √(wlevel * d') ≤ P := by
    rw [Real.sqrt_mul hw.le]
    exact div_le_div₀ (by positivity) hA' (by positivity) (mul_le_mul_of_nonneg_left hlo hsw.le)
  have hQle : 6 * (∑ j ∈ range x.length, |smp x j|) * (∑ j ∈ range x.length, |smp y j|) / (wlevel * √wlevel * d') ≤ Q := by
    refine div_le_div₀ (by positivity) ?_ (by positivity) (mul_le_mul_of_nonneg_left hsd (by positivity))
    exact mul_le_mul (mul_le_mul_of_nonneg_left hA' (by norm_num)) hB' hB0' (by positivity)
  have hεK : ∀ c : ℝ, 0 ≤ c → c ≤ K → ε * c < η / 2 := by
    intro c hc hcK
    have h1 : ε * c ≤ δ * K := mul_le_mul hεδ hcK hc (by linarith)
    have h2 : δ * (K + 1) ≤ η / 2 := by rwa [le_div_iff₀ (by linarith)] at d6
    have h3 : 0 < δ := by
      rw [hδ]
      refine lt_min (lt_min hδ1 (lt_min one_pos (by positivity))) (lt_min (by positivity) (lt_min (by positivity) ?_))
      exact div_pos (half_pos hη) (by linarith)
    linarith
  rw [samplesWithin_iff]
  refine ⟨by rw [r.rft_length, ← hxl, hl], fun m hm => ?_⟩
  have hm' : m < x.length := by omega
  have hfirst := hrd m hm
  have hsecond : |smp out m - smp rft' m| < η / 2 := by
    cases normalize with
    | false =>
      have hb := (c131_rounding h' r hε (by linarith) hw hw1 hd' hd0' hεB).2 m hm'
      simp only at hb
      refine hb.trans_lt ?_
      rw [mul_div_assoc]
      have hc : (23 * ((∑ j ∈ range x.length, |smp x j|) / √(wlevel * d')) + 6 * (∑ j ∈ range x.length, |smp x j|) *
          (∑ j ∈ range x.length, |smp y j|) / (wlevel * √wlevel * d')) / |dt| ≤ (23 * P + Q) / |dt| :=
        div_le_div_of_nonneg_right (by linarith) hdt0.le
      exact hεK _ (by positivity) (by linarith)
    | true =>
      have hb := (c131_normalized h' r hε hw hw1 hd' hd0' hεB (by rw [← hxl]; linarith)).2 m hm'
      simp only [← hxl] at hb
      rw [← hγ, hxl] at hb
      refine hb.trans_lt ?_
      rw [div_eq_mul_one_div, mul_assoc]
      have hc : (1 / γ) * (31 * ((∑ j ∈ range x.length, |smp x j|) / √(wlevel * d')) / γ + 6 *
          (∑ j ∈ range x.length, |smp x j|) * (∑ j ∈ range x.length, |smp y j|) / (wlevel * √wlevel * d'))
          ≤ (1 / γ) * (31 * P / γ + Q) := by
        refine mul_le_mul_of_nonneg_left (add_le_add ?_ hQle) (by positivity)
        exact div_le_div_of_nonneg_right (mul_le_mul_of_nonneg_left hPle (by norm_num)) hγ0.le
      exact hεK _ (by positivity) (by linarith)
  have := abs_sub_le (smp out m) (smp rft' m) (smp rft m)
  linarith

theorem passRun_near {pass : List ℝ → List ℝ} (hpass : SteadyFilter pass) (r : List ℝ) {η : ℝ} (hη : 0 < η) :
    ∃ δ > 0, ∀ ε, 0 ≤ ε → ε ≤ δ → ∀ x x', SamplesWithin δ r x → PassRun pass ε x x' → SamplesWithin η (pass r) x' := by
  obtain ⟨hl, hc⟩ := hpass r
  obtain ⟨δ1, hδ1, h1⟩ := hc (η / 2) (half_pos hη)
  set S := ∑ j ∈ range r.length, |smp r j| with hS
  have hS0 : 0 ≤ S := sum_nonneg (fun _ _ => abs_nonneg _)
  have hn0 : (0 : ℝ) ≤ r.length := Nat.cast_nonneg _
  refine ⟨min (min δ1 1) (η / 2 / (S + r.length + 1)), lt_min (lt_min hδ1 one_pos) (by positivity), ?_⟩
  set δ := min (min δ1 1) (η / 2 / (S + r.length + 1)) with hδ
  have hδ0 : 0 < δ := lt_min (lt_min hδ1 one_pos) (by positivity)
  intro ε hε hεδ x x' hx ⟨hp1, hp2⟩
  have d1 : δ ≤ δ1 := (min_le_left _ _).trans (min_le_left _ _)
  have d2 : δ ≤ 1 := (min_le_left _ _).trans (min_le_right _ _)
  have d3 : δ ≤ η / 2 / (S + r.length + 1) := min_le_right _ _
  obtain ⟨a1, a2⟩ := samplesWithin_iff.1 (h1 x (samplesWithin_mono d1 hx))
  obtain ⟨b1, b2⟩ := samplesWithin_iff.1 hx
  rw [samplesWithin_iff]
  refine ⟨by rw [hp1, a1], fun m hm => ?_⟩
  have e1 := a2 m hm
  have e2 := hp2 m (by rw [hp1, ← a1]; exact hm)
  have hsz : ∑ k ∈ range x.length, |smp x k| ≤ S + r.length := by
    rw [← b1]
    have g1 : ∑ j ∈ range r.length, |smp x j| ≤ ∑ j ∈ range r.length, (|smp r j| + |smp x j - smp r j|) :=
      sum_le_sum (fun j _ => by
        have := abs_add_le (smp r j) (smp x j - smp r j)
        rwa [add_sub_cancel] at this)
    have g2 := sum_le_card_nsmul (range r.length) (fun j => |smp x j - smp r j|) δ
      (fun j hj => (b2 j (mem_range.1 hj)).le)
    rw [sum_add_distrib] at g1
    simp only [card_range, nsmul_eq_mul] at g2
    nlinarith
  have e3 : ε * ∑ k ∈ range x.length, |smp x k| ≤ δ * (S + r.length) :=
    mul_le_mul hεδ hsz (sum_nonneg (fun _ _ => abs_nonneg _)) hδ0.le
  rw [le_div_iff₀ (by positivity)] at d3
  have := abs_sub_le (smp x' m) (smp (pass x) m) (smp (pass r) m)
  linarith

/-- one slowness -/
theorem synth_near {p dt η pre g wl : ℝ} {nm : Bool} {npts : Nat} {ipha : ℤ} {l : Layer} {rest : List Layer}
    {pass : List ℝ → List ℝ} (hnp : 2 ≤ npts) (hdt : dt ≠ 0) (hp : ∀ k ∈ l :: rest, k.Propagating p)
    (hpass : SteadyFilter pass) (hw : 0 < wl) (hw1 : wl ≤ 1)
    (hz : ∀ u z, fwd_seis p dt npts ipha (alphas (l :: rest)) (betas (l :: rest)) (rhos (l :: rest)) (hs (l :: rest)) =
      .ok (.num u, .num z) → ∃ v ∈ pass z, v ≠ 0) (hη : 0 < η) :
    ∃ u z x rms, fwd_seis p dt npts ipha (alphas (l :: rest)) (betas (l :: rest)) (rhos (l :: rest)) (hs (l :: rest)) =
        .ok (.num u, .num z) ∧ deconv_waterlevel (pass u) (pass z) dt pre wl g nm = .ok (x, rms) ∧
      ∃ δ > 0, ∀ ε, 0 ≤ ε → ε ≤ δ → ∀ out, SynthRun ε p dt npts ipha l rest pass pre wl g nm out →
        SamplesWithin η x out := by
  obtain ⟨u, z, hf, hr⟩ := c134_rounding (npts := npts) (ipha := ipha) (by omega) hdt hp
  have hlen : u.length = npts ∧ z.length = npts := by
    rcases c62_shape hf with ⟨a1, -⟩ | ⟨x, y, a1, a2, a3, a4⟩
    · cases a1
    · cases a1; cases a2; exact ⟨a3, a4⟩
  have lu := (hpass u).1
  have lz := (hpass z).1
  obtain ⟨⟨x, rms⟩, hx⟩ := c58_total (uin := pass u) (win := pass z) (dt := dt) (preonset := pre)
    (wlevel := wl) (a := g) (normalize := nm) (by omega) (by omega) hdt
  obtain ⟨δ1, hδ1, h1⟩ := water_rounded_near hx hw hw1 (hz u z hf) hη
  obtain ⟨δu, hδu, h2⟩ := passRun_near hpass u hδ1
  obtain ⟨δz, hδz, h3⟩ := passRun_near hpass z hδ1
  obtain ⟨δf, hδf, h4⟩ := hr (min δu δz) (lt_min hδu hδz)
  refine ⟨u, z, x, rms, hf, hx, min (min δ1 δf) (min δu δz), lt_min (lt_min hδ1 hδf) (lt_min hδu hδz), ?_⟩
  intro ε hε hεδ out ⟨ur, uz, hfr, hout⟩
  have q1 : ε ≤ δ1 := hεδ.trans ((min_le_left _ _).trans (min_le_left _ _))
  have q2 : ε ≤ δf := hεδ.trans ((min_le_left _ _).trans (min_le_right _ _))
  have q3 : ε ≤ δu := hεδ.trans ((min_le_right _ _).trans (min_le_left _ _))
  have q4 : ε ≤ δz := hεδ.trans ((min_le_right _ _).trans (min_le_right _ _))
  obtain ⟨a, b, rfl, rfl, ha, hb⟩ := h4 ε q2 ur uz hfr
  obtain ⟨a', b', pa, pb, hrun⟩ := hout a b rfl rfl
  exact h1 ε hε q1 a' b' out (h2 ε hε q3 a a' (samplesWithin_mono (min_le_left _ _) ha) pa)
    (h3 ε hε q4 b b' (samplesWithin_mono (min_le_right _ _) hb) pb) hrun

section
variable {l : Layer} {rest : List Layer} {depth r : List ℝ} {rayp : RaypArg} {dt pre g η : ℝ} {npts : ℕ} {ipha : ℤ}
  {o : Obj} {bp : Bandpass} {f : FilterArgs → ℝ → List ℝ → List ℝ} {calls : List Call} {pf : Option (List ℝ)} {kw : KwArgs}

/-- **C135** A whole session - the forward modelling, the filters, the water-level deconvolution - carried out in inexact
arithmetic returns receiver functions that tend to the exact ones as the accuracy of the arithmetic increases. -/
theorem c135_session (hnp : 2 ≤ npts) (hdt : dt ≠ 0) (hp : ∀ p ∈ r, ∀ k ∈ l :: rest, k.Propagating p)
    (hdepth : thicknesses depth = hs (l :: rest))
    (ho : init depth (alphas (l :: rest)) (betas (l :: rest)) (rhos (l :: rest)) rayp dt npts ipha = .ok o)
    (hr : slownesses rayp = some r) (hc : ∀ c ∈ calls, c.isFwd = false)
    (hpf : pf = none ∨ (Call.deconv pf pre g (some "water") kw).pass ≠ none)
    (hbp : ∀ c ∈ calls ++ [Call.deconv pf pre g (some "water") kw], ∀ a, c.pass = some a →
      ∀ d x, bp a d x = .ok (f a d x))
    (hkw : kw.nt = none ∧ kw.itmax = none ∧ kw.minderr = none)
    (hw : 0 < kw.wlevel.getD 0.05) (hw1 : kw.wlevel.getD 0.05 ≤ 1)
    (hsteady : ∀ c ∈ calls ++ [Call.deconv pf pre g (some "water") kw], ∀ a, c.pass = some a → SteadyFilter (f a dt))
    (hz : ∀ p ∈ r, ∀ u z, fwd_seis p dt npts ipha (alphas (l :: rest)) (betas (l :: rest)) (rhos (l :: rest))
        (hs (l :: rest)) = .ok (.num u, .num z) →
      ∃ v ∈ ((calls ++ [Call.deconv pf pre g (some "water") kw]).filterMap Call.pass).foldl (fun x a => f a dt x) z,
        v ≠ 0)
    (hη : 0 < η) :
    ∃ rfs, (run_deconvolution bp (after bp (run_fwd o).1 calls) pf pre g (some "water") kw).2 = .ok rfs ∧
      ∃ δ > 0, ∀ ε, 0 ≤ ε → ε ≤ δ → ∀ outs,
        List.Forall₂ (fun p out => SynthRun ε p dt npts ipha l rest
          (fun x => ((calls ++ [Call.deconv pf pre g (some "water") kw]).filterMap Call.pass).foldl (fun x a => f a dt x) x)
          pre (kw.wlevel.getD 0.05) g (kw.normalize.getD false) out) r outs →
        List.Forall₂ (fun t out => ∃ x, t.data = some x ∧ SamplesWithin η x out) rfs outs := by
  obtain ⟨ps, hps⟩ : ∃ ps, ps = (calls ++ [Call.deconv pf pre g (some "water") kw]).filterMap Call.pass := ⟨_, rfl⟩
  rw [← hps] at hz ⊢
  have hsp : SteadyFilter (fun x => ps.foldl (fun x a => f a dt x) x) := by
    apply steady_passes (fs := fun a x => f a dt x) ps
    intro a ha
    rw [hps, List.mem_filterMap] at ha
    obtain ⟨c, hc1, hc2⟩ := ha
    exact hsteady c hc1 a hc2
  have hall : ∃ ts, List.Forall₂ (fun p t => ∃ u z, fwd_seis p dt npts ipha (alphas (l :: rest)) (betas (l :: rest))
        (rhos (l :: rest)) (hs (l :: rest)) = .ok (.num u, .num z) ∧
      deconvTr ⟨.num (ps.foldl (fun x a => f a dt x) u), dt⟩ ⟨.num (ps.foldl (fun x a => f a dt x) z), dt⟩ (some "water")
        { kw with preonset := some pre, gaussian := some g } = .ok t) r ts ∧
      ∃ δ > 0, ∀ ε, 0 ≤ ε → ε ≤ δ → ∀ outs, List.Forall₂ (fun p out => SynthRun ε p dt npts ipha l rest
          (fun x => ps.foldl (fun x a => f a dt x) x) pre (kw.wlevel.getD 0.05) g (kw.normalize.getD false) out) r outs →
        List.Forall₂ (fun t out => ∃ x, t.data = some x ∧ SamplesWithin η x out) ts outs := by
    clear hr ho
    induction r with
    | nil =>
      refine ⟨[], .nil, 1, one_pos, fun ε _ _ outs h => ?_⟩
      cases h
      exact .nil
    | cons p r ih =>
      obtain ⟨ts, h1, δ1, hδ1, h2⟩ := ih (fun q hq => hp q (List.mem_cons_of_mem _ hq))
        (fun q hq => hz q (List.mem_cons_of_mem _ hq))
      obtain ⟨u, z, x, rms, hf, hx, δ2, hδ2, h3⟩ := synth_near (pre := pre) (g := g) (nm := kw.normalize.getD false) hnp hdt
        (hp p (List.mem_cons_self ..)) hsp hw hw1 (hz p (List.mem_cons_self ..)) hη
      obtain ⟨t, ht, htx⟩ := deconvTr_water hkw hx
      refine ⟨t :: ts, .cons ⟨u, z, hf, ht⟩ h1, min δ1 δ2, lt_min hδ1 hδ2, fun ε hε hεδ outs ho => ?_⟩
      cases ho with
      | cons a b =>
        exact .cons ⟨x, htx, h3 ε hε (hεδ.trans (min_le_right _ _)) _ a⟩ (h2 ε hε (hεδ.trans (min_le_left _ _)) _ b)
  obtain ⟨ts, hts, hrest⟩ := hall
  exact ⟨ts, session_value hnp hdt (by simp) hdepth ho hr hc hpf hbp hps hts, hrest⟩

end

/-- **C135** the exact receiver function is one of the results of `SynthRun`, for every tolerance -/
theorem c135_exact {p dt ε pre g wl rms : ℝ} {nm : Bool} {npts : Nat} {ipha : ℤ} {l : Layer} {rest : List Layer}
    {pass : List ℝ → List ℝ} {u z x : List ℝ} (hnp : 0 < npts) (hdt : dt ≠ 0) (hp : ∀ k ∈ l :: rest, k.Propagating p)
    (hε : 0 ≤ ε)
    (hf : fwd_seis p dt npts ipha (alphas (l :: rest)) (betas (l :: rest)) (rhos (l :: rest)) (hs (l :: rest)) =
      .ok (.num u, .num z)) (hx : deconv_waterlevel (pass u) (pass z) dt pre wl g nm = .ok (x, rms)) :
    SynthRun ε p dt npts ipha l rest pass pre wl g nm x := by
  obtain ⟨u', z', hf', hr, -⟩ := c134_runs (npts := npts) (ipha := ipha) hε hnp hdt hp
  rw [hf] at hf'
  cases hf'
  refine ⟨some u, some z, hr, fun a b ha hb => ?_⟩
  cases ha; cases hb
  have hself : ∀ v, PassRun pass ε v (pass v) := fun v => ⟨rfl, fun j _ => by
    rw [sub_self, abs_zero]
    exact mul_nonneg hε (sum_nonneg (fun _ _ => abs_nonneg _))⟩
  exact ⟨_, _, hself _, hself _, c131_exact hx hε⟩

/-- a half-space, with a pre-filter that delays by two samples -/
example : ∃ o, init [35] [6] [3.5] [2.7] (.float 0.06) 1 4 1 = .ok o ∧
    ∃ rfs, (run_deconvolution delay2 (run_fwd o).1 (some [0.05, 2]) 1 2 (some "water") {}).2 = .ok rfs ∧
      ∃ δ > 0, ∀ ε, 0 ≤ ε → ε ≤ δ → ∀ out,
        SynthRun ε 0.06 1 4 1 hsLayer [] (fun x => (0 :: 0 :: x).take x.length) 1 0.05 2 false out →
        ∃ t x, rfs = [t] ∧ t.data = some x ∧ SamplesWithin 0.001 x out := by
  refine ⟨_, rfl, ?_⟩
  obtain ⟨rfs, h1, δ, hδ, h2⟩ := c135_session (l := hsLayer) (rest := []) (depth := [35]) (r := [0.06])
    (rayp := .float 0.06) (npts := 4) (dt := 1) (ipha := 1) (pre := 1) (g := 2) (η := 0.001) (bp := delay2)
    (kw := {}) (pf := some [0.05, 2])
    (f := fun _ _ x => (0 :: 0 :: x).take x.length) (calls := []) (by norm_num) (by norm_num)
    (fun p hp l hl => by
      rw [List.mem_singleton] at hp hl
      subst hp hl
      exact hsLayer_propagating) (by simp [thicknesses, hs, hsLayer]) rfl rfl
    (by simp) (Or.inr (by simp [Call.pass, splat])) (fun _ _ _ _ _ _ => rfl) ⟨rfl, rfl, rfl⟩ (by norm_num) (by norm_num)
    (fun _ _ _ _ => delay_steady) (fun p hp u z h => by
      rw [List.mem_singleton] at hp
      subst hp
      obtain ⟨y0, y1, y2, y3, rfl, h0⟩ := hs_vertical h
      exact ⟨y0, by simp [Call.pass, splat], h0⟩) (by norm_num)
  refine ⟨rfs, h1, δ, hδ, fun ε a b out hout => ?_⟩
  have := h2 ε a b [out] (.cons (by simpa [Call.pass, splat] using hout) .nil)
  cases this with
  | cons q rest =>
    cases rest
    obtain ⟨x, hx, hs⟩ := q
    exact ⟨_, x, rfl, hx, hs⟩

end Rfsed.Props
