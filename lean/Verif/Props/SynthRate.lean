import Verif.Props.SynthRounded
import Verif.Props.ForwardRate
import Verif.Spec.Proportional

/-! # C135: the rounding errors of a whole synthetic receiver function are proportional to the precision -/

namespace Rfsed.Props
open Rfsed Synrf Spec Finset

/-- the water-level deconvolution of nearby traces -/
theorem water_near_rate {uin win : List ℝ} {dt preonset wlevel a : ℝ} {normalize : Bool} {rft : List ℝ} {rms : ℝ}
    (h : deconv_waterlevel uin win dt preonset wlevel a normalize = .ok (rft, rms)) (hw : 0 < wlevel)
    (hw1 : wlevel ≤ 1) (hwin : ∃ v ∈ win, v ≠ 0) :
    ∃ C > 0, ∃ δ₀ > 0, ∀ δ, 0 < δ → δ ≤ δ₀ → ∀ uin' win', SamplesWithin δ uin uin' → SamplesWithin δ win win' →
      ∃ rft' rms', deconv_waterlevel uin' win' dt preonset wlevel a normalize = .ok (rft', rms') ∧
        SamplesWithin (C * δ) rft rft' := by
  obtain ⟨hlen, hdt, ⟨k, hk, hn⟩, d, hd, hl, -, -⟩ := water_master h
  have hle := le_nextPow2 uin.length
  have h2 : 2 ≤ uin.length := by
    by_contra hcon
    have : uin.length = 0 ∨ uin.length = 1 := by omega
    rcases this with h0 | h0
    · rw [h0] at hn; simp [nextPow2] at hn; omega
    · rw [h0, nextPow2_one] at hn; omega
  have hd0 : 0 < d := maxPower_pos (by omega) hwin hd
  have hs0 : 0 < √d := Real.sqrt_pos.2 hd0
  have hsw : 0 < √wlevel := Real.sqrt_pos.2 hw
  have hswd : 0 < √(wlevel * d) := Real.sqrt_pos.2 (mul_pos hw hd0)
  set A := ∑ j ∈ Finset.range uin.length, |smp uin j| with hA
  have hA0 : 0 ≤ A := Finset.sum_nonneg (fun _ _ => abs_nonneg _)
  set N := (if normalize then gaussPulse dt (nextPow2 uin.length) a 0 else |dt|) with hN
  have hN0 : 0 < N := by
    rw [hN]
    split
    · exact gaussPulse_zero_pos (by omega)
    · exact abs_pos.2 hdt
  have hlR : (0 : ℝ) < uin.length := by exact_mod_cast (by omega : 0 < uin.length)
  set C := (2 * uin.length / √(wlevel * d) + 6 * A * uin.length / (wlevel * √wlevel * d)) / N with hC
  have hC0 : 0 ≤ C := by positivity
  refine ⟨C + 1, by positivity, √d / 2 / uin.length, by positivity, ?_⟩
  intro δ hδ0 hδ uin' win' hu hw'
  have hu2 := samplesWithin_iff.1 hu
  have hw2 := samplesWithin_iff.1 hw'
  obtain ⟨⟨rft', rms'⟩, h'⟩ := c58_total (uin := uin') (win := win') (dt := dt) (preonset := preonset)
    (wlevel := wlevel) (a := a) (normalize := normalize) (by omega) (by omega) hdt
  refine ⟨rft', rms', h', ?_⟩
  have hl' : rft'.length = uin'.length := (water_master h').2.2.2.choose_spec.2.1
  rw [samplesWithin_iff]
  refine ⟨by omega, fun m hm => ?_⟩
  have hE : ∑ j ∈ Finset.range uin.length, |smp uin' j - smp uin j| ≤ uin.length * δ := by
    refine (Finset.sum_le_card_nsmul _ _ δ (fun j hj => (hu2.2 j (by simpa using hj)).le)).trans ?_
    simp
  have he : ∑ j ∈ Finset.range uin.length, |smp win' j - smp win j| ≤ uin.length * δ := by
    refine (Finset.sum_le_card_nsmul _ _ δ (fun j hj => (hw2.2 j (by rw [← hlen]; simpa using hj)).le)).trans ?_
    simp
  have hsm : uin.length * δ ≤ √d / 2 := by
    have := hδ
    rw [le_div_iff₀ hlR] at this
    linarith
  have hb := c129_small_noise h h' hu2.1.symm hw hw1 hd hd0 (he.trans hsm) (hl ▸ hm)
  refine hb.trans_lt ?_
  have step : (2 * (∑ j ∈ Finset.range uin.length, |smp uin' j - smp uin j|) / √(wlevel * d)
        + 6 * A * (∑ j ∈ Finset.range uin.length, |smp win' j - smp win j|)
          / (wlevel * √wlevel * d)) / N ≤ C * δ := by
    rw [hC, div_mul_eq_mul_div]
    apply div_le_div_of_nonneg_right _ hN0.le
    rw [add_mul]
    apply add_le_add
    · rw [div_mul_eq_mul_div]
      apply div_le_div_of_nonneg_right _ hswd.le
      linarith
    · rw [div_mul_eq_mul_div]
      apply div_le_div_of_nonneg_right _ (by positivity)
      rw [mul_assoc (6 * A)]
      exact mul_le_mul_of_nonneg_left he (by positivity)
  refine step.trans_lt ?_
  linarith

/-- the water-level deconvolution of nearby traces in inexact arithmetic -/
theorem water_rounded_rate {uin win : List ℝ} {dt preonset wlevel a : ℝ} {normalize : Bool} {rft : List ℝ} {rms : ℝ}
    (h : deconv_waterlevel uin win dt preonset wlevel a normalize = .ok (rft, rms)) (hw : 0 < wlevel)
    (hw1 : wlevel ≤ 1) (hwin : ∃ v ∈ win, v ≠ 0) :
    ∃ C > 0, ∃ δ₀ > 0, ∀ δ, 0 < δ → δ ≤ δ₀ → ∀ ε, 0 ≤ ε → ε ≤ δ → ∀ x y out, SamplesWithin δ uin x →
      SamplesWithin δ win y → Nonempty (WaterRun ε x y dt preonset wlevel a normalize out) →
      SamplesWithin (C * δ) rft out := by
  obtain ⟨hlen, hdt, ⟨k, hk, hn⟩, d, hd, hl, -, -⟩ := water_master h
  have hle := le_nextPow2 uin.length
  have hd0 : 0 < d := maxPower_pos (by omega) hwin hd
  have hs0 : 0 < √d := Real.sqrt_pos.2 hd0
  have hsw : 0 < √wlevel := Real.sqrt_pos.2 hw
  obtain ⟨C0, hC0, δ1, hδ1, hnear⟩ := water_near_rate h hw hw1 hwin
  set n : ℝ := (uin.length : ℝ) with hnR
  have hn0 : 0 < n := by
    rw [hnR]
    have : uin.length ≠ 0 := by intro h0; rw [h0, nextPow2_zero] at hn; omega
    exact_mod_cast Nat.pos_of_ne_zero this
  set A := ∑ j ∈ range uin.length, |smp uin j| with hA
  set B := ∑ j ∈ range uin.length, |smp win j| with hB
  have hA0 : 0 ≤ A := sum_nonneg (fun _ _ => abs_nonneg _)
  have hB0 : 0 ≤ B := sum_nonneg (fun _ _ => abs_nonneg _)
  set γ := gaussPulse dt (nextPow2 uin.length) a 0 with hγ
  have hγ0 : 0 < γ := gaussPulse_zero_pos (by omega)
  have hγ1 : γ ≤ 1 := gaussPulse_zero_le (by omega)
  have hdt0 : 0 < |dt| := abs_pos.2 hdt
  set s := √d / 2 with hs
  have hs00 : 0 < s := by positivity
  set P := (A + n) / (√wlevel * s) with hP
  set Q := 6 * (A + n) * (B + n) / (wlevel * √wlevel * s ^ 2) with hQ
  have hP0 : 0 ≤ P := by positivity
  have hQ0 : 0 ≤ Q := by positivity
  set K := (1 / γ) * (31 * P / γ + Q) + (23 * P + Q) / |dt| with hK
  have hK1 : 0 ≤ (1 / γ) * (31 * P / γ + Q) := by positivity
  have hK2 : 0 ≤ (23 * P + Q) / |dt| := by positivity
  refine ⟨C0 + K + 1, by linarith, min (min δ1 (min 1 (s / n))) (min (γ / 100) (s / 2 / (B + n))), ?_, ?_⟩
  · exact lt_min (lt_min hδ1 (lt_min one_pos (by positivity))) (lt_min (by positivity) (by positivity))
  intro δ hδ0 hδ ε hε hεδ x y out hx hy ⟨r⟩
  have d1 : δ ≤ δ1 := hδ.trans ((min_le_left _ _).trans (min_le_left _ _))
  have d2 : δ ≤ 1 := hδ.trans ((min_le_left _ _).trans ((min_le_right _ _).trans (min_le_left _ _)))
  have d3 : δ ≤ s / n := hδ.trans ((min_le_left _ _).trans ((min_le_right _ _).trans (min_le_right _ _)))
  have d4 : δ ≤ γ / 100 := hδ.trans ((min_le_right _ _).trans (min_le_left _ _))
  have d5 : δ ≤ s / 2 / (B + n) := hδ.trans ((min_le_right _ _).trans (min_le_right _ _))
  obtain ⟨rft', rms', h', hrr⟩ := hnear δ hδ0 d1 x y hx hy
  obtain ⟨hxl, hxd⟩ := samplesWithin_iff.1 hx
  obtain ⟨hyl, hyd⟩ := samplesWithin_iff.1 hy
  obtain ⟨hrl, hrd⟩ := samplesWithin_iff.1 hrr
  obtain ⟨hlen', _, _, d', hd', hl', -, -⟩ := water_master h'
  -- the size of the nearby traces
  have hsum : ∀ {u v : List ℝ}, u.length = uin.length → (∀ m < u.length, |smp v m - smp u m| < δ) →
      ∑ j ∈ range uin.length, |smp v j - smp u j| ≤ n * δ := by
    intro u v hu huv
    have := sum_le_card_nsmul (range uin.length) (fun j => |smp v j - smp u j|) δ
      (fun j hj => (huv j (by rw [hu]; exact mem_range.1 hj)).le)
    simpa using this
  have hsize : ∀ {u v : List ℝ}, u.length = uin.length → (∀ m < u.length, |smp v m - smp u m| < δ) →
      ∑ j ∈ range uin.length, |smp v j| ≤ (∑ j ∈ range uin.length, |smp u j|) + n := by
    intro u v hu huv
    have h1 : ∑ j ∈ range uin.length, |smp v j| ≤ ∑ j ∈ range uin.length, (|smp u j| + |smp v j - smp u j|) :=
      sum_le_sum (fun j _ => by
        have := abs_add_le (smp u j) (smp v j - smp u j)
        rwa [add_sub_cancel] at this)
    rw [sum_add_distrib] at h1
    have h2 := hsum hu huv
    nlinarith
  have hA' : ∑ j ∈ range x.length, |smp x j| ≤ A + n := by rw [← hxl]; exact hsize rfl hxd
  have hB' : ∑ j ∈ range x.length, |smp y j| ≤ B + n := by rw [← hxl]; exact hsize hlen.symm hyd
  have hA0' : 0 ≤ ∑ j ∈ range x.length, |smp x j| := sum_nonneg (fun _ _ => abs_nonneg _)
  have hB0' : 0 ≤ ∑ j ∈ range x.length, |smp y j| := sum_nonneg (fun _ _ => abs_nonneg _)
  have hd1 : IsMaxPower (nextPow2 uin.length) (traceSpectrum (nextPow2 uin.length) y) d' := by rw [hxl]; exact hd'
  have hmove := maxPower_move hd hd1 (fun k _ => by
    have := spectrum_move (nextPow2 uin.length) win y k
    rw [sum_smp_pad (by omega) (by omega), ← hlen] at this
    exact this.trans (hsum hlen.symm hyd))
  have hns : n * δ ≤ s := by
    rw [le_div_iff₀ hn0] at d3
    linarith
  have hlo : s ≤ √d' := by
    have := (abs_le.1 hmove).1
    rw [hs] at hns ⊢
    linarith
  have hd0' : 0 < d' := Real.sqrt_pos.1 (by linarith)
  have hsd : s ^ 2 ≤ d' := by
    have := pow_le_pow_left₀ hs00.le hlo 2
    rwa [Real.sq_sqrt hd0'.le] at this
  have hεB : ε * ∑ j ∈ range x.length, |smp y j| ≤ √d' / 2 := by
    have h1 : ε * ∑ j ∈ range x.length, |smp y j| ≤ δ * (B + n) :=
      mul_le_mul hεδ hB' hB0' (by linarith)
    rw [le_div_iff₀ (by positivity)] at d5
    linarith
  have hPle : (∑ j ∈ range x.length, |smp x j|) / √(wlevel * d') ≤ P := by
    rw [Real.sqrt_mul hw.le]
    exact div_le_div₀ (by positivity) hA' (by positivity) (mul_le_mul_of_nonneg_left hlo hsw.le)
  have hQle : 6 * (∑ j ∈ range x.length, |smp x j|) * (∑ j ∈ range x.length, |smp y j|) / (wlevel * √wlevel * d') ≤ Q := by
    refine div_le_div₀ (by positivity) ?_ (by positivity) (mul_le_mul_of_nonneg_left hsd (by positivity))
    exact mul_le_mul (mul_le_mul_of_nonneg_left hA' (by norm_num)) hB' hB0' (by positivity)
  have hεK : ∀ c : ℝ, 0 ≤ c → c ≤ K → ε * c ≤ K * δ := by
    intro c hc hcK
    have h1 : ε * c ≤ δ * K := mul_le_mul hεδ hcK hc (by linarith)
    linarith
  rw [samplesWithin_iff]
  refine ⟨by rw [r.rft_length, ← hxl, hl], fun m hm => ?_⟩
  have hm' : m < x.length := by omega
  have hfirst := hrd m hm
  have hsecond : |smp out m - smp rft' m| ≤ K * δ := by
    cases normalize with
    | false =>
      have hb := (c131_rounding h' r hε (by linarith) hw hw1 hd' hd0' hεB).2 m hm'
      simp only at hb
      refine hb.trans ?_
      rw [mul_div_assoc]
      have hc : (23 * ((∑ j ∈ range x.length, |smp x j|) / √(wlevel * d')) + 6 * (∑ j ∈ range x.length, |smp x j|) *
          (∑ j ∈ range x.length, |smp y j|) / (wlevel * √wlevel * d')) / |dt| ≤ (23 * P + Q) / |dt| :=
        div_le_div_of_nonneg_right (by linarith) hdt0.le
      exact hεK _ (by positivity) (by linarith)
    | true =>
      have hb := (c131_normalized h' r hε hw hw1 hd' hd0' hεB (by rw [← hxl]; linarith)).2 m hm'
      simp only [← hxl] at hb
      rw [← hγ, hxl] at hb
      refine hb.trans ?_
      rw [div_eq_mul_one_div, mul_assoc]
      have hc : (1 / γ) * (31 * ((∑ j ∈ range x.length, |smp x j|) / √(wlevel * d')) / γ + 6 *
          (∑ j ∈ range x.length, |smp x j|) * (∑ j ∈ range x.length, |smp y j|) / (wlevel * √wlevel * d'))
          ≤ (1 / γ) * (31 * P / γ + Q) := by
        refine mul_le_mul_of_nonneg_left (add_le_add ?_ hQle) (by positivity)
        exact div_le_div_of_nonneg_right (mul_le_mul_of_nonneg_left hPle (by norm_num)) hγ0.le
      exact hεK _ (by positivity) (by linarith)
  have := abs_sub_le (smp out m) (smp rft' m) (smp rft m)
  linarith

/-- a filter in inexact arithmetic -/
theorem passRun_rate {pass : List ℝ → List ℝ} (hpass : ProportionalFilter pass) (r : List ℝ) :
    ∃ C > 0, ∀ δ, 0 < δ → δ ≤ 1 → ∀ ε, 0 ≤ ε → ε ≤ δ → ∀ x x', SamplesWithin δ r x → PassRun pass ε x x' →
      SamplesWithin (C * δ) (pass r) x' := by
  obtain ⟨hl, L, hL, h1⟩ := hpass r
  set S := ∑ j ∈ range r.length, |smp r j| with hS
  have hS0 : 0 ≤ S := sum_nonneg (fun _ _ => abs_nonneg _)
  have hn0 : (0 : ℝ) ≤ r.length := Nat.cast_nonneg _
  refine ⟨L + (S + r.length), by linarith, fun δ hδ0 d2 ε hε hεδ x x' hx ⟨hp1, hp2⟩ => ?_⟩
  obtain ⟨a1, a2⟩ := samplesWithin_iff.1 (h1 δ hδ0 x hx)
  obtain ⟨b1, b2⟩ := samplesWithin_iff.1 hx
  rw [samplesWithin_iff]
  refine ⟨by rw [hp1, a1], fun m hm => ?_⟩
  have e1 := a2 m hm
  have e2 := hp2 m (by rw [hp1, ← a1]; exact hm)
  have hsz : ∑ k ∈ range x.length, |smp x k| ≤ S + r.length := by
    rw [← b1]
    have g1 : ∑ j ∈ range r.length, |smp x j| ≤ ∑ j ∈ range r.length, (|smp r j| + |smp x j - smp r j|) :=
      sum_le_sum (fun j _ => by
        have := abs_add_le (smp r j) (smp x j - smp r j)
        rwa [add_sub_cancel] at this)
    have g2 := sum_le_card_nsmul (range r.length) (fun j => |smp x j - smp r j|) δ
      (fun j hj => (b2 j (mem_range.1 hj)).le)
    rw [sum_add_distrib] at g1
    simp only [card_range, nsmul_eq_mul] at g2
    nlinarith
  have e3 : ε * ∑ k ∈ range x.length, |smp x k| ≤ δ * (S + r.length) :=
    mul_le_mul hεδ hsz (sum_nonneg (fun _ _ => abs_nonneg _)) hδ0.le
  have := abs_sub_le (smp x' m) (smp (pass x) m) (smp (pass r) m)
  linarith

/-- one slowness -/
theorem synth_rate {p dt pre g wl : ℝ} {nm : Bool} {npts : Nat} {ipha : ℤ} {l : Layer} {rest : List Layer}
    {pass : List ℝ → List ℝ} (hnp : 2 ≤ npts) (hdt : dt ≠ 0) (hp : ∀ k ∈ l :: rest, k.Propagating p)
    (hpass : ProportionalFilter pass) (hw : 0 < wl) (hw1 : wl ≤ 1)
    (hz : ∀ u z, fwd_seis p dt npts ipha (alphas (l :: rest)) (betas (l :: rest)) (rhos (l :: rest)) (hs (l :: rest)) =
      .ok (.num u, .num z) → ∃ v ∈ pass z, v ≠ 0) :
    ∃ u z x rms, fwd_seis p dt npts ipha (alphas (l :: rest)) (betas (l :: rest)) (rhos (l :: rest)) (hs (l :: rest)) =
        .ok (.num u, .num z) ∧ deconv_waterlevel (pass u) (pass z) dt pre wl g nm = .ok (x, rms) ∧
      ∃ C > 0, ∃ δ > 0, ∀ ε, 0 < ε → ε ≤ δ → ∀ out, SynthRun ε p dt npts ipha l rest pass pre wl g nm out →
        SamplesWithin (C * ε) x out := by
  obtain ⟨u, z, hf, Cf, hCf, δf, hδf, hr⟩ := c134_rate (npts := npts) (ipha := ipha) (by omega) hdt hp
  have hlen : u.length = npts ∧ z.length = npts := by
    rcases c62_shape hf with ⟨a1, -⟩ | ⟨x, y, a1, a2, a3, a4⟩
    · cases a1
    · cases a1; cases a2; exact ⟨a3, a4⟩
  have lu := (hpass u).1
  have lz := (hpass z).1
  obtain ⟨⟨x, rms⟩, hx⟩ := c58_total (uin := pass u) (win := pass z) (dt := dt) (preonset := pre)
    (wlevel := wl) (a := g) (normalize := nm) (by omega) (by omega) hdt
  obtain ⟨C1, hC1, δ1, hδ1, h1⟩ := water_rounded_rate hx hw hw1 (hz u z hf)
  obtain ⟨Cu, hCu, h2⟩ := passRun_rate hpass u
  obtain ⟨Cz, hCz, h3⟩ := passRun_rate hpass z
  set D := Cf + 1 with hD
  have hD0 : 0 < D := by linarith
  set G := Cu * D + Cz * D + 1 with hG
  have hu0 : 0 < Cu * D := by positivity
  have hz0 : 0 < Cz * D := by positivity
  have hG0 : 0 < G := by linarith
  refine ⟨u, z, x, rms, hf, hx, C1 * G, by positivity, min δf (min (1 / D) (δ1 / G)),
    lt_min hδf (lt_min (by positivity) (by positivity)), ?_⟩
  intro ε hε hεδ out ⟨ur, uz, hfr, hout⟩
  have q1 : ε ≤ δf := hεδ.trans (min_le_left _ _)
  have q2 : D * ε ≤ 1 := by
    have := hεδ.trans ((min_le_right _ _).trans (min_le_left _ _))
    rw [le_div_iff₀ hD0] at this
    linarith
  have q3 : G * ε ≤ δ1 := by
    have := hεδ.trans ((min_le_right _ _).trans (min_le_right _ _))
    rw [le_div_iff₀ hG0] at this
    linarith
  have q4 : ε ≤ D * ε := by nlinarith
  have q5 : ε ≤ G * ε := by nlinarith
  have q6 : Cf * ε ≤ D * ε := by nlinarith
  obtain ⟨a, b, rfl, rfl, ha, hb⟩ := hr ε hε q1 ur uz hfr
  obtain ⟨a', b', pa, pb, hrun⟩ := hout a b rfl rfl
  have k1 := h2 (D * ε) (by positivity) q2 ε hε.le q4 a a' (samplesWithin_mono q6 ha) pa
  have k2 := h3 (D * ε) (by positivity) q2 ε hε.le q4 b b' (samplesWithin_mono q6 hb) pb
  have := h1 (G * ε) (by positivity) q3 ε hε.le q5 a' b' out (samplesWithin_mono (by nlinarith) k1)
    (samplesWithin_mono (by nlinarith) k2) hrun
  rwa [mul_assoc]

theorem proportional_passes {fs : FilterArgs → List ℝ → List ℝ} :
    ∀ ps : List FilterArgs, (∀ a ∈ ps, ProportionalFilter (fs a)) →
    ProportionalFilter (fun x => ps.foldl (fun x a => fs a x) x)
  | [], _ => fun x => ⟨rfl, 1, one_pos, fun δ _ _ hy => by rw [one_mul]; exact hy⟩
  | a :: ps, h => by
    intro x
    have ih := proportional_passes ps (fun b hb => h b (List.mem_cons_of_mem _ hb))
    obtain ⟨l1, L1, hL1, c1⟩ := h a (List.mem_cons_self ..) x
    obtain ⟨l2, L2, hL2, c2⟩ := ih (fs a x)
    refine ⟨by simpa [l1] using l2, L2 * L1, by positivity, fun δ hδ y hy => ?_⟩
    have := c2 (L1 * δ) (by positivity) _ (c1 δ hδ y hy)
    rw [mul_assoc]
    exact this

/-- linear filters are proportional -/
theorem linear_proportional {g : List ℝ → List ℝ} (h : LinearFilter g) : ProportionalFilter g := by
  obtain ⟨a, ha⟩ := h
  intro x
  refine ⟨by rw [ha]; simp, ?_⟩
  set M := ∑ m ∈ range x.length, ∑ k ∈ range x.length, |a x.length m k| with hM
  have hM0 : 0 ≤ M := sum_nonneg (fun _ _ => sum_nonneg (fun _ _ => abs_nonneg _))
  refine ⟨M + 1, by linarith, fun δ hδ y hy => ?_⟩
  obtain ⟨b1, b2⟩ := samplesWithin_iff.1 hy
  rw [samplesWithin_iff]
  refine ⟨by rw [ha, ha]; simpa using b1, fun m hm => ?_⟩
  have hm' : m < x.length := by rw [ha] at hm; simpa using hm
  have hv : ∀ z : List ℝ, z.length = x.length → smp (g z) m = ∑ k ∈ range x.length, a x.length m k * smp z k := by
    intro z hz
    rw [ha, smp, hz, List.getD_eq_getElem?_getD, List.getElem?_map, List.getElem?_range hm', Option.map_some,
      Option.getD_some]
    rw [← List.sum_toFinset _ List.nodup_range]
    simp [smp, List.toFinset_range]
  rw [hv x rfl, hv y b1.symm, ← sum_sub_distrib]
  have e : ∀ k ∈ range x.length, |a x.length m k * smp y k - a x.length m k * smp x k| ≤ |a x.length m k| * δ := by
    intro k hk
    rw [← mul_sub, abs_mul]
    exact mul_le_mul_of_nonneg_left (b2 k (mem_range.1 hk)).le (abs_nonneg _)
  have e1 := (abs_sum_le_sum_abs _ _).trans (sum_le_sum e)
  rw [← sum_mul] at e1
  have e2 : ∑ k ∈ range x.length, |a x.length m k| ≤ M :=
    single_le_sum (f := fun m => ∑ k ∈ range x.length, |a x.length m k|)
      (fun _ _ => sum_nonneg (fun _ _ => abs_nonneg _)) (mem_range.2 hm')
  nlinarith

section
variable {l : Layer} {rest : List Layer} {depth r : List ℝ} {rayp : RaypArg} {dt pre g : ℝ} {npts : ℕ} {ipha : ℤ}
  {o : Obj} {bp : Bandpass} {f : FilterArgs → ℝ → List ℝ → List ℝ} {calls : List Call} {pf : Option (List ℝ)} {kw : KwArgs}

/-- **C135** With filters under which errors stay proportional (e.g. linear ones), the error of the receiver functions of
a whole session is at most a fixed multiple of the relative accuracy of the arithmetic, once it is accurate enough. -/
theorem c135_rate (hnp : 2 ≤ npts) (hdt : dt ≠ 0) (hp : ∀ p ∈ r, ∀ k ∈ l :: rest, k.Propagating p)
    (hdepth : thicknesses depth = hs (l :: rest))
    (ho : init depth (alphas (l :: rest)) (betas (l :: rest)) (rhos (l :: rest)) rayp dt npts ipha = .ok o)
    (hr : slownesses rayp = some r) (hc : ∀ c ∈ calls, c.isFwd = false)
    (hpf : pf = none ∨ (Call.deconv pf pre g (some "water") kw).pass ≠ none)
    (hbp : ∀ c ∈ calls ++ [Call.deconv pf pre g (some "water") kw], ∀ a, c.pass = some a →
      ∀ d x, bp a d x = .ok (f a d x))
    (hkw : kw.nt = none ∧ kw.itmax = none ∧ kw.minderr = none)
    (hw : 0 < kw.wlevel.getD 0.05) (hw1 : kw.wlevel.getD 0.05 ≤ 1)
    (hsteady : ∀ c ∈ calls ++ [Call.deconv pf pre g (some "water") kw], ∀ a, c.pass = some a → ProportionalFilter (f a dt))
    (hz : ∀ p ∈ r, ∀ u z, fwd_seis p dt npts ipha (alphas (l :: rest)) (betas (l :: rest)) (rhos (l :: rest))
        (hs (l :: rest)) = .ok (.num u, .num z) →
      ∃ v ∈ ((calls ++ [Call.deconv pf pre g (some "water") kw]).filterMap Call.pass).foldl (fun x a => f a dt x) z,
        v ≠ 0) :
    ∃ rfs, (run_deconvolution bp (after bp (run_fwd o).1 calls) pf pre g (some "water") kw).2 = .ok rfs ∧
      ∃ C > 0, ∃ δ > 0, ∀ ε, 0 < ε → ε ≤ δ → ∀ outs,
        List.Forall₂ (fun p out => SynthRun ε p dt npts ipha l rest
          (fun x => ((calls ++ [Call.deconv pf pre g (some "water") kw]).filterMap Call.pass).foldl (fun x a => f a dt x) x)
          pre (kw.wlevel.getD 0.05) g (kw.normalize.getD false) out) r outs →
        List.Forall₂ (fun t out => ∃ x, t.data = some x ∧ SamplesWithin (C * ε) x out) rfs outs := by
  obtain ⟨ps, hps⟩ : ∃ ps, ps = (calls ++ [Call.deconv pf pre g (some "water") kw]).filterMap Call.pass := ⟨_, rfl⟩
  rw [← hps] at hz ⊢
  have hsp : ProportionalFilter (fun x => ps.foldl (fun x a => f a dt x) x) := by
    apply proportional_passes (fs := fun a x => f a dt x) ps
    intro a ha
    rw [hps, List.mem_filterMap] at ha
    obtain ⟨c, hc1, hc2⟩ := ha
    exact hsteady c hc1 a hc2
  have hall : ∃ ts, List.Forall₂ (fun p t => ∃ u z, fwd_seis p dt npts ipha (alphas (l :: rest)) (betas (l :: rest))
        (rhos (l :: rest)) (hs (l :: rest)) = .ok (.num u, .num z) ∧
      deconvTr ⟨.num (ps.foldl (fun x a => f a dt x) u), dt⟩ ⟨.num (ps.foldl (fun x a => f a dt x) z), dt⟩ (some "water")
        { kw with preonset := some pre, gaussian := some g } = .ok t) r ts ∧
      ∃ C > 0, ∃ δ > 0, ∀ ε, 0 < ε → ε ≤ δ → ∀ outs, List.Forall₂ (fun p out => SynthRun ε p dt npts ipha l rest
          (fun x => ps.foldl (fun x a => f a dt x) x) pre (kw.wlevel.getD 0.05) g (kw.normalize.getD false) out) r outs →
        List.Forall₂ (fun t out => ∃ x, t.data = some x ∧ SamplesWithin (C * ε) x out) ts outs := by
    clear hr ho
    induction r with
    | nil =>
      refine ⟨[], .nil, 1, one_pos, 1, one_pos, fun ε _ _ outs h => ?_⟩
      cases h
      exact .nil
    | cons p r ih =>
      obtain ⟨ts, h1, C1, hC1, δ1, hδ1, h2⟩ := ih (fun q hq => hp q (List.mem_cons_of_mem _ hq))
        (fun q hq => hz q (List.mem_cons_of_mem _ hq))
      obtain ⟨u, z, x, rms, hf, hx, C2, hC2, δ2, hδ2, h3⟩ := synth_rate (pre := pre) (g := g) (nm := kw.normalize.getD false) hnp hdt
        (hp p (List.mem_cons_self ..)) hsp hw hw1 (hz p (List.mem_cons_self ..))
      obtain ⟨t, ht, htx⟩ := deconvTr_water hkw hx
      refine ⟨t :: ts, .cons ⟨u, z, hf, ht⟩ h1, C1 + C2, by positivity, min δ1 δ2, lt_min hδ1 hδ2, fun ε hε hεδ outs ho => ?_⟩
      cases ho with
      | cons a b =>
        refine .cons ⟨x, htx, samplesWithin_mono (by nlinarith) (h3 ε hε (hεδ.trans (min_le_right _ _)) _ a)⟩ ?_
        refine (h2 ε hε (hεδ.trans (min_le_left _ _)) _ b).imp ?_
        rintro t o ⟨x', k1, k2⟩
        exact ⟨x', k1, samplesWithin_mono (by nlinarith) k2⟩
  obtain ⟨ts, hts, hrest⟩ := hall
  exact ⟨ts, session_value hnp hdt (by simp) hdepth ho hr hc hpf hbp hps hts, hrest⟩

end

/-- the delay by two samples is linear -/
theorem delay_linear : LinearFilter (fun x => (0 :: 0 :: x).take x.length) := by
  refine ⟨fun _ m k => if m = k + 2 then 1 else 0, fun x => ?_⟩
  apply List.ext_getElem
  · simp; omega
  · intro m h1 h2
    have hm : m < x.length := by simpa using h2
    simp only [List.getElem_map, List.getElem_range, List.getElem_take]
    rw [← List.sum_toFinset _ List.nodup_range, List.toFinset_range]
    match m with
    | 0 => simp
    | 1 => simp
    | m + 2 =>
      rw [Finset.sum_eq_single m]
      · have : m < x.length := by omega
        simp [this]
      · intro k _ hk
        rw [if_neg (by omega), zero_mul]
      · intro h
        exact absurd (Finset.mem_range.2 (by omega)) h

/-- a half-space, with a pre-filter that delays by two samples -/
example : ∃ o, init [35] [6] [3.5] [2.7] (.float 0.06) 1 4 1 = .ok o ∧
    ∃ rfs, (run_deconvolution delay2 (run_fwd o).1 (some [0.05, 2]) 1 2 (some "water") {}).2 = .ok rfs ∧
      ∃ C > 0, ∃ δ > 0, ∀ ε, 0 < ε → ε ≤ δ → ∀ out,
        SynthRun ε 0.06 1 4 1 hsLayer [] (fun x => (0 :: 0 :: x).take x.length) 1 0.05 2 false out →
        ∃ t x, rfs = [t] ∧ t.data = some x ∧ SamplesWithin (C * ε) x out := by
  refine ⟨_, rfl, ?_⟩
  obtain ⟨rfs, h1, C, hC, δ, hδ, h2⟩ := c135_rate (l := hsLayer) (rest := []) (depth := [35]) (r := [0.06])
    (rayp := .float 0.06) (npts := 4) (dt := 1) (ipha := 1) (pre := 1) (g := 2) (bp := delay2)
    (kw := {}) (pf := some [0.05, 2])
    (f := fun _ _ x => (0 :: 0 :: x).take x.length) (calls := []) (by norm_num) (by norm_num)
    (fun p hp l hl => by
      rw [List.mem_singleton] at hp hl
      subst hp hl
      exact hsLayer_propagating) (by simp [thicknesses, hs, hsLayer]) rfl rfl
    (by simp) (Or.inr (by simp [Call.pass, splat])) (fun _ _ _ _ _ _ => rfl) ⟨rfl, rfl, rfl⟩ (by norm_num) (by norm_num)
    (fun _ _ _ _ => linear_proportional delay_linear) (fun p hp u z h => by
      rw [List.mem_singleton] at hp
      subst hp
      obtain ⟨y0, y1, y2, y3, rfl, h0⟩ := hs_vertical h
      exact ⟨y0, by simp [Call.pass, splat], h0⟩)
  refine ⟨rfs, h1, C, hC, δ, hδ, fun ε a b out hout => ?_⟩
  have := h2 ε a b [out] (.cons (by simpa [Call.pass, splat] using hout) .nil)
  cases this with
  | cons q rest =>
    cases rest
    obtain ⟨x, hx, hs⟩ := q
    exact ⟨_, x, rfl, hx, hs⟩

end Rfsed.Props
