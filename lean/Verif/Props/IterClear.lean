import Verif.Proofs.IterNear3
import Verif.Model.IterOutRounded
import Verif.Props.TiesCopy

/-!
# C139: away from ties rounding errors do not change the decisions of the iterative deconvolution
-/

namespace Rfsed.Props
open Rfsed Synrf Spec Finset Topology Filter Asymptotics

section
variable {uin win : List ℝ} {dt preonset a : ℝ} {nt : Option Nat} {itmax : Nat} {minderr : ℝ} {phase : String}
  {R : IterResult}

/-- everything that can be computed for traces within `δ` of the given ones, in arithmetic at least as accurate as `δ` -/
structure Computed (uin win : List ℝ) (dt preonset a : ℝ) (itmax : Nat) (minderr : ℝ) (phase : String) where
  δ : ℝ
  ε : ℝ
  x : List ℝ
  y : List ℝ
  out : List ℝ
  k : Nat
  rms : Nat → ℝ
  P : Nat → List ℝ
  p_flt : List ℝ
  run : IterRun ε x y dt a itmax minderr phase (nextPow2 uin.length) k P rms
  pos : 0 ≤ ε
  le : ε ≤ δ
  hx : SamplesWithin δ uin x
  hy : SamplesWithin δ win y
  flt : size (nextPow2 uin.length) (fun m => smp p_flt m -
      cconv (nextPow2 uin.length) (smp (P k)) (gaussPulse dt (nextPow2 uin.length) a) m) ≤
    ε * size (nextPow2 uin.length) (smp (P k))
  shifted : ∀ m < uin.length, |smp out m - smp (phaseshift p_flt (nextPow2 uin.length) dt preonset) m| ≤
      ε * (size (nextPow2 uin.length) (smp p_flt) /
        |Real.cos (2 * Real.pi * (pyInt (preonset / dt) : ℝ) / (nextPow2 uin.length : ℕ))|)

theorem within_near {Ω : Type} {F : Filter Ω} {δ : Ω → ℝ} {x : Ω → List ℝ} {y : List ℝ}
    (h : ∀ ω, SamplesWithin (δ ω) y (x ω)) (n : Nat) : NearSig F δ n (fun ω => smp (x ω)) (smp y) := by
  intro m _
  refine IsBigO.of_bound 1 (.of_forall fun ω => ?_)
  obtain ⟨h1, h2⟩ := samplesWithin_iff.1 (h ω)
  rw [one_mul, Real.norm_eq_abs, Real.norm_eq_abs]
  by_cases hm : m < y.length
  · exact (h2 m hm).le.trans (le_abs_self _)
  · have e1 : smp (x ω) m = 0 := getD_of_le (by omega)
    have e2 : smp y m = 0 := getD_of_le (by omega)
    simp only [e1, e2, sub_zero, abs_zero]
    exact abs_nonneg _

theorem near_bound {Ω : Type} {F : Filter Ω} {δ : Ω → ℝ} {f : Nat → Ω → ℝ} {v : Nat → ℝ} {N : Nat}
    (h : ∀ m < N, Near F δ (f m) (v m)) : ∃ c > 0, ∀ᶠ ω in F, ∀ m < N, |f m ω - v m| ≤ c * |δ ω| := by
  have hb : ∀ m, ∃ c > 0, m < N → ∀ᶠ ω in F, |f m ω - v m| ≤ c * |δ ω| := by
    intro m
    by_cases hm : m < N
    · obtain ⟨c, hc, e⟩ := (h m hm).exists_pos
      refine ⟨c, hc, fun _ => ?_⟩
      simpa [Real.norm_eq_abs] using e.bound
    · exact ⟨1, one_pos, fun h => absurd h hm⟩
  choose c hc hcb using hb
  refine ⟨∑ m ∈ range N, c m + 1, by have := sum_nonneg (s := range N) (fun m _ => (hc m).le); linarith, ?_⟩
  refine eventually_forall_lt fun m hm => ?_
  filter_upwards [hcb m hm] with ω hω
  have h1 : c m ≤ ∑ m ∈ range N, c m := single_le_sum (fun j _ => (hc j).le) (mem_range.2 hm)
  have h3 := abs_nonneg (δ ω)
  nlinarith

/-- **C139** If at two given traces the iterative deconvolution makes all its decisions clearly (its last iteration may find
nothing at all to explain), then for traces within `δ` of these, deconvolved in inexact arithmetic of tolerance `δ` or
better, it makes the same number of iterations, and the samples of the receiver function and the misfits it returns are
within `C δ` of the exact ones, for every `δ` small enough. -/
theorem c139_deconvolution
    (h : deconv_iterative uin win dt nt preonset a itmax minderr phase = .ok R)
    (hnt : nt = none ∨ nt = some uin.length) (hm : 0 ≤ minderr)
    (hrun : let n := nextPow2 uin.length
      ∃ P, SteadyRun n dt (lowpass n dt a uin) (lowpass n dt a win) phase minderr itmax R.it P)
    (hcos : Real.cos (2 * Real.pi * (pyInt (preonset / dt) : ℝ) / nextPow2 uin.length) ≠ 0) :
    ∃ rf, R.rf = some rf ∧ ∃ C > 0, ∃ δ₀ > 0, ∀ δ, 0 < δ → δ ≤ δ₀ → ∀ ε, 0 ≤ ε → ε ≤ δ → ∀ x y out k rms,
      SamplesWithin δ uin x → SamplesWithin δ win y → IterOut ε x y dt preonset a itmax minderr phase out k rms →
        k = R.it ∧ SamplesWithin (C * δ) rf out ∧
        ∀ j, j + 1 < R.it → ∃ v, R.rms[j]? = some v ∧ |rms j - v| < C * δ := by
  obtain ⟨P, hP⟩ := hrun
  have hmas := deconv_master h (by rcases hnt with rfl | rfl <;> rfl)
  obtain ⟨hdt, hn2, hit, hcase⟩ := hmas
  set n := nextPow2 uin.length with hN
  have hn : 0 < n := by omega
  have hle : uin.length ≤ n := le_nextPow2 _
  -- the exact result
  obtain ⟨rf, hrf, hrl, hrv, hmis⟩ : ∃ rf, R.rf = some rf ∧ rf.length = uin.length ∧ (∀ m < uin.length, smp rf m =
      cconv n (smp (P R.it)) (gaussPulse dt n a) (cyc n ((m : ℤ) - pyInt (preonset / dt)))) ∧
      ∀ j, j + 1 < R.it → R.rms[j]? = some (misfit n dt (lowpass n dt a uin) (lowpass n dt a win) (smp (P (j + 1)))) := by
    rcases hcase with ⟨P', rf, hg', hrf, hl, -, -, -, hms, hval⟩ | ⟨e1, -, -, -, -, e2⟩
    · have hpre : ∀ j ≤ R.it, P' j = P j := spikes_prefix (by rw [hg'.start, hP.start]) hg'.spike hP.spike
      refine ⟨rf, hrf, hl, fun m hm => ?_, fun j hj => ?_⟩
      · rw [hval hcos m hm, hpre _ le_rfl]
      · rw [hms j hj, hpre _ (by omega)]
    · obtain ⟨hU, hE⟩ := no_bestSpike hn (hP.spike 0 (by omega))
      rcases e2 with e | e
      · exact absurd e hE
      · exact absurd e hU
  refine ⟨rf, hrf, ?_⟩
  let Ω := Computed uin win dt preonset a itmax minderr phase
  let F : Filter Ω := comap (fun ω => ω.δ) (𝓝 0)
  let M : Family Ω F uin win dt a itmax minderr phase n :=
    { δ := fun ω => ω.δ
      e := fun ω => ω.ε
      x := fun ω => ω.x
      y := fun ω => ω.y
      k := fun ω => ω.k
      P := fun ω => ω.P
      rms := fun ω => ω.rms
      r := fun ω => ω.run
      hδ := tendsto_comap
      he := .of_forall fun ω => ⟨ω.pos, ω.le⟩
      hx := within_near (fun ω => ω.hx) n
      hy := within_near (fun ω => ω.hy) n }
  obtain ⟨hAt, hk⟩ := M.steady hn hdt hm hit hP
  have hout := M.steady_out hn hdt hm hit hP (N := uin.length) hle hcos (p_flt := fun ω => ω.p_flt) (out := fun ω => ω.out)
    (fun ω => ω.flt) (fun ω => ω.shifted)
  obtain ⟨c1, hc1, hb1⟩ := near_bound (f := fun m (ω : Ω) => smp ω.out m) hout
  obtain ⟨c2, hc2, hb2⟩ := near_bound (F := F) (δ := fun ω => ω.δ) (N := R.it) (f := fun j (ω : Ω) => ω.rms j)
    (v := fun j => misfit n dt (lowpass n dt a uin) (lowpass n dt a win) (smp (P (j + 1)))) (fun j hj =>
      (hAt (j + 1) hj).rms_near (no_bestSpike hn (hP.spike j hj)).1)
  have hall := (hk.and hb1).and hb2
  rw [eventually_comap, Metric.eventually_nhds_iff] at hall
  obtain ⟨δ₀, hδ₀, hball⟩ := hall
  refine ⟨c1 + c2 + 1, by linarith, δ₀ / 2, by linarith, fun δ hδ hδδ ε hε hεδ x y out k rms hx hy hrun => ?_⟩
  obtain ⟨n', P', p_flt, ⟨r⟩, f1, f2, f3⟩ := hrun
  have hxl := (samplesWithin_iff.1 hx).1
  obtain rfl : n' = nextPow2 uin.length := by rw [r.fft_length, hxl]
  let ω : Ω := ⟨δ, ε, x, y, out, k, rms, P', p_flt, r, hε, hεδ, hx, hy, f1, fun m hm => f3 m (hxl ▸ hm)⟩
  obtain ⟨⟨g1, g2⟩, g3⟩ := hball (y := δ) (by rw [Real.dist_eq, sub_zero, abs_of_pos hδ]; linarith) ω rfl
  have e1 : |ω.δ| = δ := abs_of_pos hδ
  refine ⟨g1, ?_, fun j hj => ⟨_, hmis j hj, ?_⟩⟩
  · rw [samplesWithin_iff]
    refine ⟨by omega, fun m hm => ?_⟩
    have := g2 m (by omega)
    rw [hrv m (by omega)]
    refine this.trans_lt ?_
    show c1 * |ω.δ| < _
    rw [e1]
    exact mul_lt_mul_of_pos_right (by linarith) hδ
  · have := g3 j (by omega)
    refine this.trans_lt ?_
    show c2 * |ω.δ| < _
    rw [e1]
    exact mul_lt_mul_of_pos_right (by linarith) hδ

/-- **C139** in particular for the given traces themselves -/
theorem c139_rounding
    (h : deconv_iterative uin win dt nt preonset a itmax minderr phase = .ok R)
    (hnt : nt = none ∨ nt = some uin.length) (hm : 0 ≤ minderr)
    (hrun : let n := nextPow2 uin.length
      ∃ P, SteadyRun n dt (lowpass n dt a uin) (lowpass n dt a win) phase minderr itmax R.it P)
    (hcos : Real.cos (2 * Real.pi * (pyInt (preonset / dt) : ℝ) / nextPow2 uin.length) ≠ 0) :
    ∃ rf, R.rf = some rf ∧ ∃ C > 0, ∃ ε₀ > 0, ∀ ε, 0 < ε → ε ≤ ε₀ → ∀ out k rms,
      IterOut ε uin win dt preonset a itmax minderr phase out k rms →
        k = R.it ∧ SamplesWithin (C * ε) rf out ∧
        ∀ j, j + 1 < R.it → ∃ v, R.rms[j]? = some v ∧ |rms j - v| < C * ε := by
  obtain ⟨rf, h1, C, hC, δ₀, hδ₀, h2⟩ := c139_deconvolution h hnt hm hrun hcos
  have hself : ∀ ε > 0, ∀ x : List ℝ, SamplesWithin ε x x := fun ε hε x => by
    rw [samplesWithin_iff]
    exact ⟨rfl, fun m _ => by simpa using hε⟩
  exact ⟨rf, h1, C, hC, δ₀, hδ₀, fun ε hε hεδ out k rms hr =>
    h2 ε hε hεδ ε hε.le le_rfl uin win out k rms (hself ε hε _) (hself ε hε _) hr⟩

/-- **C139** the exact result is one of the results in inexact arithmetic, for every tolerance -/
theorem c139_exact {ε : ℝ}
    (h : deconv_iterative uin win dt nt preonset a itmax minderr phase = .ok R)
    (hnt : nt = none ∨ nt = some uin.length)
    (hU : 0 < energy (nextPow2 uin.length) (lowpass (nextPow2 uin.length) dt a uin))
    (hW : 0 < energy (nextPow2 uin.length) (lowpass (nextPow2 uin.length) dt a win)) (hε : 0 ≤ ε) 
    (hcos : Real.cos (2 * Real.pi * (pyInt (preonset / dt) : ℝ) / nextPow2 uin.length) ≠ 0) :
    ∃ rf rms, R.rf = some rf ∧ (∀ j, j + 1 < R.it → R.rms[j]? = some (rms j)) ∧
      IterOut ε uin win dt preonset a itmax minderr phase rf R.it rms := by
  obtain ⟨P, rms, r, hmi, hP⟩ := c132_exact h hnt rfl hU hW hε
  obtain ⟨hdt, hn2, hit, hcase⟩ := deconv_master h (by rcases hnt with rfl | rfl <;> rfl)
  set n := nextPow2 uin.length with hN
  have hn : 0 < n := by omega
  rcases hcase with ⟨P', rf, hg', hrf, hl, -, -, -, hms, hval⟩ | ⟨-, -, -, -, -, e2⟩
  · refine ⟨rf, rms, hrf, hmi, n, P, (List.range n).map (cconv n (smp (P R.it)) (gaussPulse dt n a)), r, ?_, hl,
      fun m hm => ?_⟩
    · rw [size_congr (y := fun _ => (0 : ℝ)) (fun m hm => by rw [smp_map_range _ hm, sub_self])]
      have : size n (fun _ => (0 : ℝ)) = 0 := by simp [size, energy]
      rw [this]
      exact mul_nonneg hε (size_nonneg _ _)
    · have hpre : P' R.it = P R.it := spikes_prefix (by rw [hg'.start, hP.start]) hg'.spike hP.spike _ le_rfl
      rw [hval hcos m hm, phaseshift_eq hn _ dt preonset hcos (hm.trans_le (le_nextPow2 _)),
        smp_map_range _ (cyc_lt hn _), hpre, sub_self, abs_zero]
      exact mul_nonneg hε (div_nonneg (size_nonneg _ _) (abs_nonneg _))
  · rcases e2 with e | e <;> linarith

end

/-- a delayed spike, the parameters of the package, in inexact arithmetic -/
example : ∃ R rf, deconv_iterative [0, 0, 3, 0, 0, 0, 0, 0] [1, 0, 0, 0, 0, 0, 0, 0] 0.1 none 0 2 400 0.001 "P" = .ok R ∧
    R.rf = some rf ∧ (∀ m < 8, smp rf m = 30 * gaussPulse 0.1 8 2 (cyc 8 ((m : ℤ) - 2))) ∧
      (∀ ε, 0 ≤ ε → ∃ rms, IterOut ε [0, 0, 3, 0, 0, 0, 0, 0] [1, 0, 0, 0, 0, 0, 0, 0] 0.1 0 2 400 0.001 "P" rf R.it rms) ∧
      ∃ C > 0, ∃ ε₀ > 0, ∀ ε, 0 < ε → ε ≤ ε₀ → ∀ out k rms,
        IterOut ε [0, 0, 3, 0, 0, 0, 0, 0] [1, 0, 0, 0, 0, 0, 0, 0] 0.1 0 2 400 0.001 "P" out k rms →
        k = R.it ∧ SamplesWithin (C * ε) rf out := by
  obtain ⟨R, hR⟩ := (c112_iterative (uin := [0, 0, 3, 0, 0, 0, 0, 0]) (win := [1, 0, 0, 0, 0, 0, 0, 0]) (dt := 0.1)
    (nt := none) (preonset := 0) (a := 2) (itmax := 400) (minderr := 0.001) (phase := "P") (by norm_num)).2
    ⟨rfl, by norm_num, Or.inl rfl, Or.inl (by simp)⟩
  have h8 : nextPow2 8 = 8 := by
    rw [nextPow2_pos (by norm_num)]
    have : Nat.clog 2 8 = 3 := by decide +kernel
    rw [this]; norm_num
  have hz : pyInt ((0 : ℝ) / 0.1) = 0 := by simp [pyInt]
  have hcos : Real.cos (2 * Real.pi * (pyInt ((0 : ℝ) / 0.1) : ℝ) / nextPow2 8) ≠ 0 := by rw [hz]; simp
  have key := steady_copy (L := 2) (b := 3) hR (Or.inl rfl) (by norm_num) (by norm_num) (by norm_num)
    (Or.inl (by norm_num)) ⟨3, by simp, by norm_num⟩
  simp only [List.length_cons, List.length_nil, zero_add, Nat.reduceAdd, h8, hz] at key
  obtain ⟨P, rf, hP, a1, a2⟩ := key ⟨by norm_num, fun _ => by norm_num⟩
    (by
      intro m hm
      interval_cases m <;> simp [smp, cyc])
    (by
      intro i c hi hne
      refine ⟨2, by norm_num, ?_⟩
      have h3 := hi.2 rfl
      have h4 : i = 0 ∨ i = 1 := by omega
      rcases h4 with rfl | rfl <;> simp [smp, cyc])
  have hit : 0 < R.it := by
    rcases hP.halt with e | ⟨j, e, -⟩ <;> omega
  obtain ⟨hU, hE⟩ := no_bestSpike (by norm_num) (hP.spike 0 hit)
  obtain ⟨rf', b1, C, hC, ε₀, hε₀, b2⟩ := c139_rounding hR (Or.inl rfl) (by norm_num)
    ⟨P, by simpa only [List.length_cons, List.length_nil, zero_add, Nat.reduceAdd, h8] using hP⟩ hcos
  obtain rfl : rf = rf' := Option.some.inj (a1.symm.trans b1)
  refine ⟨R, rf, hR, a1, fun m hm => ?_, fun ε hε => ?_, C, hC, ε₀, hε₀, fun ε h1 h2 out k rms h3 => ?_⟩
  · rw [a2 (by simp) m hm]
    norm_num
  · obtain ⟨rf2, rms, c1, -, c2⟩ := c139_exact (ε := ε) hR (Or.inl rfl)
      (by
        simp only [List.length_cons, List.length_nil, zero_add, Nat.reduceAdd, h8]
        exact lt_of_le_of_ne (energy_nonneg _ _) (Ne.symm hU))
      (by
        simp only [List.length_cons, List.length_nil, zero_add, Nat.reduceAdd, h8]
        exact lt_of_le_of_ne (energy_nonneg _ _) (Ne.symm hE)) hε hcos
    obtain rfl : rf = rf2 := Option.some.inj (a1.symm.trans c1)
    exact ⟨rms, c2⟩
  · obtain ⟨d1, d2, -⟩ := b2 ε h1 h2 out k rms h3
    exact ⟨d1, d2⟩

end Rfsed.Props
