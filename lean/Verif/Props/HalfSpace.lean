import Verif.Props.EndToEnd
import Mathlib.Analysis.SpecialFunctions.Trigonometric.Inverse

/-!
# Property C85: the receiver function of a homogeneous half-space
-/

namespace Rfsed.Props
open Spec Synrf PyFloat

/-- **C54** a numerator that is a multiple of the denominator gives that multiple of the Gaussian
pulse, delayed by `int(preonset/dt)` samples and scaled by `1/dt`. -/
theorem c54_scaled {win : List ℝ} {dt preonset a minderr b : ℝ} {nt : Option ℕ} {itmax : ℕ} {phase : String}
    {R : IterResult}
    (h : deconv_iterative (win.map (b * ·)) win dt nt preonset a itmax minderr phase = .ok R)
    (hnt : nt = none ∨ nt = some win.length) (h0 : 0 ≤ minderr) (h1 : minderr < 100)
    (h2 : 2 ≤ itmax) (h3 : 3 ≤ win.length) (hb : b ≠ 0) (hne : ∃ x ∈ win, x ≠ 0)
    (hcos : Real.cos (2 * Real.pi * (pyInt (preonset / dt) : ℝ) / nextPow2 win.length) ≠ 0) :
    R.it = 2 ∧ R.rms = [0] ∧ ∃ rf, R.rf = some rf ∧ ∀ m < win.length,
      smp rf m = b * gaussPulse dt (nextPow2 win.length) a
        (cyc (nextPow2 win.length) ((m : ℤ) - pyInt (preonset / dt))) / dt := by
  have hl : (win.map (b * ·)).length = win.length := by simp
  have hle := le_nextPow2 win.length
  have hnt0 : nt = none ∨ nt = some (win.map (b * ·)).length := by rw [hl]; exact hnt
  have hnt' : nt.getD (win.map (b * ·)).length = (win.map (b * ·)).length := by
    rcases hnt0 with rfl | rfl <;> rfl
  obtain ⟨hdt, hn, _⟩ := deconv_master h hnt'
  rw [hl] at hn
  have hL : Lag (nextPow2 win.length) phase 0 := by
    obtain ⟨k, hk, hk2⟩ := nextPow2_even (n := win.length) (by omega)
    exact ⟨by omega, fun _ => by omega⟩
  have hs : ∀ m, smp (win.map (b * ·)) m = b * smp win m := by
    intro m
    unfold smp
    simp only [List.getD_eq_getElem?_getD, List.getElem?_map]
    cases win[m]? <;> simp
  have hne' : ∃ x ∈ win.map (b * ·), x ≠ 0 := by
    obtain ⟨x, hx, hx0⟩ := hne
    exact ⟨b * x, List.mem_map.2 ⟨x, hx, rfl⟩, mul_ne_zero hb hx0⟩
  obtain ⟨a1, a2⟩ := c54_delayed_copy h hnt0 h0 h1 h2 (b := b) (by rw [hl]; exact hL)
    (fun m hm => by rw [hl] at hm ⊢; rw [hs]; simp [cyc_of_lt hm]) hne'
  refine ⟨a1, a2, ?_⟩
  obtain ⟨rf, hrf⟩ : ∃ rf, R.rf = some rf := by
    cases hr : R.rf with
    | some rf => exact ⟨rf, rfl⟩
    | none =>
      obtain ⟨x, hx, hx0⟩ := hne
      exact absurd (((c53_dead_denominator h hnt0 h0).1 hr).2.2 x hx) hx0
  refine ⟨rf, hrf, ?_⟩
  intro m hm
  obtain ⟨P, hg, _, hv⟩ := c54_greedy h hnt0 h0 hrf
  rw [hl] at hg hv
  have hE : Spec.energy (nextPow2 win.length) (lowpass (nextPow2 win.length) dt a (win.map (b * ·))) ≠ 0 := by
    intro hz
    obtain ⟨x, hx, hx0⟩ := hne'
    exact hx0 ((cconv_smp_inj (by omega) (by rw [hl]; exact hle)).1 hz x hx)
  have hlow : ∀ m < nextPow2 win.length, lowpass (nextPow2 win.length) dt a (win.map (b * ·)) m =
      b * lowpass (nextPow2 win.length) dt a win m := by
    intro m hm
    unfold lowpass cconv
    rw [Finset.mul_sum]
    apply Finset.sum_congr rfl
    intro j _
    rw [hs]; ring
  have hP := greedyRun_self hdt hL (b := b) hlow hE h0 h1 h2 hg
  rw [hv hcos m hm, a1, hP, cconv_single (by omega)]
  rw [Nat.cast_zero, sub_zero, cyc_of_lt (cyc_lt (by omega) _)]
  ring

/-- **C85** Wiechert's relation: `2β²pη / (1 - 2β²p²)` is the tangent of twice the angle at which the
S wave with slowness `p` travels. -/
theorem wiechert {β p : ℝ} (hβ : 0 < β) (hp : |p| < 1 / β) :
    Real.tan (2 * Real.arcsin (β * p)) = 2 * β ^ 2 * p * vert β p / (1 - 2 * β ^ 2 * p ^ 2) := by
  have habs : |β * p| < 1 := by
    rw [abs_mul, abs_of_pos hβ]
    calc β * |p| < β * (1 / β) := by gcongr
      _ = 1 := by field_simp
  have h1 : -1 ≤ β * p := (abs_lt.1 habs).1.le
  have h2 : β * p ≤ 1 := (abs_lt.1 habs).2.le
  have hv : β * vert β p = Real.sqrt (1 - (β * p) ^ 2) := by
    unfold vert
    have e : (1 : ℝ) - (β * p) ^ 2 = β ^ 2 * (1 / β ^ 2 - p ^ 2) := by field_simp
    rw [e, Real.sqrt_mul (by positivity), Real.sqrt_sq hβ.le]
  rw [Real.tan_eq_sin_div_cos, Real.sin_two_mul, Real.cos_two_mul, Real.sin_arcsin h1 h2,
    Real.cos_arcsin, ← hv, mul_pow]
  have hsq : (β * vert β p) ^ 2 = 1 - (β * p) ^ 2 := by
    rw [hv, Real.sq_sqrt]
    have : (β * p) ^ 2 ≤ 1 := by
      rw [← sq_abs]; nlinarith [abs_nonneg (β * p)]
    linarith
  congr 1
  · ring
  · have : β ^ 2 * vert β p ^ 2 = 1 - β ^ 2 * p ^ 2 := by
      rw [← mul_pow, hsq, mul_pow]
    rw [this]; ring

theorem synthSample_smul (n : ℕ) {dt : ℝ} (hn : 0 < n) (hdt : dt ≠ 0) {U V : ℝ → ℂ} {k : ℝ}
    (h : ∀ ω, ω ≠ 0 → U ω = (k : ℂ) * V ω) (j : ℕ) : synthSample n dt U j = k * synthSample n dt V j := by
  unfold synthSample
  rw [mul_div_assoc', Finset.mul_sum]
  congr 1
  apply Finset.sum_congr rfl
  intro i hi
  have hω : 2 * Real.pi * (i : ℝ) / ((n : ℝ) * dt) ≠ 0 := by
    have h1 : (i : ℝ) ≠ 0 := by
      have := (Finset.mem_Icc.1 hi).1
      exact_mod_cast (by omega : i ≠ 0)
    have h2 : (n : ℝ) ≠ 0 := by exact_mod_cast (by omega : n ≠ 0)
    have := Real.pi_ne_zero
    exact div_ne_zero (by positivity) (mul_ne_zero h2 hdt)
  rw [h _ hω, mul_assoc, Complex.re_ofReal_mul]

/-- what the surface of a homogeneous stack does -/
theorem homogeneous_ratio {l : Layer} {p : ℝ} {zs : List ℝ} (hz : zs ≠ []) (hp : l.Propagating p) {ipha : ℤ}
    {U V : ℝ → ℂ} (hn : zs.map (fun z => (⟨l.α, l.β, l.ρ, z⟩ : Layer)) ≠ [])
    (hUV : ∀ ω, ω ≠ 0 → ∃ A B, Response ω p (refDepth (zs.map (fun z => (⟨l.α, l.β, l.ρ, z⟩ : Layer))) hn)
      (zs.map (fun z => (⟨l.α, l.β, l.ρ, z⟩ : Layer))) (if 0 ≤ ipha then .P else .S) (U ω) (V ω) A B) {ω : ℝ}
    (hω : ω ≠ 0) :
    let ξ := vert l.α p
    let η := vert l.β p
    let b := 1 - 2 * l.β ^ 2 * p ^ 2
    (0 ≤ ipha → ((b : ℝ) : ℂ) * U ω = ((2 * l.β ^ 2 * p * η : ℝ) : ℂ) * (-V ω)) ∧
    (¬ 0 ≤ ipha → ((2 * l.β ^ 2 * p * ξ : ℝ) : ℂ) * U ω = ((-b : ℝ) : ℂ) * (-V ω)) := by
  intro ξ η b
  set st := zs.map (fun z => (⟨l.α, l.β, l.ρ, z⟩ : Layer)) with hst
  have hprop : ∀ k ∈ st, k.Propagating p := by
    intro k hk
    obtain ⟨z, -, rfl⟩ := List.mem_map.1 hk
    exact hp
  obtain ⟨ur, uz, h1, h2⟩ := c61_unique_solution (ipha := ipha) hω hn hprop
  have h3 := (h2 (U ω) (V ω)).1 (hUV ω hω)
  rw [← h3] at h1
  have hα := hp.1
  have hβ := hp.2.1
  have key : ∃ E : ℂ, (U ω, V ω) = (fun q : ℂ × ℂ => (E * q.1, E * q.2))
      (if 0 ≤ ipha then
      (((4 * l.α * l.β ^ 2 * p * ξ * η / (b ^ 2 + 4 * l.β ^ 4 * p ^ 2 * ξ * η) : ℝ) : ℂ),
        ((-(2 * l.α * ξ * b / (b ^ 2 + 4 * l.β ^ 4 * p ^ 2 * ξ * η)) : ℝ) : ℂ))
      else (((2 * l.β * η * b / (b ^ 2 + 4 * l.β ^ 4 * p ^ 2 * ξ * η) : ℝ) : ℂ),
        ((4 * l.β ^ 3 * p * ξ * η / (b ^ 2 + 4 * l.β ^ 4 * p ^ 2 * ξ * η) : ℝ) : ℂ))) := by
    have hhs := c78_halfspace (l := l) (ipha := ipha) hω hp
    by_cases h2z : 2 ≤ zs.length
    · by_cases hi : 0 ≤ ipha
      · simp only [if_pos hi] at hhs ⊢
        have hh := h1.symm.trans (c78_homogeneous (l := l) (ipha := ipha) hω hp zs h2z hhs)
        exact ⟨_, Option.some.inj (Except.ok.inj hh)⟩
      · simp only [if_neg hi] at hhs ⊢
        have hh := h1.symm.trans (c78_homogeneous (l := l) (ipha := ipha) hω hp zs h2z hhs)
        exact ⟨_, Option.some.inj (Except.ok.inj hh)⟩
    · obtain ⟨z, rfl⟩ : ∃ z, zs = [z] := by
        match zs, hz, h2z with
        | [z], _, _ => exact ⟨z, rfl⟩
        | _ :: _ :: _, _, h => simp at h
      have hhs := c78_halfspace (l := ⟨l.α, l.β, l.ρ, z⟩) (ipha := ipha) hω hp
      refine ⟨1, ?_⟩
      have e : haskell ω p 1 ipha [l.α] [l.β] [l.ρ] [z] = .ok (some (U ω, V ω)) := h1
      simp only at hhs
      rw [e] at hhs
      rw [Option.some.inj (Except.ok.inj hhs)]
      simp only [one_mul]
      split <;> rfl
  obtain ⟨E, hE⟩ := key
  constructor
  · intro hi
    rw [if_pos hi] at hE
    simp only [Prod.mk.injEq] at hE
    rw [hE.1, hE.2]
    push_cast
    ring
  · intro hi
    rw [if_neg hi] at hE
    simp only [Prod.mk.injEq] at hE
    rw [hE.1, hE.2]
    push_cast
    ring

section
variable {l : Layer} {zs : List ℝ} {depth : List ℝ} {dt p : ℝ} {npts : ℕ}
  {ipha : ℤ} {o : Obj} {bp : Bandpass} {f : FilterArgs → ℝ → List ℝ → List ℝ} {calls : List Call}
  {pf : Option (List ℝ)} {pre g : ℝ}

/-- the samples of a radial component that is `k` times the vertical one -/
theorem radial_of_ratio {U V : ℝ → ℂ} {k : ℝ} (hnp : 3 ≤ npts) (hdt : dt ≠ 0)
    (h : ∀ ω, ω ≠ 0 → U ω = (k : ℂ) * (-V ω)) :
    (List.range npts).map (fun j : ℕ => synthSample (nextPow2 npts) dt U j) =
      ((List.range npts).map (fun j : ℕ => -synthSample (nextPow2 npts) dt V j)).map (k * ·) := by
  have hle := le_nextPow2 npts
  rw [List.map_map]
  apply List.map_congr_left
  intro j _
  have := synthSample_smul (nextPow2 npts) (dt := dt) (by omega) hdt (U := U) (V := V) (k := -k)
    (fun ω hω => by rw [h ω hω]; push_cast; ring) j
  simp only [Function.comp]
  rw [this]; ring

/-- the deconvolution when one trace is `k` times the other -/
theorem rf_of_ratio {W : List ℝ} {k : ℝ} {R : IterResult} (hW : W.length = npts) (hnp : 3 ≤ npts) (hdt : dt ≠ 0)
    (hR : deconv_iterative (W.map (k * ·)) W dt none pre g 400 0.001 "P" = .ok R)
    (hcos : Real.cos (2 * Real.pi * (pyInt (pre / dt) : ℝ) / nextPow2 npts) ≠ 0) :
    ((k = 0 ∨ ∀ x ∈ W, x = 0) → R.rf = some (List.replicate npts 0) ∧ R.it = 0) ∧
    (k ≠ 0 → (∃ x ∈ W, x ≠ 0) → R.it = 2 ∧ R.rms = [0] ∧ ∃ rf, R.rf = some rf ∧ rf.length = npts ∧ ∀ m < npts,
      smp rf m = k * gaussPulse dt (nextPow2 npts) g (cyc (nextPow2 npts) ((m : ℤ) - pyInt (pre / dt))) / dt) := by
  constructor
  · intro h
    have hz : W.map (k * ·) = List.replicate npts 0 := by
      rw [← hW, List.eq_replicate_iff]
      refine ⟨by simp, ?_⟩
      intro b hb
      obtain ⟨x, hx, rfl⟩ := List.mem_map.1 hb
      rcases h with rfl | h
      · simp
      · rw [h x hx]; simp
    rw [hz, deconv_dead_numerator hnp hdt pre g 400 (by norm_num) "P" hW] at hR
    rw [← Except.ok.inj hR]
    exact ⟨rfl, rfl⟩
  · intro hk hne
    have := c54_scaled hR (Or.inl rfl) (by norm_num) (by norm_num) (by norm_num) (by omega) hk hne
      (by rw [hW]; exact hcos)
    rw [hW] at this
    obtain ⟨q1, q2, rf, q3, q4⟩ := this
    refine ⟨q1, q2, rf, q3, ?_, q4⟩
    rw [(c53_work hR (Or.inl rfl)).2.2.2 rf q3, List.length_map, hW]

theorem pass_smul (hlen : ∀ a d x, (f a d x).length = x.length)
    (hsmul : ∀ a d b x, f a d (x.map (b * ·)) = (f a d x).map (b * ·)) (b : ℝ) (ps : List FilterArgs) (x : List ℝ) :
    ps.foldl (fun x a => f a dt x) (x.map (b * ·)) = (ps.foldl (fun x a => f a dt x) x).map (b * ·) ∧
    (ps.foldl (fun x a => f a dt x) x).length = x.length := by
  induction ps generalizing x with
  | nil => exact ⟨rfl, rfl⟩
  | cons a ps ih =>
    rw [List.foldl_cons, List.foldl_cons, hsmul]
    refine ⟨(ih _).1, ?_⟩
    rw [(ih _).2, hlen]

/-- **C85** The receiver function of a homogeneous medium.  A model all of whose layers (one or more,
of any thickness, however the depths are given) are of one material has, for an incident P wave of
slowness `p ≠ 0`, a receiver function that is one Gaussian pulse at the `preonset`, with amplitude
`tan(2 arcsin(βp))` (Wiechert's apparent angle of incidence), found in two iterations; it
depends neither on thickness, `α` nor density.  The only other outcome is a trace of zeros,
when filtering has removed everything from the vertical trace. -/
theorem c85_receiver_function (hz : zs ≠ []) (hp : l.Propagating p) (hp0 : p ≠ 0)
    (hb : 2 * l.β ^ 2 * p ^ 2 ≠ 1) (hi : 0 ≤ ipha)
    (hdepth : thicknesses depth = zs) (hnp : 3 ≤ npts) (hdt : dt ≠ 0)
    (ho : init depth (zs.map fun _ => l.α) (zs.map fun _ => l.β) (zs.map fun _ => l.ρ) (.float p) dt npts ipha = .ok o)
    (hc : ∀ c ∈ calls, c.isFwd = false)
    (hpf : pf = none ∨ (Call.deconv pf pre g none {}).pass ≠ none)
    (hbp : ∀ c ∈ calls ++ [Call.deconv pf pre g none {}], ∀ a, c.pass = some a →
      ∀ d x, bp a d x = .ok (f a d x))
    (hlen : ∀ a d x, (f a d x).length = x.length)
    (hsmul : ∀ a d b x, f a d (x.map (b * ·)) = (f a d x).map (b * ·))
    (hcos : Real.cos (2 * Real.pi * (pyInt (pre / dt) : ℝ) / nextPow2 npts) ≠ 0) :
    ∃ t, (run_deconvolution bp (after bp (run_fwd o).1 calls) pf pre g none {}).2 = .ok [t] ∧ t.delta = dt ∧
      ((t.data = some (List.replicate npts 0) ∧ t.iter = some 0) ∨
       (t.iter = some 2 ∧ t.rms = .inl [0] ∧ ∃ rf, t.data = some rf ∧ rf.length = npts ∧ ∀ m < npts,
        smp rf m = Real.tan (2 * Real.arcsin (l.β * p)) *
          gaussPulse dt (nextPow2 npts) g (cyc (nextPow2 npts) ((m : ℤ) - pyInt (pre / dt))) / dt)) := by
  have hn : zs.map (fun z => (⟨l.α, l.β, l.ρ, z⟩ : Layer)) ≠ [] := by simpa using hz
  have ho' : init depth (alphas (zs.map (fun z => (⟨l.α, l.β, l.ρ, z⟩ : Layer))))
      (betas (zs.map (fun z => (⟨l.α, l.β, l.ρ, z⟩ : Layer))))
      (rhos (zs.map (fun z => (⟨l.α, l.β, l.ρ, z⟩ : Layer)))) (.float p) dt npts ipha = .ok o := by
    simp only [alphas, betas, rhos, List.map_map]
    exact ho
  have hmem : ∀ k ∈ zs.map (fun z => (⟨l.α, l.β, l.ρ, z⟩ : Layer)), k.α = l.α ∧ k.β = l.β ∧ k.ρ = l.ρ := by
    intro k hk
    obtain ⟨z, -, rfl⟩ := List.mem_map.1 hk
    exact ⟨rfl, rfl, rfl⟩
  obtain ⟨rfs, h1, h2, h3⟩ := c84_end_to_end hn
    (fun k hk => by obtain ⟨e1, e2, e3⟩ := hmem k hk; rw [e1, e2, e3]; exact ⟨hp.1, hp.2.1, hp.2.2.1⟩)
    (by rw [hdepth]; simp [hs, Function.comp_def]) hnp hdt ho' rfl hc hpf hbp hlen
  obtain ⟨t, ht, hd, h4, -⟩ := h3 0 p rfl
  obtain ⟨t', rfl⟩ := List.length_eq_one_iff.1 h2
  simp only [List.getElem?_cons_zero, Option.some.injEq] at ht
  subst ht
  refine ⟨t', h1, hd, ?_⟩
  obtain ⟨U, V, hUV, R, hR, h5, h6, h7⟩ := h4
    (fun k hk => by obtain ⟨e1, e2, e3⟩ := hmem k hk; rw [e1, e2]; exact ⟨hp.2.2.2.1, hp.2.2.2.2⟩)
  have hb' : (1 : ℝ) - 2 * l.β ^ 2 * p ^ 2 ≠ 0 := fun h => hb (by linarith)
  have hratio : ∀ ω, ω ≠ 0 → U ω = ((Real.tan (2 * Real.arcsin (l.β * p)) : ℝ) : ℂ) * (-V ω) := by
    intro ω hω
    have := (homogeneous_ratio hz hp hn hUV hω).1 hi
    rw [wiechert hp.2.1 hp.2.2.2.2]
    have hbc : ((1 - 2 * l.β ^ 2 * p ^ 2 : ℝ) : ℂ) ≠ 0 := by exact_mod_cast hb'
    rw [Complex.ofReal_div, div_mul_eq_mul_div, eq_div_iff hbc, mul_comm]
    exact this
  have hW := pass_smul (f := f) (dt := dt) hlen hsmul
  simp only [] at hR
  rw [radial_of_ratio hnp hdt hratio, (hW _ _ _).1] at hR
  obtain ⟨g1, g2⟩ := rf_of_ratio (by rw [(hW 1 _ _).2]; simp) hnp hdt hR hcos
  have hk : Real.tan (2 * Real.arcsin (l.β * p)) ≠ 0 := by
    rw [wiechert hp.2.1 hp.2.2.2.2]
    have hv : vert l.β p ≠ 0 := by
      unfold vert
      have hβ := hp.2.1
      have hlt := hp.2.2.2.2
      have : p ^ 2 < 1 / l.β ^ 2 := by
        rw [← sq_abs, ← one_div_pow]
        gcongr
      exact (Real.sqrt_pos.2 (by linarith)).ne'
    have hβ := hp.2.1.ne'
    exact div_ne_zero (by positivity) hb'
  rw [h5, h6, h7]
  by_cases hd : ∀ x ∈ (List.filterMap Call.pass (calls ++ [Call.deconv pf pre g none {}])).foldl (fun x a => f a dt x)
    ((List.range npts).map (fun j : ℕ => -synthSample (nextPow2 npts) dt V j)), x = 0
  · obtain ⟨q1, q2⟩ := g1 (Or.inr hd)
    exact Or.inl ⟨q1, by rw [q2]⟩
  · push Not at hd
    obtain ⟨q1, q2, q3⟩ := g2 hk hd
    exact Or.inr ⟨by rw [q1], by rw [q2], q3⟩

theorem sum_cos_half {m : ℕ} (hm : 0 < m) :
    ∑ i ∈ Finset.Icc 1 m, Real.cos (Real.pi * i / m) = -1 := by
  have hm' : (m : ℝ) ≠ 0 := by exact_mod_cast hm.ne'
  obtain ⟨k, rfl⟩ : ∃ k, m = k + 1 := ⟨m - 1, by omega⟩
  have e : Finset.Icc 1 (k + 1) = (Finset.range (k + 1)).image (· + 1) := by
    ext i
    simp only [Finset.mem_Icc, Finset.mem_image, Finset.mem_range]
    constructor
    · intro h; exact ⟨i - 1, by omega, by omega⟩
    · rintro ⟨j, h, rfl⟩; omega
  rw [e, Finset.sum_image (by intro a _ b _ h; simpa using h), Finset.sum_range_succ]
  have hlast : Real.cos (Real.pi * ((k + 1 : ℕ) : ℝ) / ((k + 1 : ℕ) : ℝ)) = -1 := by
    rw [mul_div_assoc, div_self hm', mul_one, Real.cos_pi]
  have hS : ∑ i ∈ Finset.range k, Real.cos (Real.pi * ((i + 1 : ℕ) : ℝ) / ((k + 1 : ℕ) : ℝ)) = 0 := by
    have hr := Finset.sum_range_reflect
      (fun i => Real.cos (Real.pi * ((i + 1 : ℕ) : ℝ) / ((k + 1 : ℕ) : ℝ))) k
    have hneg : ∑ j ∈ Finset.range k, Real.cos (Real.pi * ((k - 1 - j + 1 : ℕ) : ℝ) / ((k + 1 : ℕ) : ℝ)) =
        -∑ j ∈ Finset.range k, Real.cos (Real.pi * ((j + 1 : ℕ) : ℝ) / ((k + 1 : ℕ) : ℝ)) := by
      rw [← Finset.sum_neg_distrib]
      apply Finset.sum_congr rfl
      intro j hj
      have hj := Finset.mem_range.1 hj
      rw [← Real.cos_pi_sub]
      congr 1
      have : k - 1 - j + 1 = k + 1 - (j + 1) := by omega
      rw [this, Nat.cast_sub (by omega)]
      field_simp
    linarith
  rw [hS, hlast, zero_add]

/-- the first sample of a seismogram with a flat real spectrum -/
theorem synthSample_flat {n : ℕ} (hn : 3 ≤ n) {dt c : ℝ} (hdt : dt ≠ 0) {V : ℝ → ℂ}
    (hV : ∀ ω, ω ≠ 0 → V ω = (c : ℂ)) : synthSample (nextPow2 n) dt V 0 = -c / (nextPow2 n : ℝ) ^ 2 := by
  have hle := le_nextPow2 n
  obtain ⟨k, hk, hk2⟩ := nextPow2_even (n := n) (by omega)
  have hN : (nextPow2 n : ℝ) ≠ 0 := by exact_mod_cast (by omega : nextPow2 n ≠ 0)
  unfold synthSample
  congr 1
  have hhalf : nextPow2 n / 2 = k := by omega
  have hkc : (nextPow2 n : ℝ) = 2 * k := by exact_mod_cast (by omega : nextPow2 n = 2 * k)
  have hk0 : (k : ℝ) ≠ 0 := by intro h; rw [h] at hkc; simp at hkc; omega
  rw [hhalf]
  have : ∀ i ∈ Finset.Icc 1 k, (V (2 * Real.pi * i / (nextPow2 n * dt)) *
      Complex.exp (-Complex.I * ((2 * Real.pi * i / (nextPow2 n * dt) : ℝ) * ((((0 : ℕ) : ℝ) + 1) * dt : ℝ)))).re =
      c * Real.cos (Real.pi * i / k) := by
    intro i hi
    have hi0 : (i : ℝ) ≠ 0 := by
      have := (Finset.mem_Icc.1 hi).1
      exact_mod_cast (by omega : i ≠ 0)
    rw [hV _ (by have := Real.pi_ne_zero; exact div_ne_zero (by positivity) (mul_ne_zero hN hdt)),
      Complex.re_ofReal_mul]
    congr 1
    have e : -Complex.I * (((2 * Real.pi * i / (nextPow2 n * dt) : ℝ) : ℂ) * (((((0 : ℕ) : ℝ) + 1) * dt : ℝ) : ℂ)) =
        ((-(Real.pi * i / k) : ℝ) : ℂ) * Complex.I := by
      rw [← Complex.ofReal_mul]
      have : 2 * Real.pi * i / (nextPow2 n * dt) * ((((0 : ℕ) : ℝ) + 1) * dt) = Real.pi * i / k := by
        rw [hkc]; simp; field_simp
      rw [this]; push_cast; ring
    rw [e, Complex.exp_ofReal_mul_I_re, Real.cos_neg]
  rw [Finset.sum_congr rfl this, ← Finset.mul_sum, sum_cos_half (by omega)]
  ring

/-- the surface motion of a single layer has a flat spectrum -/
theorem halfspace_flat {z : ℝ} (hp : l.Propagating p) (hi : 0 ≤ ipha) {U V : ℝ → ℂ}
    (hn : [(⟨l.α, l.β, l.ρ, z⟩ : Layer)] ≠ [])
    (hUV : ∀ ω, ω ≠ 0 → ∃ A B, Response ω p (refDepth [(⟨l.α, l.β, l.ρ, z⟩ : Layer)] hn)
      [(⟨l.α, l.β, l.ρ, z⟩ : Layer)] (if 0 ≤ ipha then .P else .S) (U ω) (V ω) A B) {ω : ℝ} (hω : ω ≠ 0) :
    let ξ := vert l.α p
    let η := vert l.β p
    let b := 1 - 2 * l.β ^ 2 * p ^ 2
    let R := b ^ 2 + 4 * l.β ^ 4 * p ^ 2 * ξ * η
    U ω = ((4 * l.α * l.β ^ 2 * p * ξ * η / R : ℝ) : ℂ) ∧ V ω = ((-(2 * l.α * ξ * b / R) : ℝ) : ℂ) := by
  intro ξ η b R
  obtain ⟨ur, uz, h1, h2⟩ := c61_unique_solution (p := p) (ipha := ipha) hω hn
    (by intro k hk; rw [List.mem_singleton.1 hk]; exact hp)
  have h3 := (h2 (U ω) (V ω)).1 (hUV ω hω)
  rw [← h3] at h1
  have hhs := c78_halfspace (l := ⟨l.α, l.β, l.ρ, z⟩) (ipha := ipha) hω hp
  simp only [if_pos hi] at hhs
  have e := Option.some.inj (Except.ok.inj (h1.symm.trans hhs))
  simp only [Prod.mk.injEq] at e
  exact e

theorem vert_pos {c p : ℝ} (hc : 0 < c) (h : |p| < 1 / c) : 0 < vert c p := by
  unfold vert
  have : p ^ 2 < 1 / c ^ 2 := by
    rw [← sq_abs, ← one_div_pow]
    gcongr
  exact Real.sqrt_pos.2 (by linarith)

/-- **C85** For a single layer and no filter the pulse is there.  The exception is the slowness
`1/(β√2)`, where the surface moves horizontally only: the vertical trace is dead and the receiver
function is NaN (`none`). -/
theorem c85_halfspace (hp : l.Propagating p) (hp0 : p ≠ 0) (hi : 0 ≤ ipha) (hnp : 3 ≤ npts) (hdt : dt ≠ 0)
    (ho : init depth [l.α] [l.β] [l.ρ] (.float p) dt npts ipha = .ok o) (hdepth : depth.length = 1)
    (hcos : Real.cos (2 * Real.pi * (pyInt (pre / dt) : ℝ) / nextPow2 npts) ≠ 0) :
    ∃ t, (run_deconvolution bp (run_fwd o).1 none pre g none {}).2 = .ok [t] ∧ t.delta = dt ∧
      (2 * l.β ^ 2 * p ^ 2 ≠ 1 → t.iter = some 2 ∧ t.rms = .inl [0] ∧ ∃ rf, t.data = some rf ∧ rf.length = npts ∧ ∀ m < npts,
        smp rf m = Real.tan (2 * Real.arcsin (l.β * p)) *
          gaussPulse dt (nextPow2 npts) g (cyc (nextPow2 npts) ((m : ℤ) - pyInt (pre / dt))) / dt) ∧
      (2 * l.β ^ 2 * p ^ 2 = 1 → t.data = none) := by
  obtain ⟨z, hz⟩ : ∃ z, thicknesses depth = [z] := by
    have : (thicknesses depth).length = 1 := by rw [← hdepth]; simp [thicknesses]
    exact List.length_eq_one_iff.1 this
  have hn : [(⟨l.α, l.β, l.ρ, z⟩ : Layer)] ≠ [] := by simp
  have hne : (nextPow2 npts : ℝ) ≠ 0 := by
    have hle := le_nextPow2 npts
    exact_mod_cast (by omega : nextPow2 npts ≠ 0)
  obtain ⟨rfs, h1, h2, h3⟩ := c84_end_to_end (ls := [(⟨l.α, l.β, l.ρ, z⟩ : Layer)]) (bp := bp) (f := fun _ _ x => x)
    (calls := []) (pf := none) (pre := pre) (g := g) hn
    (fun k hk => by rw [List.mem_singleton.1 hk]; exact ⟨hp.1, hp.2.1, hp.2.2.1⟩)
    (by rw [hz]; rfl) hnp hdt ho rfl (by simp) (Or.inl rfl) (by simp [Call.pass]) (by simp)
  obtain ⟨t, ht, hd, h4, -⟩ := h3 0 p rfl
  obtain ⟨t', rfl⟩ := List.length_eq_one_iff.1 h2
  simp only [List.getElem?_cons_zero, Option.some.injEq] at ht
  subst ht
  refine ⟨t', h1, hd, ?_⟩
  obtain ⟨U, V, hUV, R, hR, h5, h6, h7⟩ := h4
    (fun k hk => by rw [List.mem_singleton.1 hk]; exact ⟨hp.2.2.2.1, hp.2.2.2.2⟩)
  have hflat := fun (ω : ℝ) (hω : ω ≠ 0) => halfspace_flat hp hi hn hUV hω
  simp only [] at hflat
  have hξ := vert_pos hp.1 hp.2.2.2.1
  have hη := vert_pos hp.2.1 hp.2.2.2.2
  have hα := hp.1
  have hβ := hp.2.1
  set ξ := vert l.α p
  set η := vert l.β p
  have hRp : 0 < (1 - 2 * l.β ^ 2 * p ^ 2) ^ 2 + 4 * l.β ^ 4 * p ^ 2 * ξ * η := by positivity
  have hR' : deconv_iterative ((List.range npts).map (fun j : ℕ => synthSample (nextPow2 npts) dt U j))
      ((List.range npts).map (fun j : ℕ => -synthSample (nextPow2 npts) dt V j)) dt none pre g 400 0.001 "P" = .ok R := by
    simpa [Call.pass] using hR
  have hU0 := synthSample_flat hnp hdt (fun ω hω => (hflat ω hω).1)
  have hV0 := synthSample_flat hnp hdt (fun ω hω => (hflat ω hω).2)
  have hmem0 : ∀ F : ℕ → ℝ, F 0 ∈ (List.range npts).map F := fun F =>
    List.mem_map.2 ⟨0, List.mem_range.2 (by omega), rfl⟩
  constructor
  · intro hb
    have hb' : (1 : ℝ) - 2 * l.β ^ 2 * p ^ 2 ≠ 0 := fun h => hb (by linarith)
    have hratio : ∀ ω, ω ≠ 0 → U ω = ((Real.tan (2 * Real.arcsin (l.β * p)) : ℝ) : ℂ) * (-V ω) := by
      intro ω hω
      have := (homogeneous_ratio (zs := [z]) (by simp) hp hn hUV hω).1 hi
      rw [wiechert hp.2.1 hp.2.2.2.2]
      have hbc : ((1 - 2 * l.β ^ 2 * p ^ 2 : ℝ) : ℂ) ≠ 0 := by exact_mod_cast hb'
      rw [Complex.ofReal_div, div_mul_eq_mul_div, eq_div_iff hbc, mul_comm]
      exact this
    rw [radial_of_ratio hnp hdt hratio] at hR'
    obtain ⟨-, g2⟩ := rf_of_ratio (by simp) hnp hdt hR' hcos
    have hk : Real.tan (2 * Real.arcsin (l.β * p)) ≠ 0 := by
      rw [wiechert hp.2.1 hp.2.2.2.2]
      exact div_ne_zero (by positivity) hb'
    have hlive : -synthSample (nextPow2 npts) dt V 0 ≠ 0 := by
      rw [hV0]
      have : 2 * l.α * ξ * (1 - 2 * l.β ^ 2 * p ^ 2) /
        ((1 - 2 * l.β ^ 2 * p ^ 2) ^ 2 + 4 * l.β ^ 4 * p ^ 2 * ξ * η) ≠ 0 := div_ne_zero (by positivity) hRp.ne'
      rw [neg_neg]
      exact neg_ne_zero.2 (div_ne_zero this (by positivity))
    obtain ⟨q1, q2, q3⟩ := g2 hk ⟨_, hmem0 (fun j => -synthSample (nextPow2 npts) dt V j), hlive⟩
    rw [h5, h6, h7, q1, q2]
    exact ⟨rfl, rfl, q3⟩
  · intro hb
    rw [h5]
    refine (c53_dead_denominator hR' (Or.inl rfl) (by norm_num)).2 ⟨by norm_num, ⟨_, hmem0 _, ?_⟩, ?_⟩
    · show synthSample (nextPow2 npts) dt U 0 ≠ 0
      rw [hU0]
      exact div_ne_zero (neg_ne_zero.2 (div_ne_zero (by positivity) hRp.ne')) (by positivity)
    · intro x hx
      obtain ⟨j, -, rfl⟩ := List.mem_map.1 hx
      have := synthSample_smul (nextPow2 npts) (dt := dt) (by have := le_nextPow2 npts; omega) hdt (U := V) (V := V)
        (k := 0) (fun ω hω => by rw [(hflat ω hω).2, hb]; simp) j
      rw [this]; simp

end

/-- A granite half-space (`α = 6`, `β = 3.5`, `ρ = 2.7`), slowness 0.06 s/km: amplitude
`tan(2 arcsin 0.21)`, pulse at sample 50. -/
example : ∃ o, init [30] [6] [3.5] [2.7] (.float 0.06) 0.1 100 1 = .ok o ∧
    ∃ t rf, (run_deconvolution (fun _ _ x => .ok x) (run_fwd o).1 none 5 2 none {}).2 = .ok [t] ∧ t.iter = some 2 ∧
      t.data = some rf ∧ smp rf 50 = Real.tan (2 * Real.arcsin (3.5 * 0.06)) * gaussPulse 0.1 128 2 0 / 0.1 := by
  have hpow : nextPow2 100 = 128 := by
    unfold nextPow2
    have : Nat.clog 2 100 = 7 := by decide
    rw [this]; rfl
  have hint : pyInt ((5 : ℝ) / 0.1) = 50 := by
    have : (5 : ℝ) / 0.1 = ((50 : ℤ) : ℝ) := by norm_num
    rw [this]; simp [pyInt]
  refine ⟨_, rfl, ?_⟩
  obtain ⟨t, h1, -, h2, -⟩ := c85_halfspace (l := ⟨6, 3.5, 2.7, 30⟩) (depth := [30]) (p := 0.06) (dt := 0.1)
    (npts := 100) (ipha := 1) (bp := fun _ _ x => .ok x) (pre := 5) (g := 2)
    (by unfold Layer.Propagating; norm_num [abs_of_pos]) (by norm_num) (by norm_num) (by norm_num) (by norm_num) rfl rfl
    (by
      rw [hpow, hint]
      have e : 2 * Real.pi * ((50 : ℤ) : ℝ) / (128 : ℕ) = Real.pi - Real.pi * (7 / 32) := by push_cast; ring
      rw [e, Real.cos_pi_sub]
      refine neg_ne_zero.2 (Real.cos_pos_of_mem_Ioo ⟨?_, ?_⟩).ne' <;> nlinarith [Real.pi_pos])
  obtain ⟨h3, -, rf, h4, -, h5⟩ := h2 (by norm_num)
  refine ⟨t, rf, h1, h3, h4, ?_⟩
  have := h5 50 (by norm_num)
  rw [hpow, hint] at this
  have hc : cyc 128 (((50 : ℕ) : ℤ) - 50) = 0 := by decide
  rw [hc] at this
  exact this

end Rfsed.Props
