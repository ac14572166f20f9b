import Verif.Props.WaveformSensitivity
import Verif.Props.WaveformTotal

/-!
# C138: a concrete case
-/

namespace Rfsed.Props
open Spec Synrf PyFloat Waveform

/-- the slowness at which the P wave takes 8 s from 77.5 km depth to the surface, through rock of the mantle -/
noncomputable def eightSec : ℝ := √(1 / 8.045 ^ 2 - (8 / 77.5) ^ 2)

theorem eightSec_sq : eightSec ^ 2 = 1 / 8.045 ^ 2 - (8 / 77.5) ^ 2 := Real.sq_sqrt (by norm_num)

theorem eightSec_bounds : 0 < eightSec ∧ eightSec < 0.1 := by
  constructor
  · exact Real.sqrt_pos.2 (by norm_num)
  · exact (Real.sqrt_lt' (by norm_num)).2 (by norm_num)

theorem eightSec_vert : vert 8.045 eightSec = 8 / 77.5 := by
  rw [vert, eightSec_sq, sub_sub_cancel]
  exact Real.sqrt_sq (by norm_num)

theorem eightSec_slow {v : ℝ} (h0 : 0 < v) (h : v ≤ 8.045) : |eightSec| < 1 / v := by
  rw [abs_of_pos eightSec_bounds.1]
  refine eightSec_bounds.2.trans ?_
  rw [lt_div_iff₀ h0]
  linarith

/-- no sediment, no crust -/
theorem bare_layers : ∀ l ∈ gridLayers 0 2.5 6 0 1.75, l.Propagating eightSec := by
  intro l hl
  simp only [gridLayers, List.mem_cons, List.not_mem_nil, or_false] at hl
  rcases hl with rfl | rfl | rfl
  · have h1 : (0 : ℝ) < vsPoly 2.5 := by norm_num [vsPoly]
    have h2 : vsPoly 2.5 ≤ 8.045 := by norm_num [vsPoly]
    have h3 : (0 : ℝ) < rhoPoly 2.5 := by norm_num [rhoPoly]
    exact ⟨by norm_num, h1, h3, eightSec_slow (by norm_num) (by norm_num), eightSec_slow h1 h2⟩
  · have h3 : (0 : ℝ) < rhoPoly 6 := by norm_num [rhoPoly]
    exact ⟨by norm_num, by norm_num, h3, eightSec_slow (by norm_num) (by norm_num),
      eightSec_slow (by norm_num) (by norm_num)⟩
  · exact ⟨by norm_num, by norm_num, by norm_num, eightSec_slow (by norm_num) (by norm_num),
      eightSec_slow (by norm_num) (by norm_num)⟩

theorem eight_turns (c : ℝ) (j : ℕ) :
    synthSample 4 1 (fun ω => Complex.exp (Complex.I * ((ω * 8 : ℝ) : ℂ)) * (c : ℂ)) j =
      synthSample 4 1 (fun _ => (c : ℂ)) j := by
  have e : ∀ i : ℕ, Complex.exp (Complex.I * (((2 * Real.pi * (i : ℝ) / (((4 : ℕ) : ℝ) * 1)) * 8 : ℝ) : ℂ)) = 1 := by
    intro i
    have := Complex.exp_nat_mul_two_pi_mul_I (2 * i)
    rw [← this]
    congr 1
    push_cast
    ring
  simp only [synthSample, e, one_mul]

/-- its seismograms, three samples -/
theorem bare_three {u z : List ℝ} (h : fwd_seis eightSec 1 3 1 (alphas (gridLayers 0 2.5 6 0 1.75))
      (betas (gridLayers 0 2.5 6 0 1.75)) (rhos (gridLayers 0 2.5 6 0 1.75)) (hs (gridLayers 0 2.5 6 0 1.75)) =
      .ok (.num u, .num z)) :
    ∃ x y : ℝ, x ≠ 0 ∧ y ≠ 0 ∧ u = [-x, 0, -x] ∧ z = [-y, 0, -y] := by
  have hprop := bare_layers
  set sed : Layer := ⟨2.5, vsPoly 2.5, rhoPoly 2.5, 0⟩ with hsed
  set cru : Layer := ⟨6, 6 / 1.75, rhoPoly 6, 0⟩ with hcru
  set man : Layer := ⟨8.045, 4.49, 3.299, 77.5⟩ with hman
  have hls : gridLayers 0 2.5 6 0 1.75 = [sed, cru, man] := by
    simp [gridLayers, hsed, hcru, hman]
  rw [hls] at h hprop
  have ps : sed.Propagating eightSec := hprop _ (by simp)
  have pc : cru.Propagating eightSec := hprop _ (by simp)
  have pm : man.Propagating eightSec := hprop _ (by simp)
  have rc : cru.ρ ≠ 0 := pc.2.2.1.ne'
  have rm : man.ρ ≠ 0 := pm.2.2.1.ne'
  have h1 := c60_zero_layer (p := eightSec) (dt := 1) (npts := 3) (ipha := 1) (l := sed) [] [cru, man] (by simp) (by simp)
    (by simp [rc, rm]) ps rfl
  have h2 := c60_split_seismograms (p := eightSec) (dt := 1) (npts := 3) (ipha := 1) [cru] [] (by simp) 8.045 4.49 3.299
    0 77.5 (by norm_num)
  have h3 := c60_zero_layer (p := eightSec) (dt := 1) (npts := 3) (ipha := 1) (l := cru) []
    [⟨8.045, 4.49, 3.299, 0⟩, man] (by simp) (by simp) (by norm_num [hman]) pc rfl
  have emz : (⟨8.045, 4.49, 3.299, 0 + 77.5⟩ : Layer) = man := by rw [hman]; simp
  rw [emz] at h2
  simp only [List.nil_append, List.singleton_append] at h1 h2 h3
  rw [h1, ← h2, h3] at h
  have hg := pm.good
  have hn2 : [(0 : ℝ), 77.5].map (withH man) ≠ [] := by simp
  have hval := fwd_seis_some (rayp := eightSec) (dt := 1) (ipha := 1) (npts := 3) (by norm_num) one_ne_zero
    (a := alphas [⟨8.045, 4.49, 3.299, 0⟩, man]) (b := betas [⟨8.045, 4.49, 3.299, 0⟩, man])
    (r := rhos [⟨8.045, 4.49, 3.299, 0⟩, man]) (h := hs [⟨8.045, 4.49, 3.299, 0⟩, man])
    (fun ω => Complex.exp (Complex.I * ((ω * 8 : ℝ) : ℂ)) * (((4 * man.α * man.β ^ 2 * eightSec * vert man.α eightSec *
      vert man.β eightSec / rayl eightSec man : ℝ) : ℝ) : ℂ))
    (fun ω => Complex.exp (Complex.I * ((ω * 8 : ℝ) : ℂ)) * ((-(2 * man.α * vert man.α eightSec *
      (1 - 2 * man.β ^ 2 * eightSec ^ 2) / rayl eightSec man) : ℝ) : ℂ))
    (by
      intro ω hω
      have e1 := haskell_good (ipha := 1) (ls := [(0 : ℝ), 77.5].map (withH man)) (p := eightSec) hω hn2
        (by
          intro k hk
          simp only [List.map_cons, List.map_nil, List.mem_cons, List.not_mem_nil, or_false] at hk
          rcases hk with rfl | rfl <;> exact ⟨hg.1, hg.2⟩)
      rw [resp_homogeneous (ipha := 1) hω hg [0, 77.5] (by simp) hn2 (by simp), resp_halfspace hg] at e1
      have e2 : incVert 1 eightSec man * ([0, 77.5] : List ℝ).sum = 8 := by
        have : incVert 1 eightSec man = vert 8.045 eightSec := rfl
        rw [this, eightSec_vert]
        norm_num
      rw [e2] at e1
      exact e1)
  rw [h] at hval
  have n4 : nextPow2 3 = 4 := by decide
  rw [n4] at hval
  have hu := congrArg Prod.fst (Except.ok.inj hval)
  have hz := congrArg Prod.snd (Except.ok.inj hval)
  simp only [Samples.num.injEq, eight_turns, flat_four] at hu hz
  have c2 : Real.cos (Real.pi * 2) = 1 := by rw [mul_comm]; exact Real.cos_two_pi
  have c1 : Real.cos (Real.pi * (3 / 2)) = 0 := by
    rw [show Real.pi * (3 / 2) = Real.pi / 2 + Real.pi by ring, Real.cos_add_pi, Real.cos_pi_div_two, neg_zero]
  have c3 : Real.cos (Real.pi * 3) = -1 := by
    rw [show Real.pi * 3 = Real.pi + 2 * Real.pi by ring, Real.cos_add_two_pi, Real.cos_pi]
  have hk : ∀ c : ℝ, (List.range 3).map (fun j : Nat =>
      c * (Real.cos ((j + 1) * (Real.pi / 2)) + Real.cos ((j + 1) * Real.pi)) / 16) =
      [-(c / 16), 0, -(c / 16)] := by
    intro c
    simp only [List.range_succ, List.range_zero, List.nil_append, List.map_append, List.map_cons, List.map_nil,
      List.cons_append, List.cons.injEq, and_true]
    refine ⟨?_, ?_, ?_⟩
    · have e : ((0 : ℕ) + 1 : ℝ) * (Real.pi / 2) = Real.pi / 2 := by push_cast; ring
      have e' : ((0 : ℕ) + 1 : ℝ) * Real.pi = Real.pi := by push_cast; ring
      rw [e, e', Real.cos_pi_div_two, Real.cos_pi]; ring
    · have e : ((1 : ℕ) + 1 : ℝ) * (Real.pi / 2) = Real.pi := by push_cast; ring
      have e' : ((1 : ℕ) + 1 : ℝ) * Real.pi = Real.pi * 2 := by push_cast; ring
      rw [e, e', c2, Real.cos_pi]; ring
    · have e : ((2 : ℕ) + 1 : ℝ) * (Real.pi / 2) = Real.pi * (3 / 2) := by push_cast; ring
      have e' : ((2 : ℕ) + 1 : ℝ) * Real.pi = Real.pi * 3 := by push_cast; ring
      rw [e, e', c1, c3]; ring
  have hξ : 0 < vert man.α eightSec := by
    have : vert man.α eightSec = 8 / 77.5 := eightSec_vert
    rw [this]; norm_num
  have hη : 0 < vert man.β eightSec := vert_pos pm.2.1 pm.2.2.2.2
  have hb : 0 < 1 - 2 * man.β ^ 2 * eightSec ^ 2 := by
    rw [eightSec_sq, hman]; norm_num
  have hp := eightSec_bounds.1
  have hR := rayl_pos hg
  have hα := pm.1
  have hβ := pm.2.1
  refine ⟨4 * man.α * man.β ^ 2 * eightSec * vert man.α eightSec * vert man.β eightSec / rayl eightSec man / 16,
    2 * man.α * vert man.α eightSec * (1 - 2 * man.β ^ 2 * eightSec ^ 2) / rayl eightSec man / 16, by positivity,
    by positivity, ?_, ?_⟩
  · rw [hu, hk]
  · rw [hz, ← hk (2 * man.α * vert man.α eightSec * (1 - 2 * man.β ^ 2 * eightSec ^ 2) / rayl eightSec man)]
    apply List.map_congr_left
    intro j _
    ring

/-- no band-pass -/
noncomputable def noBand : Bandpass := fun _ _ x => .ok x

/-- the fitting with the synthetics of `synrf` -/
noncomputable def bareEnv : WEnv ℝ where
  stackR rfs := .ok (rfs.map Trace.data)
  synthRF a := match runSynth noBand a with
    | .ok t => match t.data with
      | some x => .ok x
      | none => .error .valueError
    | .error e => .error e
  pg _ _ _ := .ok 10

theorem bareEnv_synth {a : SynthArgs ℝ} {t : RFTr} {x : List ℝ} (h : runSynth noBand a = .ok t) (hx : t.data = some x) :
    bareEnv.synthRF a = .ok x := by
  simp only [bareEnv, h, hx]

theorem id_proportional : ProportionalFilter (fun x : List ℝ => x) :=
  fun x => ⟨rfl, 1, one_pos, fun δ _ y h => by rw [one_mul]; exact h⟩

theorem bare_steady : ∀ u z, fwd_seis eightSec 1 3 1 (alphas (gridLayers 0 2.5 6 0 1.75))
      (betas (gridLayers 0 2.5 6 0 1.75)) (rhos (gridLayers 0 2.5 6 0 1.75)) (hs (gridLayers 0 2.5 6 0 1.75)) =
      .ok (.num u, .num z) →
    let N := nextPow2 3
    ∃ k ≤ 400, ∃ P, SteadyRun N 1 (lowpass N 1 1 u) (lowpass N 1 1 z) "P" 0.001 400 k P := by
  intro u z h
  have n4 : nextPow2 3 = 4 := by decide
  obtain ⟨x, y, hx, hy, rfl, rfl⟩ := bare_three h
  obtain ⟨R, hR⟩ := (c112_iterative (uin := [-x, 0, -x]) (win := [-y, 0, -y]) (dt := 1) (nt := none)
    (preonset := 0) (a := 1) (itmax := 400) (minderr := 0.001) (phase := "P") (by norm_num)).2
    ⟨rfl, by norm_num, Or.inl rfl, Or.inl (by simp)⟩
  have key := steady_copy (L := 0) (b := x / y) hR (Or.inl rfl) (by norm_num) (by norm_num) (by norm_num)
    (Or.inl (by norm_num)) ⟨-x, by simp, by simpa using hx⟩
  simp only [List.length_cons, List.length_nil, zero_add, Nat.reduceAdd, n4] at key
  obtain ⟨P, rf, hP, -⟩ := key ⟨by norm_num, fun _ => by norm_num⟩
    (by
      intro m hm
      interval_cases m <;> simp [smp, cyc] <;> field_simp)
    (by
      intro i c hi hne
      have := hi.2 rfl
      omega)
  have hit : R.it ≤ 400 := (deconv_master hR rfl).2.2.1
  rw [n4]
  exact ⟨R.it, hit, P, hP⟩

/-- The data are the synthetic without sediment and crust, the grid contains only a Moho depth of `δ / 2`: the run succeeds,
and its best misfit is at most `C δ`. -/
example : ∃ x, bareEnv.synthRF (modelOf 0 2.5 6 eightSec 1 0 1 3 0 1.75) = .ok x ∧
    ∃ C > 0, ∃ δ₀ > 0, ∀ δ, 0 < δ → δ ≤ δ₀ → ∃ R,
      WaveformFitting bareEnv [{ wTraceOf 0 0 0 with data := x }] 0 0 2.5 6 eightSec [1.75] [δ / 2] 1 0.4 0.4 0.2 = .ok R ∧
      R.printed.rmse.rmse ≤ C * δ := by
  have hcos : Real.cos (2 * Real.pi * (pyInt (|(0 : ℝ)| / 1) : ℝ) / nextPow2 3) ≠ 0 := by simp [pyInt]
  obtain ⟨t, x, ht, hx, C1, -, δ1, hδ1, h1⟩ := c138_synthetic (gaussian := 1) (bp := noBand) (f := fun _ x => x)
    (by norm_num) bare_layers le_rfl one_ne_zero (fun _ _ => rfl) id_proportional hcos bare_steady
  obtain ⟨x2, hx2, C, hC, δ2, hδ2, h2⟩ := c138_off_grid (gaussian := 1) (env := bareEnv) (bp := noBand) (f := fun _ x => x)
    (by norm_num) bare_layers le_rfl one_pos (fun _ _ => rfl) id_proportional hcos bare_steady
    (fun _ _ _ h h' => bareEnv_synth h h')
  have e := bareEnv_synth ht hx
  have hxx : x2 = x := by rw [e] at hx2; exact (Except.ok.inj hx2).symm
  rw [hxx] at h2
  have hlen : x.length = 3 := by
    obtain ⟨t0, g1, g2, -⟩ := runSynth_eq (p := eightSec) (δ := 1) (preonset := 0) (gaussian := 1) (n := 3) (bp := noBand)
      (f := fun _ x => x) (H := 0) (K := 1.75) (HSed := 0) (VpSed := 2.5) (VpCrust := 6)
      (fun l hl => ⟨(bare_layers l hl).1, (bare_layers l hl).2.1, (bare_layers l hl).2.2.1⟩) le_rfl one_ne_zero
      (fun _ _ => rfl) (fun _ _ => rfl) (by simp [gridLayers])
    rw [ht] at g1
    cases Except.ok.inj g1
    obtain ⟨U, V, -, R, hR, e⟩ := g2 (fun l hl => ⟨(bare_layers l hl).2.2.2.1, (bare_layers l hl).2.2.2.2⟩)
    rw [hx] at e
    have := (c53_work hR (Or.inl rfl)).2.2.2 x e.symm
    simpa using this
  refine ⟨x, e, C, hC, min δ1 δ2, lt_min hδ1 hδ2, fun δ hδ hle => ?_⟩
  obtain ⟨t', x', ht', hx', -, hw⟩ := h1 δ hδ (hle.trans (min_le_left _ _)) 0 2.5 6 eightSec (δ / 2) 1.75
    (by simpa using hδ) (by simpa using hδ) (by simpa using hδ) (by simpa using hδ)
    (by rw [sub_zero, abs_of_pos (by linarith)]; linarith) (by simpa using hδ)
  obtain ⟨a, b, c, rfl⟩ := List.length_eq_three.1 hlen
  obtain ⟨a', b', c', rfl⟩ := List.length_eq_three.1 (hw.length_eq.symm.trans hlen)
  have hrun : ∃ R, WaveformFitting bareEnv [{ wTraceOf 0 0 0 with data := [a, b, c] }] 0 0 2.5 6 eightSec [1.75] [δ / 2] 1
      0.4 0.4 0.2 = .ok R := by
    refine (c100_succeeds_iff _ _ _ (tr0 := { wTraceOf 0 0 0 with data := [a, b, c] }) (sd := [a, b, c]) rfl
      (show (0 : ℝ) < 1 by norm_num) rfl rfl).2 ⟨⟨0, by simp, by simp⟩, by simp, by simp, fun h hh k hk => ?_⟩
    rw [List.mem_singleton] at hh hk
    subst hh hk
    refine ⟨[a', b', c'], bareEnv_synth ht' hx', ?_, ?_, 10, rfl⟩
    · show (window 1 0 [a, b, c]).length = (window 1 0 [a', b', c']).length
      rw [wWindow, wWindow]; rfl
    · show window 1 0 [a, b, c] ≠ []
      rw [wWindow]; simp
  obtain ⟨R, hR⟩ := hrun
  refine ⟨R, hR, ?_⟩
  exact ((h2 δ hδ (hle.trans (min_le_right _ _)) 0 2.5 6 eightSec (δ / 2) 1.75
    (by simpa using hδ) (by simpa using hδ) (by simpa using hδ) (by simpa using hδ)
    (by rw [sub_zero, abs_of_pos (by linarith)]; linarith) (by simpa using hδ)
    [{ wTraceOf 0 0 0 with data := [a, b, c] }] { wTraceOf 0 0 0 with data := [a, b, c] } [1.75] [δ / 2] [[a, b, c]]
    [a, b, c] rfl rfl rfl rfl rfl rfl (by simp) (by simp)).1 _ _ _ R hR).1

end Rfsed.Props
