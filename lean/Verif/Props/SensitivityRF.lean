import Verif.Props.Sensitivity
import Verif.Props.ContinuityRF
import Verif.Props.SynthRate

/-! # C136: the changes of the synthetic receiver functions are proportional to the changes of the model -/

namespace Rfsed.Props
open Rfsed Synrf Spec

/-- one slowness: the deconvolved synthetics of nearby models -/
theorem rf_near_rate {p dt pre g : ℝ} {npts : Nat} {ipha : ℤ} {ls : List Layer} {pass : List ℝ → List ℝ} {kw : KwArgs}
    (hkw : kw.nt = none ∧ kw.itmax = none ∧ kw.minderr = none)
    (hnp : 2 ≤ npts) (hdt : dt ≠ 0) (hn : ls ≠ []) (hp : ∀ l ∈ ls, l.Propagating p) (hpass : ProportionalFilter pass)
    (hw : 0 < kw.wlevel.getD 0.05) (hw1 : kw.wlevel.getD 0.05 ≤ 1)
    (hz : ∀ u z, fwd_seis p dt npts ipha (alphas ls) (betas ls) (rhos ls) (hs ls) = .ok (.num u, .num z) →
      ∃ v ∈ pass z, v ≠ 0) :
    ∃ u z t x, fwd_seis p dt npts ipha (alphas ls) (betas ls) (rhos ls) (hs ls) = .ok (.num u, .num z) ∧
      deconvTr ⟨.num (pass u), dt⟩ ⟨.num (pass z), dt⟩ (some "water")
        { kw with preonset := some pre, gaussian := some g } = .ok t ∧ t.data = some x ∧
      ∃ C > 0, ∃ δ₀ > 0, ∀ δ, 0 < δ → δ ≤ δ₀ → ∀ (p' : ℝ) (ls' : List Layer), |p' - p| < δ →
        List.Forall₂ (Layer.Within δ) ls ls' →
        ∃ u' z' t' x', fwd_seis p' dt npts ipha (alphas ls') (betas ls') (rhos ls') (hs ls') = .ok (.num u', .num z') ∧
          deconvTr ⟨.num (pass u'), dt⟩ ⟨.num (pass z'), dt⟩ (some "water")
            { kw with preonset := some pre, gaussian := some g } = .ok t' ∧ t'.data = some x' ∧
          SamplesWithin (C * δ) x x' := by
  obtain ⟨u, z, hf, C1, hC1, δ1, hδ1, hball⟩ := c136_sensitivity (npts := npts) (ipha := ipha) (by omega) hdt hn hp
  have hlen : u.length = npts ∧ z.length = npts := by
    rcases c62_shape hf with ⟨a1, -⟩ | ⟨x, y, a1, a2, a3, a4⟩
    · cases a1
    · cases a1; cases a2; exact ⟨a3, a4⟩
  obtain ⟨lu, Lu, hLu, cu⟩ := hpass u
  obtain ⟨lz, Lz, hLz, cz⟩ := hpass z
  obtain ⟨⟨x, rms⟩, hx⟩ := c58_total (uin := pass u) (win := pass z) (dt := dt) (preonset := pre)
    (wlevel := kw.wlevel.getD 0.05) (a := g) (normalize := kw.normalize.getD false) (by omega) (by omega) hdt
  obtain ⟨C2, hC2, δ2, hδ2, hnear⟩ := water_near_rate hx hw hw1 (hz u z hf)
  obtain ⟨t, ht, htx⟩ := deconvTr_water hkw hx
  have hK : 0 < (Lu + Lz) * C1 := by positivity
  refine ⟨u, z, t, x, hf, ht, htx, C2 * ((Lu + Lz) * C1), by positivity, min δ1 (δ2 / ((Lu + Lz) * C1)),
    lt_min hδ1 (by positivity), fun δ hδ hδδ p' ls' hp' hls => ?_⟩
  obtain ⟨-, u', z', hf', hu', hz'⟩ := hball δ hδ (hδδ.trans (min_le_left _ _)) p' dt ls' hp' (by simpa using hδ) hls
  have hb : (Lu + Lz) * C1 * δ ≤ δ2 := by
    have := hδδ.trans (min_le_right _ _)
    rw [le_div_iff₀ hK] at this
    linarith
  have hC1δ : 0 < C1 * δ := by positivity
  obtain ⟨x', rms', hx', hxx⟩ := hnear ((Lu + Lz) * C1 * δ) (by positivity) hb _ _
    (samplesWithin_mono (by nlinarith) (cu (C1 * δ) hC1δ u' hu'))
    (samplesWithin_mono (by nlinarith) (cz (C1 * δ) hC1δ z' hz'))
  obtain ⟨t', ht', htx'⟩ := deconvTr_water hkw hx'
  exact ⟨u', z', t', x', hf', ht', htx', by rw [← mul_assoc] at hxx; exact samplesWithin_mono (by linarith) hxx⟩

section
variable {ls : List Layer} {depth r : List ℝ} {rayp : RaypArg} {dt pre g : ℝ} {npts : ℕ} {ipha : ℤ} {o : Obj}
  {bp : Bandpass} {f : FilterArgs → ℝ → List ℝ → List ℝ} {calls : List Call} {pf : Option (List ℝ)} {kw : KwArgs}

/-- **C136** The same for whole sessions: around every model in which both waves propagate, the change of every sample of
every synthetic water-level receiver function is at most a fixed multiple of the largest change of slownesses, depths,
velocities and densities. -/
theorem c136_receiver_functions (hnp : 2 ≤ npts) (hdt : dt ≠ 0) (hn : ls ≠ [])
    (hp : ∀ p ∈ r, ∀ l ∈ ls, l.Propagating p) (hdepth : thicknesses depth = hs ls)
    (ho : init depth (alphas ls) (betas ls) (rhos ls) rayp dt npts ipha = .ok o)
    (hr : slownesses rayp = some r) (hc : ∀ c ∈ calls, c.isFwd = false)
    (hpf : pf = none ∨ (Call.deconv pf pre g (some "water") kw).pass ≠ none)
    (hbp : ∀ c ∈ calls ++ [Call.deconv pf pre g (some "water") kw], ∀ a, c.pass = some a →
      ∀ d x, bp a d x = .ok (f a d x))
    (hkw : kw.nt = none ∧ kw.itmax = none ∧ kw.minderr = none)
    (hw : 0 < kw.wlevel.getD 0.05) (hw1 : kw.wlevel.getD 0.05 ≤ 1)
    (hsteady : ∀ c ∈ calls ++ [Call.deconv pf pre g (some "water") kw], ∀ a, c.pass = some a → ProportionalFilter (f a dt))
    (hz : ∀ p ∈ r, ∀ u z, fwd_seis p dt npts ipha (alphas ls) (betas ls) (rhos ls) (hs ls) = .ok (.num u, .num z) →
      ∃ v ∈ ((calls ++ [Call.deconv pf pre g (some "water") kw]).filterMap Call.pass).foldl (fun x a => f a dt x) z,
        v ≠ 0) :
    ∃ rfs, (run_deconvolution bp (after bp (run_fwd o).1 calls) pf pre g (some "water") kw).2 = .ok rfs ∧
      ∃ C > 0, ∃ δ₀ > 0, ∀ δ, 0 < δ → δ ≤ δ₀ →
        ∀ (depth' vp' vs' rho' r' : List ℝ) (rayp' : RaypArg) (o' : Obj),
        SamplesWithin δ depth depth' → SamplesWithin δ (alphas ls) vp' → SamplesWithin δ (betas ls) vs' →
        SamplesWithin δ (rhos ls) rho' → slownesses rayp' = some r' → SamplesWithin δ r r' →
        init depth' vp' vs' rho' rayp' dt npts ipha = .ok o' →
        ∃ rfs', (run_deconvolution bp (after bp (run_fwd o').1 calls) pf pre g (some "water") kw).2 = .ok rfs' ∧
          List.Forall₂ (fun t t' => ∃ x x', t.data = some x ∧ t'.data = some x' ∧ SamplesWithin (C * δ) x x') rfs rfs' := by
  obtain ⟨ps, hps⟩ : ∃ ps, ps = (calls ++ [Call.deconv pf pre g (some "water") kw]).filterMap Call.pass := ⟨_, rfl⟩
  rw [← hps] at hz
  have hsp : ProportionalFilter (fun x => ps.foldl (fun x a => f a dt x) x) := by
    apply proportional_passes (fs := fun a x => f a dt x) ps
    intro a ha
    rw [hps, List.mem_filterMap] at ha
    obtain ⟨c, hc1, hc2⟩ := ha
    exact hsteady c hc1 a hc2
  -- one distance for all slownesses
  have hall : ∃ ts, List.Forall₂ (fun p t => ∃ u z, fwd_seis p dt npts ipha (alphas ls) (betas ls) (rhos ls) (hs ls) =
        .ok (.num u, .num z) ∧
      deconvTr ⟨.num (ps.foldl (fun x a => f a dt x) u), dt⟩ ⟨.num (ps.foldl (fun x a => f a dt x) z), dt⟩ (some "water")
        { kw with preonset := some pre, gaussian := some g } = .ok t) r ts ∧
      ∃ C > 0, ∃ δ₀ > 0, ∀ δ, 0 < δ → δ ≤ δ₀ → ∀ (ls' : List Layer) (r' : List ℝ), List.Forall₂ (Layer.Within δ) ls ls' → SamplesWithin δ r r' →
        ∃ ts', List.Forall₂ (fun p t => ∃ u z, fwd_seis p dt npts ipha (alphas ls') (betas ls') (rhos ls') (hs ls') =
            .ok (.num u, .num z) ∧
          deconvTr ⟨.num (ps.foldl (fun x a => f a dt x) u), dt⟩ ⟨.num (ps.foldl (fun x a => f a dt x) z), dt⟩
            (some "water") { kw with preonset := some pre, gaussian := some g } = .ok t) r' ts' ∧
          List.Forall₂ (fun t t' => ∃ x x', t.data = some x ∧ t'.data = some x' ∧ SamplesWithin (C * δ) x x') ts ts' := by
    clear hr ho
    induction r with
    | nil =>
      refine ⟨[], .nil, 1, one_pos, 1, one_pos, fun δ _ _ ls' r' _ h => ?_⟩
      cases h
      exact ⟨[], .nil, .nil⟩
    | cons p r ih =>
      obtain ⟨ts, h1, C1, hC1, δ1, hδ1, h2⟩ := ih (fun q hq => hp q (List.mem_cons_of_mem _ hq))
        (fun q hq => hz q (List.mem_cons_of_mem _ hq))
      obtain ⟨u, z, t, x, hf, ht, htx, C2, hC2, δ2, hδ2, h3⟩ := rf_near_rate (pre := pre) (g := g) hkw hnp hdt hn
        (hp p (List.mem_cons_self ..)) hsp hw hw1 (hz p (List.mem_cons_self ..))
      refine ⟨t :: ts, .cons ⟨u, z, hf, ht⟩ h1, C1 + C2, by positivity, min δ1 δ2, lt_min hδ1 hδ2,
        fun δ hδ hδδ ls' r' hls hr' => ?_⟩
      cases hr' with
      | @cons _ p' _ r' hp' hr' =>
        obtain ⟨ts', g1, g2⟩ := h2 δ hδ (hδδ.trans (min_le_left _ _)) ls' r' hls hr'
        obtain ⟨u', z', t', x', hf', ht', htx', hxx⟩ := h3 δ hδ (hδδ.trans (min_le_right _ _)) p' ls' hp' hls
        exact ⟨t' :: ts', .cons ⟨u', z', hf', ht'⟩ g1, .cons ⟨x, x', htx, htx', samplesWithin_mono (by nlinarith) hxx⟩
          (g2.imp (fun a b ⟨y, y', k1, k2, k3⟩ => ⟨y, y', k1, k2, samplesWithin_mono (by nlinarith) k3⟩))⟩
  obtain ⟨ts, hts, C, hC, δ₀, hδ₀, hnear⟩ := hall
  refine ⟨ts, session_value hnp hdt hn hdepth ho hr hc hpf hbp hps hts, 2 * C, by positivity, δ₀ / 2, by linarith, ?_⟩
  intro δ hδ hδδ depth' vp' vs' rho' r' rayp' o' hd ha hb hrh hray hr' ho'
  have hth : SamplesWithin (2 * δ) (hs ls) (thicknesses depth') := by
    rw [← hdepth]
    exact thick_near hd hδ
  obtain ⟨ls', rfl, rfl, rfl, hh⟩ := layers_of (α := vp') (β := vs') (ρ := rho') (h := thicknesses depth')
    (n := ls.length) (by rw [← ha.length_eq]; simp [alphas]) (by rw [← hb.length_eq]; simp [betas])
    (by rw [← hrh.length_eq]; simp [rhos]) (by rw [← hth.length_eq]; simp [hs])
  have hle : δ ≤ 2 * δ := by linarith
  have hls := layers_near (samplesWithin_mono hle ha) (samplesWithin_mono hle hb) (samplesWithin_mono hle hrh)
    (by rw [hh]; exact hth)
  obtain ⟨ts', h1, h2⟩ := hnear (2 * δ) (by linarith) (by linarith) ls' r' hls (samplesWithin_mono hle hr')
  have hn' : ls' ≠ [] := by
    rw [← List.length_pos_iff, ← hls.length_eq]
    exact List.length_pos_iff.2 hn
  exact ⟨ts', session_value hnp hdt hn' hh.symm ho' hray hc hpf hbp hps h1,
    h2.imp (fun a b ⟨y, y', k1, k2, k3⟩ => ⟨y, y', k1, k2, samplesWithin_mono (by linarith) k3⟩)⟩

end


/-- a half-space, with a pre-filter that delays by two samples -/
example : ∃ o, init [35] [6] [3.5] [2.7] (.float 0.06) 1 4 1 = .ok o ∧
    ∃ rfs, (run_deconvolution delay2 (run_fwd o).1 (some [0.05, 2]) 1 2 (some "water") {}).2 = .ok rfs ∧
      ∃ C > 0, ∃ δ₀ > 0, ∀ δ, 0 < δ → δ ≤ δ₀ → ∀ (depth' vp' vs' rho' r' : List ℝ) (rayp' : RaypArg) (o' : Obj),
        SamplesWithin δ [35] depth' → SamplesWithin δ [6] vp' → SamplesWithin δ [3.5] vs' →
        SamplesWithin δ [2.7] rho' → slownesses rayp' = some r' → SamplesWithin δ [0.06] r' →
        init depth' vp' vs' rho' rayp' 1 4 1 = .ok o' →
        ∃ rfs', (run_deconvolution delay2 (run_fwd o').1 (some [0.05, 2]) 1 2 (some "water") {}).2 = .ok rfs' ∧
          List.Forall₂ (fun t t' => ∃ x x', t.data = some x ∧ t'.data = some x' ∧ SamplesWithin (C * δ) x x') rfs rfs' := by
  refine ⟨_, rfl, ?_⟩
  refine c136_receiver_functions (ls := [hsLayer]) (depth := [35]) (r := [0.06]) (rayp := .float 0.06) (npts := 4)
    (f := fun _ _ x => (0 :: 0 :: x).take x.length) (calls := []) (by norm_num) (by norm_num) (by simp) ?_ ?_ rfl rfl
    (by simp) (Or.inr ?_) (fun _ _ _ _ _ _ => rfl) ⟨rfl, rfl, rfl⟩ (by norm_num) (by norm_num)
    (fun _ _ _ _ => linear_proportional delay_linear) ?_
  · intro p hp l hl
    rw [List.mem_singleton] at hp hl
    subst hp hl
    exact hsLayer_propagating
  · simp [thicknesses, hs, hsLayer]
  · simp [Call.pass, splat]
  · intro p hp u z h
    rw [List.mem_singleton] at hp
    subst hp
    obtain ⟨y0, y1, y2, y3, rfl, h0⟩ := hs_vertical h
    exact ⟨y0, by simp [Call.pass, splat], h0⟩

end Rfsed.Props
