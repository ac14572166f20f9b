import Verif.Props.Continuity
import Verif.Props.WaterNoise
import Verif.Props.EndToEnd
import Verif.Props.HalfSpace

/-!
# C130: synthetic receiver functions depend continuously on the Earth model
-/

namespace Rfsed.Props
open Rfsed Synrf Spec

theorem samplesWithin_mono {δ ε : ℝ} (h : δ ≤ ε) {x y : List ℝ} (hx : SamplesWithin δ x y) : SamplesWithin ε x y :=
  hx.imp (fun _ _ hab => hab.trans_le h)

theorem samplesWithin_iff {ε : ℝ} {x y : List ℝ} :
    SamplesWithin ε x y ↔ x.length = y.length ∧ ∀ m < x.length, |smp y m - smp x m| < ε := by
  unfold SamplesWithin
  rw [List.forall₂_iff_get]
  constructor
  · rintro ⟨h1, h2⟩
    refine ⟨h1, fun m hm => ?_⟩
    have := h2 m hm (by omega)
    simpa [smp, List.getD_eq_getElem?_getD, hm, h1 ▸ hm] using this
  · rintro ⟨h1, h2⟩
    refine ⟨h1, fun m hm hm' => ?_⟩
    have := h2 m hm
    simpa [smp, List.getD_eq_getElem?_getD, hm, hm'] using this

/-- a trace with a sample that is not zero has power -/
theorem maxPower_pos {n : Nat} {x : List ℝ} {d : ℝ} (hn : x.length ≤ n) (hx : ∃ v ∈ x, v ≠ 0)
    (hd : IsMaxPower n (traceSpectrum n x) d) : 0 < d := by
  obtain ⟨v, hv, hv0⟩ := hx
  obtain ⟨⟨k, hk, rfl⟩, hle⟩ := hd
  by_contra hcon
  have hz : ‖traceSpectrum n x k‖ ^ 2 = 0 := le_antisymm (not_lt.1 hcon) (by positivity)
  have hall : ∀ j < n, traceSpectrum n x j = 0 := by
    intro j hj
    have := hle j hj
    rw [hz] at this
    have h2 : ‖traceSpectrum n x j‖ ^ 2 = 0 := le_antisymm this (by positivity)
    simpa using h2
  obtain ⟨m, hm, rfl⟩ := List.mem_iff_getElem.1 hv
  have h1 := idft_dft (n := n) (fun j => (smp x j : ℂ)) (m := m) (by omega)
  have h2 : idft n (dft n (fun j => (smp x j : ℂ))) m = 0 := by
    rw [idft_congr (X := dft n (fun j => (smp x j : ℂ))) (Y := fun _ => 0) (fun k hk => hall k hk)]
    simp [idft]
  rw [h2] at h1
  have h3 : smp x m = 0 := by exact_mod_cast h1.symm
  apply hv0
  simpa [smp, List.getD_eq_getElem?_getD, hm] using h3

/-- the water-level deconvolution is continuous where the vertical trace is not zero -/
theorem water_near {uin win : List ℝ} {dt preonset wlevel a ε : ℝ} {normalize : Bool} {rft : List ℝ} {rms : ℝ}
    (h : deconv_waterlevel uin win dt preonset wlevel a normalize = .ok (rft, rms)) (hw : 0 < wlevel)
    (hw1 : wlevel ≤ 1) (hwin : ∃ v ∈ win, v ≠ 0) (hε : 0 < ε) :
    ∃ δ > 0, ∀ uin' win', SamplesWithin δ uin uin' → SamplesWithin δ win win' →
      ∃ rft' rms', deconv_waterlevel uin' win' dt preonset wlevel a normalize = .ok (rft', rms') ∧
        SamplesWithin ε rft rft' := by
  obtain ⟨hlen, hdt, ⟨k, hk, hn⟩, d, hd, hl, -, -⟩ := water_master h
  have hle := le_nextPow2 uin.length
  have h2 : 2 ≤ uin.length := by
    by_contra hcon
    have : uin.length = 0 ∨ uin.length = 1 := by omega
    rcases this with h0 | h0
    · rw [h0] at hn; simp [nextPow2] at hn; omega
    · rw [h0, nextPow2_one] at hn; omega
  have hd0 : 0 < d := maxPower_pos (by omega) hwin hd
  have hs0 : 0 < √d := Real.sqrt_pos.2 hd0
  have hsw : 0 < √wlevel := Real.sqrt_pos.2 hw
  have hswd : 0 < √(wlevel * d) := Real.sqrt_pos.2 (mul_pos hw hd0)
  set A := ∑ j ∈ Finset.range uin.length, |smp uin j| with hA
  have hA0 : 0 ≤ A := Finset.sum_nonneg (fun _ _ => abs_nonneg _)
  set N := (if normalize then gaussPulse dt (nextPow2 uin.length) a 0 else |dt|) with hN
  have hN0 : 0 < N := by
    rw [hN]
    split
    · exact gaussPulse_zero_pos (by omega)
    · exact abs_pos.2 hdt
  have hlR : (0 : ℝ) < uin.length := by exact_mod_cast (by omega : 0 < uin.length)
  set C := (2 * uin.length / √(wlevel * d) + 6 * A * uin.length / (wlevel * √wlevel * d)) / N with hC
  have hC0 : 0 ≤ C := by positivity
  refine ⟨min (√d / 2 / uin.length) (ε / (C + 1)), lt_min (by positivity) (by positivity), ?_⟩
  set δ := min (√d / 2 / uin.length) (ε / (C + 1)) with hδ
  have hδ0 : 0 < δ := lt_min (by positivity) (by positivity)
  intro uin' win' hu hw'
  have hu2 := samplesWithin_iff.1 hu
  have hw2 := samplesWithin_iff.1 hw'
  obtain ⟨⟨rft', rms'⟩, h'⟩ := c58_total (uin := uin') (win := win') (dt := dt) (preonset := preonset)
    (wlevel := wlevel) (a := a) (normalize := normalize) (by omega) (by omega) hdt
  refine ⟨rft', rms', h', ?_⟩
  have hl' : rft'.length = uin'.length := (water_master h').2.2.2.choose_spec.2.1
  rw [samplesWithin_iff]
  refine ⟨by omega, fun m hm => ?_⟩
  have hE : ∑ j ∈ Finset.range uin.length, |smp uin' j - smp uin j| ≤ uin.length * δ := by
    refine (Finset.sum_le_card_nsmul _ _ δ (fun j hj => (hu2.2 j (by simpa using hj)).le)).trans ?_
    simp
  have he : ∑ j ∈ Finset.range uin.length, |smp win' j - smp win j| ≤ uin.length * δ := by
    refine (Finset.sum_le_card_nsmul _ _ δ (fun j hj => (hw2.2 j (by rw [← hlen]; simpa using hj)).le)).trans ?_
    simp
  have hsm : uin.length * δ ≤ √d / 2 := by
    have : δ ≤ √d / 2 / uin.length := min_le_left _ _
    rw [le_div_iff₀ hlR] at this
    linarith
  have hb := c129_small_noise h h' hu2.1.symm hw hw1 hd hd0 (he.trans hsm) (hl ▸ hm)
  refine hb.trans_lt ?_
  have step : (2 * (∑ j ∈ Finset.range uin.length, |smp uin' j - smp uin j|) / √(wlevel * d)
        + 6 * A * (∑ j ∈ Finset.range uin.length, |smp win' j - smp win j|)
          / (wlevel * √wlevel * d)) / N ≤ C * δ := by
    rw [hC, div_mul_eq_mul_div]
    apply div_le_div_of_nonneg_right _ hN0.le
    rw [add_mul]
    apply add_le_add
    · rw [div_mul_eq_mul_div]
      apply div_le_div_of_nonneg_right _ hswd.le
      linarith
    · rw [div_mul_eq_mul_div]
      apply div_le_div_of_nonneg_right _ (by positivity)
      rw [mul_assoc (6 * A)]
      exact mul_le_mul_of_nonneg_left he (by positivity)
  refine step.trans_lt ?_
  have h3 : δ ≤ ε / (C + 1) := min_le_right _ _
  rw [le_div_iff₀ (by positivity)] at h3
  linarith

/-- several steady filters one after the other -/
theorem steady_passes {fs : FilterArgs → List ℝ → List ℝ} : ∀ ps : List FilterArgs, (∀ a ∈ ps, SteadyFilter (fs a)) →
    SteadyFilter (fun x => ps.foldl (fun x a => fs a x) x)
  | [], _ => fun x => ⟨rfl, fun ε hε => ⟨ε, hε, fun _ hy => hy⟩⟩
  | a :: ps, h => by
    intro x
    have ih := steady_passes ps (fun b hb => h b (List.mem_cons_of_mem _ hb))
    obtain ⟨l1, c1⟩ := h a (List.mem_cons_self ..) x
    obtain ⟨l2, c2⟩ := ih (fs a x)
    refine ⟨by simpa [l1] using l2, fun ε hε => ?_⟩
    obtain ⟨δ2, hδ2, h2⟩ := c2 ε hε
    obtain ⟨δ1, hδ1, h1⟩ := c1 δ2 hδ2
    exact ⟨δ1, hδ1, fun y hy => h2 _ (h1 y hy)⟩

theorem deconvTr_water {u w : List ℝ} {dt pre g : ℝ} {kw : KwArgs} (hkw : kw.nt = none ∧ kw.itmax = none ∧ kw.minderr = none)
    {rf : List ℝ} {rms : ℝ}
    (h : deconv_waterlevel u w dt pre (kw.wlevel.getD 0.05) g (kw.normalize.getD false) = .ok (rf, rms)) :
    ∃ t, deconvTr ⟨.num u, dt⟩ ⟨.num w, dt⟩ (some "water") { kw with preonset := some pre, gaussian := some g } = .ok t ∧
      t.data = some rf := by
  have e : ("water" : String).toLower = "water" := toLower_eq (by decide)
  have e' : ("water" : String) ≠ "iter" := by decide
  simp only [deconvTr, RFTrace_deconvolve, Option.getD_some, e, if_true, e', if_false, callWater, hkw.1, hkw.2.1, hkw.2.2]
  simp [h, bind, Except.bind, pure, Except.pure]

/-- one slowness: the deconvolved synthetics of nearby models -/
theorem rf_near {p dt ε pre g : ℝ} {npts : Nat} {ipha : ℤ} {ls : List Layer} {pass : List ℝ → List ℝ} {kw : KwArgs}
    (hkw : kw.nt = none ∧ kw.itmax = none ∧ kw.minderr = none)
    (hnp : 2 ≤ npts) (hdt : dt ≠ 0) (hn : ls ≠ []) (hp : ∀ l ∈ ls, l.Propagating p) (hpass : SteadyFilter pass)
    (hw : 0 < kw.wlevel.getD 0.05) (hw1 : kw.wlevel.getD 0.05 ≤ 1)
    (hz : ∀ u z, fwd_seis p dt npts ipha (alphas ls) (betas ls) (rhos ls) (hs ls) = .ok (.num u, .num z) →
      ∃ v ∈ pass z, v ≠ 0) (hε : 0 < ε) :
    ∃ u z t x, fwd_seis p dt npts ipha (alphas ls) (betas ls) (rhos ls) (hs ls) = .ok (.num u, .num z) ∧
      deconvTr ⟨.num (pass u), dt⟩ ⟨.num (pass z), dt⟩ (some "water")
        { kw with preonset := some pre, gaussian := some g } = .ok t ∧ t.data = some x ∧
      ∃ δ > 0, ∀ (p' : ℝ) (ls' : List Layer), |p' - p| < δ → List.Forall₂ (Layer.Within δ) ls ls' →
        ∃ u' z' t' x', fwd_seis p' dt npts ipha (alphas ls') (betas ls') (rhos ls') (hs ls') = .ok (.num u', .num z') ∧
          deconvTr ⟨.num (pass u'), dt⟩ ⟨.num (pass z'), dt⟩ (some "water")
            { kw with preonset := some pre, gaussian := some g } = .ok t' ∧ t'.data = some x' ∧ SamplesWithin ε x x' := by
  obtain ⟨u, z, hf, -⟩ := c128_seismograms (npts := npts) (ipha := ipha) (by omega) hdt hn hp one_pos
  have hlen : u.length = npts ∧ z.length = npts := by
    rcases c62_shape hf with ⟨a1, -⟩ | ⟨x, y, a1, a2, a3, a4⟩
    · cases a1
    · cases a1; cases a2; exact ⟨a3, a4⟩
  obtain ⟨lu, cu⟩ := hpass u
  obtain ⟨lz, cz⟩ := hpass z
  obtain ⟨⟨x, rms⟩, hx⟩ := c58_total (uin := pass u) (win := pass z) (dt := dt) (preonset := pre)
    (wlevel := kw.wlevel.getD 0.05) (a := g) (normalize := kw.normalize.getD false) (by omega) (by omega) hdt
  obtain ⟨δ1, hδ1, hnear⟩ := water_near hx hw hw1 (hz u z hf) hε
  obtain ⟨δu, hδu, hcu⟩ := cu δ1 hδ1
  obtain ⟨δz, hδz, hcz⟩ := cz δ1 hδ1
  obtain ⟨u1, z1, hf1, δ, hδ, hball⟩ := c128_seismograms (npts := npts) (ipha := ipha) (by omega) hdt hn hp
    (lt_min hδu hδz)
  rw [hf] at hf1
  cases hf1
  obtain ⟨t, ht, htx⟩ := deconvTr_water hkw hx
  refine ⟨u, z, t, x, hf, ht, htx, δ, hδ, fun p' ls' hp' hls => ?_⟩
  obtain ⟨-, u', z', hf', hu', hz'⟩ := hball p' ls' hp' hls
  obtain ⟨x', rms', hx', hxx⟩ := hnear _ _ (hcu u' (samplesWithin_mono (min_le_left _ _) hu'))
    (hcz z' (samplesWithin_mono (min_le_right _ _) hz'))
  obtain ⟨t', ht', htx'⟩ := deconvTr_water hkw hx'
  exact ⟨u', z', t', x', hf', ht', htx', hxx⟩

/-- the layers with these parameters -/
theorem layers_of {α β ρ h : List ℝ} {n : Nat} (h1 : α.length = n) (h2 : β.length = n) (h3 : ρ.length = n)
    (h4 : h.length = n) : ∃ ls : List Layer, alphas ls = α ∧ betas ls = β ∧ rhos ls = ρ ∧ hs ls = h := by
  refine ⟨List.ofFn (fun i : Fin n => ⟨α[i], β[i], ρ[i], h[i]⟩), ?_, ?_, ?_, ?_⟩ <;>
  · apply List.ext_getElem
    · simp [alphas, betas, rhos, hs, *]
    · intro i _ _
      simp [alphas, betas, rhos, hs]

/-- thicknesses move by at most twice as much as depths -/
theorem thick_near {δ : ℝ} {d d' : List ℝ} (h : SamplesWithin δ d d') (hδ : 0 < δ) :
    SamplesWithin (2 * δ) (thicknesses d) (thicknesses d') := by
  rw [samplesWithin_iff] at h ⊢
  refine ⟨by rw [thick_length, thick_length, h.1], fun m hm => ?_⟩
  rw [thick_length] at hm
  unfold smp
  rw [List.getD_eq_getElem?_getD, List.getD_eq_getElem?_getD, thick_get, thick_get, if_pos hm, if_pos (h.1 ▸ hm)]
  simp only [Option.getD_some]
  have h0 := h.2 m hm
  unfold smp at h0
  split
  · subst m
    linarith
  · have h1 := h.2 (m - 1) (by omega)
    unfold smp at h1
    rw [abs_lt] at h0 h1 ⊢
    constructor <;> linarith

theorem layers_near {δ : ℝ} {ls ls' : List Layer} (h1 : SamplesWithin δ (alphas ls) (alphas ls'))
    (h2 : SamplesWithin δ (betas ls) (betas ls')) (h3 : SamplesWithin δ (rhos ls) (rhos ls'))
    (h4 : SamplesWithin δ (hs ls) (hs ls')) : List.Forall₂ (Layer.Within δ) ls ls' := by
  unfold SamplesWithin alphas betas rhos hs at *
  simp only [List.forall₂_map_left_iff, List.forall₂_map_right_iff] at h1 h2 h3 h4
  rw [List.forall₂_iff_get] at *
  refine ⟨h1.1, fun i a b => ⟨h1.2 i a b, h2.2 i a b, h3.2 i a b, h4.2 i a b⟩⟩

section
variable {ls : List Layer} {depth r : List ℝ} {rayp : RaypArg} {dt pre g ε : ℝ} {npts : ℕ} {ipha : ℤ} {o : Obj}
  {bp : Bandpass} {f : FilterArgs → ℝ → List ℝ → List ℝ} {calls : List Call} {pf : Option (List ℝ)} {kw : KwArgs}

/-- what a whole session returns, when every synthetic is a pair of numerical traces -/
theorem session_value {meth : Option String} (hnp : 2 ≤ npts) (hdt : dt ≠ 0) (hn : ls ≠ []) (hdepth : thicknesses depth = hs ls)
    (ho : init depth (alphas ls) (betas ls) (rhos ls) rayp dt npts ipha = .ok o)
    (hr : slownesses rayp = some r) (hc : ∀ c ∈ calls, c.isFwd = false)
    (hpf : pf = none ∨ (Call.deconv pf pre g meth kw).pass ≠ none)
    (hbp : ∀ c ∈ calls ++ [Call.deconv pf pre g meth kw], ∀ a, c.pass = some a →
      ∀ d x, bp a d x = .ok (f a d x))
    {ps : List FilterArgs} (hps : ps = (calls ++ [Call.deconv pf pre g meth kw]).filterMap Call.pass)
    {ts : List RFTr}
    (hts : List.Forall₂ (fun p t => ∃ u z, fwd_seis p dt npts ipha (alphas ls) (betas ls) (rhos ls) (hs ls) =
        .ok (.num u, .num z) ∧
      deconvTr ⟨.num (ps.foldl (fun x a => f a dt x) u), dt⟩ ⟨.num (ps.foldl (fun x a => f a dt x) z), dt⟩ meth
        { kw with preonset := some pre, gaussian := some g } = .ok t) r ts) :
    (run_deconvolution bp (after bp (run_fwd o).1 calls) pf pre g meth kw).2 = .ok ts := by
  obtain ⟨r', hr', ho'⟩ := init_ok.1 ho
  rw [hr] at hr'; cases hr'
  have e1 : o.rayp = r := by rw [ho']
  have e2 : o.dt = dt := by rw [ho']
  have e3 : o.npts = npts := by rw [ho']
  have e4 : o.ipha = ipha := by rw [ho']
  have e5 : o.vp = alphas ls := by rw [ho']
  have e6 : o.vs = betas ls := by rw [ho']
  have e7 : o.rho = rhos ls := by rw [ho']
  have e8 : o.thickness = hs ls := by rw [ho', ← hdepth]
  clear ho' ho
  have hfwd : ∀ p, ∃ u, fwd_seis p o.dt o.npts o.ipha o.vp o.vs o.rho o.thickness = .ok u := by
    intro p
    rw [e2, e3, e4, e5, e6, e7, e8]
    refine (fwd_seis_outcome (p := p)).2.2.2.2 (by omega) hdt ?_
    simp [Complete, alphas, betas, rhos, hs, hn]
  choose u hu using hfwd
  have hrun : run_fwd o = ((run_fwd o).1, .ok ()) := by
    have := (fwdLoop_ok (o := o) (ps := o.rayp) (acc := ([], []))).2 ⟨o.rayp.map u,
      List.forall₂_map_right_iff.2 (List.forall₂_same.2 (fun q _ => hu q)), rfl⟩
    unfold run_fwd
    simp only []
    rw [this]
  obtain ⟨rs, zs, hst, hl1, hl2, -, htr⟩ := c51_one_trace_per_slowness hrun
  have hray : (run_fwd o).1.rayp = r := by rw [← e1]; rfl
  have key := c52_deconvolution (bp := bp) (f := f) hc hpf hbp hst (by rw [hl1, hray, e1])
    (by rw [hl2, hray, e1])
  rw [key]
  rw [← hps]
  have hzip : rs.zip zs = r.map (fun p => ((⟨(u p).1, dt⟩ : SynTr), (⟨(u p).2, dt⟩ : SynTr))) := by
    apply List.ext_getElem?
    intro i
    rw [List.getElem?_map]
    cases hp : r[i]? with
    | none =>
      rw [List.getElem?_eq_none_iff] at hp
      simp only [Option.map_none]
      rw [List.getElem?_eq_none_iff, List.length_zip, hl1, hl2, e1]
      simpa using hp
    | some p =>
      obtain ⟨ur, uz, h1, h2, h3⟩ := htr i p (by rw [e1]; exact hp)
      rw [hu p] at h1
      rw [e2] at h2 h3
      simp only [Option.map_some]
      rw [List.getElem?_zip_eq_some, Except.ok.inj h1]
      exact ⟨h2, h3⟩
  rw [hzip, mapM_map_list]
  rw [e2, e3, e4, e5, e6, e7, e8] at hu
  clear key hzip htr hst hl1 hl2 hrun hray hr e1
  induction hts with
  | nil => rfl
  | @cons p t r ts h _ ih =>
    obtain ⟨x, z, h1, h2⟩ := h
    rw [List.mapM_cons]
    have hx := hu p
    rw [h1] at hx
    rw [ih, ← Except.ok.inj hx]
    simp only [passed]
    rw [h2]
    rfl

/-- **C130** Every tolerance has a distance such that changing the slownesses and all depths, velocities and densities
of the model by less than it changes every sample of every synthetic water-level receiver function by less than the
tolerance: whatever steady filters are applied in between, as long as the filtered vertical synthetics of the
unchanged model are not all zero. -/
theorem c130_receiver_functions (hnp : 2 ≤ npts) (hdt : dt ≠ 0) (hn : ls ≠ [])
    (hp : ∀ p ∈ r, ∀ l ∈ ls, l.Propagating p) (hdepth : thicknesses depth = hs ls)
    (ho : init depth (alphas ls) (betas ls) (rhos ls) rayp dt npts ipha = .ok o)
    (hr : slownesses rayp = some r) (hc : ∀ c ∈ calls, c.isFwd = false)
    (hpf : pf = none ∨ (Call.deconv pf pre g (some "water") kw).pass ≠ none)
    (hbp : ∀ c ∈ calls ++ [Call.deconv pf pre g (some "water") kw], ∀ a, c.pass = some a →
      ∀ d x, bp a d x = .ok (f a d x))
    (hkw : kw.nt = none ∧ kw.itmax = none ∧ kw.minderr = none)
    (hw : 0 < kw.wlevel.getD 0.05) (hw1 : kw.wlevel.getD 0.05 ≤ 1)
    (hsteady : ∀ c ∈ calls ++ [Call.deconv pf pre g (some "water") kw], ∀ a, c.pass = some a → SteadyFilter (f a dt))
    (hz : ∀ p ∈ r, ∀ u z, fwd_seis p dt npts ipha (alphas ls) (betas ls) (rhos ls) (hs ls) = .ok (.num u, .num z) →
      ∃ v ∈ ((calls ++ [Call.deconv pf pre g (some "water") kw]).filterMap Call.pass).foldl (fun x a => f a dt x) z,
        v ≠ 0)
    (hε : 0 < ε) :
    ∃ rfs, (run_deconvolution bp (after bp (run_fwd o).1 calls) pf pre g (some "water") kw).2 = .ok rfs ∧
      ∃ δ > 0, ∀ (depth' vp' vs' rho' r' : List ℝ) (rayp' : RaypArg) (o' : Obj),
        SamplesWithin δ depth depth' → SamplesWithin δ (alphas ls) vp' → SamplesWithin δ (betas ls) vs' →
        SamplesWithin δ (rhos ls) rho' → slownesses rayp' = some r' → SamplesWithin δ r r' →
        init depth' vp' vs' rho' rayp' dt npts ipha = .ok o' →
        ∃ rfs', (run_deconvolution bp (after bp (run_fwd o').1 calls) pf pre g (some "water") kw).2 = .ok rfs' ∧
          List.Forall₂ (fun t t' => ∃ x x', t.data = some x ∧ t'.data = some x' ∧ SamplesWithin ε x x') rfs rfs' := by
  obtain ⟨ps, hps⟩ : ∃ ps, ps = (calls ++ [Call.deconv pf pre g (some "water") kw]).filterMap Call.pass := ⟨_, rfl⟩
  rw [← hps] at hz
  have hsp : SteadyFilter (fun x => ps.foldl (fun x a => f a dt x) x) := by
    apply steady_passes (fs := fun a x => f a dt x) ps
    intro a ha
    rw [hps, List.mem_filterMap] at ha
    obtain ⟨c, hc1, hc2⟩ := ha
    exact hsteady c hc1 a hc2
  -- one distance for all slownesses
  have hall : ∃ ts, List.Forall₂ (fun p t => ∃ u z, fwd_seis p dt npts ipha (alphas ls) (betas ls) (rhos ls) (hs ls) =
        .ok (.num u, .num z) ∧
      deconvTr ⟨.num (ps.foldl (fun x a => f a dt x) u), dt⟩ ⟨.num (ps.foldl (fun x a => f a dt x) z), dt⟩ (some "water")
        { kw with preonset := some pre, gaussian := some g } = .ok t) r ts ∧
      ∃ δ > 0, ∀ (ls' : List Layer) (r' : List ℝ), List.Forall₂ (Layer.Within δ) ls ls' → SamplesWithin δ r r' →
        ∃ ts', List.Forall₂ (fun p t => ∃ u z, fwd_seis p dt npts ipha (alphas ls') (betas ls') (rhos ls') (hs ls') =
            .ok (.num u, .num z) ∧
          deconvTr ⟨.num (ps.foldl (fun x a => f a dt x) u), dt⟩ ⟨.num (ps.foldl (fun x a => f a dt x) z), dt⟩
            (some "water") { kw with preonset := some pre, gaussian := some g } = .ok t) r' ts' ∧
          List.Forall₂ (fun t t' => ∃ x x', t.data = some x ∧ t'.data = some x' ∧ SamplesWithin ε x x') ts ts' := by
    clear hr ho
    induction r with
    | nil =>
      refine ⟨[], .nil, 1, one_pos, fun ls' r' _ h => ?_⟩
      cases h
      exact ⟨[], .nil, .nil⟩
    | cons p r ih =>
      obtain ⟨ts, h1, δ1, hδ1, h2⟩ := ih (fun q hq => hp q (List.mem_cons_of_mem _ hq))
        (fun q hq => hz q (List.mem_cons_of_mem _ hq))
      obtain ⟨u, z, t, x, hf, ht, htx, δ2, hδ2, h3⟩ := rf_near (pre := pre) (g := g) hkw hnp hdt hn
        (hp p (List.mem_cons_self ..)) hsp hw hw1 (hz p (List.mem_cons_self ..)) hε
      refine ⟨t :: ts, .cons ⟨u, z, hf, ht⟩ h1, min δ1 δ2, lt_min hδ1 hδ2, fun ls' r' hls hr' => ?_⟩
      cases hr' with
      | @cons _ p' _ r' hp' hr' =>
        obtain ⟨ts', g1, g2⟩ := h2 ls' r'
          (hls.imp (fun a b ⟨q1, q2, q3, q4⟩ => ⟨q1.trans_le (min_le_left _ _), q2.trans_le (min_le_left _ _),
            q3.trans_le (min_le_left _ _), q4.trans_le (min_le_left _ _)⟩))
          (samplesWithin_mono (min_le_left _ _) hr')
        obtain ⟨u', z', t', x', hf', ht', htx', hxx⟩ := h3 p' ls' (hp'.trans_le (min_le_right _ _))
          (hls.imp (fun a b ⟨q1, q2, q3, q4⟩ => ⟨q1.trans_le (min_le_right _ _), q2.trans_le (min_le_right _ _),
            q3.trans_le (min_le_right _ _), q4.trans_le (min_le_right _ _)⟩))
        exact ⟨t' :: ts', .cons ⟨u', z', hf', ht'⟩ g1, .cons ⟨x, x', htx, htx', hxx⟩ g2⟩
  obtain ⟨ts, hts, δ, hδ, hnear⟩ := hall
  refine ⟨ts, session_value hnp hdt hn hdepth ho hr hc hpf hbp hps hts, δ / 2, by linarith, ?_⟩
  intro depth' vp' vs' rho' r' rayp' o' hd ha hb hrh hray hr' ho'
  have hth : SamplesWithin δ (hs ls) (thicknesses depth') := by
    rw [← hdepth]
    have := thick_near hd (by linarith)
    rwa [mul_div_cancel₀ _ (two_ne_zero)] at this
  obtain ⟨ls', rfl, rfl, rfl, hh⟩ := layers_of (α := vp') (β := vs') (ρ := rho') (h := thicknesses depth')
    (n := ls.length) (by rw [← ha.length_eq]; simp [alphas]) (by rw [← hb.length_eq]; simp [betas])
    (by rw [← hrh.length_eq]; simp [rhos]) (by rw [← hth.length_eq]; simp [hs])
  have hle : δ / 2 ≤ δ := by linarith
  have hls := layers_near (samplesWithin_mono hle ha) (samplesWithin_mono hle hb) (samplesWithin_mono hle hrh)
    (by rw [hh]; exact hth)
  obtain ⟨ts', h1, h2⟩ := hnear ls' r' hls (samplesWithin_mono hle hr')
  have hn' : ls' ≠ [] := by
    rw [← List.length_pos_iff, ← hls.length_eq]
    exact List.length_pos_iff.2 hn
  exact ⟨ts', session_value hnp hdt hn' hh.symm ho' hray hc hpf hbp hps h1, h2⟩

end

/-- a delay by two samples is a steady filter -/
theorem delay_steady : SteadyFilter (fun x => ((0 : ℝ) :: 0 :: x).take x.length) := by
  intro x
  refine ⟨by simp; omega, fun ε hε => ⟨ε, hε, fun y hy => ?_⟩⟩
  unfold SamplesWithin at *
  simp only
  rw [← hy.length_eq]
  exact List.forall₂_take _ (.cons (by simpa using hε) (.cons (by simpa using hε) hy))

/-- the first sample of a four-sample synthetic with a flat spectrum -/
theorem flat_sample (c : ℝ) : synthSample 4 1 (fun _ => (c : ℂ)) 0 = -c / 16 := by
  have e1 : Finset.Icc 1 (4 / 2) = ({1, 2} : Finset ℕ) := by decide
  simp only [synthSample, e1]
  rw [Finset.sum_pair (by norm_num)]
  have h1 : -Complex.I * (((2 * Real.pi * ((1 : ℕ) : ℝ) / (((4 : ℕ) : ℝ) * 1) : ℝ) : ℂ) *
      (((((0 : ℕ) : ℝ) + 1) * 1 : ℝ) : ℂ)) = -(Real.pi / 2 * Complex.I) := by
    push_cast; ring
  have h2 : -Complex.I * (((2 * Real.pi * ((2 : ℕ) : ℝ) / (((4 : ℕ) : ℝ) * 1) : ℝ) : ℂ) *
      (((((0 : ℕ) : ℝ) + 1) * 1 : ℝ) : ℂ)) = -(Real.pi * Complex.I) := by
    push_cast; ring
  rw [h1, h2, Complex.exp_neg, Complex.exp_neg, Complex.exp_pi_mul_I, Complex.exp_pi_div_two_mul_I]
  simp
  ring

/-- the vertical seismogram of a half-space, four samples: the first sample is not zero -/
theorem hs_vertical {u z : List ℝ} (h : fwd_seis 0.06 1 4 1 [6] [3.5] [2.7] [35] = .ok (.num u, .num z)) :
    ∃ y0 y1 y2 y3, z = [y0, y1, y2, y3] ∧ y0 ≠ 0 := by
  have hp := hsLayer_propagating
  have hv : ∀ v : ℝ, 0 < v → (0.06 : ℝ) < 1 / v → 0 < vert v 0.06 := by
    intro v hv h
    unfold vert
    apply Real.sqrt_pos.2
    have : (0.06 : ℝ) ^ 2 < (1 / v) ^ 2 := by gcongr
    have e : (1 / v) ^ 2 = 1 / v ^ 2 := by rw [div_pow, one_pow]
    linarith
  have hξ := hv 6 (by norm_num) (by norm_num)
  have hη := hv 3.5 (by norm_num) (by norm_num)
  set ξ := vert 6 0.06
  set η := vert 3.5 0.06
  set b : ℝ := 1 - 2 * 3.5 ^ 2 * 0.06 ^ 2 with hb
  have hb0 : 0 < b := by rw [hb]; norm_num
  set R : ℝ := b ^ 2 + 4 * 3.5 ^ 4 * 0.06 ^ 2 * ξ * η with hR
  have hRpos : 0 < R := by positivity
  have key : ∀ ω : ℝ, ω ≠ 0 → haskell ω 0.06 ([35] : List ℝ).length 1 [6] [3.5] [2.7] [35] =
      .ok (some (((4 * 6 * 3.5 ^ 2 * 0.06 * ξ * η / R : ℝ) : ℂ), ((-(2 * 6 * ξ * b / R) : ℝ) : ℂ))) := by
    intro ω hω
    have := c78_halfspace (ipha := 1) hω hp
    exact this
  have hval := fwd_seis_some (npts := 4) (by norm_num) (one_ne_zero)
    (fun _ => ((4 * 6 * 3.5 ^ 2 * 0.06 * ξ * η / R : ℝ) : ℂ)) (fun _ => ((-(2 * 6 * ξ * b / R) : ℝ) : ℂ)) key
  have n4 : nextPow2 4 = 4 := by decide
  rw [h, n4] at hval
  have hz := congrArg Prod.snd (Except.ok.inj hval)
  simp only [Samples.num.injEq] at hz
  refine ⟨_, _, _, _, hz.trans (by simp only [List.range_succ, List.range_zero, List.nil_append, List.map_append,
    List.map_cons, List.map_nil, List.cons_append]; rfl), ?_⟩
  rw [flat_sample]
  have : 0 < 2 * 6 * ξ * b / R := by positivity
  intro h0
  linarith

/-- a half-space, with a pre-filter that delays by two samples -/
example : ∃ o, init [35] [6] [3.5] [2.7] (.float 0.06) 1 4 1 = .ok o ∧
    ∃ rfs, (run_deconvolution delay2 (run_fwd o).1 (some [0.05, 2]) 1 2 (some "water") {}).2 = .ok rfs ∧
      ∃ δ > 0, ∀ (depth' vp' vs' rho' r' : List ℝ) (rayp' : RaypArg) (o' : Obj),
        SamplesWithin δ [35] depth' → SamplesWithin δ [6] vp' → SamplesWithin δ [3.5] vs' →
        SamplesWithin δ [2.7] rho' → slownesses rayp' = some r' → SamplesWithin δ [0.06] r' →
        init depth' vp' vs' rho' rayp' 1 4 1 = .ok o' →
        ∃ rfs', (run_deconvolution delay2 (run_fwd o').1 (some [0.05, 2]) 1 2 (some "water") {}).2 = .ok rfs' ∧
          List.Forall₂ (fun t t' => ∃ x x', t.data = some x ∧ t'.data = some x' ∧ SamplesWithin 0.001 x x') rfs rfs' := by
  refine ⟨_, rfl, ?_⟩
  refine c130_receiver_functions (ls := [hsLayer]) (depth := [35]) (r := [0.06]) (rayp := .float 0.06) (npts := 4)
    (f := fun _ _ x => (0 :: 0 :: x).take x.length) (calls := []) (by norm_num) (by norm_num) (by simp) ?_ ?_ rfl rfl
    (by simp) (Or.inr ?_) (fun _ _ _ _ _ _ => rfl) ⟨rfl, rfl, rfl⟩ (by norm_num) (by norm_num)
    (fun _ _ _ _ => delay_steady) ?_ (by norm_num)
  · intro p hp l hl
    rw [List.mem_singleton] at hp hl
    subst hp hl
    exact hsLayer_propagating
  · simp [thicknesses, hs, hsLayer]
  · simp [Call.pass, splat]
  · intro p hp u z h
    rw [List.mem_singleton] at hp
    subst hp
    obtain ⟨y0, y1, y2, y3, rfl, h0⟩ := hs_vertical h
    exact ⟨y0, by simp [Call.pass, splat], h0⟩

end Rfsed.Props
