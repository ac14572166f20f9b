import Verif.Props.WaveformRecovery
import Verif.Props.EndToEnd
import Verif.Props.WaveformSample
import Verif.Model.WaveformSynth

/-!
# Property C87: the synthetics of the waveform fitting
-/

namespace Rfsed.Props
open Spec Synrf PyFloat Waveform

/-- sediment, crust and half-space of a model of the grid -/
noncomputable def gridLayers (HSed VpSed VpCrust H K : ℝ) : List Layer :=
  [⟨VpSed, vsPoly VpSed, rhoPoly VpSed, HSed⟩, ⟨VpCrust, VpCrust / K, rhoPoly VpCrust, H - HSed⟩,
   ⟨8.045, 4.49, 3.299, 77.5 - H⟩]

/-- the band-pass the fitting applies -/
noncomputable def fitBand : FilterArgs := ⟨0.05, 1.25, 2, true⟩

section
variable {HSed VpSed VpCrust p δ preonset gaussian H K : ℝ} {n : ℕ} {bp : Bandpass} {f : ℝ → List ℝ → List ℝ}

theorem runSynth_eq (hpos : ∀ l ∈ gridLayers HSed VpSed VpCrust H K, 0 < l.α ∧ 0 < l.β ∧ 0 < l.ρ)
    (hn : 3 ≤ n) (hδ : δ ≠ 0) (hbp : ∀ d x, bp fitBand d x = .ok (f d x))
    (hlen : ∀ d x, (f d x).length = x.length) (hne : gridLayers HSed VpSed VpCrust H K ≠ []) :
    ∃ t, runSynth bp (modelOf HSed VpSed VpCrust p δ preonset gaussian n H K) = .ok t ∧
      ((∀ l ∈ gridLayers HSed VpSed VpCrust H K, |p| < 1 / l.α ∧ |p| < 1 / l.β) → ∃ U V : ℝ → ℂ,
        (∀ ω, ω ≠ 0 → ∃ A B, Response ω p (refDepth (gridLayers HSed VpSed VpCrust H K) hne)
          (gridLayers HSed VpSed VpCrust H K) .P (U ω) (V ω) A B) ∧
        ∃ R, deconv_iterative
            (f δ (f δ ((List.range n).map (fun j => synthSample (nextPow2 n) δ U j))))
            (f δ (f δ ((List.range n).map (fun j => -synthSample (nextPow2 n) δ V j))))
            δ none |preonset| gaussian 400 0.001 "P" = .ok R ∧ t.data = R.rf) ∧
      ((∃ l ∈ gridLayers HSed VpSed VpCrust H K, 1 / l.α ≤ |p| ∨ 1 / l.β ≤ |p|) →
        t.data = some (List.replicate n 0)) := by
  set ls := gridLayers HSed VpSed VpCrust H K with hls
  have hth : thicknesses [HSed, H, 77.5] = hs ls := by
    simp [thicknesses, List.range_succ, hls, gridLayers, hs]
  obtain ⟨o, ho⟩ : ∃ o, init [HSed, H, 77.5] (alphas ls) (betas ls) (rhos ls) (.float p) δ n 1 = .ok o := ⟨_, rfl⟩
  have hpass : (Call.deconv (some [0.05, 1.25]) |preonset| gaussian none {}).pass = some fitBand := rfl
  have hall : ∀ c ∈ [Call.filter fitBand] ++ [Call.deconv (some [0.05, 1.25]) |preonset| gaussian none {}],
      ∀ a, c.pass = some a → ∀ d x, bp a d x = .ok ((fun _ => f) a d x) := by
    intro c hc a ha d x
    have : a = fitBand := by
      simp only [List.cons_append, List.nil_append, List.mem_cons, List.not_mem_nil, or_false] at hc
      rcases hc with rfl | rfl
      · exact (Option.some.inj ha).symm
      · rw [hpass] at ha; exact (Option.some.inj ha).symm
    rw [this]; exact hbp d x
  obtain ⟨rfs, h1, h2, h3⟩ := c84_end_to_end (calls := [Call.filter fitBand]) (pf := some [0.05, 1.25])
    (pre := |preonset|) (g := gaussian) (bp := bp) (f := fun _ => f) hne hpos hth hn hδ ho rfl
    (by simp [Call.isFwd]) (Or.inr (by rw [hpass]; simp)) hall (fun _ => hlen)
  obtain ⟨t, rfl⟩ := List.length_eq_one_iff.1 h2
  obtain ⟨t', ht', -, h4, h5⟩ := h3 0 p rfl
  simp only [List.getElem?_cons_zero, Option.some.injEq] at ht'
  subst ht'
  refine ⟨t, ?_, ?_, fun h => (h5 h).1⟩
  · obtain ⟨r', hr', ho'⟩ := init_ok.1 ho
    cases hr'
    have hrun : (run_fwd o).2 = .ok () := by
      have hfwd : ∀ q, ∃ u, fwd_seis q o.dt o.npts o.ipha o.vp o.vs o.rho o.thickness = .ok u := by
        intro q
        rw [ho']
        simp only
        rw [hth]
        refine (fwd_seis_outcome (p := q)).2.2.2.2 (by omega) hδ ?_
        simp [Complete, alphas, betas, rhos, hs, hne]
      choose u hu using hfwd
      have := (fwdLoop_ok (o := o) (ps := o.rayp) (acc := ([], []))).2 ⟨o.rayp.map u,
        List.forall₂_map_right_iff.2 (List.forall₂_same.2 (fun q _ => hu q)), rfl⟩
      unfold run_fwd
      simp only []
      rw [this]
    obtain ⟨rs, zs, hst, -⟩ := c51_one_trace_per_slowness (o := o) (o' := (run_fwd o).1)
      (by rw [← hrun])
    have hfil := filter_passed (bp := bp) (f := fun _ => f) (a := fitBand) hbp hst
    have e : after bp (run_fwd o).1 [Call.filter fitBand] = (Synrf.filter bp (run_fwd o).1 fitBand).1 := by
      simp [after, call]
    rw [e] at h1
    have ho2 : init (modelOf HSed VpSed VpCrust p δ preonset gaussian n H K).depth
        (modelOf HSed VpSed VpCrust p δ preonset gaussian n H K).vp
        (modelOf HSed VpSed VpCrust p δ preonset gaussian n H K).vs
        (modelOf HSed VpSed VpCrust p δ preonset gaussian n H K).rho (.float p) δ n 1 = .ok o := ho
    have h1' : (run_deconvolution bp (Synrf.filter bp (run_fwd o).1
        { freqmin := 0.05, freqmax := 1.25, order := 2, zerophase := true }).1 (some [0.05, 1.25])
        (modelOf HSed VpSed VpCrust p δ preonset gaussian n H K).preonset
        (modelOf HSed VpSed VpCrust p δ preonset gaussian n H K).gaussian none {}).2 = .ok [t] := h1
    have hf2 : (Synrf.filter bp (run_fwd o).1
        { freqmin := 0.05, freqmax := 1.25, order := 2, zerophase := true }).2 = .ok () := by
      have := congrArg Prod.snd hfil
      exact this
    unfold runSynth
    show (init _ _ _ _ (.float p) δ n 1 >>= _) = _
    rw [ho2, except_ok_bind]
    simp only []
    rw [hrun, except_ok_bind, hf2, except_ok_bind, h1', except_ok_bind]
    rfl
  · intro hsub
    obtain ⟨U, V, hUV, R, hR, e, -⟩ := h4 hsub
    refine ⟨U, V, hUV, R, ?_, e⟩
    rw [List.filterMap_append, show ([Call.filter fitBand]).filterMap Call.pass = [fitBand] from rfl,
      show ([Call.deconv (some [0.05, 1.25]) |preonset| gaussian none {}]).filterMap Call.pass = [fitBand] from rfl] at hR
    exact hR

theorem vsOf_num (v : ℝ) : vsOf (NReal.num v) = .num (vsPoly v) := by
  rw [← vsOf_real]; rfl

theorem rhoOf_num (v : ℝ) : rhoOf (NReal.num v) = .num (rhoPoly v) := by
  rw [← rhoOf_real]; rfl

/-- the arguments `synrf` gets for one point of the grid -/
theorem realArgs_model (hK : K ≠ 0) : realArgs (synthArgs (.num HSed) (.num VpSed) (vsOf (.num VpSed))
      (rhoOf (.num VpSed)) (.num VpCrust) (rhoOf (.num VpCrust)) (.num p) (.num δ)
      (PyFloat.abs (NReal.num δ * ofNat 0 - .num preonset)) (.num gaussian) n (.num H) (.num K)) =
    some (modelOf HSed VpSed VpCrust p δ preonset gaussian n H K) := by
  have e1 : PyFloat.abs (NReal.num δ * ofNat 0 - .num preonset) = .num |preonset| := by
    show NReal.num |δ * _ - preonset| = _
    congr 1
    simp
  have e2 : (NReal.num VpCrust / NReal.num K : NReal) = .num (VpCrust / K) := nreal_div _ _ hK
  have e3 : (dec 775 1 : NReal) = .num 77.5 := by show NReal.num _ = _; norm_num
  have e4 : (dec 8045 3 : NReal) = .num 8.045 := by show NReal.num _ = _; norm_num
  have e5 : (dec 449 2 : NReal) = .num 4.49 := by show NReal.num _ = _; norm_num
  have e6 : (dec 3299 3 : NReal) = .num 3.299 := by show NReal.num _ = _; norm_num
  unfold synthArgs
  rw [e1, e2, e3, e4, e5, e6, vsOf_num, rhoOf_num, rhoOf_num]
  rfl

/-- **C87** What the waveform fitting compares the data with.  For a model of the grid, unless some layer is
fluid or weightless, the synthetic is, at a slowness below the critical one of every layer, the
iterative deconvolution of the radial by the vertical surface motion of the three-layer model,
band-passed twice; beyond it, a trace of zeros. -/
theorem c87_synthetic {other : SynthArgs NReal → Except PyErr (List NReal)} (hK : K ≠ 0)
    (hpos : ∀ l ∈ gridLayers HSed VpSed VpCrust H K, 0 < l.α ∧ 0 < l.β ∧ 0 < l.ρ)
    (hn : 3 ≤ n) (hδ : δ ≠ 0) (hbp : ∀ d x, bp fitBand d x = .ok (f d x))
    (hlen : ∀ d x, (f d x).length = x.length) (hne : gridLayers HSed VpSed VpCrust H K ≠ []) :
    ∃ syn, synthData bp other (synthArgs (.num HSed) (.num VpSed) (vsOf (.num VpSed))
      (rhoOf (.num VpSed)) (.num VpCrust) (rhoOf (.num VpCrust)) (.num p) (.num δ)
      (PyFloat.abs (NReal.num δ * ofNat 0 - .num preonset)) (.num gaussian) n (.num H) (.num K)) = .ok syn ∧
      ((∀ l ∈ gridLayers HSed VpSed VpCrust H K, |p| < 1 / l.α ∧ |p| < 1 / l.β) → ∃ U V : ℝ → ℂ,
        (∀ ω, ω ≠ 0 → ∃ A B, Response ω p (refDepth (gridLayers HSed VpSed VpCrust H K) hne)
          (gridLayers HSed VpSed VpCrust H K) .P (U ω) (V ω) A B) ∧
        ∃ R, deconv_iterative
            (f δ (f δ ((List.range n).map (fun j => synthSample (nextPow2 n) δ U j))))
            (f δ (f δ ((List.range n).map (fun j => -synthSample (nextPow2 n) δ V j))))
            δ none |preonset| gaussian 400 0.001 "P" = .ok R ∧
          (∀ rf, R.rf = some rf → syn = rf.map .num) ∧ (R.rf = none → syn = List.replicate n .nan)) ∧
      ((∃ l ∈ gridLayers HSed VpSed VpCrust H K, 1 / l.α ≤ |p| ∨ 1 / l.β ≤ |p|) →
        syn = List.replicate n (.num 0)) := by
  obtain ⟨t, h1, h2, h3⟩ := runSynth_eq (p := p) (preonset := preonset) (gaussian := gaussian) hpos hn hδ hbp hlen hne
  have hsyn : synthData bp other (synthArgs (.num HSed) (.num VpSed) (vsOf (.num VpSed))
      (rhoOf (.num VpSed)) (.num VpCrust) (rhoOf (.num VpCrust)) (.num p) (.num δ)
      (PyFloat.abs (NReal.num δ * ofNat 0 - .num preonset)) (.num gaussian) n (.num H) (.num K)) =
      .ok (match t.data with
        | none => List.replicate n .nan
        | some x => x.map .num) := by
    unfold synthData
    rw [realArgs_model hK]
    simp only [h1]
    rfl
  refine ⟨_, hsyn, ?_, ?_⟩
  · intro hsub
    obtain ⟨U, V, hUV, R, hR, e⟩ := h2 hsub
    refine ⟨U, V, hUV, R, hR, ?_, ?_⟩
    · intro rf hrf; rw [e, hrf]
    · intro hrf; rw [e, hrf]
  · intro hpost
    rw [h3 hpost]
    simp

theorem corrcoef01_const_right {c : ℝ} {m : ℕ} {x : List NReal} {r : NReal} (hm : m ≠ 0)
    (h : corrcoef01 x (List.replicate m (NReal.num c)) = .ok r) : r = .nan := by
  unfold corrcoef01 at h
  split at h
  · cases h
  · have h := Except.ok.inj h
    rw [← h]
    simp only
    rw [nreal_centre_const c hm, nreal_dot_zero]
    have hz : NReal.num 0 / ofNat (x.length - 1) = NReal.nan ∨ NReal.num 0 / ofNat (x.length - 1) = NReal.num 0 := by
      rw [nreal_ofNat]
      by_cases h1 : ((x.length - 1 : ℕ) : ℝ) = 0
      · left; rw [h1, nreal_div_zero]
      · right; rw [nreal_div _ _ h1, zero_div]
    rcases hz with hz | hz
    · rw [hz]; simp [npClip]
    · rw [hz, nreal_powHalf _ le_rfl, Real.sqrt_zero, nreal_div_zero]; simp [npClip]

theorem firstMax_const {xs : List NReal} {i : ℕ} (hc : ∀ a ∈ xs, ∀ b ∈ xs, a = b)
    (h : (NoNaN xs ∧ IsFirstMax xs i) ∨ IsFirstNaN xs i) : i = 0 := by
  by_contra hi
  rcases h with ⟨hno, x, hx, -, h2⟩ | ⟨x, hx, h1, h2⟩
  · have hlt := (List.getElem?_eq_some_iff.1 hx).1
    have h0 : xs[0]? = some xs[0] := List.getElem?_eq_getElem (by omega)
    have := h2 0 xs[0] (by omega) h0
    rw [hc _ (List.mem_of_getElem? h0) _ (List.mem_of_getElem? hx)] at this
    cases x with
    | nan => cases hno _ (List.mem_of_getElem? hx)
    | num x => rw [nreal_lt] at this; exact lt_irrefl _ this
  · have hlt := (List.getElem?_eq_some_iff.1 hx).1
    have h0 : xs[0]? = some xs[0] := List.getElem?_eq_getElem (by omega)
    have := h2 0 xs[0] (by omega) h0
    rw [hc _ (List.mem_of_getElem? h0) _ (List.mem_of_getElem? hx), h1] at this
    cases this

theorem firstMin_const {xs : List NReal} {i : ℕ} (hc : ∀ a ∈ xs, ∀ b ∈ xs, a = b)
    (h : (NoNaN xs ∧ IsFirstMin xs i) ∨ IsFirstNaN xs i) : i = 0 := by
  rcases h with ⟨hno, x, hx, -, h2⟩ | h
  · by_contra hi
    have hlt := (List.getElem?_eq_some_iff.1 hx).1
    have h0 : xs[0]? = some xs[0] := List.getElem?_eq_getElem (by omega)
    have := h2 0 xs[0] (by omega) h0
    rw [hc _ (List.mem_of_getElem? h0) _ (List.mem_of_getElem? hx)] at this
    cases x with
    | nan => cases hno _ (List.mem_of_getElem? hx)
    | num x => rw [nreal_lt] at this; exact lt_irrefl _ this
  · exact firstMax_const hc (Or.inr h)

/-- **C87** Too large a slowness is not noticed.  When the slowness is beyond the critical one of the
sediment, crust or mantle (for instance because it was given in s/° instead of s/km), every model of the grid
gets the same misfit and phase criterion and a NaN correlation, and a run that succeeds reports the first
point of the grid (first Vp/Vs, first depth) as the best model by all four criteria. -/
theorem c87_postcritical {stackR : List (Trace NReal) → Except PyErr (List (List NReal))}
    {pg : List NReal → List NReal → NReal → Except PyErr NReal} {draw : Fig NReal → Except PyErr Unit}
    {other : SynthArgs NReal → Except PyErr (List NReal)}
    {rfs : List (Trace NReal)} {tr0 : Trace NReal} {KMoho HMoho : List ℝ} {wc wr wp : NReal} {R : WResult NReal}
    {S : List (List NReal)} {sd : List NReal}
    (h : WaveformFitting ⟨stackR, synthData bp other, pg, draw⟩ rfs (.num preonset) (.num HSed) (.num VpSed)
      (.num VpCrust) (.num p) (KMoho.map .num) (HMoho.map .num) (.num gaussian) wc wr wp = .ok R)
    (h0 : rfs[0]? = some tr0) (hδ : tr0.delta = .num δ) (hS : stackR rfs = .ok S) (hsd : S[0]? = some sd)
    (hn : 3 ≤ sd.length)
    (hbp : ∀ d x, bp fitBand d x = .ok (f d x)) (hlen : ∀ d x, (f d x).length = x.length)
    (hv1 : 0 < VpSed) (hv2 : 0 < vsPoly VpSed) (hv3 : 0 < rhoPoly VpSed) (hv4 : 0 < VpCrust)
    (hv5 : 0 < rhoPoly VpCrust) (hK : ∀ k ∈ KMoho, 0 < k)
    (hpost : 1 / VpSed ≤ |p| ∨ 1 / VpCrust ≤ |p| ∨ 1 / 8.045 ≤ |p|) :
    (∀ s ∈ R.WaveformSolutions, s.corr = .nan ∧ s.gof = .nan) ∧
    (∀ s ∈ R.WaveformSolutions, ∀ s' ∈ R.WaveformSolutions, s.rmse = s'.rmse ∧ s.pg = s'.pg) ∧
    ∀ H K, HMoho[0]? = some H → KMoho[0]? = some K →
      (R.printed.corr.h, R.printed.corr.k) = (.num H, .num K) ∧
      (R.printed.rmse.h, R.printed.rmse.k) = (.num H, .num K) ∧
      (R.printed.pg.h, R.printed.pg.k) = (.num H, .num K) ∧
      (R.printed.gof.h, R.printed.gof.k) = (.num H, .num K) := by
  have hprod : Produced R.WaveformSolutions R.printed wc wr wp :=
    .inl ⟨_, rfs, _, _, _, _, _, _, _, _, R, h, rfl, rfl⟩
  have key : ∃ rm q, ∀ s ∈ R.WaveformSolutions, s.corr = .nan ∧ s.rmse = rm ∧ s.pg = q := by
    obtain ⟨P, all, sols, best, hP, ha, hs, hb, rfl⟩ := WaveformFitting_ok h
    obtain ⟨tr0', S', sd', z, e, h0', hS', hsd', -, -, hd0, -, rfl⟩ := prepare_ok hP
    rw [h0] at h0'; cases h0'
    have e1 := hS.symm.trans hS'
    cases Except.ok.inj e1
    rw [hsd] at hsd'; cases hsd'
    have hδ0 : δ ≠ 0 := by
      rintro rfl
      rw [hδ] at hd0
      have : eq (NReal.num 0) (zero : NReal) = true := by
        rw [nreal_zero]
        simp [PyFloat.eq, nreal_le]
      rw [this] at hd0; cases hd0
    have hzero : ∀ H ∈ HMoho, ∀ K ∈ KMoho, synthData bp other (synthArgs (.num HSed) (.num VpSed) (vsOf (.num VpSed))
        (rhoOf (.num VpSed)) (.num VpCrust) (rhoOf (.num VpCrust)) (.num p) (.num δ)
        (PyFloat.abs (NReal.num δ * ofNat 0 - .num preonset)) (.num gaussian) sd.length (.num H) (.num K)) =
        .ok (List.replicate sd.length (.num 0)) := by
      intro H hH K hKm
      have hk := hK K hKm
      obtain ⟨syn, q1, -, q3⟩ := c87_synthetic (other := other) (HSed := HSed) (VpSed := VpSed) (VpCrust := VpCrust)
        (p := p) (preonset := preonset) (gaussian := gaussian) (H := H) (K := K) hk.ne'
        (by
          intro l hl
          simp only [gridLayers, List.mem_cons, List.not_mem_nil, or_false] at hl
          rcases hl with rfl | rfl | rfl
          · exact ⟨hv1, hv2, hv3⟩
          · exact ⟨hv4, by positivity, hv5⟩
          · norm_num) hn hδ0 hbp hlen (by simp [gridLayers])
      rw [q1, q3]
      rcases hpost with hc | hc | hc
      · exact ⟨⟨VpSed, vsPoly VpSed, rhoPoly VpSed, HSed⟩, by simp [gridLayers], .inl hc⟩
      · exact ⟨⟨VpCrust, VpCrust / K, rhoPoly VpCrust, H - HSed⟩, by simp [gridLayers], .inl hc⟩
      · exact ⟨⟨8.045, 4.49, 3.299, 77.5 - H⟩, by simp [gridLayers], .inl hc⟩
    have hone : ∀ c ∈ all, c.corr = .nan ∧
        meanSquaredError (pySlice sd z ((z : ℤ) + e)) (pySlice (List.replicate sd.length (.num 0)) z ((z : ℤ) + e)) =
          .ok (npMean ((vsub (pySlice sd z ((z : ℤ) + e))
            (pySlice (List.replicate sd.length (.num 0)) z ((z : ℤ) + e))).map square)) ∧
        c.rmse = powHalf (npMean ((vsub (pySlice sd z ((z : ℤ) + e))
            (pySlice (List.replicate sd.length (.num 0)) z ((z : ℤ) + e))).map square)) ∧
        pg (signs (pySlice sd z ((z : ℤ) + e))) (signs (pySlice (List.replicate sd.length (.num 0)) z ((z : ℤ) + e)))
          tr0.delta = .ok c.pg := by
      intro c hc
      obtain ⟨⟨hm, km⟩, hpm, hpc⟩ := mapM_ok_mem_out ha hc
      simp only [List.mem_flatMap, List.mem_map, Prod.mk.injEq] at hpm
      obtain ⟨_, ⟨K, hKm, rfl⟩, _, ⟨H, hHm, rfl⟩, rfl, rfl⟩ := hpm
      simp only [gridPoint] at hpc
      rw [hδ, hzero H hHm K hKm, except_ok_bind] at hpc
      simp only [criteria, bind_eq_ok, except_pure] at hpc
      obtain ⟨co, hco, mse, hmse, pgv, hpg, hd⟩ := hpc
      cases Except.ok.inj hd
      have hmv : mse = npMean ((vsub (pySlice sd z ((z : ℤ) + e))
            (pySlice (List.replicate sd.length (.num 0)) z ((z : ℤ) + e))).map square) ∧
            (pySlice (List.replicate sd.length (NReal.num 0)) z ((z : ℤ) + e)).length ≠ 0 := by
        unfold meanSquaredError at hmse
        split at hmse
        · cases hmse
        · split at hmse
          · cases hmse
          · rename_i g1 g2
            push Not at g1
            exact ⟨(Except.ok.inj hmse).symm, by rw [← g1.1]; exact g1.2⟩
      refine ⟨?_, by rw [← hmv.1]; exact hmse, by simp only; rw [← hmv.1], by rw [hδ]; exact hpg⟩
      have hrep : pySlice (List.replicate sd.length (NReal.num 0)) z ((z : ℤ) + e) =
          List.replicate (pySlice (List.replicate sd.length (NReal.num 0)) z ((z : ℤ) + e)).length (NReal.num 0) := by
        rw [List.eq_replicate_iff]
        refine ⟨rfl, fun x hx => ?_⟩
        rw [pySlice] at hx
        exact List.eq_of_mem_replicate (List.mem_of_mem_take (List.mem_of_mem_drop hx))
      rw [hrep] at hco
      exact corrcoef01_const_right hmv.2 hco
    obtain ⟨mc, mr, mp, -, -, -, rfl⟩ := normalise_ok hs
    cases hall : all with
    | nil => exact ⟨.nan, .nan, by simp⟩
    | cons c0 cs =>
      obtain ⟨a1, -, a3, a4⟩ := hone c0 (by rw [hall]; simp)
      refine ⟨c0.rmse, c0.pg, ?_⟩
      intro s hs
      rw [← hall] at hs
      obtain ⟨c, hc, rfl⟩ := List.mem_map.1 hs
      obtain ⟨b1, -, b3, b4⟩ := hone c hc
      refine ⟨b1, by simp only; rw [b3, a3], ?_⟩
      rw [a4] at b4
      exact (Except.ok.inj b4).symm
  obtain ⟨rm, q, hall⟩ := key
  have hgof : ∀ s ∈ R.WaveformSolutions, s.gof = .nan := by
    cases hl : R.WaveformSolutions with
    | nil => simp
    | cons s0 ss =>
      intro s hs
      rw [← hl] at hs
      have := (c69_first_nan hprod (s0 := s0) (by rw [hl]; rfl)
        (.inl (by rw [(hall s0 (by rw [hl]; simp)).1]; rfl))).1 s hs
      cases hg : s.gof with
      | nan => rfl
      | num x => rw [hg] at this; cases this
  refine ⟨fun s hs => ⟨(hall s hs).1, hgof s hs⟩,
    fun s hs s' hs' => ⟨by rw [(hall s hs).2.1, (hall s' hs').2.1], by rw [(hall s hs).2.2, (hall s' hs').2.2]⟩, ?_⟩
  intro H K hH hKm
  obtain ⟨s0, hs0, e1, e2⟩ := (c71_grid h).2 0 0 (.num K) (.num H) (by rw [List.getElem?_map, hKm]; rfl)
    (by rw [List.getElem?_map, hH]; rfl)
  rw [Nat.zero_mul, Nat.zero_add] at hs0
  have hmx : ∀ {col : Sol NReal → NReal} {b : Sol NReal}, IsBestBy IsFirstMax col R.WaveformSolutions b →
      (∀ s ∈ R.WaveformSolutions, ∀ s' ∈ R.WaveformSolutions, col s = col s') → b = s0 := by
    rintro col b ⟨i, hi, hh⟩ hc
    have : i = 0 := firstMax_const (xs := R.WaveformSolutions.map col) (by
      intro a ha b hb
      obtain ⟨s, hs, rfl⟩ := List.mem_map.1 ha
      obtain ⟨s', hs', rfl⟩ := List.mem_map.1 hb
      exact hc s hs s' hs') hh
    rw [this, hs0] at hi
    exact (Option.some.inj hi).symm
  have hmn : ∀ {col : Sol NReal → NReal} {b : Sol NReal}, IsBestBy IsFirstMin col R.WaveformSolutions b →
      (∀ s ∈ R.WaveformSolutions, ∀ s' ∈ R.WaveformSolutions, col s = col s') → b = s0 := by
    rintro col b ⟨i, hi, hh⟩ hc
    have : i = 0 := firstMin_const (xs := R.WaveformSolutions.map col) (by
      intro a ha b hb
      obtain ⟨s, hs, rfl⟩ := List.mem_map.1 ha
      obtain ⟨s', hs', rfl⟩ := List.mem_map.1 hb
      exact hc s hs s' hs') hh
    rw [this, hs0] at hi
    exact (Option.some.inj hi).symm
  obtain ⟨b1, b2, b3, b4⟩ := c71_best hprod
  rw [hmx b1 (fun s hs s' hs' => by rw [(hall s hs).1, (hall s' hs').1]),
    hmn b2 (fun s hs s' hs' => by rw [(hall s hs).2.1, (hall s' hs').2.1]),
    hmx b3 (fun s hs s' hs' => by rw [(hall s hs).2.2, (hall s' hs').2.2]),
    hmx b4 (fun s hs s' hs' => by rw [hgof s hs, hgof s' hs']), e1, e2]
  exact ⟨rfl, rfl, rfl, rfl⟩

/-- a station with a signal -/
noncomputable def pTrace : Trace NReal := { wDead with data := [.num 0, .num 1, .num 2] }

/-- an environment whose synthetics are those of `synrf`, with a band-pass that changes nothing -/
noncomputable def pEnv : WEnv NReal where
  stackR rfs := .ok (rfs.map Trace.data)
  synthRF := synthData (fun _ _ x => .ok x) (fun _ => .ok [])
  pg _ _ _ := .ok (.num 1)
  draw _ := .ok ()

/-- sediment of 2.5 km/s and 2 km, crust of 6.5 km/s, slowness 6.4 (s/° instead of s/km) -/
theorem pRun : ∃ R, WaveformFitting pEnv [pTrace] (.num 0) (.num 2) (.num 2.5) (.num 6.5)
    (.num 6.4) ([1.75, 1.8].map .num) ([30, 40].map .num) (.num 1) (.num 0.4) (.num 0.4) (.num 0.2) = .ok R := by
  have hz : whereEq (timeAxis pTrace.delta (.num 0) pTrace.data.length) zero = [0] := by
    have hr : List.range pTrace.data.length = [0, 1, 2] := rfl
    have h1 : timeAxis pTrace.delta (.num 0) pTrace.data.length = [.num 0, .num 1, .num 2] := by
      rw [timeAxis, hr]; simp [pTrace, wDead]
    have a0 : eq (NReal.num 0) (NReal.num 0) = true := by simp [PyFloat.eq]
    have a1 : eq (NReal.num 1) (NReal.num 0) = false := by
      have : le (NReal.num 1) (NReal.num 0) = false := by
        rw [← Bool.not_eq_true, nreal_le]; norm_num
      simp [PyFloat.eq, this]
    have a2 : eq (NReal.num 2) (NReal.num 0) = false := by
      have : le (NReal.num 2) (NReal.num 0) = false := by
        rw [← Bool.not_eq_true, nreal_le]; norm_num
      simp [PyFloat.eq, this]
    rw [h1, whereEq]
    have hr3 : List.range [NReal.num 0, NReal.num 1, NReal.num 2].length = [0, 1, 2] := rfl
    rw [hr3, nreal_zero]
    simp [a0, a1, a2]
  have hd : eq pTrace.delta zero = false := by
    have : le (NReal.num 1) (NReal.num 0) = false := by
      rw [← Bool.not_eq_true, nreal_le]; norm_num
    simp [PyFloat.eq, pTrace, wDead, this]
  have he : PyTrunc.trunc (ofNat 25 / pTrace.delta) = .ok 25 := by
    have : (ofNat 25 / pTrace.delta : NReal) = .num 25 := by
      rw [nreal_ofNat]
      show (NReal.num _ / NReal.num 1 : NReal) = _
      rw [nreal_div _ _ one_ne_zero]; norm_num
    rw [this]
    show Except.ok (truncR 25) = _
    rw [truncR, if_pos (by norm_num)]
    norm_num
  have hP : ∃ P, prepare pEnv [pTrace] (.num 0) (.num 2) (.num 2.5) (.num 6.5)
      (.num 6.4) ([1.75, 1.8].map .num) ([30, 40].map .num) (.num 1) = .ok P := by
    unfold prepare
    have h0 : item [pTrace] 0 = .ok pTrace := rfl
    have ht : ∃ t0, item (timeAxis pTrace.delta (.num 0) pTrace.data.length) 0 = .ok t0 :=
      ⟨_, item_lt (by simp [timeAxis, pTrace])⟩
    obtain ⟨t0, ht⟩ := ht
    have hst : pEnv.stackR [pTrace] = .ok [pTrace.data] := rfl
    have hit : item [pTrace.data] 0 = .ok pTrace.data := rfl
    have hi0 : item [0] 0 = .ok 0 := rfl
    simp only [h0, except_ok_bind, hst, hit, ht, hz, hi0, hd, he]
    exact ⟨_, rfl⟩
  obtain ⟨P, hP⟩ := hP
  have hgp : ∀ q ∈ (([1.75, 1.8] : List ℝ).map NReal.num).flatMap
      (fun k => (([30, 40] : List ℝ).map NReal.num).map (fun h => (h, k))),
      ∃ c, gridPoint pEnv P q.1 q.2 = .ok c := by
    rintro ⟨h, k⟩ hq
    obtain ⟨tr0, S, sd, z, e, h0, hS, hsd, hl, hz', hd0, he', rfl⟩ := prepare_ok hP
    cases h0
    cases Except.ok.inj hS
    cases hsd
    rw [hz] at hz'
    cases Option.some.inj hz'
    rw [he] at he'
    cases Except.ok.inj he'
    simp only [List.mem_flatMap, List.mem_map, Prod.mk.injEq] at hq
    obtain ⟨_, ⟨K, hKm, rfl⟩, _, ⟨H, hHm, rfl⟩, rfl, rfl⟩ := hq
    have hK : 0 < K := by
      simp only [List.mem_cons, List.not_mem_nil, or_false] at hKm
      rcases hKm with rfl | rfl <;> norm_num
    obtain ⟨syn, q1, -, q3⟩ := c87_synthetic (bp := fun _ _ x => .ok x) (other := fun _ => .ok []) (HSed := 2)
      (VpSed := 2.5) (VpCrust := 6.5) (p := 6.4) (preonset := 0) (gaussian := 1) (H := H) (K := K) (n := 3) (δ := 1)
      (f := fun _ x => x) hK.ne'
      (by
        intro l hl
        simp only [gridLayers, List.mem_cons, List.not_mem_nil, or_false] at hl
        rcases hl with rfl | rfl | rfl
        · norm_num [vsPoly, rhoPoly]
        · refine ⟨by norm_num, by positivity, by norm_num [rhoPoly]⟩
        · norm_num) le_rfl one_ne_zero (fun _ _ => rfl) (fun _ _ => rfl) (by simp [gridLayers])
    have q3 := q3 ⟨⟨2.5, vsPoly 2.5, rhoPoly 2.5, 2⟩, by simp [gridLayers], .inl (by norm_num [abs_of_pos])⟩
    rw [q3] at q1
    have hsl : ∀ a b c : NReal, pySlice [a, b, c] 0 25 = [a, b, c] := by
      intro a b c; simp [pySlice]
    have hdat : pTrace.data = [.num 0, .num 1, .num 2] := rfl
    have hfin : ∀ x : ℝ, isFinite (NReal.num x) = true := by
      intro x; simp [isFinite, PyFloat.eq]
    unfold gridPoint
    simp only
    have q1' : pEnv.synthRF (synthArgs (.num 2) (.num 2.5) (vsOf (.num 2.5)) (rhoOf (.num 2.5)) (.num 6.5)
      (rhoOf (.num 6.5)) (.num 6.4) pTrace.delta (PyFloat.abs (pTrace.delta * ofNat 0 - .num 0)) (.num 1)
      pTrace.data.length (.num H) (.num K)) = .ok [.num 0, .num 0, .num 0] := q1
    rw [q1', except_ok_bind]
    unfold criteria
    simp only [pEnv, except_ok_bind, hdat, Nat.cast_zero, zero_add, hsl, corrcoef01, meanSquaredError,
      List.all_cons, hfin, List.all_nil, List.length_cons, List.length_nil, ne_eq,
      not_true_eq_false, if_false, Nat.add_eq_zero_iff, one_ne_zero, and_false, or_false,
      Bool.and_self, Bool.not_true, Bool.false_eq_true]
    exact ⟨_, rfl⟩
  obtain ⟨all, hall⟩ := mapM_ok_of_forall hgp
  have hne : all ≠ [] := by
    rintro rfl
    have := mapM_length hall
    simp at this
  obtain ⟨sols, hs⟩ := normalise_total (F := NReal) (.num 0.4) (.num 0.4) (.num 0.2) hne
  have hsne : sols ≠ [] := by
    obtain ⟨_, _, _, _, _, _, rfl⟩ := normalise_ok hs
    simpa using hne
  obtain ⟨best, hb⟩ := bestModels_total hsne
  exact ⟨_, WaveformFitting_of hP hall hs hb⟩

/-- The slowness of 6.4 is accepted, and 30 km and 1.75 reported, by every criterion. -/
example : ∃ R, WaveformFitting pEnv [pTrace] (.num 0) (.num 2) (.num 2.5) (.num 6.5)
    (.num 6.4) ([1.75, 1.8].map .num) ([30, 40].map .num) (.num 1) (.num 0.4) (.num 0.4) (.num 0.2) = .ok R ∧
    R.WaveformSolutions.length = 4 ∧ (∀ s ∈ R.WaveformSolutions, s.corr = .nan) ∧
    (R.printed.rmse.h, R.printed.rmse.k) = (.num 30, .num 1.75) := by
  obtain ⟨R, hR⟩ := pRun
  have hK : ∀ k ∈ ([1.75, 1.8] : List ℝ), 0 < k := by
    intro k hk
    simp only [List.mem_cons, List.not_mem_nil, or_false] at hk
    rcases hk with rfl | rfl <;> norm_num
  obtain ⟨h1, -, h3⟩ := c87_postcritical (bp := fun _ _ x => .ok x) (other := fun _ => .ok []) (f := fun _ x => x)
    (S := [pTrace.data]) (sd := pTrace.data) (δ := 1) hR rfl rfl rfl rfl
    (by simp [pTrace]) (fun _ _ => rfl) (fun _ _ => rfl) (by norm_num) (by norm_num [vsPoly]) (by norm_num [rhoPoly])
    (by norm_num) (by norm_num [rhoPoly]) hK (.inl (by norm_num [abs_of_pos]))
  refine ⟨R, hR, ?_, fun s hs => (h1 s hs).1, (h3 30 1.75 rfl rfl).2.1⟩
  have := (c71_grid hR).1
  simpa using this

end
end Rfsed.Props
