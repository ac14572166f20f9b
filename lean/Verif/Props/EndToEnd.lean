import Verif.Props.SynrfHistory
import Verif.Props.Forward

/-!
# Properties C79 and C84: from the layer model to the receiver function
-/

namespace Rfsed.Props
open Spec Synrf PyFloat

/-! ## arrays of zeros -/

theorem getD_zeros {R : Type} [Zero R] {x : List R} (h : ∀ z ∈ x, z = 0) (k : Nat) : x.getD k 0 = 0 := by
  rw [List.getD_eq_getElem?_getD]
  cases hk : x[k]? with
  | none => rfl
  | some z => exact h z (List.mem_of_getElem? hk)

theorem fft_zeros {x : List ℂ} (h : ∀ z ∈ x, z = 0) (n : Nat) : ∀ z ∈ fft x n, z = 0 := by
  intro z hz
  unfold fft at hz
  obtain ⟨k, -, rfl⟩ := List.mem_map.1 hz
  exact Finset.sum_eq_zero (fun j _ => by rw [getD_zeros h, zero_mul])

theorem ifft_zeros {x : List ℂ} (h : ∀ z ∈ x, z = 0) (n : Nat) : ∀ z ∈ ifft x n, z = 0 := by
  intro z hz
  unfold ifft at hz
  obtain ⟨k, -, rfl⟩ := List.mem_map.1 hz
  rw [Finset.sum_eq_zero (fun j _ => by rw [getD_zeros h, zero_mul]), zero_div]

theorem vmul_zeros {x y : List ℂ} (h : ∀ z ∈ x, z = 0) : ∀ z ∈ vmul x y, z = 0 := by
  intro z hz
  unfold vmul at hz
  obtain ⟨i, hi, rfl⟩ := List.mem_iff_getElem.1 hz
  rw [List.getElem_zipWith, h _ (List.getElem_mem _), zero_mul]

theorem toC_zeros {x : List ℝ} (h : ∀ z ∈ x, z = 0) : ∀ z ∈ toC x, z = 0 := by
  intro z hz
  obtain ⟨a, ha, rfl⟩ := List.mem_map.1 hz
  rw [h a ha]; rfl

theorem toRe_zeros {x : List ℂ} (h : ∀ z ∈ x, z = 0) : ∀ z ∈ toRe x, z = 0 := by
  intro z hz
  obtain ⟨a, ha, rfl⟩ := List.mem_map.1 hz
  rw [h a ha]; rfl

theorem eq_zeros {x : List ℝ} (h : ∀ z ∈ x, z = 0) : x = List.replicate x.length 0 :=
  List.eq_replicate_iff.2 ⟨rfl, h⟩

theorem map_zeros {f : ℂ → ℂ} (hf : f 0 = 0) {x : List ℂ} (h : ∀ z ∈ x, z = 0) : ∀ z ∈ x.map f, z = 0 := by
  intro z hz
  obtain ⟨a, ha, rfl⟩ := List.mem_map.1 hz
  rw [h a ha, hf]

theorem gfilter_zeros {x : List ℝ} (h : ∀ z ∈ x, z = 0) (n : Nat) (g : List ℂ) (dt : ℝ) :
    ∀ z ∈ gfilter x n g dt, z = 0 := by
  unfold gfilter
  simp only
  apply toRe_zeros
  apply ifft_zeros
  apply map_zeros (by simp)
  exact vmul_zeros (fft_zeros (toC_zeros h) n)

theorem phaseshift_zeros {x : List ℝ} (h : ∀ z ∈ x, z = 0) (n : Nat) (dt p : ℝ) :
    ∀ z ∈ phaseshift x n dt p, z = 0 := by
  unfold phaseshift
  simp only
  apply toRe_zeros
  apply map_zeros (by simp)
  apply ifft_zeros
  exact vmul_zeros (fft_zeros (toC_zeros h) n)

/-- zero spikes give zeros -/
theorem rf_zeros {nt n : Nat} (hle : nt ≤ n) (g : List ℂ) (dt pre : ℝ) {p0 : List ℝ} (h : ∀ z ∈ p0, z = 0) :
    (phaseshift (gfilter p0 n g dt) n dt pre).take nt = List.replicate nt 0 := by
  have := eq_zeros (phaseshift_zeros (gfilter_zeros h n g dt) n dt pre)
  rw [phaseshift_length] at this
  rw [this, List.take_replicate, min_eq_left hle]

/-! ## what the deconvolution makes of dead or NaN traces -/

/-- iterative deconvolution of two arrays of NaN: zeros after no iteration -/
theorem deconv_nan_zero {n : Nat} {dt : ℝ} (h3 : 3 ≤ n) (hdt : dt ≠ 0) (pre a : ℝ) (itmax : Nat)
    (minderr : ℝ) (phase : String) :
    deconv_iterative_nan n n dt none pre a itmax minderr phase =
      .ok { rf := some (List.replicate n 0), rms := List.replicate (itmax - 1) 0, it := 0 } := by
  have hle := le_nextPow2 n
  obtain ⟨k, hk, hk2⟩ := nextPow2_even (n := n) (by omega)
  unfold deconv_iterative_nan
  rw [if_neg (by simp)]
  simp only [Option.getD_none]
  have hz : ∀ z ∈ List.replicate (nextPow2 n) (0 : ℝ), z = 0 := fun z hz => List.eq_of_mem_replicate hz
  have hinit : ∃ c s0, iterInit (List.replicate n 0) (List.replicate n 0) dt n a itmax minderr phase =
      .ok (c, s0) ∧ c.nfft = nextPow2 n ∧ s0.p0 = List.replicate (nextPow2 n) 0 ∧
      s0.rms = List.replicate itmax 0 ∧ s0.it = 0 ∧ s0.nanRF = false := by
    unfold iterInit
    simp only
    rw [setSlice_eq _ (by omega) (by simpa using hle) (by simp), hk2, gaussFilter_even a hdt hk]
    exact ⟨_, _, rfl, rfl, rfl, rfl, rfl, rfl⟩
  obtain ⟨c, s0, hi, e1, e2, e3, e4, e5⟩ := hinit
  rw [hi]
  have hl : iterLoop c { s0 with nan := true } = .ok { s0 with nan := true } := by
    rw [iterLoop, dif_neg]
    simp [loopCond]
  simp only [ok_bind']
  rw [hl]
  simp only [ok_bind', e1, e2, e3, e4, e5]
  rw [rf_zeros hle _ _ _ hz]
  simp [sliceTo, pure, Except.pure, List.take_replicate]

/-- iterative deconvolution with a dead numerator: zeros after no iteration -/
theorem deconv_dead_numerator {n : Nat} {dt : ℝ} (h3 : 3 ≤ n) (hdt : dt ≠ 0) (pre a : ℝ) (itmax : Nat)
    {minderr : ℝ} (hm : 0 ≤ minderr) (phase : String) {w : List ℝ} (hw : w.length = n) :
    deconv_iterative (List.replicate n 0) w dt none pre a itmax minderr phase =
      .ok { rf := some (List.replicate n 0), rms := List.replicate (itmax - 1) 0, it := 0 } := by
  have hle := le_nextPow2 n
  obtain ⟨k, hk, hk2⟩ := nextPow2_even (n := n) (by omega)
  unfold deconv_iterative
  rw [if_neg (by simp [hw])]
  simp only [Option.getD_none, List.length_replicate]
  have hz : ∀ z ∈ List.replicate (nextPow2 n) (0 : ℝ), z = 0 := fun z hz => List.eq_of_mem_replicate hz
  have hinit : ∃ c s0, iterInit (List.replicate n 0) w dt n a itmax minderr phase =
      .ok (c, s0) ∧ c.nfft = nextPow2 n ∧ s0.p0 = List.replicate (nextPow2 n) 0 ∧
      s0.rms = List.replicate itmax 0 ∧ s0.it = 0 ∧ s0.nanRF = false ∧ c.minderr = minderr ∧
      s0.d_error = minderr := by
    unfold iterInit
    simp only
    rw [setSlice_eq _ (by omega) (by simpa using hle) (by simp),
      setSlice_eq _ (by omega) (by simpa using hle) (by omega), hk2, gaussFilter_even a hdt hk]
    refine ⟨_, _, rfl, rfl, rfl, rfl, rfl, rfl, rfl, ?_⟩
    have hu : ∀ z ∈ List.take 0 (List.replicate (2 * k) (0 : ℝ)) ++ List.replicate n (0 : ℝ) ++
        List.drop n (List.replicate (2 * k) (0 : ℝ)), z = 0 := by
      intro z hz
      simp only [List.take_zero, List.nil_append, List.drop_replicate, List.mem_append] at hz
      rcases hz with h | h <;> exact List.eq_of_mem_replicate h
    have : ∀ x : List ℝ, (∀ z ∈ x, z = 0) → 100 * sumSq x + minderr = minderr := by
      intro x hx
      have : sumSq x = 0 := by
        unfold sumSq
        apply List.sum_eq_zero
        intro y hy
        obtain ⟨v, hv, rfl⟩ := List.mem_map.1 hy
        rw [hx v hv]; norm_num
      rw [this]; ring
    exact this _ (gfilter_zeros hu _ _ _)
  obtain ⟨c, s0, hi, e1, e2, e3, e4, e5, e6, e7⟩ := hinit
  rw [hi]
  have hl : iterLoop c s0 = .ok s0 := by
    rw [iterLoop, dif_neg]
    simp [loopCond, e6, e7, abs_of_nonneg hm]
  simp only [ok_bind']
  rw [hl]
  simp only [ok_bind', e1, e2, e3, e4, e5]
  rw [rf_zeros hle _ _ _ hz]
  simp [sliceTo, pure, Except.pure, List.take_replicate]

/-! ## C84, C79 -/

section
variable {ls : List Layer} {depth : List ℝ} {rayp : RaypArg} {r : List ℝ} {dt : ℝ} {npts : ℕ}
  {ipha : ℤ} {o : Obj} {bp : Bandpass} {f : FilterArgs → ℝ → List ℝ → List ℝ} {calls : List Call}
  {pf : Option (List ℝ)} {pre g : ℝ}

/-- the default iterative deconvolution of two traces -/
theorem deconvTr_num {u w : List ℝ} {R : IterResult} (dt pre g : ℝ)
    (h : deconv_iterative u w dt none pre g 400 0.001 "P" = .ok R) :
    deconvTr ⟨.num u, dt⟩ ⟨.num w, dt⟩ none { preonset := some pre, gaussian := some g } =
      .ok ⟨R.rf, dt, { preonset := some pre, gaussian := some g }, .inl R.rms, some R.it⟩ := by
  have e : ("iter" : String).toLower = "iter" := toLower_eq (by decide)
  simp only [deconvTr, RFTrace_deconvolve, callIter, Option.getD_none, Option.getD_some, e, if_true]
  simp [h, bind, Except.bind, pure, Except.pure]

theorem deconvTr_nan {n : ℕ} {dt : ℝ} (h3 : 3 ≤ n) (hdt : dt ≠ 0) (pre g : ℝ) :
    deconvTr ⟨.nan n, dt⟩ ⟨.nan n, dt⟩ none { preonset := some pre, gaussian := some g } =
      .ok ⟨some (List.replicate n 0), dt, { preonset := some pre, gaussian := some g },
        .inl (List.replicate 399 0), some 0⟩ := by
  have e : ("iter" : String).toLower = "iter" := toLower_eq (by decide)
  have := deconv_nan_zero (n := n) h3 hdt pre g 400 0.001 "P"
  simp only [deconvTr, Samples.size, Option.getD_none, Option.getD_some, e, if_true]
  rw [this]
  rfl

theorem deconvTr_nan_water {n : ℕ} {dt : ℝ} (h3 : 3 ≤ n) (hdt : dt ≠ 0) (pre g : ℝ) :
    deconvTr ⟨.nan n, dt⟩ ⟨.nan n, dt⟩ (some "water") { preonset := some pre, gaussian := some g } =
      .ok ⟨none, dt, { preonset := some pre, gaussian := some g }, .inr none, none⟩ := by
  have e : ("water" : String).toLower = "water" := toLower_eq (by decide)
  have h := c58_total (uin := List.replicate n 0) (win := List.replicate n 0) (dt := dt)
    (preonset := pre) (wlevel := 0.05) (a := g) (normalize := false) (by simp) (by simp; omega) hdt
  obtain ⟨x, hx⟩ := h
  have e' : ("water" : String) ≠ "iter" := by decide
  simp only [deconvTr, Samples.size, Option.getD_none, Option.getD_some, e, if_true, e', if_false,
    callWater]
  simp [hx, bind, Except.bind, pure, Except.pure]

/-- **C84** From the model to the receiver functions.  For a model of solid layers, slownesses `r`,
any sequence of filters and deconvolutions after `run_fwd` (band-pass `f`, keeping the number of
samples), `run_deconvolution` with the default method succeeds and returns one receiver function
per slowness, with the sampling interval of the synthetics.  If the slowness is subcritical in every
layer, this is the iterative deconvolution of radial by vertical component of the surface motion that
the equations of motion give for the incident wave, filtered by all passes in the order of the
calls. -/
theorem c84_end_to_end (hn : ls ≠ []) (hpos : ∀ l ∈ ls, 0 < l.α ∧ 0 < l.β ∧ 0 < l.ρ)
    (hdepth : thicknesses depth = hs ls) (hnp : 3 ≤ npts) (hdt : dt ≠ 0)
    (ho : init depth (alphas ls) (betas ls) (rhos ls) rayp dt npts ipha = .ok o)
    (hr : slownesses rayp = some r) (hc : ∀ c ∈ calls, c.isFwd = false)
    (hpf : pf = none ∨ (Call.deconv pf pre g none {}).pass ≠ none)
    (hbp : ∀ c ∈ calls ++ [Call.deconv pf pre g none {}], ∀ a, c.pass = some a →
      ∀ d x, bp a d x = .ok (f a d x))
    (hlen : ∀ a d x, (f a d x).length = x.length) :
    let ps := (calls ++ [Call.deconv pf pre g none {}]).filterMap Call.pass
    let pass := fun x : List ℝ => ps.foldl (fun x a => f a dt x) x
    ∃ rfs, (run_deconvolution bp (after bp (run_fwd o).1 calls) pf pre g none {}).2 = .ok rfs ∧
      rfs.length = r.length ∧
      ∀ (i : ℕ) (p : ℝ), r[i]? = some p → ∃ t, rfs[i]? = some t ∧ t.delta = dt ∧
        ((∀ l ∈ ls, |p| < 1 / l.α ∧ |p| < 1 / l.β) → ∃ U V : ℝ → ℂ,
          (∀ ω, ω ≠ 0 → ∃ A B, Response ω p (refDepth ls hn) ls (if 0 ≤ ipha then .P else .S)
            (U ω) (V ω) A B) ∧
          ∃ R, deconv_iterative
              (pass ((List.range npts).map (fun j => synthSample (nextPow2 npts) dt U j)))
              (pass ((List.range npts).map (fun j => -synthSample (nextPow2 npts) dt V j)))
              dt none pre g 400 0.001 "P" = .ok R ∧
            t.data = R.rf ∧ t.rms = .inl R.rms ∧ t.iter = some R.it) ∧
        ((∃ l ∈ ls, 1 / l.α ≤ |p| ∨ 1 / l.β ≤ |p|) →
          t.data = some (List.replicate npts 0) ∧ t.iter = some 0) := by
  intro ps pass
  obtain ⟨r', hr', ho'⟩ := init_ok.1 ho
  rw [hr] at hr'; cases hr'
  have e1 : o.rayp = r := by rw [ho']
  have e2 : o.dt = dt := by rw [ho']
  have e3 : o.npts = npts := by rw [ho']
  have e4 : o.ipha = ipha := by rw [ho']
  have e5 : o.vp = alphas ls := by rw [ho']
  have e6 : o.vs = betas ls := by rw [ho']
  have e7 : o.rho = rhos ls := by rw [ho']
  have e8 : o.thickness = hs ls := by rw [ho', ← hdepth]
  clear ho' ho
  have hfwd : ∀ p, ∃ u, fwd_seis p o.dt o.npts o.ipha o.vp o.vs o.rho o.thickness = .ok u := by
    intro p
    rw [e2, e3, e4, e5, e6, e7, e8]
    refine (fwd_seis_outcome (p := p)).2.2.2.2 (by omega) hdt ?_
    simp [Complete, alphas, betas, rhos, hs, hn]
  choose u hu using hfwd
  have hrun : run_fwd o = ((run_fwd o).1, .ok ()) := by
    have := (fwdLoop_ok (o := o) (ps := o.rayp) (acc := ([], []))).2 ⟨o.rayp.map u,
      List.forall₂_map_right_iff.2 (List.forall₂_same.2 (fun q _ => hu q)), rfl⟩
    unfold run_fwd
    simp only []
    rw [this]
  obtain ⟨rs, zs, hst, hl1, hl2, -, htr⟩ := c51_one_trace_per_slowness hrun
  have hray : (run_fwd o).1.rayp = r := by rw [← e1]; rfl
  have key := c52_deconvolution (bp := bp) (f := f) hc hpf hbp hst (by rw [hl1, hray, e1])
    (by rw [hl2, hray, e1])
  rw [key]
  have hpass : ∀ (ps : List FilterArgs) (x : List ℝ), (ps.foldl (fun x a => f a dt x) x).length = x.length := by
    intro ps
    induction ps with
    | nil => intro x; rfl
    | cons a ps ih => intro x; rw [List.foldl_cons, ih, hlen]
  have hat : ∀ (i : ℕ) (p : ℝ), r[i]? = some p → (rs.zip zs)[i]? = some (⟨(u p).1, dt⟩, ⟨(u p).2, dt⟩) := by
    intro i p hp
    obtain ⟨ur, uz, h1, h2, h3⟩ := htr i p (by rw [e1]; exact hp)
    rw [hu p] at h1
    rw [Except.ok.inj h1]
    rw [e2] at h2 h3
    rw [List.getElem?_zip_eq_some]
    exact ⟨h2, h3⟩
  have hzip : ∀ x ∈ rs.zip zs, ∃ p ∈ r, x = (⟨(u p).1, dt⟩, ⟨(u p).2, dt⟩) := by
    intro x hx
    obtain ⟨i, hi, rfl⟩ := List.mem_iff_getElem.1 hx
    have hi' : i < r.length := by
      rw [List.length_zip, hl1, hl2, e1] at hi
      simpa using hi
    refine ⟨r[i], List.getElem_mem _, ?_⟩
    have := hat i r[i] (List.getElem?_eq_getElem hi')
    rw [List.getElem?_eq_getElem hi] at this
    exact Option.some.inj this
  have hdec : ∀ p, ∃ t, deconvTr (passed f ps ⟨(u p).1, dt⟩) (passed f ps ⟨(u p).2, dt⟩) none
      { preonset := some pre, gaussian := some g } = .ok t := by
    intro p
    have h1 := hu p
    rw [e3] at h1
    rcases c62_shape (show fwd_seis p o.dt npts o.ipha o.vp o.vs o.rho o.thickness = .ok ((u p).1, (u p).2) from h1)
      with ⟨a1, a2⟩ | ⟨x, y, a1, a2, a3, a4⟩
    · rw [a1, a2]
      exact ⟨_, deconvTr_nan hnp hdt pre g⟩
    · rw [a1, a2]
      obtain ⟨R, hR⟩ := c53_total (uin := pass x) (win := pass y) (dt := dt) (preonset := pre) (a := g)
        (itmax := 400) (minderr := 0.001) (phase := "P") (by rw [hpass, hpass, a3, a4])
        (by rw [hpass, a3]; exact hnp) hdt
      exact ⟨_, deconvTr_num dt pre g hR⟩
  obtain ⟨rfs, hrfs⟩ := mapM_ok_of_forall (f := fun uw : SynTr × SynTr =>
      deconvTr (passed f ps uw.1) (passed f ps uw.2) none { preonset := some pre, gaussian := some g })
    (xs := rs.zip zs) (fun x hx => by
      obtain ⟨p, -, rfl⟩ := hzip x hx
      exact hdec p)
  refine ⟨rfs, hrfs, ?_, ?_⟩
  · rw [mapM_length hrfs, List.length_zip, hl1, hl2, e1, min_self]
  · intro i p hp
    obtain ⟨t, ht1, ht2⟩ := mapM_getElem hrfs (hat i p hp)
    have hfw := hu p
    rw [e2, e3, e4, e5, e6, e7, e8] at hfw
    have hdelta : ∀ {t'}, deconvTr (passed f ps ⟨(u p).1, dt⟩) (passed f ps ⟨(u p).2, dt⟩) none
      { preonset := some pre, gaussian := some g } = .ok t' → t = t' := fun h =>
        Except.ok.inj (ht2.symm.trans h)
    refine ⟨t, ht1, ?_, ?_, ?_⟩
    · rcases c62_shape (show fwd_seis p dt npts ipha _ _ _ _ = .ok ((u p).1, (u p).2) from hfw)
        with ⟨a1, a2⟩ | ⟨x, y, a1, a2, a3, a4⟩
      · rw [a1, a2] at hdelta
        rw [hdelta (deconvTr_nan hnp hdt pre g)]
      · rw [a1, a2] at hdelta
        obtain ⟨R, hR⟩ := c53_total (uin := pass x) (win := pass y) (dt := dt) (preonset := pre) (a := g)
          (itmax := 400) (minderr := 0.001) (phase := "P") (by rw [hpass, hpass, a3, a4])
          (by rw [hpass, a3]; exact hnp) hdt
        rw [hdelta (deconvTr_num dt pre g hR)]
    · intro hsub
      have hp' : ∀ l ∈ ls, l.Propagating p := fun l hl =>
        ⟨(hpos l hl).1, (hpos l hl).2.1, (hpos l hl).2.2, (hsub l hl).1, (hsub l hl).2⟩
      obtain ⟨U, V, hUV⟩ := c61_exists (ipha := ipha) hn hp'
      have hs' := c61_seismograms (dt := dt) (npts := npts) (by omega) hdt hn hp' hUV
      rw [hs'] at hfw
      refine ⟨U, V, hUV, ?_⟩
      rw [← Except.ok.inj hfw] at hdelta
      obtain ⟨R, hR⟩ := c53_total
        (uin := pass ((List.range npts).map (fun j => synthSample (nextPow2 npts) dt U j)))
        (win := pass ((List.range npts).map (fun j => -synthSample (nextPow2 npts) dt V j)))
        (dt := dt) (preonset := pre) (a := g)
        (itmax := 400) (minderr := 0.001) (phase := "P") (by rw [hpass, hpass]; simp)
        (by rw [hpass]; simpa using hnp) hdt
      refine ⟨R, hR, ?_⟩
      rw [hdelta (deconvTr_num dt pre g hR)]
      exact ⟨rfl, rfl, rfl⟩
    · intro hpost
      have hs' := (c73_finite_iff_subcritical (ls := ls) (dt := dt) (npts := npts) (ipha := ipha) (p := p)
        (by omega) hdt hn hpos).2 hpost
      rw [hs'] at hfw
      rw [← Except.ok.inj hfw] at hdelta
      rw [hdelta (deconvTr_nan hnp hdt pre g)]
      exact ⟨rfl, rfl⟩

/-- **C79** A slowness for which some layer transmits no P wave or no S wave is not reported: no
call raises, and the default receiver function is a trace of zeros found in no iteration,
whatever is filtered. -/
theorem c79_postcritical_zero {p : ℝ} (hn : ls ≠ []) (hpos : ∀ l ∈ ls, 0 < l.α ∧ 0 < l.β ∧ 0 < l.ρ)
    (hdepth : thicknesses depth = hs ls) (hnp : 3 ≤ npts) (hdt : dt ≠ 0)
    (ho : init depth (alphas ls) (betas ls) (rhos ls) (.float p) dt npts ipha = .ok o)
    (hpost : ∃ l ∈ ls, 1 / l.α ≤ |p| ∨ 1 / l.β ≤ |p|) (hc : ∀ c ∈ calls, c.isFwd = false)
    (hpf : pf = none ∨ (Call.deconv pf pre g none {}).pass ≠ none)
    (hbp : ∀ c ∈ calls ++ [Call.deconv pf pre g none {}], ∀ a, c.pass = some a →
      ∀ d x, bp a d x = .ok (f a d x))
    (hlen : ∀ a d x, (f a d x).length = x.length) :
    ∃ t, (run_deconvolution bp (after bp (run_fwd o).1 calls) pf pre g none {}).2 = .ok [t] ∧
      t.data = some (List.replicate npts 0) ∧ t.iter = some 0 := by
  obtain ⟨rfs, h1, h2, h3⟩ := c84_end_to_end hn hpos hdepth hnp hdt ho rfl hc hpf hbp hlen
  obtain ⟨t, ht, -, -, h4⟩ := h3 0 p rfl
  obtain ⟨t', rfl⟩ := List.length_eq_one_iff.1 h2
  simp only [List.getElem?_cons_zero, Option.some.injEq] at ht
  subst ht
  exact ⟨t', h1, h4 hpost⟩

/-- **C79** With the water-level method it is a trace of NaN (`none`), as is its misfit. -/
theorem c79_postcritical_water {p : ℝ} (hn : ls ≠ []) (hpos : ∀ l ∈ ls, 0 < l.α ∧ 0 < l.β ∧ 0 < l.ρ)
    (hdepth : thicknesses depth = hs ls) (hnp : 3 ≤ npts) (hdt : dt ≠ 0)
    (ho : init depth (alphas ls) (betas ls) (rhos ls) (.float p) dt npts ipha = .ok o)
    (hpost : ∃ l ∈ ls, 1 / l.α ≤ |p| ∨ 1 / l.β ≤ |p|) (bp : Bandpass) (pre g : ℝ) :
    ∃ t, (run_deconvolution bp (run_fwd o).1 none pre g (some "water") {}).2 = .ok [t] ∧
      t.data = none ∧ t.rms = .inr none := by
  obtain ⟨r', hr', ho'⟩ := init_ok.1 ho
  cases hr'
  have hs' := (c73_finite_iff_subcritical (ls := ls) (dt := dt) (npts := npts) (ipha := ipha) (p := p)
    (by omega) hdt hn hpos).2 hpost
  rw [← hdepth] at hs'
  have hrun : (run_fwd o).1.streams = some ([⟨.nan npts, dt⟩], [⟨.nan npts, dt⟩]) := by
    rw [ho']
    unfold run_fwd
    simp only [fwdLoop, hs', List.nil_append]
  have hray : (run_fwd o).1.rayp = [p] := by rw [ho']; rfl
  refine ⟨⟨none, dt, { preonset := some pre, gaussian := some g }, .inr none, none⟩, ?_, rfl, rfl⟩
  show deconvLoop (run_fwd o).1.streams _ _ (run_fwd o).1.rayp.length = _
  rw [hrun, hray]
  have := deconvTr_nan_water hnp hdt pre g
  simp [deconvLoop, List.range_succ, item, this, bind, Except.bind, pure, Except.pure]

/-- **C79** The same silent zeros come out at vertical incidence of a P wave, where the radial
component is dead (filters that map zeros to zeros). -/
theorem c79_vertical_zero (hn : ls ≠ []) (h : ∀ l ∈ ls, l.Propagating 0) (hipha : 0 ≤ ipha)
    (hdepth : thicknesses depth = hs ls) (hnp : 3 ≤ npts) (hdt : dt ≠ 0)
    (ho : init depth (alphas ls) (betas ls) (rhos ls) (.float 0) dt npts ipha = .ok o)
    (hc : ∀ c ∈ calls, c.isFwd = false)
    (hpf : pf = none ∨ (Call.deconv pf pre g none {}).pass ≠ none)
    (hbp : ∀ c ∈ calls ++ [Call.deconv pf pre g none {}], ∀ a, c.pass = some a →
      ∀ d x, bp a d x = .ok (f a d x))
    (hlen : ∀ a d x, (f a d x).length = x.length)
    (hzero : ∀ a d n, f a d (List.replicate n 0) = List.replicate n 0) :
    ∃ t, (run_deconvolution bp (after bp (run_fwd o).1 calls) pf pre g none {}).2 = .ok [t] ∧
      t.data = some (List.replicate npts 0) ∧ t.iter = some 0 := by
  obtain ⟨rfs, h1, h2, h3⟩ := c84_end_to_end hn (fun l hl => ⟨(h l hl).1, (h l hl).2.1, (h l hl).2.2.1⟩)
    hdepth hnp hdt ho rfl hc hpf hbp hlen
  obtain ⟨t, ht, -, h4, -⟩ := h3 0 0 rfl
  obtain ⟨t', rfl⟩ := List.length_eq_one_iff.1 h2
  simp only [List.getElem?_cons_zero, Option.some.injEq] at ht
  subst ht
  refine ⟨t', h1, ?_⟩
  obtain ⟨U, V, hUV, R, hR, h5, -, h6⟩ := h4 (fun l hl => ⟨(h l hl).2.2.2.1, (h l hl).2.2.2.2⟩)
  obtain ⟨x, y, h7, h8, -⟩ := c76_vertical_incidence (dt := dt) (ipha := ipha) (npts := npts) (by omega) hdt hn h
  rw [c61_seismograms (by omega) hdt hn h hUV] at h7
  have hx := h8 hipha
  have hx' : (List.range npts).map (fun j => synthSample (nextPow2 npts) dt U j) = x := by
    have := Except.ok.inj h7
    simp only [Prod.mk.injEq, Samples.num.injEq] at this
    exact this.1
  rw [hx', hx] at hR
  simp only [] at hR
  have hfold : ∀ ps : List FilterArgs, ps.foldl (fun x a => f a dt x) (List.replicate npts 0) =
      List.replicate npts 0 := by
    intro ps
    induction ps with
    | nil => rfl
    | cons a ps ih => rw [List.foldl_cons, hzero, ih]
  have hpass : ∀ (ps : List FilterArgs) (x : List ℝ), (ps.foldl (fun x a => f a dt x) x).length = x.length := by
    intro ps
    induction ps with
    | nil => intro x; rfl
    | cons a ps ih => intro x; rw [List.foldl_cons, ih, hlen]
  rw [hfold, deconv_dead_numerator hnp hdt pre g 400 (by norm_num) "P" (by rw [hpass]; simp)] at hR
  have := Except.ok.inj hR
  rw [h5, h6, ← this]
  exact ⟨rfl, rfl⟩

end

/-- Crust over mantle (depths 35 and 75 km) with a slowness of 0.15 s/km (post-critical for P in the mantle),
and 0.06 s/km, and a filter that halves the amplitudes. -/
example : ∃ o, init [35, 75] (alphas crust) (betas crust) (rhos crust) (.list [0.15, 0.06]) 0.1 100 1 = .ok o ∧
    ∃ t1 t2, (run_deconvolution (fun _ _ x => .ok (x.map (· / 2))) (run_fwd o).1 (some [0.05, 1]) 5 2 none {}).2 =
      .ok [t1, t2] ∧ t1.data = some (List.replicate 100 0) ∧ t1.iter = some 0 := by
  refine ⟨_, rfl, ?_⟩
  obtain ⟨rfs, h1, h2, h3⟩ := c84_end_to_end (ls := crust) (depth := [35, 75]) (rayp := .list [0.15, 0.06])
    (r := [0.15, 0.06]) (dt := 0.1) (npts := 100) (ipha := 1) (bp := fun _ _ x => .ok (x.map (· / 2)))
    (f := fun _ _ x => x.map (· / 2)) (calls := []) (pf := some [0.05, 1]) (pre := 5) (g := 2)
    (by simp [crust])
    (by
      intro l hl
      simp only [crust, List.mem_cons, List.not_mem_nil, or_false] at hl
      rcases hl with rfl | rfl <;> norm_num)
    (by simp [thicknesses, hs, crust, List.range_succ]; norm_num) (by norm_num) (by norm_num) rfl rfl (by simp)
    (Or.inr (by simp [Call.pass])) (fun _ _ _ _ _ _ => rfl) (by simp)
  obtain ⟨t, ht, -, -, h4⟩ := h3 0 0.15 rfl
  obtain ⟨t1, t2, rfl⟩ := List.length_eq_two.1 h2
  simp only [List.getElem?_cons_zero, Option.some.injEq] at ht
  subst ht
  exact ⟨t1, t2, h1, h4 ⟨⟨8, 4.5, 3.3, 40⟩, by simp [crust], by norm_num [abs_of_pos]⟩⟩

end Rfsed.Props
