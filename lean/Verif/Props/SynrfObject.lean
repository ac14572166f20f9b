import Verif.Spec.SynrfHistory
import Verif.Proofs.SynrfObject
import Verif.Props.Deconv
import Verif.Props.Waveform

/-!
# Properties C45, C51, C52: the `synrf` object
-/

namespace Rfsed.Props
open Spec Synrf PyFloat

theorem init_ok {depth vp vs rho : List ℝ} {rayp : RaypArg} {dt : ℝ} {npts : ℕ} {ipha : ℤ}
    {o : Obj} : init depth vp vs rho rayp dt npts ipha = .ok o ↔ ∃ r, slownesses rayp = some r ∧
      o = { depth := depth, vp := vp, vs := vs, rho := rho, dt := dt, npts := npts,
            thickness := thicknesses depth, rayp := r, ipha := ipha, streams := none } := by
  unfold init slownesses
  cases rayp <;> simp [pure, Except.pure, bind, Except.bind, eq_comm]

/-! ## C45 -/

theorem thick_get (d : List ℝ) (i : ℕ) : (thicknesses d)[i]? =
    if i < d.length then some (if i = 0 then d.getD 0 0 else d.getD i 0 - d.getD (i - 1) 0)
    else none := by
  unfold thicknesses
  rw [List.getElem?_map]
  by_cases h : i < d.length
  · rw [List.getElem?_range h, if_pos h]
    simp only [Option.map_some]
    by_cases h0 : i = 0
    · subst h0; rfl
    · simp [h0]
  · rw [if_neg h, List.getElem?_eq_none (by simpa using h)]
    rfl

theorem thick_length (d : List ℝ) : (thicknesses d).length = d.length := by simp [thicknesses]

theorem thick_sum (d : List ℝ) : ∀ i, i < d.length →
    ((thicknesses d).take (i + 1)).sum = d.getD i 0
  | 0, h => by
    have : (thicknesses d)[0]? = some (d.getD 0 0) := by rw [thick_get, if_pos h, if_pos rfl]
    rw [List.take_succ, this]
    simp
  | i + 1, h => by
    have ih := thick_sum d i (by omega)
    have : (thicknesses d)[i + 1]? = some (d.getD (i + 1) 0 - d.getD i 0) := by
      rw [thick_get, if_pos h, if_neg (by omega)]; simp
    rw [List.take_succ, this, List.sum_append, ih]
    simp

/-- **C45** The object has one thickness per interface, and adding up the thicknesses from the
surface gives back the depths. -/
theorem c45_running_sums {depth vp vs rho : List ℝ} {rayp : RaypArg} {dt : ℝ} {npts : ℕ} {ipha : ℤ}
    {o : Obj} (h : init depth vp vs rho rayp dt npts ipha = .ok o) :
    o.thickness.length = depth.length ∧
    ∀ i z, depth[i]? = some z → (o.thickness.take (i + 1)).sum = z := by
  obtain ⟨r, _, rfl⟩ := init_ok.1 h
  refine ⟨thick_length depth, fun i z hz => ?_⟩
  obtain ⟨hi, rfl⟩ := List.getElem?_eq_some_iff.1 hz
  rw [thick_sum depth i hi]
  simp [List.getD_eq_getElem?_getD, hi]

/-- **C45** All thicknesses are non-negative exactly for non-decreasing depths that start
at or below the surface. -/
theorem c45_nonneg {depth vp vs rho : List ℝ} {rayp : RaypArg} {dt : ℝ} {npts : ℕ} {ipha : ℤ}
    {o : Obj} (h : init depth vp vs rho rayp dt npts ipha = .ok o) :
    (∀ t ∈ o.thickness, 0 ≤ t) ↔
      (∀ z ∈ depth, 0 ≤ z) ∧ List.Pairwise (fun a b => a ≤ b) depth := by
  obtain ⟨r, _, rfl⟩ := init_ok.1 h
  show (∀ t ∈ thicknesses depth, 0 ≤ t) ↔ _
  constructor
  · intro ht
    have step : ∀ i, i + 1 < depth.length → depth.getD i 0 ≤ depth.getD (i + 1) 0 := by
      intro i hi
      have := ht _ (List.mem_of_getElem? (i := i + 1) (by rw [thick_get, if_pos hi]))
      rw [if_neg (by omega)] at this
      simp only [Nat.add_sub_cancel] at this
      linarith
    have mono : ∀ i k, i + k < depth.length → depth.getD i 0 ≤ depth.getD (i + k) 0 := by
      intro i k
      induction k with
      | zero => intro _; exact le_refl _
      | succ k ih => intro hk; exact (ih (by omega)).trans (step (i + k) (by omega))
    have h0 : 0 < depth.length → 0 ≤ depth.getD 0 0 := by
      intro h0
      have := ht _ (List.mem_of_getElem? (i := 0) (by rw [thick_get, if_pos h0]))
      simpa using this
    constructor
    · intro z hz
      obtain ⟨i, hi, rfl⟩ := List.mem_iff_getElem.1 hz
      have := (h0 (by omega)).trans (by simpa using mono 0 i (by omega))
      simpa [List.getD_eq_getElem?_getD, hi] using this
    · rw [List.pairwise_iff_getElem]
      intro i j hi hj hij
      have := mono i (j - i) (by omega)
      rw [show i + (j - i) = j by omega] at this
      simpa [List.getD_eq_getElem?_getD, hi, hj] using this
  · rintro ⟨h0, hp⟩ t ht
    obtain ⟨i, hi, rfl⟩ := List.mem_iff_getElem.1 ht
    rw [thick_length] at hi
    have e := thick_get depth i
    rw [if_pos hi, List.getElem?_eq_getElem (by rw [thick_length]; exact hi)] at e
    rw [Option.some.inj e]
    split_ifs with hz
    · subst hz
      exact (by simpa [List.getD_eq_getElem?_getD, hi] using h0 _ (List.getElem_mem hi))
    · have := List.pairwise_iff_getElem.1 hp (i - 1) i (by omega) hi (by omega)
      have h1 : i - 1 < depth.length := by omega
      simp only [List.getD_eq_getElem?_getD, List.getElem?_eq_getElem hi,
        List.getElem?_eq_getElem h1, Option.getD_some]
      linarith

/-- **C45** Different depth profiles have different thicknesses. -/
theorem c45_injective {d d' : List ℝ} (h : thicknesses d = thicknesses d') : d = d' := by
  have hl : d.length = d'.length := by rw [← thick_length d, h, thick_length]
  apply List.ext_getElem hl
  intro i h1 h2
  have e1 := thick_sum d i h1
  have e2 := thick_sum d' i h2
  rw [h, e2] at e1
  simpa [List.getD_eq_getElem?_getD, h1, h2] using e1.symm

/-- **C45** The models of waveform fitting: sediment `HSed`, crust `H - HSed`, and a last layer whose
thickness `77.5 - H` only delays (C75).  `H` is the depth of the Moho, not the thickness of the
crust. -/
theorem c45_waveform_model (HSed VpSed VpCrust rayp delta preonset gaussian : ℝ) (n : ℕ) (H K : ℝ) :
    let m := modelOf HSed VpSed VpCrust rayp delta preonset gaussian n H K
    ∃ o, init m.depth m.vp m.vs m.rho (.float m.rayp) m.dt m.npts 1 = .ok o ∧
      o.thickness = [HSed, H - HSed, 77.5 - H] := by
  intro m
  refine ⟨_, rfl, ?_⟩
  show thicknesses [HSed, H, 77.5] = _
  simp [thicknesses, List.range_succ]

example : ∃ o, init [2, 35, 77.5] [2, 6.5, 8.045] [1.36, 3.75, 4.485] [2.72, 2.92, 3.3455]
    (.float 0.04) 0.025 2100 1 = .ok o ∧ o.thickness = [2, 33, 42.5] := by
  refine ⟨_, rfl, ?_⟩
  simp [thicknesses, List.range_succ]
  norm_num

/-! ## C51 -/

/-- **C51** The constructor accepts floats, lists and arrays of ray parameters and raises `TypeError`
for everything else; it never raises anything else. -/
theorem c51_constructor (depth vp vs rho : List ℝ) (rayp : RaypArg) (dt : ℝ) (npts : ℕ) (ipha : ℤ) :
    (init depth vp vs rho rayp dt npts ipha = .error .typeError ↔ rayp = .other) ∧
    (∀ x, init depth vp vs rho (.float x) dt npts ipha
      = init depth vp vs rho (.list [x]) dt npts ipha) ∧
    (∀ xs, init depth vp vs rho (.ndarray xs) dt npts ipha
      = init depth vp vs rho (.list xs) dt npts ipha) ∧
    (rayp ≠ .other → ∃ o, init depth vp vs rho rayp dt npts ipha = .ok o) := by
  refine ⟨?_, fun _ => rfl, fun _ => rfl, ?_⟩
  · unfold init
    cases rayp <;> simp [pure, Except.pure, bind, Except.bind]
  · intro h
    unfold init
    cases rayp <;> first | exact absurd rfl h | exact ⟨_, rfl⟩

/-- **C51** What a successful `run_fwd` leaves: one radial and one vertical trace per ray parameter,
in order, each with `npts` samples and sampling interval `dt`; trace `i` is what `fwd_seis` computes
for ray parameter `i`. -/
theorem c51_one_trace_per_slowness {o o' : Obj} (h : run_fwd o = (o', .ok ())) :
    ∃ rs zs : List SynTr, o'.streams = some (rs, zs) ∧ rs.length = o.rayp.length ∧ zs.length = o.rayp.length ∧
      (∀ t, t ∈ rs ∨ t ∈ zs → t.delta = o.dt ∧ t.data.size = o.npts) ∧
      ∀ (i : ℕ) (p : ℝ), o.rayp[i]? = some p → ∃ ur uz,
        fwd_seis p o.dt o.npts o.ipha o.vp o.vs o.rho o.thickness = .ok (ur, uz) ∧
        rs[i]? = some ⟨ur, o.dt⟩ ∧ zs[i]? = some ⟨uz, o.dt⟩ := by
  unfold run_fwd at h
  simp only [Prod.mk.injEq] at h
  obtain ⟨h1, h2⟩ := h
  obtain ⟨us, hf, he⟩ := fwdLoop_ok.1 (show fwdLoop o o.rayp ([], []) = (_, .ok ()) from
    Prod.ext rfl h2)
  simp only [List.nil_append] at he
  refine ⟨us.map (fun u => ⟨u.1, o.dt⟩), us.map (fun u => ⟨u.2, o.dt⟩), ?_, ?_, ?_, ?_, ?_⟩
  · rw [← h1]
    exact congrArg some he
  · simp [hf.length_eq]
  · simp [hf.length_eq]
  · have hsz : ∀ u ∈ us, u.1.size = o.npts ∧ u.2.size = o.npts := by
      intro u hu
      obtain ⟨i, hi, rfl⟩ := List.mem_iff_getElem.1 hu
      have := (List.forall₂_iff_get.1 hf).2 i (by rw [hf.length_eq]; exact hi) hi
      rcases c62_shape this with ⟨a1, a2⟩ | ⟨x, y, a1, a2, a3, a4⟩
      · simp only [List.get_eq_getElem] at a1 a2
        rw [a1, a2]; exact ⟨rfl, rfl⟩
      · simp only [List.get_eq_getElem] at a1 a2
        rw [a1, a2]; exact ⟨a3, a4⟩
    rintro t (ht | ht)
    · obtain ⟨u, hu, rfl⟩ := List.mem_map.1 ht
      exact ⟨rfl, (hsz u hu).1⟩
    · obtain ⟨u, hu, rfl⟩ := List.mem_map.1 ht
      exact ⟨rfl, (hsz u hu).2⟩
  · intro i p hp
    obtain ⟨hi, rfl⟩ := List.getElem?_eq_some_iff.1 hp
    have hi' : i < us.length := by rw [← hf.length_eq]; exact hi
    have := (List.forall₂_iff_get.1 hf).2 i hi hi'
    simp only [List.get_eq_getElem] at this
    exact ⟨us[i].1, us[i].2, this, by simp [hi'], by simp [hi']⟩

theorem fwdLoop_head_error {o : Obj} {p : ℝ} {ps : List ℝ} {e : PyErr}
    (h : fwd_seis p o.dt o.npts o.ipha o.vp o.vs o.rho o.thickness = .error e)
    (acc : List SynTr × List SynTr) : fwdLoop o (p :: ps) acc = (acc, .error e) := by
  unfold fwdLoop
  rw [h]

/-- **C51** When `run_fwd` fails, for an object with at least one ray parameter: `ValueError` for
no samples, `ZeroDivisionError` for a zero sampling interval, `IndexError` for an empty model or too
few velocities or densities; then the object has empty seismogram streams.  In all other cases it
succeeds (for one sample always, whatever the model: the sample is 0). -/
theorem c51_run_fwd_outcome {depth vp vs rho r : List ℝ} {rayp : RaypArg} {dt : ℝ} {npts : ℕ}
    {ipha : ℤ} {o : Obj} (h : init depth vp vs rho rayp dt npts ipha = .ok o)
    (hr : slownesses rayp = some r) (hne : r ≠ []) :
    let good := depth ≠ [] ∧ depth.length ≤ vp.length ∧ depth.length ≤ vs.length ∧
      depth.length ≤ rho.length
    (npts = 0 → run_fwd o = ({ o with streams := some ([], []) }, .error .valueError)) ∧
    (2 ≤ npts → dt = 0 →
      run_fwd o = ({ o with streams := some ([], []) }, .error .zeroDivisionError)) ∧
    (2 ≤ npts → dt ≠ 0 → ¬ good →
      run_fwd o = ({ o with streams := some ([], []) }, .error .indexError)) ∧
    (npts = 1 ∨ (2 ≤ npts ∧ dt ≠ 0 ∧ good) → (run_fwd o).2 = .ok ()) := by
  intro good
  obtain ⟨r', hr', ho⟩ := init_ok.1 h
  rw [hr] at hr'
  cases hr'
  obtain ⟨p, ps, rfl⟩ := List.exists_cons_of_ne_nil hne
  have e1 : o.rayp = p :: ps := by rw [ho]
  have e2 : o.dt = dt := by rw [ho]
  have e3 : o.npts = npts := by rw [ho]
  have hgood : good ↔ Complete o.vp o.vs o.rho o.thickness := by
    rw [ho]
    unfold Complete
    simp only
    rw [thick_length]
    have : thicknesses depth ≠ [] ↔ depth ≠ [] := by
      rw [Ne, ← List.length_eq_zero_iff, thick_length, List.length_eq_zero_iff]
    rw [this]
  clear ho h
  subst e2 e3
  have herr : ∀ e, fwd_seis p o.dt o.npts o.ipha o.vp o.vs o.rho o.thickness = .error e →
      run_fwd o = ({ o with streams := some ([], []) }, .error e) := by
    intro e he
    unfold run_fwd
    simp only []
    rw [e1, fwdLoop_head_error he]
  have hout := fun q => fwd_seis_outcome (p := q) (dt := o.dt) (npts := o.npts) (ipha := o.ipha)
    (a := o.vp) (b := o.vs) (r := o.rho) (h := o.thickness)
  refine ⟨fun h0 => herr _ ((hout p).1 h0), fun h2 hd => herr _ ((hout p).2.2.1 h2 hd),
    fun h2 hd hg => herr _ ((hout p).2.2.2.1 h2 hd (fun hc => hg (hgood.2 hc))), fun hcase => ?_⟩
  have hok : ∀ q, ∃ u, fwd_seis q o.dt o.npts o.ipha o.vp o.vs o.rho o.thickness = .ok u := by
    intro q
    rcases hcase with h1 | ⟨h2, hd, hg⟩
    · exact ⟨_, (hout q).2.1 h1⟩
    · exact (hout q).2.2.2.2 h2 hd (hgood.1 hg)
  choose u hu using hok
  have := (fwdLoop_ok (o := o) (ps := o.rayp) (acc := ([], []))).2 ⟨o.rayp.map u,
    List.forall₂_map_right_iff.2 (List.forall₂_same.2 (fun q _ => hu q)), rfl⟩
  unfold run_fwd
  simp only []
  rw [this]

/-- the object of the class documentation -/
example : ∃ o, init [2, 35, 77.5] [2, 6.5, 8.045] [1.36, 3.75, 4.485] [2.72, 2.92, 3.3455]
    (.float 0.04) 0.025 2100 1 = .ok o ∧ (run_fwd o).2 = .ok () :=
  ⟨_, rfl, (c51_run_fwd_outcome (rayp := .float 0.04) rfl rfl (by simp)).2.2.2
    (Or.inr ⟨by norm_num, by norm_num, by simp⟩)⟩

end Rfsed.Props
