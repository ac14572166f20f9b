import Verif.Proofs.Deconv5
import Verif.Proofs.HkMore

/-! # Deconvolution and multiplication of the traces by constants -/

namespace Rfsed.Synrf
open PyFloat

/-- array times constant -/
noncomputable def sc (c : ℝ) (x : List ℝ) : List ℝ := x.map (fun v : ℝ => c * v)
/-- complex array times real constant -/
noncomputable def scC (c : ℝ) (x : List ℂ) : List ℂ := x.map (fun v : ℂ => (c : ℂ) * v)

theorem sc_length (c : ℝ) (x : List ℝ) : (sc c x).length = x.length := by simp [sc]
theorem sc_sc (c d : ℝ) (x : List ℝ) : sc c (sc d x) = sc (c * d) x := by
  simp [sc, mul_assoc]
theorem scC_scC (c d : ℝ) (x : List ℂ) : scC c (scC d x) = scC (c * d) x := by
  simp [scC, mul_assoc]
theorem sc_one (x : List ℝ) : sc 1 x = x := by simp [sc]
theorem scC_one (x : List ℂ) : scC 1 x = x := by simp [scC]

theorem toC_sc (c : ℝ) (x : List ℝ) : toC (sc c x) = scC c (toC x) := by simp [toC, sc, scC]
theorem toRe_scC (c : ℝ) (x : List ℂ) : toRe (scC c x) = sc c (toRe x) := by simp [toRe, sc, scC]

theorem getD_scC (c : ℝ) (x : List ℂ) (j : Nat) : (scC c x).getD j 0 = c * x.getD j 0 := by
  simp only [scC, List.getD_eq_getElem?_getD, List.getElem?_map]
  cases x[j]? <;> simp

theorem fft_scC (c : ℝ) (x : List ℂ) (n : Nat) : fft (scC c x) n = scC c (fft x n) := by
  simp only [fft, getD_scC, mul_assoc, ← Finset.mul_sum]
  rw [scC, List.map_map]
  rfl

theorem ifft_scC (c : ℝ) (x : List ℂ) (n : Nat) : ifft (scC c x) n = scC c (ifft x n) := by
  simp only [ifft, getD_scC, mul_assoc, ← Finset.mul_sum, mul_div_assoc]
  rw [scC, List.map_map]
  rfl

theorem vmul_scC_left (c : ℝ) (x y : List ℂ) : vmul (scC c x) y = scC c (vmul x y) := by
  simp only [vmul, scC, List.zipWith_map_left, List.map_zipWith, mul_assoc]

theorem vmul_scC_right (c : ℝ) (x y : List ℂ) : vmul x (scC c y) = scC c (vmul x y) := by
  simp only [vmul, scC, List.zipWith_map_right, List.map_zipWith]
  congr 1
  funext a b
  ring

theorem conj_scC (c : ℝ) (x : List ℂ) : (scC c x).map (starRingEnd ℂ) = scC c (x.map (starRingEnd ℂ)) := by
  simp [scC]

theorem scC_mul (c d : ℝ) (x : List ℂ) : (scC c x).map (fun z : ℂ => z * (d : ℂ)) = scC c (x.map (fun z : ℂ => z * (d : ℂ))) := by
  simp [scC, mul_assoc]

theorem gfilter_scale (a b s : ℝ) (x : List ℝ) (n : Nat) (g : List ℂ) (dt : ℝ) :
    gfilter (sc a x) n (scC b g) (s * dt) = sc (a * b * s) (gfilter x n g dt) := by
  unfold gfilter
  have : ∀ z : List ℂ, z.map (fun z : ℂ => z * ((s * dt : ℝ) : ℂ)) = scC s (z.map (fun z : ℂ => z * (dt : ℂ))) := by
    intro z
    simp only [scC, List.map_map]
    congr 1
    funext w
    simp only [Function.comp]
    push_cast
    ring
  simp only [toC_sc, fft_scC, vmul_scC_left, vmul_scC_right, scC_scC, scC_mul, this, ifft_scC, toRe_scC]
  rw [show s * (b * a) = a * b * s by ring]

theorem correl_scale (a b : ℝ) (R W : List ℝ) (n : Nat) :
    correl (sc a R) (sc b W) n = sc (a * b) (correl R W n) := by
  unfold correl
  rw [toC_sc, toC_sc, fft_scC, fft_scC, conj_scC, vmul_scC_left, vmul_scC_right, scC_scC, ifft_scC, toRe_scC]

theorem phaseshift_scale (a s : ℝ) (hs : s ≠ 0) (x : List ℝ) (n : Nat) (dt pre : ℝ) :
    phaseshift (sc a x) n (s * dt) (s * pre) = sc a (phaseshift x n dt pre) := by
  unfold phaseshift
  have : ∀ (z : List ℂ) (d : ℂ), (scC a z).map (fun z : ℂ => z / d) = scC a (z.map (fun z : ℂ => z / d)) := by
    intro z d; simp [scC, mul_div_assoc]
  simp only [toC_sc, fft_scC, vmul_scC_left, ifft_scC, mul_div_mul_left _ _ hs, this, toRe_scC]

theorem sumSq_sc (c : ℝ) (x : List ℝ) : sumSq (sc c x) = c ^ 2 * sumSq x := by
  simp only [sumSq, sc, List.map_map, ← List.sum_map_mul_left]
  congr 1
  apply List.map_congr_left
  intro v _
  simp only [Function.comp, mul_pow]

theorem arrSub_sc (c : ℝ) (x y : List ℝ) : arrSub (sc c x) (sc c y) = sc c (arrSub x y) := by
  simp only [arrSub, sc, List.zipWith_map, List.map_zipWith, mul_sub]

theorem sliceTo_sc (c : ℝ) (x : List ℝ) (h : ℤ) : sliceTo (sc c x) h = sc c (sliceTo x h) := by
  unfold sliceTo
  split_ifs <;> simp [sc, List.map_take]

theorem item_sc (c : ℝ) (x : List ℝ) (i : Nat) : item (sc c x) i = (item x i).map (fun v : ℝ => c * v) := by
  simp only [item, sc, List.getElem?_map]
  cases x[i]? <;> rfl

theorem setItem_sc (c : ℝ) (x : List ℝ) (i : Nat) (v : ℝ) : setItem (sc c x) i (c * v) = (setItem x i v).map (sc c) := by
  simp only [setItem, sc_length]
  split_ifs
  · simp [Except.map, sc, List.map_set]
  · rfl

theorem setSlice_sc (c : ℝ) (x v : List ℝ) (lo hi : Nat) :
    setSlice (sc c x) lo hi (sc c v) = (setSlice x lo hi v).map (sc c) := by
  unfold setSlice
  simp only [sc_length]
  split_ifs
  · simp [Except.map, sc, List.map_take, List.map_drop]
  · match v with
    | [] => rfl
    | [y] => simp [Except.map, sc, List.map_take, List.map_drop]
    | y :: z :: w => rfl

theorem sc_replicate (c : ℝ) (n : Nat) : sc c (List.replicate n 0) = List.replicate n 0 := by simp [sc]

theorem argmax_sc {c : ℝ} (hc : 0 < c) (xs : List ℝ) : argmax (sc c xs) = argmax xs := by
  cases xs with
  | nil => rfl
  | cons x xs =>
    have h : argmax (x :: xs) = .ok (if isNaN x then 0 else argmaxGo x 0 1 xs) := rfl
    rw [h]
    exact argmax_scale hc h

theorem abs_sc {c : ℝ} (x : List ℝ) : (sc c x).map (fun v : ℝ => |v|) = sc |c| (x.map (fun v : ℝ => |v|)) := by
  simp [sc, abs_mul]

theorem gaussFilter_scale {s : ℝ} (hs : s ≠ 0) (dt : ℝ) (n : Nat) (a : ℝ) :
    gaussFilter (s * dt) n (a / s) = (gaussFilter dt n a).map (sc s⁻¹) := by
  unfold gaussFilter
  by_cases h0 : (n : ℝ) * dt = 0
  · have h1 : (n : ℝ) * (s * dt) = 0 := by rw [mul_left_comm, h0, mul_zero]
    rw [scalarDiv_py_zero h0, scalarDiv_py_zero h1]
    rfl
  · have h1 : (n : ℝ) * (s * dt) ≠ 0 := by rw [mul_left_comm]; exact mul_ne_zero hs h0
    rw [scalarDiv_py h0, scalarDiv_py h1]
    simp only [ok_bind']
    have e : (((List.range ((n + 3) / 2)).map (fun i : Nat => 1 / ((n : ℝ) * (s * dt)) * (i : ℝ))).map
          (fun x : ℝ => 2 * Real.pi * x)).map (fun x : ℝ => Real.exp (-0.25 * (x / (a / s)) ^ 2) / (s * dt)) =
        sc s⁻¹ ((((List.range ((n + 3) / 2)).map (fun i : Nat => 1 / ((n : ℝ) * dt) * (i : ℝ))).map
          (fun x : ℝ => 2 * Real.pi * x)).map (fun x : ℝ => Real.exp (-0.25 * (x / a) ^ 2) / dt)) := by
      simp only [sc, List.map_map]
      apply List.map_congr_left
      intro i _
      simp only [Function.comp]
      have e1 : 2 * Real.pi * (1 / ((n : ℝ) * (s * dt)) * (i : ℝ)) / (a / s) =
          2 * Real.pi * (1 / ((n : ℝ) * dt) * (i : ℝ)) / a := by
        rcases eq_or_ne a 0 with rfl | ha
        · simp
        · have hn : (n : ℝ) ≠ 0 := left_ne_zero_of_mul h0
          have hd : dt ≠ 0 := right_ne_zero_of_mul h0
          field_simp
      rw [e1, mul_comm s dt, ← div_div, div_eq_inv_mul _ s]
    rw [e, ← sc_replicate s⁻¹ n, setSlice_sc, sc_replicate]
    cases setSlice (List.replicate n (0 : ℝ)) 0 (n / 2 + 1) _ with
    | error e => rfl
    | ok g =>
      have : (slice (sc s⁻¹ g) 1 (n / 2 + 1 - 1)).reverse = sc s⁻¹ (slice g 1 (n / 2 + 1 - 1)).reverse := by
        simp [slice, sc, List.map_take]
      show setSlice (sc s⁻¹ g) _ _ _ = (setSlice g _ _ _).map _
      rw [this, setSlice_sc]

/-- the loop constants for traces multiplied by `a` and `b` and time measured in units `1/s` -/
noncomputable def scConst (a b s : ℝ) (c : IterConst) : IterConst :=
  { c with dt := s * c.dt, gaussF := sc s⁻¹ c.gaussF, u_flt := sc a c.u_flt, w_flt := sc b c.w_flt,
           wf := scC b c.wf, powerU := a ^ 2 * c.powerU }

/-- corresponding states -/
structure RelS (a b s : ℝ) (c : IterConst) (t t' : IterState) : Prop where
  it : t'.it = t.it
  p0 : t'.p0 = sc (a / (b * s)) t.p0
  r : t'.r_flt = sc a t.r_flt
  sumsq : t'.sumsq_i = t.sumsq_i
  rms : t'.rms = t.rms
  nan : t'.nan = t.nan
  nanRF : t'.nanRF = t.nanRF
  cond : loopCond (scConst a b s c) t' = loopCond c t

/-- both fail with the same exception or both succeed with related results -/
def ERel {α : Type} (R : α → α → Prop) : Except PyErr α → Except PyErr α → Prop
  | .ok x, .ok y => R x y
  | .error e, .error e' => e = e'
  | _, _ => False

theorem loopCond_nan {c : IterConst} {t : IterState} (h : t.nan = true) : loopCond c t = false := by
  simp [loopCond, h]

theorem loopCond_congr {a b s : ℝ} {c : IterConst} {t t' : IterState} (h1 : t'.it = t.it) (h2 : t'.nan = t.nan)
    (h3 : t'.d_error = t.d_error) : loopCond (scConst a b s c) t' = loopCond c t := by
  simp [loopCond, scConst, h1, h2, h3]

theorem iterBody_scale {a b s : ℝ} (ha : a ≠ 0) (hb : b ≠ 0) (hs : s ≠ 0) {c : IterConst} {t t' : IterState}
    (h : RelS a b s c t t') : ERel (RelS a b s c) (iterBody c t) (iterBody (scConst a b s c) t') := by
  have e1 : correl t'.r_flt (scConst a b s c).w_flt (scConst a b s c).nfft = sc (a * b) (correl t.r_flt c.w_flt c.nfft) := by
    rw [h.r]; exact correl_scale _ _ _ _ _
  have e2 : sumSq (scConst a b s c).w_flt = b ^ 2 * sumSq c.w_flt := sumSq_sc _ _
  have e3 : (sc (a * b) (correl t.r_flt c.w_flt c.nfft)).map (fun v : ℝ => v / (b ^ 2 * sumSq c.w_flt)) =
      sc (a / b) ((correl t.r_flt c.w_flt c.nfft).map (fun v : ℝ => v / sumSq c.w_flt)) := by
    simp only [sc, List.map_map]
    apply List.map_congr_left
    intro v _
    simp only [Function.comp]
    rcases eq_or_ne (sumSq c.w_flt) 0 with h0 | h0
    · simp [h0]
    · field_simp
  unfold iterBody
  simp only [e1, e2, e3]
  set rw1 := (correl t.r_flt c.w_flt c.nfft).map (fun v : ℝ => v / sumSq c.w_flt) with hrw
  have e4 : (if (scConst a b s c).phase = "P" then sliceTo (sc (a / b) rw1) (((scConst a b s c).nfft / 2 : Nat) - 1 : ℤ)
      else sc (a / b) rw1) = sc (a / b) (if c.phase = "P" then sliceTo rw1 ((c.nfft / 2 : Nat) - 1 : ℤ) else rw1) := by
    show (if c.phase = "P" then _ else _) = _
    split_ifs
    · exact sliceTo_sc _ _ _
    · rfl
  rw [e4, abs_sc, argmax_sc (abs_pos.2 (div_ne_zero ha hb))]
  cases argmax ((if c.phase = "P" then sliceTo rw1 ((c.nfft / 2 : Nat) - 1 : ℤ) else rw1).map (fun v : ℝ => |v|)) with
  | error e => exact rfl
  | ok i1 =>
    simp only [ok_bind']
    have hw0 : b ^ 2 * sumSq c.w_flt = 0 ↔ sumSq c.w_flt = 0 := by
      simp [hb]
    by_cases hW : sumSq c.w_flt = 0
    · rw [if_pos hW, if_pos (hw0.2 hW)]
      refine ⟨?_, h.p0, h.r, h.sumsq, h.rms, rfl, rfl, ?_⟩
      · simp [h.it]
      · rw [loopCond_nan rfl, loopCond_nan rfl]
    · rw [if_neg hW, if_neg (mt hw0.1 hW), item_sc]
      cases item rw1 i1 with
      | error e => exact rfl
      | ok rwi =>
        simp only [Except.map, ok_bind', h.p0, item_sc]
        cases item t.p0 i1 with
        | error e => exact rfl
        | ok old =>
          simp only [ok_bind']
          have e5 : a / (b * s) * old + a / b * rwi / (scConst a b s c).dt = a / (b * s) * (old + rwi / c.dt) := by
            show _ + a / b * rwi / (s * c.dt) = _
            rcases eq_or_ne c.dt 0 with h0 | h0
            · simp [h0]
            · field_simp
          rw [e5, setItem_sc]
          cases setItem t.p0 i1 (old + rwi / c.dt) with
          | error e => exact rfl
          | ok p0 =>
            simp only [Except.map, ok_bind']
            have e6 : gfilter (sc (a / (b * s)) p0) (scConst a b s c).nfft (toC (scConst a b s c).gaussF)
                (scConst a b s c).dt = sc (a / (b * s)) (gfilter p0 c.nfft (toC c.gaussF) c.dt) := by
              show gfilter _ _ (toC (sc s⁻¹ c.gaussF)) (s * c.dt) = _
              rw [toC_sc, gfilter_scale]
              congr 1
              field_simp
            have e7 : gfilter (sc (a / (b * s)) (gfilter p0 c.nfft (toC c.gaussF) c.dt)) (scConst a b s c).nfft
                (scConst a b s c).wf (scConst a b s c).dt =
                sc a (gfilter (gfilter p0 c.nfft (toC c.gaussF) c.dt) c.nfft c.wf c.dt) := by
              show gfilter _ _ (scC b c.wf) (s * c.dt) = _
              rw [gfilter_scale]
              congr 1
              field_simp
            have e8 : ∀ x, arrSub (scConst a b s c).u_flt (sc a x) = sc a (arrSub c.u_flt x) := fun x => arrSub_sc _ _ _
            rw [e6, e7, e8]
            set r := arrSub c.u_flt (gfilter (gfilter p0 c.nfft (toC c.gaussF) c.dt) c.nfft c.wf c.dt)
            have hp0 : (scConst a b s c).powerU = a ^ 2 * c.powerU := rfl
            have hp1 : a ^ 2 * c.powerU = 0 ↔ c.powerU = 0 := by simp [ha]
            rw [hp0]
            by_cases hP : c.powerU = 0
            · rw [if_pos hP, if_pos (hp1.2 hP)]
              refine ⟨?_, rfl, rfl, h.sumsq, h.rms, rfl, h.nanRF, ?_⟩
              · simp [h.it]
              · rw [loopCond_nan rfl, loopCond_nan rfl]
            · rw [if_neg hP, if_neg (mt hp1.1 hP), sumSq_sc, mul_div_mul_left _ _ (pow_ne_zero 2 ha), h.rms, h.it,
                h.sumsq]
              cases setItem t.rms t.it (sumSq r / c.powerU) with
              | error e => exact rfl
              | ok rms =>
                exact ⟨rfl, rfl, rfl, rfl, rfl, h.nan, h.nanRF, loopCond_congr rfl h.nan rfl⟩

theorem iterLoop_scale {a b s : ℝ} (ha : a ≠ 0) (hb : b ≠ 0) (hs : s ≠ 0) {c : IterConst} :
    ∀ (k : Nat) (t t' : IterState), c.itmax - t.it ≤ k → RelS a b s c t t' →
      ERel (RelS a b s c) (iterLoop c t) (iterLoop (scConst a b s c) t') := by
  intro k
  induction k with
  | zero =>
    intro t t' hk h
    have hc : loopCond c t = false := by
      simp only [loopCond]
      have : ¬ t.it < c.itmax := by omega
      simp [this]
    rw [iterLoop_eq _ _ (fun _ => iterBody_it), iterLoop_eq _ _ (fun _ => iterBody_it), h.cond, hc]
    exact h
  | succ k ih =>
    intro t t' hk h
    rw [iterLoop_eq _ _ (fun _ => iterBody_it), iterLoop_eq _ _ (fun _ => iterBody_it), h.cond]
    cases hc : loopCond c t with
    | false => exact h
    | true =>
      have hb' := iterBody_scale ha hb hs h
      cases h1 : iterBody c t with
      | error e =>
        cases h2 : iterBody (scConst a b s c) t' with
        | error e' => rw [h1, h2] at hb'; exact hb'
        | ok t2 => rw [h1, h2] at hb'; exact hb'.elim
      | ok t1 =>
        cases h2 : iterBody (scConst a b s c) t' with
        | error e' => rw [h1, h2] at hb'; exact hb'.elim
        | ok t2 =>
          rw [h1, h2] at hb'
          have h3 := iterBody_it h1
          have h4 : t.it < c.itmax := (loopCond_true hc).2.2
          exact ih t1 t2 (by omega) hb'

theorem sumSq_nonneg (x : List ℝ) : 0 ≤ sumSq x := by
  apply List.sum_nonneg
  intro y hy
  obtain ⟨v, -, rfl⟩ := List.mem_map.1 hy
  positivity

theorem first_pass {P m : ℝ} (hP : 0 ≤ P) : m < |100 * P + m| ↔ 0 < P ∨ m < 0 := by
  constructor
  · intro h
    by_contra hc
    push Not at hc
    have : P = 0 := le_antisymm hc.1 hP
    rw [this, mul_zero, zero_add, abs_of_nonneg hc.2] at h
    exact lt_irrefl _ h
  · rintro (h | h)
    · exact lt_of_lt_of_le (by linarith) (le_abs_self _)
    · exact lt_of_lt_of_le h (abs_nonneg _)

theorem iterInit_scale {a b s : ℝ} (ha : a ≠ 0) (hs : s ≠ 0) (u w : List ℝ) (dt : ℝ) (nt : Nat) (g : ℝ)
    (itmax : Nat) (minderr : ℝ) (phase : String) :
    match iterInit u w dt nt g itmax minderr phase,
      iterInit (sc a u) (sc b w) (s * dt) nt (g / s) itmax minderr phase with
    | .ok r, .ok r' => r'.1 = scConst a b s r.1 ∧ RelS a b s r.1 r.2 r'.2 ∧ r.1.dt = dt
    | .error e, .error e' => e = e'
    | _, _ => False := by
  unfold iterInit
  have e1 : setSlice (List.replicate (nextPow2 nt) (0 : ℝ)) 0 nt (sc a u) =
      (setSlice (List.replicate (nextPow2 nt) (0 : ℝ)) 0 nt u).map (sc a) := by
    rw [← setSlice_sc, sc_replicate]
  have e2 : setSlice (List.replicate (nextPow2 nt) (0 : ℝ)) 0 nt (sc b w) =
      (setSlice (List.replicate (nextPow2 nt) (0 : ℝ)) 0 nt w).map (sc b) := by
    rw [← setSlice_sc, sc_replicate]
  simp only [gaussFilter_scale hs, e1, e2]
  cases setSlice (List.replicate (nextPow2 nt) (0 : ℝ)) 0 nt u with
  | error e => exact rfl
  | ok u0 =>
    simp only [Except.map, ok_bind']
    cases setSlice (List.replicate (nextPow2 nt) (0 : ℝ)) 0 nt w with
    | error e => exact rfl
    | ok w0 =>
      simp only [ok_bind']
      cases gaussFilter dt (nextPow2 nt) g with
      | error e => exact rfl
      | ok gf =>
        have hg : ∀ (c : ℝ) (x : List ℝ), gfilter (sc c x) (nextPow2 nt) (scC s⁻¹ (toC gf)) (s * dt) =
            sc c (gfilter x (nextPow2 nt) (toC gf) dt) := by
          intro c x
          rw [gfilter_scale]
          congr 1
          field_simp
        simp only [hg, ok_bind', sumSq_sc, toC_sc, fft_scC]
        refine ⟨rfl, ⟨rfl, (sc_replicate _ _).symm, rfl, rfl, rfl, rfl, rfl, ?_⟩, rfl⟩
        simp only [loopCond, scConst]
        have h1 := first_pass (m := minderr) (sumSq_nonneg (gfilter u0 (nextPow2 nt) (toC gf) dt))
        have h2 := first_pass (m := minderr) (P := a ^ 2 * sumSq (gfilter u0 (nextPow2 nt) (toC gf) dt))
          (mul_nonneg (sq_nonneg a) (sumSq_nonneg _))
        have h3 : 0 < a ^ 2 * sumSq (gfilter u0 (nextPow2 nt) (toC gf) dt) ↔
            0 < sumSq (gfilter u0 (nextPow2 nt) (toC gf) dt) := by
          rw [mul_pos_iff_of_pos_left (by positivity)]
        rw [h3, ← h1] at h2
        simp only [h2]
        trivial

theorem deconv_iterative_scale {a b s : ℝ} (ha : a ≠ 0) (hb : b ≠ 0) (hs : s ≠ 0) (u w : List ℝ) (dt : ℝ)
    (nt : Option Nat) (pre g : ℝ) (itmax : Nat) (minderr : ℝ) (phase : String) :
    deconv_iterative (sc a u) (sc b w) (s * dt) nt (s * pre) (g / s) itmax minderr phase =
      (deconv_iterative u w dt nt pre g itmax minderr phase).map
        (fun R => { R with rf := R.rf.map (sc (a / (b * s))) }) := by
  unfold deconv_iterative
  rw [sc_length, sc_length]
  by_cases hl : u.length ≠ w.length
  · rw [if_pos hl, if_pos hl]; rfl
  · rw [if_neg hl, if_neg hl]
    have hi := iterInit_scale (b := b) ha hs u w dt (nt.getD u.length) g itmax minderr phase
    cases h1 : iterInit u w dt (nt.getD u.length) g itmax minderr phase with
    | error e =>
      cases h2 : iterInit (sc a u) (sc b w) (s * dt) (nt.getD u.length) (g / s) itmax minderr phase with
      | error e' => rw [h1, h2] at hi; simp only [h1, h2]; rw [show e = e' from hi]; rfl
      | ok r => rw [h1, h2] at hi; exact hi.elim
    | ok r =>
      cases h2 : iterInit (sc a u) (sc b w) (s * dt) (nt.getD u.length) (g / s) itmax minderr phase with
      | error e' => rw [h1, h2] at hi; exact hi.elim
      | ok r' =>
        rw [h1, h2] at hi
        obtain ⟨hc, hr, hdt⟩ := hi
        obtain ⟨c, t⟩ := r
        obtain ⟨c', t'⟩ := r'
        simp only at hc hr hdt
        subst hc hdt
        simp only [h1, h2, ok_bind']
        have hL := iterLoop_scale ha hb hs _ t t' le_rfl hr
        cases h3 : iterLoop c t with
        | error e =>
          cases h4 : iterLoop (scConst a b s c) t' with
          | error e' => rw [h3, h4] at hL; rw [show e = e' from hL]; rfl
          | ok r => rw [h3, h4] at hL; exact hL.elim
        | ok z =>
          cases h4 : iterLoop (scConst a b s c) t' with
          | error e' => rw [h3, h4] at hL; exact hL.elim
          | ok z' =>
            rw [h3, h4] at hL
            have hL : RelS a b s c z z' := hL
            simp only [ok_bind', hL.p0, hL.it, hL.rms, hL.nanRF]
            have e6 : gfilter (sc (a / (b * s)) z.p0) (scConst a b s c).nfft (toC (scConst a b s c).gaussF)
                (s * c.dt) = sc (a / (b * s)) (gfilter z.p0 c.nfft (toC c.gaussF) c.dt) := by
              show gfilter _ _ (toC (sc s⁻¹ c.gaussF)) (s * c.dt) = _
              rw [toC_sc, gfilter_scale]
              congr 1
              field_simp
            have e7 : (scConst a b s c).nfft = c.nfft := rfl
            rw [e6, e7, phaseshift_scale _ _ hs]
            cases z.nanRF
            · simp [Except.map, pure, Except.pure, sc, List.map_take]
            · simp [Except.map, pure, Except.pure]

/-! ## water level -/

theorem pyMax_sc {c : ℝ} (hc : 0 < c) (x : List ℝ) : pyMax (sc c x) = (pyMax x).map (fun v : ℝ => c * v) := by
  cases x with
  | nil => rfl
  | cons y ys =>
    show Except.ok _ = Except.ok _
    congr 1
    show List.foldl max (c * y) (ys.map (fun v : ℝ => c * v)) = c * List.foldl max y ys
    induction ys generalizing y with
    | nil => rfl
    | cons z zs ih =>
      rw [List.map_cons, List.foldl_cons, List.foldl_cons, ← mul_max_of_nonneg _ _ hc.le, ih]

theorem div_scC {c d : ℝ} (x y : List ℂ) :
    List.zipWith (· / ·) (scC c x) (scC d y) = scC (c / d) (List.zipWith (· / ·) x y) := by
  simp only [scC, List.zipWith_map, List.map_zipWith]
  congr 1
  funext p q
  push_cast
  rw [mul_div_mul_comm]

theorem level_scC {d : ℝ} (hd : 0 < d) (phi : ℝ) (x : List ℂ) :
    (scC d x).map (fun z : ℂ => if z.re < d * phi then ((d * phi : ℝ) : ℂ) else z) =
      scC d (x.map (fun z : ℂ => if z.re < phi then (phi : ℂ) else z)) := by
  simp only [scC, List.map_map]
  apply List.map_congr_left
  intro z _
  simp only [Function.comp]
  have : ((d : ℂ) * z).re = d * z.re := by simp
  rw [this]
  by_cases h : z.re < phi
  · rw [if_pos h, if_pos (mul_lt_mul_of_pos_left h hd)]
    push_cast; rfl
  · rw [if_neg h, if_neg (fun h' => h (lt_of_mul_lt_mul_left h' hd.le))]

theorem take_sc (c : ℝ) (x : List ℝ) (n : Nat) : (sc c x).take n = sc c (x.take n) := by simp [sc, List.map_take]
theorem take_scC (c : ℝ) (x : List ℂ) (n : Nat) : (scC c x).take n = scC c (x.take n) := by simp [scC, List.map_take]
theorem sum_sc (c : ℝ) (x : List ℝ) : (sc c x).sum = c * x.sum := by
  induction x with
  | nil => simp [sc]
  | cons y ys ih => simp only [sc, List.map_cons, List.sum_cons] at ih ⊢; rw [ih, mul_add]

theorem waterFit_scale {a b s : ℝ} (ha : a ≠ 0) (hb : b ≠ 0) (hs : s ≠ 0) (uf wf df : List ℂ) (gf w : List ℝ)
    (phi delf dt pre : ℝ) (nt nft : Nat) (normalize : Bool) :
    waterFit (scC a uf) (scC b wf) (scC (b ^ 2) df) (sc s⁻¹ gf) (sc s⁻¹ w) (b ^ 2 * phi) (delf / s) (s * dt) (s * pre)
      nt nft normalize =
    (sc (if normalize then a / b else a / (b * s)) (waterFit uf wf df gf w phi delf dt pre nt nft normalize).1,
      (waterFit uf wf df gf w phi delf dt pre nt nft normalize).2) := by
  have hb2 : 0 < b ^ 2 := by positivity
  unfold waterFit
  have e1 : sc s⁻¹ w ++ (slice (sc s⁻¹ w) 1 ((sc s⁻¹ w).length - 1)).reverse.map (fun x : ℝ => -x) =
      sc s⁻¹ (w ++ (slice w 1 (w.length - 1)).reverse.map (fun x : ℝ => -x)) := by
    simp [sc, slice, List.map_take, Function.comp_def]
  have e2 : ∀ z : List ℝ, (sc s⁻¹ z).map (fun x : ℝ => Complex.exp (-1 * Complex.I * (x : ℂ) * ((s * pre : ℝ) : ℂ))) =
      z.map (fun x : ℝ => Complex.exp (-1 * Complex.I * (x : ℂ) * (pre : ℂ))) := by
    intro z
    simp only [sc, List.map_map]
    apply List.map_congr_left
    intro x _
    simp only [Function.comp]
    congr 1
    have : (s : ℂ) ≠ 0 := by exact_mod_cast hs
    push_cast
    field_simp
  have e3 : s⁻¹ * a * b / b ^ 2 = a / (b * s) := by field_simp
  have k1 : b * (a * s⁻¹) / b ^ 2 = a / (b * s) := by field_simp
  have k2 : b * (a / (b * s)) = a * s⁻¹ := by field_simp
  simp only [level_scC hb2, toC_sc, vmul_scC_left, vmul_scC_right, conj_scC, scC_scC, div_scC, e1, e2, ifft_scC,
    toRe_scC, take_sc, take_scC, sum_sc, sumSq_sc, k1, k2, arrSub_sc]
  rw [mul_div_mul_left _ _ (pow_ne_zero 2 (mul_ne_zero ha (inv_ne_zero hs)))]
  cases normalize
  · rfl
  · simp only [if_true]
    congr 1
    simp only [sc, List.map_map]
    apply List.map_congr_left
    intro v _
    simp only [Function.comp]
    have k3 : s⁻¹ * gf.sum * (delf / s) * (s * dt) = s⁻¹ * (gf.sum * delf * dt) := by field_simp
    rw [k3]
    rcases eq_or_ne (gf.sum * delf * dt) 0 with h0 | h0
    · simp [h0]
    · field_simp

theorem deconv_waterlevel_scale {a b s : ℝ} (ha : a ≠ 0) (hb : b ≠ 0) (hs : s ≠ 0) (u w : List ℝ)
    (dt pre wlevel g : ℝ) (normalize : Bool) :
    deconv_waterlevel (sc a u) (sc b w) (s * dt) (s * pre) wlevel (g / s) normalize =
      (deconv_waterlevel u w dt pre wlevel g normalize).map
        (fun r => (sc (if normalize then a / b else a / (b * s)) r.1, r.2)) := by
  unfold deconv_waterlevel
  rw [sc_length, sc_length]
  by_cases hl : u.length ≠ w.length
  · rw [if_pos hl, if_pos hl]; rfl
  · rw [if_neg hl, if_neg hl]
    rcases eq_or_ne dt 0 with rfl | hdt
    · rw [mul_zero, mul_zero, scalarDiv_py_zero rfl]; rfl
    · rw [scalarDiv_py (by simp [hdt, hs]), scalarDiv_py (by simp [hdt])]
      simp only [ok_bind', gaussFilter_scale hs]
      rcases eq_or_ne (nextPow2 u.length) 0 with h0 | h0
      · simp only [h0]
        rw [scalarDiv_py_zero (by simp), scalarDiv_py_zero (by simp)]
        rfl
      · have hn : (nextPow2 u.length : ℝ) ≠ 0 := by exact_mod_cast h0
        have hn2 : (0.5 : ℝ) * (nextPow2 u.length : ℝ) ≠ 0 := mul_ne_zero (by norm_num) hn
        rw [scalarDiv_py hn2, scalarDiv_py hn2]
        simp only [ok_bind']
        have e1 : vmul (fft (toC (sc b w)) (nextPow2 u.length))
            ((fft (toC (sc b w)) (nextPow2 u.length)).map (starRingEnd ℂ)) =
            scC (b ^ 2) (vmul (fft (toC w) (nextPow2 u.length)) ((fft (toC w) (nextPow2 u.length)).map (starRingEnd ℂ))) := by
          rw [toC_sc, fft_scC, conj_scC, vmul_scC_left, vmul_scC_right, scC_scC, pow_two]
        rw [e1, toRe_scC, pyMax_sc (by positivity)]
        cases pyMax (toRe (vmul (fft (toC w) (nextPow2 u.length)) ((fft (toC w) (nextPow2 u.length)).map (starRingEnd ℂ)))) with
        | error e => rfl
        | ok dmax =>
          simp only [Except.map, ok_bind']
          cases gaussFilter dt (nextPow2 u.length) g with
          | error e => rfl
          | ok gf =>
            have e2 : (1 : ℝ) / (2 * (s * dt)) / (0.5 * (nextPow2 u.length : ℝ)) =
                1 / (2 * dt) / (0.5 * (nextPow2 u.length : ℝ)) / s := by
              field_simp
            have e3 : ((List.range ((nextPow2 u.length + 3) / 2)).map (fun i : Nat =>
                1 / (2 * dt) / (0.5 * (nextPow2 u.length : ℝ)) / s * (i : ℝ))).map (fun x : ℝ => 2 * Real.pi * x) =
                sc s⁻¹ (((List.range ((nextPow2 u.length + 3) / 2)).map (fun i : Nat =>
                1 / (2 * dt) / (0.5 * (nextPow2 u.length : ℝ)) * (i : ℝ))).map (fun x : ℝ => 2 * Real.pi * x)) := by
              simp only [sc, List.map_map]
              apply List.map_congr_left
              intro i _
              simp only [Function.comp]
              rw [div_eq_mul_inv _ s]
              ring
            simp only [e2, e3, toC_sc, fft_scC, ok_bind']
            rw [show wlevel * (b ^ 2 * dmax) = b ^ 2 * (wlevel * dmax) by ring, waterFit_scale ha hb hs]
            rfl

end Rfsed.Synrf
