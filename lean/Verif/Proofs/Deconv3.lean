import Verif.Proofs.Deconv2
import Verif.Proofs.Argmax
import Mathlib.Tactic.Linarith

/-! The iteration of `deconv_iterative`. -/

namespace Rfsed.Synrf
open Finset Spec

theorem energy_congr {n : Nat} {x y : Nat → ℝ} (h : ∀ m < n, x m = y m) : energy n x = energy n y :=
  sum_congr rfl (fun m hm => by rw [h m (mem_range.1 hm)])

theorem energy_nonneg (n : Nat) (x : Nat → ℝ) : 0 ≤ energy n x :=
  sum_nonneg (fun _ _ => sq_nonneg _)

theorem cconv_congr {n : Nat} (hn : 0 < n) {x x' y y' : Nat → ℝ} (hx : ∀ m < n, x m = x' m)
    (hy : ∀ m < n, y m = y' m) (m : Nat) : cconv n x y m = cconv n x' y' m :=
  sum_congr rfl (fun j hj => by rw [hx j (mem_range.1 hj), hy _ (cyc_lt hn _)])

theorem sumSq_energy {n : Nat} {x : List ℝ} (h : x.length = n) : sumSq x = energy n (smp x) := by
  unfold sumSq energy
  subst h
  rw [Finset.sum_range, ← List.sum_ofFn]
  congr 1
  apply List.ext_getElem <;> simp [smp, List.getD_eq_getElem?_getD]

theorem sum_ofFn_range {x : List ℝ} : x.sum = ∑ i ∈ range x.length, smp x i := by
  rw [Finset.sum_range, ← List.sum_ofFn]
  congr 1
  apply List.ext_getElem <;> simp [smp, List.getD_eq_getElem?_getD]

theorem rdft_cconv {n : Nat} (hn : 0 < n) (x y : Nat → ℝ) {k : Nat} (hk : k < n) :
    rdft n (cconv n x y) k = rdft n x k * rdft n y k := by
  have : rdft n (cconv n x y) k = dft n (idft n (fun k => rdft n x k * rdft n y k)) k :=
    dft_congr (fun m _ => (idft_conv_real hn x y m).symm) k
  rw [this, dft_idft _ hk]

theorem cconv_assoc' {n : Nat} (hn : 0 < n) (p g w : Nat → ℝ) (m : Nat) :
    cconv n (cconv n p g) w m = cconv n p (cconv n w g) m := by
  have h1 := idft_conv_real hn (cconv n p g) w m
  have h2 := idft_conv_real hn p (cconv n w g) m
  have : idft n (fun k => rdft n (cconv n p g) k * rdft n w k) m
      = idft n (fun k => rdft n p k * rdft n (cconv n w g) k) m := by
    apply idft_congr
    intro k hk
    rw [rdft_cconv hn p g hk, rdft_cconv hn w g hk]
    ring
  rw [h1, h2] at this
  exact_mod_cast this

/-- subtracting a multiple `a` of a shifted copy of `w`; `c` is the best multiple -/
theorem spike_energy {n : Nat} (hn : 0 < n) (r w : Nat → ℝ) (i : Nat) (a : ℝ) (hE : energy n w ≠ 0) :
    let c := (∑ j ∈ range n, w j * r (cyc n (i + j))) / energy n w
    energy n (fun m => r m - a * w (cyc n ((m : ℤ) - i)))
      = energy n r - c ^ 2 * energy n w + (a - c) ^ 2 * energy n w := by
  intro c
  have h1 : ∑ m ∈ range n, w (cyc n ((m : ℤ) - i)) ^ 2 = energy n w := by
    have := sum_cyc_add hn (-(i : ℤ)) (fun m => w m ^ 2)
    simpa [sub_eq_add_neg, energy] using this
  have h2 : ∑ m ∈ range n, r m * w (cyc n ((m : ℤ) - i)) = c * energy n w := by
    have := sum_cyc_add hn (i : ℤ) (fun m => r m * w (cyc n ((m : ℤ) - i)))
    rw [← this]
    show _ = (∑ j ∈ range n, w j * r (cyc n (i + j))) / energy n w * energy n w
    rw [div_mul_cancel₀ _ hE]
    apply sum_congr rfl
    intro j hj
    have : cyc n ((cyc n ((j : ℤ) + i) : ℤ) - i) = j := by
      rw [sub_eq_add_neg, cyc_cyc_add hn]
      rw [show (j : ℤ) + i + -i = j by ring, cyc_of_lt (mem_range.1 hj)]
    rw [this, add_comm (j : ℤ), mul_comm]
  have h3 : energy n (fun m => r m - a * w (cyc n ((m : ℤ) - i)))
      = energy n r - 2 * a * (∑ m ∈ range n, r m * w (cyc n ((m : ℤ) - i)))
        + a ^ 2 * ∑ m ∈ range n, w (cyc n ((m : ℤ) - i)) ^ 2 := by
    unfold energy
    rw [mul_sum, mul_sum, ← sum_sub_distrib, ← sum_add_distrib]
    apply sum_congr rfl
    intro m _
    ring
  rw [h3, h1, h2]
  ring

theorem smp_set {p : List ℝ} {i : Nat} (h : i < p.length) (v : ℝ) (m : Nat) :
    smp (p.set i v) m = if m = i then v else smp p m := by
  unfold smp
  simp only [List.getD_eq_getElem?_getD, List.getElem?_set]
  by_cases hm : m = i
  · subst hm; simp [h]
  · simp [hm, Ne.symm hm]

theorem cconv_spike {n : Nat} {p : List ℝ} {i : Nat} (hi : i < n) (hp : p.length = n)
    (a : ℝ) (w : Nat → ℝ) (m : Nat) :
    cconv n (smp (p.set i (smp p i + a))) w m = cconv n (smp p) w m + a * w (cyc n ((m : ℤ) - i)) := by
  unfold cconv
  have : ∀ j ∈ range n, smp (p.set i (smp p i + a)) j * w (cyc n ((m : ℤ) - j))
      = smp p j * w (cyc n ((m : ℤ) - j)) + (if j = i then a * w (cyc n ((m : ℤ) - j)) else 0) := by
    intro j _
    rw [smp_set (by omega)]
    split
    · rename_i h; subst h; ring
    · ring
  rw [sum_congr rfl this, sum_add_distrib, sum_ite_eq', if_pos (mem_range.2 hi)]

/-- what `iterInit` guarantees about the constants of the loop -/
structure ConstOk (c : IterConst) : Prop where
  pos : 0 < c.nfft
  even : ∃ k, 1 ≤ k ∧ c.nfft = 2 * k
  dt : c.dt ≠ 0
  gauss : ∃ a, gaussFilter c.dt c.nfft a = .ok c.gaussF ∧
    ∃ w0 : List ℝ, c.wf = fft (toC w0) c.nfft ∧
      ∀ m < c.nfft, smp c.w_flt m = cconv c.nfft (smp w0) (gaussPulse c.dt c.nfft a) m
  ulen : c.u_flt.length = c.nfft
  wlen : c.w_flt.length = c.nfft
  power : c.powerU = energy c.nfft (smp c.u_flt)

/-- residual of a spike train -/
noncomputable def resid (c : IterConst) (p : List ℝ) (m : Nat) : ℝ :=
  smp c.u_flt m - c.dt * cconv c.nfft (smp p) (smp c.w_flt) m

/-- normalised misfit of a spike train -/
noncomputable def mis (c : IterConst) (p : List ℝ) : ℝ := energy c.nfft (resid c p) / c.powerU

theorem predicted_eq {c : IterConst} (hc : ConstOk c) (p : List ℝ) {m : Nat} (hm : m < c.nfft) :
    smp (gfilter (gfilter p c.nfft (toC c.gaussF) c.dt) c.nfft c.wf c.dt) m
      = c.dt * cconv c.nfft (smp p) (smp c.w_flt) m := by
  obtain ⟨a, hg, w0, hwf, hw⟩ := hc.gauss
  rw [hwf, gfilter_fft hc.pos _ _ _ hm]
  congr 1
  rw [cconv_congr hc.pos (fun j hj => gfilter_gauss hg p hj) (fun _ _ => rfl),
    cconv_assoc' hc.pos]
  exact cconv_congr hc.pos (fun _ _ => rfl) (fun j hj => (hw j hj).symm) m

theorem arrSub_smp {x y : List ℝ} {n m : Nat} (hx : x.length = n) (hy : y.length = n) :
    smp (arrSub x y) m = smp x m - smp y m := by
  unfold smp arrSub
  simp only [List.getD_eq_getElem?_getD, List.getElem?_zipWith]
  by_cases h : m < n
  · rw [List.getElem?_eq_getElem (by omega), List.getElem?_eq_getElem (by omega)]; rfl
  · rw [List.getElem?_eq_none (by omega), List.getElem?_eq_none (by omega)]; simp

theorem arrSub_length {x y : List ℝ} {n : Nat} (hx : x.length = n) (hy : y.length = n) :
    (arrSub x y).length = n := by
  unfold arrSub; simp [hx, hy]

/-- The loop state is consistent: `p0` has the right length and `r_flt` is its residual. -/
structure StateOk (c : IterConst) (s : IterState) : Prop where
  plen : s.p0.length = c.nfft
  rlen : s.r_flt.length = c.nfft
  resid : ∀ m < c.nfft, smp s.r_flt m = resid c s.p0 m
  rmslen : s.rms.length = c.itmax

theorem item_smp {x : List ℝ} {i : Nat} {v : ℝ} (h : item x i = .ok v) :
    i < x.length ∧ v = smp x i := by
  unfold item at h
  split at h
  · rename_i y hy
    cases h
    refine ⟨(List.getElem?_eq_some_iff.1 hy).1, ?_⟩
    simp [smp, List.getD_eq_getElem?_getD, hy]
  · cases h

theorem setItem_ok' {α : Type} {x y : List α} {i : Nat} {v : α} (h : setItem x i v = .ok y) :
    i < x.length ∧ y = x.set i v := by
  unfold setItem at h
  split at h
  · rename_i hi; cases h; exact ⟨hi, rfl⟩
  · cases h

/-- largest correlation over the admissible lags -/
abbrev AdmLag (c : IterConst) (i : Nat) : Prop := Lag c.nfft c.phase i

theorem mis_eq {c : IterConst} (hc : ConstOk c) (p : List ℝ) :
    mis c p = misfit c.nfft c.dt (smp c.u_flt) (smp c.w_flt) (smp p) := by
  unfold mis misfit; rw [hc.power]; rfl

/-- One pass of the loop. -/
theorem iterBody_ok {c : IterConst} {s s' : IterState} (hc : ConstOk c) (hs : StateOk c s)
    (h : iterBody c s = .ok s') :
    s'.it = s.it + 1 ∧
    ((sumSq c.w_flt = 0 ∧ s' = { s with it := s.it + 1, nan := true, nanRF := true }) ∨
     (sumSq c.w_flt ≠ 0 ∧ c.powerU = 0 ∧ s'.nan = true ∧ s'.nanRF = s.nanRF ∧ s'.rms = s.rms ∧
        StateOk c s' ∧
        ∃ i v, AdmLag c i ∧ s'.p0 = s.p0.set i v) ∨
     (sumSq c.w_flt ≠ 0 ∧ c.powerU ≠ 0 ∧ StateOk c s' ∧ s'.nan = s.nan ∧ s'.nanRF = s.nanRF ∧
        s.it < c.itmax ∧
        BestSpike c.nfft c.dt (smp c.u_flt) (smp c.w_flt) c.phase s.p0 s'.p0 ∧
        s'.rms = s.rms.set s.it (mis c s'.p0) ∧ s'.sumsq_i = mis c s'.p0 ∧
        s'.d_error = 100 * (s.sumsq_i - mis c s'.p0))) := by
  unfold iterBody at h
  obtain ⟨i1, hi1, h⟩ := bind_eq_ok.1 h
  simp only at h
  set rw1 := (correl s.r_flt c.w_flt c.nfft).map (fun v : ℝ => v / sumSq c.w_flt) with hrw
  have hlen : rw1.length = c.nfft := by simp [hrw, correl_length]
  have hlag : AdmLag c i1 ∧ (∀ i, AdmLag c i → |smp rw1 i| ≤ |smp rw1 i1|) ∧
      ∀ i < i1, |smp rw1 i| < |smp rw1 i1| := by
    obtain ⟨y, hy, hmx, hfst⟩ := argmax_firstMax (fun _ _ => rfl) hi1
    have h1 := (List.getElem?_eq_some_iff.1 hy).1
    rw [List.length_map] at h1
    obtain ⟨k, hk, hn⟩ := hc.even
    have hP : ∀ (L : List ℝ), (∀ i, i < L.length → i < rw1.length ∧ smp L i = smp rw1 i) →
        (L.map (fun v : ℝ => |v|))[i1]? = some y →
        (∀ (j : Nat) (z : ℝ), (L.map (fun v : ℝ => |v|))[j]? = some z → PyFloat.le z y = true) →
        (∀ (j : Nat) (z : ℝ), j < i1 → (L.map (fun v : ℝ => |v|))[j]? = some z →
          PyFloat.lt z y = true) →
        (∀ i, i < L.length → |smp rw1 i| ≤ |smp rw1 i1|) ∧
        ∀ i < i1, |smp rw1 i| < |smp rw1 i1| := by
      intro L hL hy hmx hfst
      have hi1 := (List.getElem?_eq_some_iff.1 hy).1
      rw [List.length_map] at hi1
      have e : ∀ j, j < L.length → (L.map (fun v : ℝ => |v|))[j]? = some |smp rw1 j| := by
        intro j hj
        rw [← (hL j hj).2]
        unfold smp
        simp [List.getD_eq_getElem?_getD, hj]
      rw [e i1 hi1] at hy
      constructor
      · intro i hi
        have := hmx i _ (e i hi)
        rw [← Option.some.inj hy] at this
        exact (@decide_eq_true_iff _ (Classical.propDecidable _)).1 this
      · intro i hi
        have := hfst i _ hi (e i (by omega))
        rw [← Option.some.inj hy] at this
        exact (@decide_eq_true_iff _ (Classical.propDecidable _)).1 this
    split at h1
    · rename_i hph
      rw [if_pos hph] at hy hmx hfst
      have hsl : sliceTo rw1 (((c.nfft / 2 : Nat) : ℤ) - 1) = rw1.take (c.nfft / 2 - 1) := by
        unfold sliceTo
        rw [if_neg (by omega)]
        congr 1
        omega
      rw [hsl] at hy hmx hfst h1
      have h1' := h1
      rw [List.length_take] at h1'
      have hP' := hP _ (by
        intro j hj
        rw [List.length_take] at hj
        refine ⟨by omega, ?_⟩
        unfold smp
        simp only [List.getD_eq_getElem?_getD]
        rw [List.getElem?_take_of_lt (by omega)]) hy hmx hfst
      exact ⟨⟨by omega, fun _ => by omega⟩, fun i hi =>
        hP'.1 i (by rw [List.length_take]; have := hi.2 hph; omega), hP'.2⟩
    · rename_i hph
      rw [if_neg hph] at hy hmx hfst
      have hP' := hP rw1 (fun j hj => ⟨hj, rfl⟩) hy hmx hfst
      exact ⟨⟨by omega, fun hp => absurd hp hph⟩, fun i hi =>
        hP'.1 i (by have := hi.1; omega), hP'.2⟩
  obtain ⟨hlag, hbest, hfirst⟩ := hlag
  split at h
  · rename_i hW
    cases h
    exact ⟨rfl, Or.inl ⟨hW, rfl⟩⟩
  · rename_i hW
    obtain ⟨rwi, hrwi, h⟩ := bind_eq_ok.1 h
    obtain ⟨old, hold, h⟩ := bind_eq_ok.1 h
    obtain ⟨p0, hp0, h⟩ := bind_eq_ok.1 h
    obtain ⟨_, hrwi⟩ := item_smp hrwi
    obtain ⟨_, hold⟩ := item_smp hold
    obtain ⟨hi, hp0⟩ := setItem_ok' hp0
    subst hold
    have hplen : p0.length = c.nfft := by rw [hp0]; simp [hs.plen]
    have hgl : (gfilter (gfilter p0 c.nfft (toC c.gaussF) c.dt) c.nfft c.wf c.dt).length = c.nfft :=
      gfilter_length ..
    set r' := arrSub c.u_flt (gfilter (gfilter p0 c.nfft (toC c.gaussF) c.dt) c.nfft c.wf c.dt) with hr'
    have hrlen : r'.length = c.nfft := arrSub_length hc.ulen hgl
    have hres : ∀ m < c.nfft, smp r' m = resid c p0 m := by
      intro m hm
      rw [hr', arrSub_smp hc.ulen hgl, predicted_eq hc _ hm]; rfl
    have hWe : energy c.nfft (smp c.w_flt) ≠ 0 := by rw [← sumSq_energy hc.wlen]; exact hW
    -- the energy argument
    have hcoef : ∀ i, i < c.nfft → smp rw1 i
        = (∑ j ∈ range c.nfft, smp c.w_flt j * resid c s.p0 (cyc c.nfft (i + j)))
          / energy c.nfft (smp c.w_flt) := by
      intro i hi
      rw [hrw]
      have : smp ((correl s.r_flt c.w_flt c.nfft).map (fun v : ℝ => v / sumSq c.w_flt)) i
          = smp (correl s.r_flt c.w_flt c.nfft) i / sumSq c.w_flt := by
        unfold smp
        simp only [List.getD_eq_getElem?_getD, List.getElem?_map]
        cases (correl s.r_flt c.w_flt c.nfft)[i]? <;> simp
      rw [this, correl_eq hc.pos _ _ hi, sumSq_energy hc.wlen]
      congr 1
      apply sum_congr rfl
      intro j _
      rw [hs.resid _ (cyc_lt hc.pos _)]
    have hEn : ∀ i, i < c.nfft → ∀ v, energy c.nfft (resid c (s.p0.set i v))
        = energy c.nfft (resid c s.p0) - smp rw1 i ^ 2 * energy c.nfft (smp c.w_flt)
          + (c.dt * (v - smp s.p0 i) - smp rw1 i) ^ 2 * energy c.nfft (smp c.w_flt) := by
      intro i hi v
      have key := spike_energy hc.pos (resid c s.p0) (smp c.w_flt) i (c.dt * (v - smp s.p0 i)) hWe
      simp only at key
      rw [← hcoef i hi] at key
      rw [← key]
      apply energy_congr
      intro m _
      unfold resid
      have hv : v = smp s.p0 i + (v - smp s.p0 i) := by ring
      rw [hv, cconv_spike hi hs.plen, ← hv]
      ring
    have hE0 : 0 < energy c.nfft (smp c.w_flt) :=
      lt_of_le_of_ne (energy_nonneg c.nfft (smp c.w_flt)) (Ne.symm hWe)
    have hdt := hc.dt
    have hp0e : energy c.nfft (resid c p0)
        = energy c.nfft (resid c s.p0) - smp rw1 i1 ^ 2 * energy c.nfft (smp c.w_flt) := by
      rw [hp0, hEn i1 hlag.1, hrwi]
      have e1 : c.dt * (smp s.p0 i1 + smp rw1 i1 / c.dt - smp s.p0 i1) - smp rw1 i1 = 0 := by
        field_simp; ring
      rw [e1]; ring
    have hen : ∀ i v, AdmLag c i →
        energy c.nfft (resid c p0) ≤ energy c.nfft (resid c (s.p0.set i v)) := by
      intro i v hi
      rw [hp0e, hEn i hi.1]
      have := mul_le_mul_of_nonneg_right (sq_le_sq.2 (hbest i hi)) hE0.le
      have := mul_nonneg (sq_nonneg (c.dt * (v - smp s.p0 i) - smp rw1 i)) hE0.le
      linarith
    have hen2 : ∀ i v, i < i1 →
        energy c.nfft (resid c p0) < energy c.nfft (resid c (s.p0.set i v)) := by
      intro i v hi
      rw [hp0e, hEn i (lt_trans hi hlag.1)]
      have := mul_lt_mul_of_pos_right (sq_lt_sq.2 (hfirst i hi)) hE0
      have := mul_nonneg (sq_nonneg (c.dt * (v - smp s.p0 i) - smp rw1 i)) hE0.le
      linarith
    have hen3 : ∀ v, v ≠ smp s.p0 i1 + rwi / c.dt →
        energy c.nfft (resid c p0) < energy c.nfft (resid c (s.p0.set i1 v)) := by
      intro v hv
      rw [hp0e, hEn i1 hlag.1]
      have hne : c.dt * (v - smp s.p0 i1) - smp rw1 i1 ≠ 0 := by
        intro h0
        apply hv
        rw [hrwi]
        field_simp
        linarith
      have := mul_pos (sq_pos_of_ne_zero hne) hE0
      linarith
    split at h
    · rename_i hU
      cases h
      exact ⟨rfl, Or.inr (Or.inl ⟨hW, hU, rfl, rfl, rfl,
        ⟨hplen, hrlen, hres, hs.rmslen⟩, i1, _, hlag, hp0⟩)⟩
    · rename_i hU
      obtain ⟨rms, hrms, h⟩ := bind_eq_ok.1 h
      obtain ⟨hit, hrms⟩ := setItem_ok' hrms
      cases h
      have hpos : 0 < c.powerU :=
        lt_of_le_of_ne (by rw [hc.power]; exact energy_nonneg _ _) (Ne.symm hU)
      have hmis : sumSq r' / c.powerU = mis c p0 := by
        unfold mis
        rw [sumSq_energy hrlen, energy_congr hres]
      refine ⟨rfl, Or.inr (Or.inr ⟨hW, hU, ⟨hplen, hrlen, hres, by rw [hrms]; simp [hs.rmslen]⟩, rfl, rfl,
        by rw [← hs.rmslen]; exact hit, ⟨i1, _, hlag, hp0, ?_, ?_, ?_⟩, ?_, hmis, ?_⟩)⟩
      · intro i v hi
        rw [← mis_eq hc, ← mis_eq hc]
        exact div_le_div_of_nonneg_right (hen i v hi) hpos.le
      · intro i v hi
        rw [← mis_eq hc, ← mis_eq hc]
        exact div_lt_div_of_pos_right (hen2 i v hi) hpos
      · intro v hv
        rw [← mis_eq hc, ← mis_eq hc]
        exact div_lt_div_of_pos_right (hen3 v hv) hpos
      · simp only [hrms, hmis]
      · simp only [hmis]

end Rfsed.Synrf
