import Verif.Proofs.Forward

/-! # Symmetries of the forward model -/

namespace Rfsed.Synrf
open Matrix Complex Rfsed.Spec

variable {ω p dt : ℝ} {ls : List Layer} {l : Layer} {ipha : ℤ}

/-! ## congruence -/

theorem foldlM_congr' {R S : Type} {f g : S → R → Except PyErr S} :
    ∀ (xs : List R) (s : S), (∀ x ∈ xs, ∀ s, f s x = g s x) → xs.foldlM f s = xs.foldlM g s := by
  intro xs
  induction xs with
  | nil => intro s _; rfl
  | cons x xs ih =>
    intro s h
    rw [List.forall_mem_cons] at h
    rw [List.foldlM_cons, List.foldlM_cons, h.1 s]
    congr 1
    funext s'
    exact ih s' h.2

theorem fwd_seis_congr {rayp rayp' : ℝ} {npts : Nat} {a b r h a' b' r' h' : List ℝ} {ipha' : ℤ}
    (hU : ∀ ω, ω ≠ 0 → haskell ω rayp h.length ipha a b r h = haskell ω rayp' h'.length ipha' a' b' r' h') :
    fwd_seis rayp dt npts ipha a b r h = fwd_seis rayp' dt npts ipha' a' b' r' h' := by
  have hspec : fwdSpectra rayp dt (nextPow2 npts) ipha a b r h =
      fwdSpectra rayp' dt (nextPow2 npts) ipha' a' b' r' h' := by
    unfold fwdSpectra
    apply foldlM_congr'
    intro i hi s
    rw [List.mem_range'_1] at hi
    by_cases hd : (nextPow2 npts : ℝ) * dt = 0
    · rw [scalarDiv_py_zero hd]
      rfl
    · rw [scalarDiv_py hd, okBind, okBind]
      have h1 : dt ≠ 0 := right_ne_zero_of_mul hd
      have h2 : (nextPow2 npts : ℝ) ≠ 0 := left_ne_zero_of_mul hd
      have h3 : 0 < nextPow2 npts := Nat.pos_of_ne_zero (by exact_mod_cast h2)
      have := hU (binFreq (nextPow2 npts) dt i) (binFreq_ne h1 hi.1 h3)
      simp only [binFreq] at this
      simp only [this]
  unfold fwd_seis
  simp only [hspec]

/-! ## splitting a layer -/

/-- a layer with another thickness -/
def withH (l : Layer) (h : ℝ) : Layer := { l with h := h }

theorem lE_withH (h : ℝ) : lE ω p (withH l h) = lE ω p l := rfl
theorem lp_withH (h z : ℝ) : lp ω p (withH l h) z = lp ω p l z := rfl

theorem allFinite_iff {ls : List Layer} : AllFinite p ls ↔
    match ls with
    | [] => True
    | l :: ks => layerFinite l.α l.β p ∧ ∀ k ∈ ks, Good p k := by
  match ls with
  | [] => simp [AllFinite]
  | [l] => simp [AllFinite]
  | l :: m :: rest => rw [AllFinite]; simp

theorem good_withH (h : ℝ) : Good p (withH l h) ↔ Good p l := ⟨fun a => ⟨a.1, a.2⟩, fun a => ⟨a.1, a.2⟩⟩

theorem haskell_congr {ls ls' : List Layer} (hn : ls ≠ []) (hn' : ls' ≠ []) {p' ω' : ℝ}
    (h1 : AllFinite p ls ↔ AllFinite p' ls')
    (h2 : AllFinite p ls → slMat ω p ls hn = slMat ω' p' ls' hn') :
    haskell ω p ls.length ipha (alphas ls) (betas ls) (rhos ls) (hs ls) =
      haskell ω' p' ls'.length ipha (alphas ls') (betas ls') (rhos ls') (hs ls') := by
  rw [haskell_eq ls hn, haskell_eq ls' hn']
  by_cases h : AllFinite p ls
  · rw [h2 h, propext h1]
  · rw [if_pos (Or.inl h), if_pos (Or.inl (fun h' => h (h1.2 h')))]

theorem split_finite (xs ys : List Layer) (a b : ℝ) (hr : l.ρ ≠ 0) :
    AllFinite p (xs ++ withH l a :: withH l b :: ys) ↔ AllFinite p (xs ++ withH l (a + b) :: ys) := by
  rw [allFinite_iff, allFinite_iff]
  have hg : ∀ h, Good p (withH l h) ↔ layerFinite l.α l.β p := fun h => ⟨fun a => a.1, fun a => ⟨a, hr⟩⟩
  cases xs with
  | nil =>
    simp only [List.nil_append, List.forall_mem_cons, hg]
    constructor
    · rintro ⟨h1, -, h2⟩; exact ⟨h1, h2⟩
    · rintro ⟨h1, h2⟩; exact ⟨h1, h1, h2⟩
  | cons x xs =>
    simp only [List.cons_append, List.forall_mem_append, List.forall_mem_cons, hg]
    tauto

theorem split_good (xs ys : List Layer) (a b : ℝ) (hr : l.ρ ≠ 0)
    (h : AllFinite p (xs ++ withH l (a + b) :: ys)) : Good p l := by
  rw [allFinite_iff] at h
  cases xs with
  | nil => exact ⟨h.1, hr⟩
  | cons x xs => exact (good_withH (a + b)).1 (h.2 _ (by simp))

theorem split_slMat (xs ys : List Layer) (a b : ℝ) (hω : ω ≠ 0) (hg : Good p l)
    (hlen : xs ++ ys ≠ []) (hn : xs ++ withH l a :: withH l b :: ys ≠ [])
    (hn' : xs ++ withH l (a + b) :: ys ≠ []) :
    slMat ω p (xs ++ withH l a :: withH l b :: ys) hn = slMat ω p (xs ++ withH l (a + b) :: ys) hn' := by
  have hl : 0 < xs.length + ys.length := by
    have := List.length_pos_iff.2 hlen
    rwa [List.length_append] at this
  unfold slMat
  rw [if_pos (by simp; omega), if_pos (by simp; omega)]
  congr 1
  · cases ys with
    | nil => simp [lE_withH]
    | cons y ys => simp
  · rw [prodMat_append, prodMat_append]
    congr 1
    simp only [prodMat, lp_withH]
    change prodMat ω p ys * lp ω p l b * lp ω p l a = prodMat ω p ys * lp ω p l (a + b)
    rw [Matrix.mul_assoc, ← lp_add hg hω, add_comm]

/-! ## a layer without thickness -/

theorem zero_finite (xs ys : List Layer) (hg : Good p l) (hys : xs ++ ys ≠ []) :
    AllFinite p (xs ++ withH l 0 :: ys) → AllFinite p (xs ++ ys) := by
  rw [allFinite_iff, allFinite_iff]
  cases xs with
  | nil =>
    cases ys with
    | nil => simp
    | cons y ys =>
      simp only [List.nil_append, List.forall_mem_cons]
      rintro ⟨h1, h2, h3⟩
      exact ⟨h2.1, h3⟩
  | cons x xs =>
    simp only [List.cons_append, List.forall_mem_append, List.forall_mem_cons]
    tauto

theorem zero_slMat (xs ys : List Layer) (hys : ys ≠ []) (hlen : 2 ≤ (xs ++ ys).length)
    (hn : xs ++ withH l 0 :: ys ≠ []) (hn' : xs ++ ys ≠ []) :
    slMat ω p (xs ++ withH l 0 :: ys) hn = slMat ω p (xs ++ ys) hn' := by
  rw [List.length_append] at hlen
  unfold slMat
  rw [if_pos (by simp; omega), if_pos (by simp; omega)]
  congr 1
  · rw [List.getLast_append_of_ne_nil _ (by simp : withH l 0 :: ys ≠ []),
      List.getLast_append_of_ne_nil _ hys, List.getLast_cons hys]
  · rw [prodMat_append, prodMat_append]
    congr 1
    simp only [prodMat, lp_withH]
    change prodMat ω p ys * lp ω p l 0 = prodMat ω p ys
    rw [lp_zero, Matrix.mul_one]

/-! ## the sign of the slowness -/

theorem vslow_neg (v : ℝ) : vslow v (-p) = vslow v p := by simp [vslow]

theorem lp_neg (z : ℝ) : lp ω (-p) l z =
    Matrix.diagonal ![1, -1, 1, -1] * lp ω p l z * Matrix.diagonal ![1, -1, 1, -1] := by
  simp only [lp, propagatorSol, vslow_neg]
  ext j k
  fin_cases j <;> fin_cases k <;> simp [ei] <;> ring

theorem lE_neg : lE ω (-p) l =
    Matrix.diagonal ![-1, 1, -1, 1] * lE ω p l * Matrix.diagonal ![1, -1, 1, -1] := by
  simp only [lE, eInverse, vslow_neg]
  ext j k
  fin_cases j <;> fin_cases k <;> simp [ei] <;> ring

theorem dd : (Matrix.diagonal ![1, -1, 1, -1] : Mat4) * Matrix.diagonal ![1, -1, 1, -1] = 1 := by
  ext j k
  fin_cases j <;> fin_cases k <;> simp

theorem prodMat_neg : prodMat ω (-p) ls =
    Matrix.diagonal ![1, -1, 1, -1] * prodMat ω p ls * Matrix.diagonal ![1, -1, 1, -1] := by
  induction ls with
  | nil => simp only [prodMat, Matrix.mul_one, dd]
  | cons l ls ih =>
    rw [prodMat, prodMat, ih, lp_neg]
    calc _ = Matrix.diagonal ![1, -1, 1, -1] * prodMat ω p ls *
          (Matrix.diagonal ![1, -1, 1, -1] * Matrix.diagonal ![1, -1, 1, -1]) * lp ω p l l.h *
          Matrix.diagonal ![1, -1, 1, -1] := by simp only [Matrix.mul_assoc]
      _ = _ := by rw [dd, Matrix.mul_one]; simp only [Matrix.mul_assoc]

theorem slMat_neg (hn : ls ≠ []) : slMat ω (-p) ls hn =
    Matrix.diagonal ![-1, 1, -1, 1] * slMat ω p ls hn * Matrix.diagonal ![1, -1, 1, -1] := by
  unfold slMat
  split_ifs
  · rw [prodMat_neg, lE_neg]
    calc _ = Matrix.diagonal ![-1, 1, -1, 1] * lE ω p (ls.getLast hn) *
          (Matrix.diagonal ![1, -1, 1, -1] * Matrix.diagonal ![1, -1, 1, -1]) * prodMat ω p ls *
          Matrix.diagonal ![1, -1, 1, -1] := by simp only [Matrix.mul_assoc]
      _ = _ := by rw [dd, Matrix.mul_one]; simp only [Matrix.mul_assoc]
  · exact lE_neg

theorem layerFinite_neg {a b : ℝ} : layerFinite a b (-p) ↔ layerFinite a b p := by
  simp [layerFinite]

theorem allFinite_neg : AllFinite (-p) ls ↔ AllFinite p ls := by
  rw [allFinite_iff, allFinite_iff]
  cases ls with
  | nil => rfl
  | cons l ls =>
    simp only [layerFinite_neg]
    have : ∀ k, Good (-p) k ↔ Good p k := fun k =>
      ⟨fun h => ⟨layerFinite_neg.1 h.1, h.2⟩, fun h => ⟨layerFinite_neg.2 h.1, h.2⟩⟩
    simp only [this]

theorem den_neg (hn : ls ≠ []) : den (slMat ω (-p) ls hn) = den (slMat ω p ls hn) := by
  rw [slMat_neg]
  simp [den]

/-- reversing the slowness reverses the radial (P) or the vertical (S) component -/
theorem haskell_neg (hn : ls ≠ []) :
    haskell ω (-p) ls.length ipha (alphas ls) (betas ls) (rhos ls) (hs ls) =
      (haskell ω p ls.length ipha (alphas ls) (betas ls) (rhos ls) (hs ls)).map (fun o => o.map (fun u =>
        if 0 ≤ ipha then (-u.1, u.2) else (u.1, -u.2))) := by
  rw [haskell_eq ls hn, haskell_eq ls hn]
  have e : ∀ j k, slMat ω (-p) ls hn j k = (![-1, 1, -1, 1] : Fin 4 → ℂ) j * slMat ω p ls hn j k *
      (![1, -1, 1, -1] : Fin 4 → ℂ) k := by
    intro j k
    rw [slMat_neg, Matrix.mul_diagonal, Matrix.diagonal_mul]
  rw [den_neg, propext allFinite_neg]
  by_cases h : ¬AllFinite p ls ∨ den (slMat ω p ls hn) = 0
  · rw [if_pos h, if_pos h]; rfl
  · rw [if_neg h, if_neg h]
    by_cases hi : 0 ≤ ipha
    · rw [if_pos hi, if_pos hi, e 3 1, e 3 0]
      simp [Except.map, neg_div, hi]
    · rw [if_neg hi, if_neg hi, e 2 1, e 2 0]
      simp [Except.map, neg_div, hi]

/-! ## thickness of the last layer -/

theorem slMat_last (xs : List Layer) (hxs : xs ≠ []) (hω : ω ≠ 0) (hg : Good p l) (h Δ : ℝ)
    (hn : xs ++ [withH l (h + Δ)] ≠ []) (hn' : xs ++ [withH l h] ≠ []) :
    slMat ω p (xs ++ [withH l (h + Δ)]) hn =
      Matrix.diagonal (lD ω p l Δ) * slMat ω p (xs ++ [withH l h]) hn' := by
  have hl : 0 < xs.length := List.length_pos_iff.2 hxs
  unfold slMat
  rw [if_pos (by simp; omega), if_pos (by simp; omega)]
  have e1 : (xs ++ [withH l (h + Δ)]).getLast hn = withH l (h + Δ) := by simp
  have e2 : (xs ++ [withH l h]).getLast hn' = withH l h := by simp
  rw [e1, e2, lE_withH, lE_withH, prodMat_append, prodMat_append]
  have e3 : ∀ k, prodMat ω p [withH l k] = lp ω p l k := by
    intro k
    simp only [prodMat, Matrix.one_mul, lp_withH]
    rfl
  rw [e3, e3, add_comm h Δ, lp_add hg hω, ← Matrix.mul_assoc, ← Matrix.mul_assoc, lE_lp hg hω]
  simp only [Matrix.mul_assoc]

theorem resp_diag {ls ls' : List Layer} (hn : ls ≠ []) (hn' : ls' ≠ []) {p' ω' : ℝ} (d : Fin 4 → ℂ)
    (h2 : d 2 ≠ 0) (h3 : d 3 ≠ 0)
    (h : slMat ω p ls hn = Matrix.diagonal d * slMat ω' p' ls' hn') :
    resp p ls hn ipha ω = ((if 0 ≤ ipha then d 2 else d 3)⁻¹ • resp p' ls' hn' ipha ω') := by
  have e : ∀ j k, slMat ω p ls hn j k = d j * slMat ω' p' ls' hn' j k := by
    intro j k
    rw [h, Matrix.diagonal_mul]
  have hd : den (slMat ω p ls hn) = d 2 * d 3 * den (slMat ω' p' ls' hn') := by
    simp only [den, e]; ring
  unfold resp
  simp only [hd, e]
  by_cases hi : 0 ≤ ipha
  · simp only [if_pos hi, Prod.smul_mk, smul_eq_mul, Prod.mk.injEq]
    constructor <;> field_simp
  · simp only [if_neg hi, Prod.smul_mk, smul_eq_mul, Prod.mk.injEq]
    constructor <;> field_simp

/-! ## units of measurement -/

/-- lengths times `L`, times times `T`, masses such that densities are multiplied by `R` -/
noncomputable def scaleL (L T R : ℝ) (l : Layer) : Layer := ⟨l.α * L / T, l.β * L / T, l.ρ * R, l.h * L⟩

variable {L T R : ℝ}

theorem vslow_scale (hL : 0 < L) (hT : 0 < T) (v : ℝ) :
    vslow (v * L / T) (p * T / L) = vslow v p * (T / L) := by
  unfold vslow
  have e : 1 / (v * L / T * (v * L / T)) - p * T / L * (p * T / L) = (1 / (v * v) - p * p) * ((T / L) ^ 2) := by
    by_cases hv : v = 0
    · subst hv; simp; ring
    · field_simp
  rw [e, Real.sqrt_mul' _ (sq_nonneg _), Real.sqrt_sq (by positivity)]

/-- the change of the traction entries -/
noncomputable def unitD (c : ℝ) : Fin 4 → ℂ := ![1, 1, (c : ℂ), (c : ℂ)]

theorem lp_scale (hL : 0 < L) (hT : 0 < T) (hR : 0 < R) (z : ℝ) :
    lp (ω / T) (p * T / L) (scaleL L T R l) (z * L) =
      Matrix.diagonal (unitD (R * L / T ^ 2)) * lp ω p l z * Matrix.diagonal (unitD (T ^ 2 / (R * L))) := by
  have a1 : ω / T * (vslow l.α p * (T / L)) * (z * L) = ω * vslow l.α p * z := by field_simp
  have a2 : ω / T * (vslow l.β p * (T / L)) * (z * L) = ω * vslow l.β p * z := by field_simp
  simp only [lp, propagatorSol, scaleL, vslow_scale hL hT, a1, a2]
  have hL' : (L : ℂ) ≠ 0 := by exact_mod_cast hL.ne'
  have hT' : (T : ℂ) ≠ 0 := by exact_mod_cast hT.ne'
  have hR' : (R : ℂ) ≠ 0 := by exact_mod_cast hR.ne'
  ext j k
  fin_cases j <;> fin_cases k <;> simp [ei, unitD] <;> field_simp

theorem lE_scale (hL : 0 < L) (hT : 0 < T) (hR : 0 < R) :
    lE (ω / T) (p * T / L) (scaleL L T R l) =
      lE ω p l * Matrix.diagonal (unitD (T ^ 2 / (R * L))) := by
  have hL' : (L : ℂ) ≠ 0 := by exact_mod_cast hL.ne'
  have hT' : (T : ℂ) ≠ 0 := by exact_mod_cast hT.ne'
  have hR' : (R : ℂ) ≠ 0 := by exact_mod_cast hR.ne'
  simp only [lE, eInverse, scaleL, vslow_scale hL hT]
  ext j k
  fin_cases j <;> fin_cases k <;> simp [ei, unitD] <;> field_simp

theorem unitD_mul (hL : 0 < L) (hT : 0 < T) (hR : 0 < R) :
    Matrix.diagonal (unitD (T ^ 2 / (R * L))) * Matrix.diagonal (unitD (R * L / T ^ 2)) = (1 : Mat4) := by
  have hL' : (L : ℂ) ≠ 0 := by exact_mod_cast hL.ne'
  have hT' : (T : ℂ) ≠ 0 := by exact_mod_cast hT.ne'
  have hR' : (R : ℂ) ≠ 0 := by exact_mod_cast hR.ne'
  ext j k
  fin_cases j <;> fin_cases k <;> simp [unitD] <;> field_simp

theorem prodMat_scale (hL : 0 < L) (hT : 0 < T) (hR : 0 < R) :
    Matrix.diagonal (unitD (T ^ 2 / (R * L))) * prodMat (ω / T) (p * T / L) (ls.map (scaleL L T R)) =
      prodMat ω p ls * Matrix.diagonal (unitD (T ^ 2 / (R * L))) := by
  induction ls with
  | nil => simp [prodMat]
  | cons l ls ih =>
    rw [List.map_cons, prodMat, prodMat, ← Matrix.mul_assoc, ih]
    have : (scaleL L T R l).h = l.h * L := rfl
    rw [this, lp_scale hL hT hR]
    calc _ = prodMat ω p ls * (Matrix.diagonal (unitD (T ^ 2 / (R * L))) *
          Matrix.diagonal (unitD (R * L / T ^ 2))) * lp ω p l l.h *
          Matrix.diagonal (unitD (T ^ 2 / (R * L))) := by simp only [Matrix.mul_assoc]
      _ = _ := by rw [unitD_mul hL hT hR, Matrix.mul_one]

theorem slMat_scale (hL : 0 < L) (hT : 0 < T) (hR : 0 < R) (hn : ls ≠ [])
    (hn' : ls.map (scaleL L T R) ≠ []) :
    slMat (ω / T) (p * T / L) (ls.map (scaleL L T R)) hn' =
      slMat ω p ls hn * Matrix.diagonal (unitD (T ^ 2 / (R * L))) := by
  have e : (ls.map (scaleL L T R)).getLast hn' = scaleL L T R (ls.getLast hn) := by
    rw [List.getLast_map]
  unfold slMat
  rw [e, lE_scale hL hT hR]
  simp only [List.length_map]
  split_ifs
  · rw [Matrix.mul_assoc, prodMat_scale hL hT hR, Matrix.mul_assoc]
  · rfl

theorem layerFinite_scale (hL : 0 < L) (hT : 0 < T) {a b : ℝ} :
    layerFinite (a * L / T) (b * L / T) (p * T / L) ↔ layerFinite a b p := by
  have key : ∀ v : ℝ, v ≠ 0 → (0 < 1 / (v * L / T * (v * L / T)) - p * T / L * (p * T / L) ↔
      0 < 1 / (v * v) - p * p) := by
    intro v hv
    have e : 1 / (v * L / T * (v * L / T)) - p * T / L * (p * T / L) =
        (1 / (v * v) - p * p) * ((T / L) ^ 2) := by field_simp
    rw [e]
    exact mul_pos_iff_of_pos_right (by positivity)
  have hne : ∀ v : ℝ, v * L / T ≠ 0 ↔ v ≠ 0 := by
    intro v
    rw [ne_eq, div_eq_zero_iff, mul_eq_zero]
    simp [hL.ne', hT.ne']
  unfold layerFinite
  rw [hne, hne]
  constructor
  · rintro ⟨h1, h2, h3, h4⟩; exact ⟨h1, h2, (key _ h1).1 h3, (key _ h2).1 h4⟩
  · rintro ⟨h1, h2, h3, h4⟩; exact ⟨h1, h2, (key _ h1).2 h3, (key _ h2).2 h4⟩

theorem good_scale (hL : 0 < L) (hT : 0 < T) (hR : 0 < R) :
    Good (p * T / L) (scaleL L T R l) ↔ Good p l := by
  constructor
  · rintro ⟨h1, h2⟩
    exact ⟨(layerFinite_scale hL hT).1 h1, left_ne_zero_of_mul h2⟩
  · rintro ⟨h1, h2⟩
    exact ⟨(layerFinite_scale hL hT).2 h1, mul_ne_zero h2 hR.ne'⟩

theorem allFinite_scale (hL : 0 < L) (hT : 0 < T) (hR : 0 < R) :
    AllFinite (p * T / L) (ls.map (scaleL L T R)) ↔ AllFinite p ls := by
  rw [allFinite_iff, allFinite_iff]
  cases ls with
  | nil => rfl
  | cons l ls =>
    simp only [List.map_cons, List.forall_mem_map, good_scale hL hT hR]
    have : layerFinite (scaleL L T R l).α (scaleL L T R l).β (p * T / L) ↔ layerFinite l.α l.β p :=
      layerFinite_scale hL hT
    rw [this]

/-- the response does not depend on the units -/
theorem haskell_scale (hL : 0 < L) (hT : 0 < T) (hR : 0 < R) (hn : ls ≠ []) :
    haskell (ω / T) (p * T / L) (ls.map (scaleL L T R)).length ipha (alphas (ls.map (scaleL L T R)))
        (betas (ls.map (scaleL L T R))) (rhos (ls.map (scaleL L T R))) (hs (ls.map (scaleL L T R))) =
      haskell ω p ls.length ipha (alphas ls) (betas ls) (rhos ls) (hs ls) := by
  have hn' : ls.map (scaleL L T R) ≠ [] := by simpa using hn
  rw [haskell_eq _ hn', haskell_eq ls hn]
  have e : ∀ j k, slMat (ω / T) (p * T / L) (ls.map (scaleL L T R)) hn' j k =
      slMat ω p ls hn j k * unitD (T ^ 2 / (R * L)) k := by
    intro j k
    rw [slMat_scale hL hT hR hn, Matrix.mul_diagonal]
  have e0 : ∀ j, slMat (ω / T) (p * T / L) (ls.map (scaleL L T R)) hn' j 0 = slMat ω p ls hn j 0 := by
    intro j; rw [e]; simp [unitD]
  have e1 : ∀ j, slMat (ω / T) (p * T / L) (ls.map (scaleL L T R)) hn' j 1 = slMat ω p ls hn j 1 := by
    intro j; rw [e]; simp [unitD]
  have hd : den (slMat (ω / T) (p * T / L) (ls.map (scaleL L T R)) hn') = den (slMat ω p ls hn) := by
    unfold den
    rw [e0, e0, e1, e1]
  rw [hd, e0, e0, e1, e1, propext (allFinite_scale hL hT hR (ls := ls) (p := p))]

/-- `fwd_seis` with two time units -/
theorem fwd_seis_congr' {rayp rayp' : ℝ} {npts : Nat} {a b r h a' b' r' h' : List ℝ} {ipha' : ℤ}
    (hT : 0 < T)
    (hU : ∀ ω, ω ≠ 0 → haskell (ω / T) rayp h.length ipha a b r h = haskell ω rayp' h'.length ipha' a' b' r' h') :
    fwd_seis rayp (dt * T) npts ipha a b r h = fwd_seis rayp' dt npts ipha' a' b' r' h' := by
  have hspec : fwdSpectra rayp (dt * T) (nextPow2 npts) ipha a b r h =
      fwdSpectra rayp' dt (nextPow2 npts) ipha' a' b' r' h' := by
    unfold fwdSpectra
    apply foldlM_congr'
    intro i hi s
    rw [List.mem_range'_1] at hi
    by_cases hd : (nextPow2 npts : ℝ) * dt = 0
    · rw [scalarDiv_py_zero hd, scalarDiv_py_zero (by rw [← mul_assoc, hd, zero_mul])]
      rfl
    · have hd' : (nextPow2 npts : ℝ) * (dt * T) ≠ 0 := by
        rw [← mul_assoc]; exact mul_ne_zero hd hT.ne'
      rw [scalarDiv_py hd, scalarDiv_py hd', okBind, okBind]
      have h1 : dt ≠ 0 := right_ne_zero_of_mul hd
      have h2 : (nextPow2 npts : ℝ) ≠ 0 := left_ne_zero_of_mul hd
      have h3 : 0 < nextPow2 npts := Nat.pos_of_ne_zero (by exact_mod_cast h2)
      have := hU (binFreq (nextPow2 npts) dt i) (binFreq_ne h1 hi.1 h3)
      have e : binFreq (nextPow2 npts) dt i / T =
          2 * Real.pi * i / ((nextPow2 npts : ℝ) * (dt * T)) := by
        unfold binFreq
        rw [div_div, mul_assoc (nextPow2 npts : ℝ)]
      rw [e] at this
      simp only [binFreq] at this
      simp only [this]
  unfold fwd_seis
  simp only [hspec]

/-! ## one medium -/

/-- layers of the same material are one layer -/
theorem prodMat_homogeneous (hω : ω ≠ 0) (hg : Good p l) (zs : List ℝ) :
    prodMat ω p (zs.map (withH l)) = lp ω p l zs.sum := by
  induction zs with
  | nil => simp [prodMat, lp_zero]
  | cons z zs ih =>
    rw [List.map_cons, prodMat, ih, lp_withH, List.sum_cons, add_comm z, lp_add hg hω]
    rfl

end Rfsed.Synrf
