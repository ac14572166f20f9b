import Verif.Py.Fft
import Mathlib.Algebra.Field.GeomSum
import Mathlib.Algebra.BigOperators.Field
import Mathlib.Algebra.Order.BigOperators.Group.Finset
import Mathlib.Data.Int.ModEq
import Mathlib.Tactic.FieldSimp
import Mathlib.Tactic.Linarith

/-! Elementary theory of the discrete Fourier transform. -/

namespace Rfsed
open Complex Finset

theorem W_add (n : Nat) (a b : ℤ) : W n (a + b) = W n a * W n b := by
  unfold W
  rw [← Complex.exp_add]
  congr 1
  push_cast
  ring

theorem W_zero (n : Nat) : W n 0 = 1 := by simp [W]

theorem W_mul_period {n : Nat} (hn : 0 < n) (q : ℤ) : W n (n * q) = 1 := by
  unfold W
  have hn' : (n : ℂ) ≠ 0 := by exact_mod_cast hn.ne'
  have : 2 * Real.pi * Complex.I * ((n * q : ℤ) : ℂ) / n = q * (2 * Real.pi * Complex.I) := by
    push_cast
    field_simp
  rw [this, Complex.exp_int_mul_two_pi_mul_I]

theorem W_mul_nat (n : Nat) (a : ℤ) (k : Nat) : W n (k * a) = W n a ^ k := by
  induction k with
  | zero => simp [W_zero]
  | succ k ih =>
    rw [pow_succ, ← ih, ← W_add]
    congr 1
    push_cast
    ring

theorem W_conj (n : Nat) (a : ℤ) : (starRingEnd ℂ) (W n a) = W n (-a) := by
  unfold W
  rw [← Complex.exp_conj]
  congr 1
  simp only [map_div₀, map_mul, Complex.conj_ofReal, Complex.conj_I, map_ofNat, map_natCast,
    map_intCast]
  push_cast
  ring

theorem W_neg_mul (n : Nat) (a : ℤ) : W n (-a) * W n a = 1 := by
  rw [← W_add]; simp [W_zero]

theorem W_ne_zero (n : Nat) (a : ℤ) : W n a ≠ 0 := Complex.exp_ne_zero _

theorem W_norm (n : Nat) (a : ℤ) : ‖W n a‖ = 1 := by
  have : 2 * Real.pi * Complex.I * (a : ℂ) / n = ((2 * Real.pi * a / n : ℝ) : ℂ) * Complex.I := by
    push_cast; ring
  rw [W, this, Complex.norm_exp_ofReal_mul_I]

theorem W_eq_one_iff {n : Nat} (hn : 0 < n) (a : ℤ) : W n a = 1 ↔ (n : ℤ) ∣ a := by
  constructor
  · intro h
    unfold W at h
    rw [Complex.exp_eq_one_iff] at h
    obtain ⟨q, hq⟩ := h
    have hn' : (n : ℂ) ≠ 0 := by exact_mod_cast hn.ne'
    have hpi : (2 * Real.pi * Complex.I : ℂ) ≠ 0 := by
      simp [Real.pi_ne_zero, Complex.I_ne_zero]
    refine ⟨q, ?_⟩
    rw [div_eq_iff hn'] at hq
    have : (2 * Real.pi * Complex.I : ℂ) * a = (2 * Real.pi * Complex.I) * (n * q) := by
      rw [hq]; ring
    have := mul_left_cancel₀ hpi this
    exact_mod_cast this
  · rintro ⟨q, rfl⟩
    exact W_mul_period hn q

/-- orthogonality of the characters -/
theorem sum_W {n : Nat} (hn : 0 < n) (a : ℤ) :
    ∑ k ∈ range n, W n (k * a) = if (n : ℤ) ∣ a then (n : ℂ) else 0 := by
  split
  · rename_i h
    have h1 : ∀ k ∈ range n, W n (k * a) = 1 := by
      intro k _
      rw [W_mul_nat, (W_eq_one_iff hn a).2 h, one_pow]
    rw [sum_congr rfl h1]
    simp
  · rename_i h
    have h1 : W n a ≠ 1 := fun e => h ((W_eq_one_iff hn a).1 e)
    have h2 : ∀ k ∈ range n, W n (k * a) = W n a ^ k := fun k _ => W_mul_nat n a k
    rw [sum_congr rfl h2, geom_sum_eq h1]
    rw [← W_mul_nat, W_mul_period hn]
    simp

/-- `a mod n` as an index -/
def cyc (n : Nat) (a : ℤ) : Nat := (a % n).toNat

theorem cyc_lt {n : Nat} (hn : 0 < n) (a : ℤ) : cyc n a < n := by
  unfold cyc
  have h1 := Int.emod_nonneg a (b := (n : ℤ)) (by omega)
  have h2 := Int.emod_lt_of_pos a (b := (n : ℤ)) (by omega)
  omega

theorem cyc_cast {n : Nat} (hn : 0 < n) (a : ℤ) : (cyc n a : ℤ) = a % n := by
  unfold cyc
  exact Int.toNat_of_nonneg (Int.emod_nonneg a (by omega))

theorem cyc_of_lt {n m : Nat} (h : m < n) : cyc n m = m := by
  unfold cyc
  rw [Int.emod_eq_of_lt (by omega) (by omega)]
  simp

theorem cyc_add_mul {n : Nat} (a q : ℤ) : cyc n (a + n * q) = cyc n a := by
  unfold cyc
  rw [Int.add_mul_emod_self_left]

theorem cyc_congr {n : Nat} {a b : ℤ} (h : (n : ℤ) ∣ a - b) : cyc n a = cyc n b := by
  unfold cyc
  have : b ≡ a [ZMOD n] := Int.modEq_iff_dvd.2 h
  rw [this.symm]

/-- DFT of a function -/
noncomputable def dft (n : Nat) (x : Nat → ℂ) (k : Nat) : ℂ :=
  ∑ j ∈ range n, x j * W n (-(j * k))

/-- inverse DFT of a function -/
noncomputable def idft (n : Nat) (X : Nat → ℂ) (m : Nat) : ℂ :=
  (∑ k ∈ range n, X k * W n (m * k)) / n

theorem W_cyc {n : Nat} (hn : 0 < n) (a : ℤ) (k : ℤ) : W n (cyc n a * k) = W n (a * k) := by
  have h : a * k = (cyc n a : ℤ) * k + n * (a / n * k) := by
    rw [cyc_cast hn]
    have := Int.emod_add_mul_ediv a n
    calc a * k = (a % n + n * (a / n)) * k := by rw [this]
      _ = _ := by ring
  rw [h, W_add, W_mul_period hn, mul_one]

/-- shift theorem (with `s = 0`: inversion) -/
theorem idft_dft_shift {n : Nat} (hn : 0 < n) (x : Nat → ℂ) (s : ℤ) (m : Nat) :
    idft n (fun k => dft n x k * W n (k * s)) m = x (cyc n (m + s)) := by
  have hn' : (n : ℂ) ≠ 0 := by exact_mod_cast hn.ne'
  unfold idft dft
  rw [div_eq_iff hn']
  have h1 : ∀ k ∈ range n, (∑ j ∈ range n, x j * W n (-(j * k))) * W n (k * s) * W n (m * k)
      = ∑ j ∈ range n, x j * W n (k * (m + s - j)) := by
    intro k _
    rw [Finset.sum_mul, Finset.sum_mul]
    apply sum_congr rfl
    intro j _
    rw [mul_assoc, mul_assoc, ← W_add, ← W_add]
    congr 2
    ring
  rw [sum_congr rfl h1, sum_comm]
  have h2 : ∀ j ∈ range n, ∑ k ∈ range n, x j * W n (k * (m + s - j))
      = if j = cyc n (m + s) then x j * n else 0 := by
    intro j hj
    rw [← mul_sum, sum_W hn]
    have hjn : j < n := mem_range.1 hj
    have : (n : ℤ) ∣ (m + s - j) ↔ j = cyc n (m + s) := by
      constructor
      · intro h
        have := cyc_congr h
        rw [cyc_of_lt hjn] at this
        exact this.symm
      · intro h
        rw [h, cyc_cast hn]
        exact Int.dvd_self_sub_emod
    by_cases hc : j = cyc n (m + s)
    · rw [if_pos hc, if_pos (this.2 hc)]
    · rw [if_neg hc, if_neg (fun h => hc (this.1 h)), mul_zero]
  rw [sum_congr rfl h2, sum_ite_eq' (range n) (cyc n (m + s)) (fun j => x j * n),
    if_pos (mem_range.2 (cyc_lt hn _))]

theorem idft_dft {n : Nat} (x : Nat → ℂ) {m : Nat} (hm : m < n) : idft n (dft n x) m = x m := by
  have := idft_dft_shift (by omega : 0 < n) x 0 m
  simp only [mul_zero, W_zero, mul_one, add_zero] at this
  rw [this, cyc_of_lt hm]

theorem idft_congr {n : Nat} {X Y : Nat → ℂ} (h : ∀ k < n, X k = Y k) (m : Nat) :
    idft n X m = idft n Y m := by
  unfold idft
  rw [sum_congr rfl (fun k hk => by rw [h k (mem_range.1 hk)])]

theorem dft_congr {n : Nat} {x y : Nat → ℂ} (h : ∀ k < n, x k = y k) (m : Nat) :
    dft n x m = dft n y m := by
  unfold dft
  rw [sum_congr rfl (fun k hk => by rw [h k (mem_range.1 hk)])]

theorem idft_sum {n : Nat} {ι : Type} (s : Finset ι) (X : ι → Nat → ℂ) (m : Nat) :
    idft n (fun k => ∑ i ∈ s, X i k) m = ∑ i ∈ s, idft n (X i) m := by
  unfold idft
  rw [← Finset.sum_div]
  congr 1
  rw [sum_comm]
  exact sum_congr rfl (fun k _ => sum_mul ..)

theorem idft_smul (n : Nat) (c : ℂ) (X : Nat → ℂ) (m : Nat) :
    idft n (fun k => c * X k) m = c * idft n X m := by
  unfold idft
  rw [mul_div_assoc', mul_sum]
  simp only [mul_assoc]

theorem idft_add (n : Nat) (X Y : Nat → ℂ) (m : Nat) :
    idft n (fun k => X k + Y k) m = idft n X m + idft n Y m := by
  unfold idft
  rw [← add_div, ← sum_add_distrib]
  simp only [add_mul]

theorem dft_add (n : Nat) (x y : Nat → ℂ) (k : Nat) :
    dft n (fun j => x j + y j) k = dft n x k + dft n y k := by
  unfold dft
  rw [← sum_add_distrib]
  simp only [add_mul]

theorem dft_smul (n : Nat) (c : ℂ) (x : Nat → ℂ) (k : Nat) :
    dft n (fun j => c * x j) k = c * dft n x k := by
  unfold dft
  rw [mul_sum]
  simp only [mul_assoc]

/-- convolution theorem -/
theorem idft_mul {n : Nat} (hn : 0 < n) (x y : Nat → ℂ) (m : Nat) :
    idft n (fun k => dft n x k * dft n y k) m
      = ∑ j ∈ range n, x j * y (cyc n (m - j)) := by
  have h : ∀ k < n, dft n x k * dft n y k
      = ∑ j ∈ range n, x j * (dft n y k * W n (k * (-j))) := by
    intro k _
    conv_lhs => rw [dft, sum_mul]
    apply sum_congr rfl
    intro j _
    rw [mul_assoc, mul_comm (W n _)]
    congr 3
    ring
  rw [idft_congr h, idft_sum]
  apply sum_congr rfl
  intro j _
  rw [idft_smul, idft_dft_shift hn]
  congr 2

/-- correlation theorem -/
theorem idft_mul_conj {n : Nat} (hn : 0 < n) (x y : Nat → ℂ) (m : Nat) :
    idft n (fun k => dft n x k * (starRingEnd ℂ) (dft n y k)) m
      = ∑ j ∈ range n, (starRingEnd ℂ) (y j) * x (cyc n (m + j)) := by
  have h : ∀ k < n, dft n x k * (starRingEnd ℂ) (dft n y k)
      = ∑ j ∈ range n, (starRingEnd ℂ) (y j) * (dft n x k * W n (k * j)) := by
    intro k _
    conv_lhs => rw [dft.eq_def n y, map_sum, mul_sum]
    apply sum_congr rfl
    intro j _
    rw [map_mul, W_conj]
    rw [show (-(-((j : ℤ) * k))) = (k : ℤ) * j by ring]
    ring
  rw [idft_congr h, idft_sum]
  apply sum_congr rfl
  intro j _
  rw [idft_smul, idft_dft_shift hn]

theorem dft_idft {n : Nat} (X : Nat → ℂ) {k : Nat} (hk : k < n) :
    dft n (idft n X) k = X k := by
  have hn : 0 < n := by omega
  have hn' : (n : ℂ) ≠ 0 := by exact_mod_cast hn.ne'
  have e1 : ∀ (x : Nat → ℂ) (k : Nat), dft n x k = (starRingEnd ℂ) (n * idft n (fun j => (starRingEnd ℂ) (x j)) k) := by
    intro x k
    unfold dft idft
    rw [mul_div_cancel₀ _ hn', map_sum]
    apply sum_congr rfl
    intro j _
    rw [map_mul, Complex.conj_conj, W_conj]
    congr 2
    ring
  have e2 : ∀ m, (starRingEnd ℂ) (idft n X m) = dft n (fun k => (starRingEnd ℂ) (X k) / n) m := by
    intro m
    unfold dft idft
    rw [map_div₀, map_sum, map_natCast, Finset.sum_div]
    apply sum_congr rfl
    intro j _
    rw [map_mul, W_conj, div_mul_eq_mul_div]
    congr 3
    ring
  rw [e1, idft_congr (fun m _ => e2 m), idft_dft _ hk, mul_div_cancel₀ _ hn', Complex.conj_conj]

/-! ## lists -/

theorem fft_length (x : List ℂ) (n : Nat) : (fft x n).length = n := by simp [fft]
theorem ifft_length (x : List ℂ) (n : Nat) : (ifft x n).length = n := by simp [ifft]

theorem getD_map_range {α : Type} (f : Nat → α) (n : Nat) (d : α) {k : Nat} (h : k < n) :
    ((List.range n).map f).getD k d = f k := by
  rw [List.getD_eq_getElem?_getD, List.getElem?_map, List.getElem?_range h]
  rfl

theorem fft_getD (x : List ℂ) {n k : Nat} (h : k < n) :
    (fft x n).getD k 0 = dft n (fun j => x.getD j 0) k := getD_map_range _ _ _ h

theorem ifft_getD (X : List ℂ) {n k : Nat} (h : k < n) :
    (ifft X n).getD k 0 = idft n (fun j => X.getD j 0) k := getD_map_range _ _ _ h

theorem vmul_getD {x y : List ℂ} (h : x.length = y.length) (k : Nat) :
    (vmul x y).getD k 0 = x.getD k 0 * y.getD k 0 := by
  unfold vmul
  simp only [List.getD_eq_getElem?_getD, List.getElem?_zipWith]
  by_cases hk : k < x.length
  · rw [List.getElem?_eq_getElem hk, List.getElem?_eq_getElem (h ▸ hk)]
    rfl
  · rw [List.getElem?_eq_none (by omega)]
    simp

theorem toC_getD (x : List ℝ) (k : Nat) : (toC x).getD k 0 = ((x.getD k 0 : ℝ) : ℂ) := by
  unfold toC
  simp only [List.getD_eq_getElem?_getD, List.getElem?_map]
  cases x[k]? <;> simp

theorem toRe_getD (x : List ℂ) (k : Nat) : (toRe x).getD k 0 = (x.getD k 0).re := by
  unfold toRe
  simp only [List.getD_eq_getElem?_getD, List.getElem?_map]
  cases x[k]? <;> simp

theorem toC_length (x : List ℝ) : (toC x).length = x.length := by simp [toC]
theorem toRe_length (x : List ℂ) : (toRe x).length = x.length := by simp [toRe]

theorem ext_getD {α : Type} {x y : List α} (d : α) (h : x.length = y.length)
    (h2 : ∀ k < x.length, x.getD k d = y.getD k d) : x = y := by
  apply List.ext_getElem h
  intro i h1 h3
  have := h2 i h1
  rw [List.getD_eq_getElem?_getD, List.getD_eq_getElem?_getD, List.getElem?_eq_getElem h1,
    List.getElem?_eq_getElem h3] at this
  exact this

end Rfsed
