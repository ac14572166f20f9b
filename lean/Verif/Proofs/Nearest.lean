import Verif.Spec.Nearest
import Verif.Py.Stats
import Mathlib.Tactic.Linarith
import Mathlib.Tactic.Positivity
import Mathlib.Tactic.FieldSimp

/-!
# Rounding to nearest: gaps between floating-point numbers
-/

namespace Rfsed

/-- `int(x)` of a rounded number -/
noncomputable instance instPyTruncFL (R : Rounding) : PyTrunc (FL R) where
  trunc x := .ok (truncR x.val)

namespace Proofs
open Rfsed.Spec

theorem int_ge {m : ℤ} {s x : ℝ} (hs : 0 < s) (hx : x = (m : ℝ) * s) (h0 : x ≠ 0) : s ≤ |x| := by
  have hm : m ≠ 0 := by
    rintro rfl
    exact h0 (by simp [hx])
  have h1 : (1 : ℝ) ≤ |(m : ℝ)| := by
    rw [← Int.cast_abs]
    exact_mod_cast Int.one_le_abs hm
  rw [hx, abs_mul, abs_of_pos hs]
  nlinarith

theorem lt_bound {p : ℕ} {m : ℤ} (h : |m| < 2 ^ (p + 1)) : |(m : ℝ)| ≤ 2 ^ (p + 1) - 1 := by
  rw [← Int.cast_abs]
  have : |m| ≤ 2 ^ (p + 1) - 1 := by omega
  exact_mod_cast this

/-- the distance of two numbers on a common grid -/
theorem grid_gap {m n a b : ℤ} (hba : b ≤ a) {N y : ℝ} (hN : N = (m : ℝ) * 2 ^ a) (hy : y = (n : ℝ) * 2 ^ b)
    (hne : y ≠ N) : (2 : ℝ) ^ b ≤ |y - N| := by
  obtain ⟨k, hk⟩ := Int.eq_ofNat_of_zero_le (sub_nonneg.2 hba)
  refine int_ge (m := n - m * 2 ^ k) (zpow_pos (by norm_num) _) ?_ (sub_ne_zero.2 hne)
  have : (2 : ℝ) ^ a = 2 ^ k * 2 ^ b := by
    rw [show a = (k : ℤ) + b by omega, zpow_add₀ (by norm_num), zpow_natCast]
  rw [hN, hy, this]
  push_cast
  ring

/-- gaps around a floating-point number: at least `N / 2^(p+1)` below, at least `N / (2^(p+1) - 1)` above -/
theorem gap {p : ℕ} {N y : ℝ} (hN : Representable p N) (hy : Representable p y) (h0 : 0 < N) (hne : y ≠ N) :
    (y < N → N / 2 ^ (p + 1) ≤ N - y) ∧ (N < y → N / (2 ^ (p + 1) - 1) ≤ y - N) := by
  obtain ⟨m, a, hm, eN⟩ := hN
  obtain ⟨n, b, hn, ey⟩ := hy
  have hP : (2 : ℝ) ≤ 2 ^ (p + 1) := by
    rw [pow_succ]
    have : (1 : ℝ) ≤ 2 ^ p := one_le_pow₀ (by norm_num)
    linarith
  have hm' := (le_abs_self _).trans (lt_bound hm)
  have hn' := (le_abs_self _).trans (lt_bound hn)
  rcases le_total a b with hab | hab
  · have g := grid_gap hab ey eN hne.symm
    have pa : (0 : ℝ) < 2 ^ a := zpow_pos (by norm_num) _
    have hle : N ≤ (2 ^ (p + 1) - 1) * 2 ^ a := by rw [eN]; gcongr
    constructor
    · intro h
      rw [abs_of_pos (by linarith)] at g
      rw [div_le_iff₀ (by positivity)]
      nlinarith
    · intro h
      rw [abs_of_neg (by linarith)] at g
      rw [div_le_iff₀ (by linarith)]
      nlinarith
  · have g := grid_gap hab eN ey hne
    have pb : (0 : ℝ) < 2 ^ b := zpow_pos (by norm_num) _
    have hle : y ≤ (2 ^ (p + 1) - 1) * 2 ^ b := by rw [ey]; gcongr
    constructor
    · intro h
      rw [abs_of_neg (by linarith)] at g
      rw [div_le_iff₀ (by positivity)]
      by_contra hc
      push Not at hc
      have i1 : N * (2 ^ (p + 1) - 1) < y * 2 ^ (p + 1) := by linarith
      have i2 : y * 2 ^ (p + 1) ≤ (2 ^ (p + 1) - 1) * 2 ^ b * 2 ^ (p + 1) := by gcongr
      have i3 : N < 2 ^ b * 2 ^ (p + 1) := by
        by_contra h3
        push Not at h3
        have := mul_le_mul_of_nonneg_right h3 (show (0 : ℝ) ≤ 2 ^ (p + 1) - 1 by linarith)
        linarith
      nlinarith
    · intro h
      rw [abs_of_pos (by linarith)] at g
      rw [div_le_iff₀ (by linarith)]
      nlinarith

/-- a number close to a floating-point number rounds to it -/
theorem Nearest.eq_of_close {R : Rounding} {p : ℕ} (hR : Nearest R p) {N x : ℝ} (hN : Representable p N) (h0 : 0 < N)
    (hlo : N - x < N / 2 ^ (p + 2)) (hhi : x - N < N / (2 ^ (p + 2) - 2)) : R.fl x = N := by
  by_contra hne
  have hb := hR.best x N hN
  obtain ⟨g1, g2⟩ := gap hN (hR.rep x) h0 hne
  have e1 : N / 2 ^ (p + 1) = 2 * (N / 2 ^ (p + 2)) := by rw [pow_succ 2 (p + 1)]; field_simp
  have hP : (2 : ℝ) ≤ 2 ^ (p + 1) := by
    rw [pow_succ]
    have : (1 : ℝ) ≤ 2 ^ p := one_le_pow₀ (by norm_num)
    linarith
  have e2 : N / (2 ^ (p + 1) - 1) = 2 * (N / (2 ^ (p + 2) - 2)) := by
    rw [show (2 : ℝ) ^ (p + 2) - 2 = 2 * (2 ^ (p + 1) - 1) by rw [pow_succ 2 (p + 1)]; ring]
    have : (2 : ℝ) ^ (p + 1) - 1 ≠ 0 := by linarith
    field_simp
  rw [e1] at g1
  rw [e2] at g2
  rcases lt_or_gt_of_ne hne with h | h
  · have := g1 h
    rcases le_total x N with hx | hx
    · rw [abs_of_nonneg (show 0 ≤ N - x by linarith), abs_of_nonpos (show R.fl x - x ≤ 0 by linarith)] at hb
      linarith
    · rw [abs_of_nonpos (show N - x ≤ 0 by linarith), abs_of_nonpos (show R.fl x - x ≤ 0 by linarith)] at hb
      linarith
  · have := g2 h
    rcases le_total x N with hx | hx
    · rw [abs_of_nonneg (show 0 ≤ N - x by linarith), abs_of_nonneg (show 0 ≤ R.fl x - x by linarith)] at hb
      linarith
    · rw [abs_of_nonpos (show N - x ≤ 0 by linarith), abs_of_nonneg (show 0 ≤ R.fl x - x by linarith)] at hb
      linarith

/-- the same with the exact width of the gap: `m` has all of its `p + 1` binary digits -/
theorem Nearest.eq_of_half {R : Rounding} {p : ℕ} (hR : Nearest R p) {m a : ℤ} {x : ℝ} (h1 : 2 ^ p < m)
    (h2 : m < 2 ^ (p + 1)) (hx : |x - (m : ℝ) * 2 ^ a| < 2 ^ a / 2) : R.fl x = (m : ℝ) * 2 ^ a := by
  by_contra hne
  have pa : (0 : ℝ) < 2 ^ a := zpow_pos (by norm_num) _
  have hm : (2 : ℝ) ^ p + 1 ≤ m := by exact_mod_cast h1
  have hp : (0 : ℝ) < 2 ^ p := by positivity
  have hb := hR.best x _ ⟨m, a, by rw [abs_of_pos ((by positivity : (0 : ℤ) < 2 ^ p).trans h1)]; exact h2, rfl⟩
  have g : (2 : ℝ) ^ a ≤ |R.fl x - (m : ℝ) * 2 ^ a| := by
    obtain ⟨n, b, hn, ey⟩ := hR.rep x
    rcases le_or_gt a b with hab | hab
    · rw [abs_sub_comm]
      exact grid_gap hab ey rfl (Ne.symm hne)
    · have hle : R.fl x ≤ 2 ^ p * 2 ^ a := by
        rw [ey]
        calc (n : ℝ) * 2 ^ b ≤ 2 ^ (p + 1) * 2 ^ b := by
              have := (le_abs_self _).trans (lt_bound hn)
              have pb : (0 : ℝ) < 2 ^ b := zpow_pos (by norm_num) _
              gcongr
              linarith
          _ ≤ 2 ^ (p + 1) * 2 ^ (a - 1) := by
              have : (2 : ℝ) ^ b ≤ 2 ^ (a - 1) := zpow_le_zpow_right₀ (by norm_num) (by omega)
              gcongr
          _ = 2 ^ p * 2 ^ a := by
              rw [zpow_sub₀ (by norm_num), pow_succ, zpow_one]; ring
      have : (2 ^ p + 1) * 2 ^ a ≤ (m : ℝ) * 2 ^ a := by gcongr
      rw [abs_of_nonpos (by linarith)]
      linarith
  have t : |R.fl x - (m : ℝ) * 2 ^ a| ≤ |R.fl x - x| + |x - (m : ℝ) * 2 ^ a| := by
    have := abs_add_le (R.fl x - x) (x - (m : ℝ) * 2 ^ a)
    rwa [sub_add_sub_cancel] at this
  rw [abs_sub_comm] at hx
  rw [abs_sub_comm x] at t
  linarith

/-- floating-point numbers are not changed -/
theorem Nearest.exact {R : Rounding} {p : ℕ} (hR : Nearest R p) {x : ℝ} (hx : Representable p x) : R.fl x = x := by
  have := hR.best x x hx
  rw [sub_self, abs_zero] at this
  have := abs_nonpos_iff.1 this
  linarith

theorem representable_nat {p k : ℕ} (h : k < 2 ^ (p + 1)) : Representable p k :=
  ⟨k, 0, by rw [Nat.abs_cast]; exact_mod_cast h, by simp⟩

/-- rounding to nearest with ties upwards is rounding to nearest -/
theorem binary_nearest (p : ℕ) : Nearest (Rounding.binary p) p := by
  have key : ∀ x : ℝ, x ≠ 0 → ∃ e : ℤ, (2 : ℝ) ^ (p + e) ≤ |x| ∧ |x| < 2 ^ (p + e + 1) ∧
      (Rounding.binary p).fl x = (round (x / 2 ^ e) : ℝ) * 2 ^ e := by
    intro x hx
    refine ⟨Int.log 2 |x| - p, ?_, ?_, rfl⟩
    · rw [add_sub_cancel]
      simpa using Int.zpow_log_le_self (b := 2) (by norm_num) (abs_pos.2 hx)
    · rw [add_sub_cancel]
      simpa using Int.lt_zpow_succ_log_self (b := 2) (by norm_num) |x|
  constructor
  · intro x
    rcases eq_or_ne x 0 with rfl | hx
    · exact ⟨0, 0, by simp, by rw [Rounding.fl_zero]; simp⟩
    · obtain ⟨e, h1, h2, h3⟩ := key x hx
      rw [h3]
      have hs : (0 : ℝ) < 2 ^ e := zpow_pos (by norm_num) _
      have hb : |x / 2 ^ e| < 2 ^ (p + 1) := by
        rw [abs_div, abs_of_pos hs, div_lt_iff₀ hs]
        refine h2.trans_eq ?_
        rw [← zpow_natCast, ← zpow_add₀ (by norm_num)]
        congr 1
        push_cast
        ring
      have hr : |round (x / 2 ^ e)| ≤ 2 ^ (p + 1) := by
        rw [abs_lt] at hb
        rw [abs_le]
        constructor
        · have : round (((-(2 ^ (p + 1)) : ℤ)) : ℝ) ≤ round (x / (2 : ℝ) ^ e) := by
            rw [round_eq, round_eq]
            apply Int.floor_le_floor
            push_cast
            linarith
          rwa [round_intCast] at this
        · have : round (x / (2 : ℝ) ^ e) ≤ round ((((2 ^ (p + 1)) : ℤ)) : ℝ) := by
            rw [round_eq, round_eq]
            apply Int.floor_le_floor
            push_cast
            linarith
          rwa [round_intCast] at this
      rcases hr.lt_or_eq with h | h
      · exact ⟨_, e, h, rfl⟩
      · have h' : round (x / 2 ^ e) = 2 ^ (p + 1) ∨ round (x / 2 ^ e) = -2 ^ (p + 1) := by
          rcases abs_choice (round (x / (2 : ℝ) ^ e)) with q | q <;> rw [q] at h
          · exact Or.inl h
          · right; omega
        have e2 : (2 : ℝ) ^ (p + 1) * 2 ^ e = 2 ^ ((p : ℤ) + 1 + e) := by
          rw [← zpow_natCast, ← zpow_add₀ (by norm_num)]
          push_cast
          rfl
        have one : |(1 : ℤ)| < 2 ^ (p + 1) := by
          rw [abs_one, pow_succ]
          have : (1 : ℤ) ≤ 2 ^ p := one_le_pow₀ (by norm_num)
          linarith
        rcases h' with q | q
        · exact ⟨1, (p : ℤ) + 1 + e, one, by rw [q, ← e2]; push_cast; ring⟩
        · exact ⟨-1, (p : ℤ) + 1 + e, by rwa [abs_neg], by rw [q, ← e2]; push_cast; ring⟩
  · intro x y hy
    rcases eq_or_ne x 0 with rfl | hx
    · rw [Rounding.fl_zero]; simp
    · obtain ⟨e, h1, h2, h3⟩ := key x hx
      rw [h3]
      have hs : (0 : ℝ) < 2 ^ e := zpow_pos (by norm_num) _
      have hz : ∀ z : ℤ, |(round (x / 2 ^ e) : ℝ) * 2 ^ e - x| ≤ |(z : ℝ) * 2 ^ e - x| := by
        intro z
        have := round_le (x / 2 ^ e) z
        have t : ∀ w : ℝ, |w * 2 ^ e - x| = |x / 2 ^ e - w| * 2 ^ e := by
          intro w
          rw [show w * 2 ^ e - x = -((x / 2 ^ e - w) * 2 ^ e) by field_simp; ring, abs_neg, abs_mul, abs_of_pos hs]
        rw [t, t]
        gcongr
      obtain ⟨n, b, hn, rfl⟩ := hy
      rcases le_or_gt e b with hb | hb
      · obtain ⟨k, hk⟩ := Int.eq_ofNat_of_zero_le (sub_nonneg.2 hb)
        have := hz (n * 2 ^ k)
        convert this using 3
        rw [show b = (k : ℤ) + e by omega, zpow_add₀ (by norm_num), zpow_natCast]
        push_cast
        ring
      · have hle : |(n : ℝ) * 2 ^ b| ≤ 2 ^ ((p : ℤ) + e) := by
          have pb : (0 : ℝ) < 2 ^ b := zpow_pos (by norm_num) _
          rw [abs_mul, abs_of_pos pb]
          calc |(n : ℝ)| * 2 ^ b ≤ 2 ^ (p + 1) * 2 ^ (e - 1) := by
                have h1 : |(n : ℝ)| ≤ 2 ^ (p + 1) := (lt_bound hn).trans (by linarith)
                have h2 : (2 : ℝ) ^ b ≤ 2 ^ (e - 1) := zpow_le_zpow_right₀ (by norm_num) (by omega)
                exact mul_le_mul h1 h2 pb.le (by positivity)
            _ = 2 ^ ((p : ℤ) + e) := by
                rw [← zpow_natCast, ← zpow_add₀ (by norm_num)]
                congr 1
                push_cast
                ring
        have tri : |x| - |(n : ℝ) * 2 ^ b| ≤ |(n : ℝ) * 2 ^ b - x| := by
          rw [abs_sub_comm]
          exact abs_sub_abs_le_abs_sub _ _
        have split : (2 : ℝ) ^ ((p : ℤ) + e) = ((2 ^ p : ℤ) : ℝ) * 2 ^ e := by
          rw [zpow_add₀ (by norm_num), zpow_natCast]
          push_cast
          rfl
        have pos : (0 : ℝ) < 2 ^ ((p : ℤ) + e) := zpow_pos (by norm_num) _
        rcases le_total 0 x with h | h
        · refine (hz (2 ^ p)).trans (le_trans ?_ tri)
          rw [← split, abs_of_nonpos (by rw [abs_of_nonneg h] at h1; linarith)]
          rw [abs_of_nonneg h] at *
          linarith
        · refine (hz (-2 ^ p)).trans (le_trans ?_ tri)
          rw [Int.cast_neg, neg_mul, ← split, abs_of_nonneg (by rw [abs_of_nonpos h] at h1; linarith)]
          rw [abs_of_nonpos h] at *
          linarith

/-- relative error of rounding to nearest -/
theorem Nearest.err {R : Rounding} {p : ℕ} (hR : Nearest R p) (x : ℝ) : |R.fl x - x| ≤ (2 : ℝ)⁻¹ ^ (p + 1) * |x| :=
  (hR.best x _ ((binary_nearest p).rep x)).trans ((Rounding.binary p).err x)

end Proofs
end Rfsed
