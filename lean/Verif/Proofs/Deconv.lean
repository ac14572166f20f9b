import Verif.Model.Deconv
import Verif.Proofs.Fft
import Verif.Proofs.ExceptList
import Mathlib.Tactic.Ring

/-! Facts about the deconvolution model. -/

namespace Rfsed
open Finset

/-! ## `nextPow2`, slices -/

theorem nextPow2_zero : nextPow2 0 = 0 := rfl
theorem nextPow2_one : nextPow2 1 = 1 := by simp [nextPow2]

theorem nextPow2_pos {n : Nat} (h : 0 < n) : nextPow2 n = 2 ^ Nat.clog 2 n := by
  unfold nextPow2; rw [if_neg (by omega)]

theorem le_nextPow2 (n : Nat) : n ≤ nextPow2 n := by
  unfold nextPow2
  split
  · omega
  · exact Nat.le_pow_clog (by norm_num) n

theorem nextPow2_even {n : Nat} (h : 2 ≤ n) : ∃ k, 1 ≤ k ∧ nextPow2 n = 2 * k := by
  rw [nextPow2_pos (by omega)]
  have : 0 < Nat.clog 2 n := Nat.clog_pos (by norm_num) h
  obtain ⟨m, hm⟩ := Nat.exists_eq_succ_of_ne_zero this.ne'
  rw [hm, Nat.succ_eq_add_one, pow_succ]
  exact ⟨2 ^ m, Nat.one_le_two_pow, by ring⟩

theorem nextPow2_idem (n : Nat) : nextPow2 (nextPow2 n) = nextPow2 n := by
  by_cases h : n = 0
  · subst h; rfl
  · rw [nextPow2_pos (n := n) (by omega), nextPow2_pos (by positivity), Nat.clog_pow _ _ (by norm_num)]

theorem nextPow2_lt {n : Nat} (h : 0 < n) : nextPow2 n < 2 * n := by
  rcases Nat.lt_or_ge 1 n with h1 | h1
  · rw [nextPow2_pos h]
    have h2 := Nat.clog_pos (b := 2) (by norm_num) h1
    have h3 := Nat.pow_pred_clog_lt_self (b := 2) (by norm_num) h1
    obtain ⟨m, hm⟩ := Nat.exists_eq_succ_of_ne_zero h2.ne'
    rw [hm] at h3 ⊢
    simp only [Nat.pred_succ, Nat.succ_eq_add_one, pow_succ] at h3 ⊢
    omega
  · have : n = 1 := by omega
    subst this; rw [nextPow2_one]; omega

theorem setSlice_eq {α : Type} (a : List α) {lo hi : Nat} {v : List α} (h1 : lo ≤ hi)
    (h2 : hi ≤ a.length) (h3 : v.length = hi - lo) :
    setSlice a lo hi v = .ok (a.take lo ++ v ++ a.drop hi) := by
  unfold setSlice
  simp only [min_eq_left h2, min_eq_left h1, h3, if_true]

theorem setSlice_ok {α : Type} {a : List α} {hi : Nat} {v b : List α} (h2 : hi ≤ a.length)
    (h : setSlice a 0 hi v = .ok b) : b.length = a.length ∧
      (v.length = hi ∨ v.length = 1) := by
  unfold setSlice at h
  simp only [min_eq_left h2, Nat.zero_le, min_eq_left, Nat.sub_zero] at h
  split at h
  · rename_i h3
    cases h
    refine ⟨?_, Or.inl h3⟩
    simp; omega
  · split at h
    · cases h
      refine ⟨?_, Or.inr rfl⟩
      simp; omega
    · cases h

theorem getD_append_lt {α : Type} (a b : List α) (d : α) {i : Nat} (h : i < a.length) :
    (a ++ b).getD i d = a.getD i d := by
  simp [List.getD_eq_getElem?_getD, List.getElem?_append_left h]

theorem getD_append_ge {α : Type} (a b : List α) (d : α) {i : Nat} (h : a.length ≤ i) :
    (a ++ b).getD i d = b.getD (i - a.length) d := by
  simp [List.getD_eq_getElem?_getD, List.getElem?_append_right h]

/-! ## cyclic sums -/

theorem cyc_cyc_add {n : Nat} (hn : 0 < n) (a b : ℤ) : cyc n (cyc n a + b) = cyc n (a + b) := by
  apply cyc_congr
  rw [cyc_cast hn]
  have : a % n + b - (a + b) = -(a - a % n) := by ring
  rw [this]
  exact (Int.dvd_neg).2 Int.dvd_self_sub_emod

theorem cyc_neg_cyc {n : Nat} (hn : 0 < n) (a : ℤ) : cyc n (-(cyc n a : ℤ)) = cyc n (-a) := by
  apply cyc_congr
  rw [cyc_cast hn]
  have : -(a % n) - -a = a - a % n := by ring
  rw [this]
  exact Int.dvd_self_sub_emod

theorem sum_cyc_add {R : Type} [AddCommMonoid R] {n : Nat} (hn : 0 < n) (s : ℤ) (f : Nat → R) :
    ∑ m ∈ range n, f (cyc n (m + s)) = ∑ m ∈ range n, f m := by
  refine Finset.sum_bij (fun m _ => cyc n (m + s)) (fun m _ => mem_range.2 (cyc_lt hn _)) ?_ ?_ ?_
  · intro a ha b hb h
    have := congrArg (fun x : Nat => cyc n ((x : ℤ) + (-s))) h
    simp only [cyc_cyc_add hn] at this
    rw [show (a : ℤ) + s + -s = a by ring, show (b : ℤ) + s + -s = b by ring,
      cyc_of_lt (mem_range.1 ha), cyc_of_lt (mem_range.1 hb)] at this
    exact this
  · intro b hb
    refine ⟨cyc n (b + (-s)), mem_range.2 (cyc_lt hn _), ?_⟩
    rw [cyc_cyc_add hn, show (b : ℤ) + -s + s = b by ring, cyc_of_lt (mem_range.1 hb)]
  · intro a _; rfl

theorem sum_cyc_neg {R : Type} [AddCommMonoid R] {n : Nat} (hn : 0 < n) (f : Nat → R) :
    ∑ m ∈ range n, f (cyc n (-(m : ℤ))) = ∑ m ∈ range n, f m := by
  refine Finset.sum_bij (fun m _ => cyc n (-(m : ℤ))) (fun m _ => mem_range.2 (cyc_lt hn _)) ?_ ?_ ?_
  · intro a ha b hb h
    have := congrArg (fun x : Nat => cyc n (-(x : ℤ))) h
    simp only [cyc_neg_cyc hn, neg_neg] at this
    rw [cyc_of_lt (mem_range.1 ha), cyc_of_lt (mem_range.1 hb)] at this
    exact this
  · intro b hb
    refine ⟨cyc n (-(b : ℤ)), mem_range.2 (cyc_lt hn _), ?_⟩
    rw [cyc_neg_cyc hn, neg_neg, cyc_of_lt (mem_range.1 hb)]
  · intro a _; rfl

/-- the inverse DFT of a real even spectrum is real -/
theorem idft_real_even {n : Nat} (hn : 0 < n) (g : Nat → ℝ)
    (hg : ∀ k < n, g (cyc n (-(k : ℤ))) = g k) (m : Nat) :
    idft n (fun k => (g k : ℂ)) m = ((idft n (fun k => (g k : ℂ)) m).re : ℂ) := by
  symm
  rw [← Complex.conj_eq_iff_re]
  unfold idft
  rw [map_div₀, map_natCast, map_sum]
  congr 1
  rw [← sum_cyc_neg hn]
  apply sum_congr rfl
  intro k hk
  rw [map_mul, Complex.conj_ofReal, W_conj, hg k (mem_range.1 hk)]
  congr 1
  have h1 : -((m : ℤ) * (cyc n (-(k : ℤ)) : ℤ)) = (cyc n (-(k : ℤ)) : ℤ) * (-m) := by ring
  rw [h1, W_cyc hn]
  congr 1
  ring

end Rfsed
