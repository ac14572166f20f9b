import Verif.Spec.Window
import Verif.Proofs.HkMore
import Verif.Proofs.Variants2
import Verif.Props.DelayTimes
import Verif.Props.Plot

/-!
# Lemmas for C94: which samples are read
-/

namespace Rfsed
open PyFloat Spec

theorem timeAxis_get (dt pre : ℝ) (l i : Nat) :
    (timeAxis dt pre l)[i]? = if i < l then some (dt * i - pre) else none := by
  unfold timeAxis
  rw [List.getElem?_map]
  split
  · rename_i h
    simp [List.getElem?_range h]
  · rename_i h
    rw [List.getElem?_eq_none (by simpa using h)]; rfl

/-- on a regular axis that contains `t`, the sample read is the one in the half-open interval of one sampling
interval around `t` -/
theorem nearest_timeAxis {dt pre t T : ℝ} {l i : Nat} (hdt : 0 < dt) (hc : CoversTo dt pre T l) (h0 : 0 ≤ t)
    (hT : t ≤ T) :
    NearestSample (timeAxis dt pre l) t i ↔ t - dt / 2 ≤ dt * i - pre ∧ dt * i - pre < t + dt / 2 := by
  obtain ⟨hp, hl⟩ := hc
  constructor
  · rintro ⟨x, hx, h1, h2⟩
    rw [timeAxis_get] at hx
    split at hx
    · rename_i hi
      cases hx
      constructor
      · by_contra hlt
        push Not at hlt
        have hi1 : i + 1 < l := by
          by_contra hc
          have : l = i + 1 := by omega
          subst this
          push_cast at hl
          nlinarith
        have := h1 (i + 1) _ (by rw [timeAxis_get, if_pos hi1])
        rw [real_le, real_abs, real_abs] at this
        push_cast at this
        rw [abs_of_neg (by linarith : dt * (i : ℝ) - pre - t < 0)] at this
        rcases abs_cases (dt * ((i : ℝ) + 1) - pre - t) with ⟨e, _⟩ | ⟨e, _⟩ <;> rw [e] at this <;> nlinarith
      · by_contra hge
        push Not at hge
        have hi0 : 0 < i := by
          rcases Nat.eq_zero_or_pos i with rfl | h
          · simp at hge; linarith
          · exact h
        obtain ⟨m, rfl⟩ : ∃ m, i = m + 1 := ⟨i - 1, by omega⟩
        have := h2 m _ (by omega) (by rw [timeAxis_get, if_pos (by omega)])
        rw [real_lt, real_abs, real_abs] at this
        push_cast at this hge
        rw [abs_of_nonneg (by linarith : 0 ≤ dt * ((m : ℝ) + 1) - pre - t)] at this
        rcases abs_cases (dt * (m : ℝ) - pre - t) with ⟨e, _⟩ | ⟨e, _⟩ <;> rw [e] at this <;> nlinarith
    · cases hx
  · rintro ⟨h1, h2⟩
    have hi : i < l := by
      by_contra hc
      have : (l : ℝ) ≤ i := by exact_mod_cast Nat.le_of_not_lt hc
      nlinarith
    have habs : |dt * (i : ℝ) - pre - t| ≤ dt / 2 := abs_le.2 ⟨by linarith, by linarith⟩
    refine ⟨dt * i - pre, by rw [timeAxis_get, if_pos hi], ?_, ?_⟩
    · intro j y hy
      rw [timeAxis_get] at hy
      split at hy
      · cases hy
        rw [real_le, real_abs, real_abs]
        rcases Nat.lt_trichotomy j i with h | rfl | h
        · have : (j : ℝ) + 1 ≤ i := by exact_mod_cast h
          have : dt * ((j : ℝ) + 1) ≤ dt * i := mul_le_mul_of_nonneg_left this hdt.le
          refine le_trans habs (le_trans ?_ (neg_le_abs _))
          linarith
        · exact le_refl _
        · have : (i : ℝ) + 1 ≤ j := by exact_mod_cast h
          have : dt * ((i : ℝ) + 1) ≤ dt * j := mul_le_mul_of_nonneg_left this hdt.le
          refine le_trans habs (le_trans ?_ (le_abs_self _))
          linarith
      · cases hy
    · intro j y hj hy
      rw [timeAxis_get] at hy
      split at hy
      · cases hy
        rw [real_lt, real_abs, real_abs]
        have : (j : ℝ) + 1 ≤ i := by exact_mod_cast hj
        have : dt * ((j : ℝ) + 1) ≤ dt * i := mul_le_mul_of_nonneg_left this hdt.le
        refine lt_of_le_of_lt habs (lt_of_lt_of_le ?_ (neg_le_abs _))
        linarith
      · cases hy

theorem readsNearest_window {dt pre pre' t T a : ℝ} {l l' : Nat} {d d' : List ℝ} (hdt : 0 < dt)
    (hc : CoversTo dt pre T l) (hc' : CoversTo dt pre' T l') (hal : Aligned dt pre pre')
    (hd : SameWindow dt pre pre' T d d') (h0 : 0 ≤ t) (hT : t ≤ T)
    (h : ReadsNearest d (timeAxis dt pre l) t a) : ReadsNearest d' (timeAxis dt pre' l') t a := by
  obtain ⟨i, hi, ha⟩ := h
  obtain ⟨n, hn⟩ := hal
  have hb := (nearest_timeAxis hdt hc h0 hT).1 hi
  -- the corresponding sample
  have hpos : 0 ≤ (i : ℤ) + n := by
    by_contra hneg
    push Not at hneg
    have : (i : ℤ) + n + 1 ≤ 0 := by omega
    have : ((i : ℝ) + n + 1) ≤ 0 := by exact_mod_cast this
    have := hc'.1
    nlinarith [hb.1]
  obtain ⟨j, hj⟩ := Int.eq_ofNat_of_zero_le hpos
  have hjr : (j : ℝ) = i + n := by
    have : ((j : ℤ) : ℝ) = ((i : ℤ) + n : ℤ) := by rw [hj]
    push_cast at this
    exact this
  have e : dt * (i : ℝ) - pre = dt * j - pre' := by rw [hjr, hn]; ring
  refine ⟨j, (nearest_timeAxis hdt hc' h0 hT).2 (by rw [← e]; exact hb), ?_⟩
  rw [← hd i j e (by linarith [hb.1]) (by linarith [hb.2])]
  exact ha

theorem SameWindow.symm {dt pre pre' T : ℝ} {d d' : List ℝ} (h : SameWindow dt pre pre' T d d') :
    SameWindow dt pre' pre T d' d := by
  intro i j e h1 h2
  rw [h j i e.symm (by rw [← e]; exact h1) (by rw [← e]; exact h2)]

theorem Aligned.symm {dt pre pre' : ℝ} (h : Aligned dt pre pre') : Aligned dt pre' pre := by
  obtain ⟨n, rfl⟩ := h
  exact ⟨-n, by push_cast; ring⟩

/-- all delay times of a grid point lie between 0 and `2 H K / Vp` -/
theorem delay_range {p Vp x k T : ℝ} (hVp : 0 < Vp) (hx : 0 ≤ x) (hk : 1 ≤ k) (hT : 2 * x * k / Vp ≤ T) :
    (0 ≤ tPs p Vp x k ∧ tPs p Vp x k ≤ T) ∧ (0 ≤ tPpPs p Vp x k ∧ tPpPs p Vp x k ≤ T) ∧
      (0 ≤ tPsPs p Vp x k ∧ tPsPs p Vp x k ≤ T) := by
  obtain ⟨h1, h2, h3, h4⟩ := Props.c08_ordered_additive p Vp x k hVp hx hk
  have h5 : tPsPs p Vp x k ≤ T := by
    refine le_trans ?_ hT
    unfold tPsPs
    rw [mul_div_assoc]
    apply mul_le_mul_of_nonneg_left _ (by positivity)
    rw [Props.eta_sq_ratio]
    apply Real.sqrt_le_iff.2
    refine ⟨by positivity, ?_⟩
    nlinarith [sq_nonneg p]
  exact ⟨⟨h1, by linarith⟩, ⟨by linarith, by linarith⟩, by linarith, h5⟩

namespace HkZhu

theorem stackValue_window {dt pre pre' T p Vp x k w1 w2 w3 v : ℝ} {l l' : Nat} {d d' : List ℝ} (hdt : 0 < dt)
    (hc : CoversTo dt pre T l) (hc' : CoversTo dt pre' T l') (hal : Aligned dt pre pre')
    (hd : SameWindow dt pre pre' T d d') (hVp : 0 < Vp) (hx : 0 ≤ x) (hk : 1 ≤ k) (hT : 2 * x * k / Vp ≤ T)
    (h : StackValue w1 w2 w3 d (timeAxis dt pre l) (tPs p Vp x k) (tPpPs p Vp x k) (tPsPs p Vp x k) v) :
    StackValue w1 w2 w3 d' (timeAxis dt pre' l') (tPs p Vp x k) (tPpPs p Vp x k) (tPsPs p Vp x k) v := by
  obtain ⟨⟨a1, a2⟩, ⟨b1, b2⟩, c1, c2⟩ := delay_range (p := p) hVp hx hk hT
  obtain ⟨y1, y2, y3, g1, g2, g3, e⟩ := h
  exact ⟨y1, y2, y3, readsNearest_window hdt hc hc' hal hd a1 a2 g1, readsNearest_window hdt hc hc' hal hd b1 b2 g2,
    readsNearest_window hdt hc hc' hal hd c1 c2 g3, e⟩

end HkZhu
end Rfsed
