import Verif.Proofs.PostCritical
import Verif.Proofs.Seq
import Verif.Proofs.Variants2
import Verif.Spec.PostCritical

/-! # Delay times of the sequential stackings at post-critical slownesses -/

namespace Rfsed
open PyFloat Spec

namespace HkZhu
variable {F : Type} [PyFloat F]

theorem nanTime_add_left [IEEENaN F] {x y : PyNum F} (h : NaNTime x) : NaNTime (PyNum.add x y) := by
  cases x <;> cases y <;> exact IEEENaN.add_nan_left _ _ h
theorem nanTime_add_right [IEEENaN F] {x y : PyNum F} (h : NaNTime y) : NaNTime (PyNum.add x y) := by
  cases x <;> cases y <;> exact IEEENaN.add_nan_right _ _ h

theorem mohoTimes_formula {VpS vm : Scalar F} {kd : Kind} {rp H1 K1 x k : F} {ts : PyNum F × PyNum F × PyNum F}
    (h : HkSeqYeck.mohoTimes VpS (some vm) kd rp H1 K1 x k = .ok ts) :
    let s1 := powHalf (square (K1 / VpS.val) - square rp)
    let p1 := powHalfK (VpS.kind.join kd) (square (one / VpS.val) - square rp)
    let s2 := powHalf (square (k / vm.val) - square rp)
    let p2 := powHalfK (vm.kind.join kd) (square (one / vm.val) - square rp)
    ts = (PyNum.add (PyNum.rmul H1 (PyNum.rsub s1 p1)) (PyNum.rmul x (PyNum.rsub s2 p2)),
      PyNum.add (PyNum.rmul H1 (PyNum.radd s1 p1)) (PyNum.rmul x (PyNum.radd s2 p2)),
      PyNum.real (two * H1 * s1 + two * x * s2)) := by
  unfold HkSeqYeck.mohoTimes at h
  obtain ⟨a, ha, h⟩ := bind_eq_ok.1 h
  simp only [HkSeqYeck.need, except_ok_bind] at h
  obtain ⟨b, hb, h⟩ := bind_eq_ok.1 h
  rw [← oneOver_ok ha, ← oneOver_ok hb]
  cases h; rfl

/-- an S leg post-critical, in the sediment or in the crust -/
theorem mohoTimes_postS [IEEENaN F] {VpS vm : Scalar F} {kd : Kind} {rp H1 K1 x k : F}
    {ts : PyNum F × PyNum F × PyNum F}
    (h : HkSeqYeck.mohoTimes VpS (some vm) kd rp H1 K1 x k = .ok ts)
    (hpost : lt (square (K1 / VpS.val) - square rp) zero = true ∨ lt (square (k / vm.val) - square rp) zero = true) :
    NaNTime ts.1 ∧ NaNTime ts.2.1 ∧ NaNTime ts.2.2 := by
  rw [mohoTimes_formula h]
  rcases hpost with hp | hp
  · have hn := IEEENaN.powHalf_neg _ hp
    exact ⟨nanTime_add_left (nanTime_rmul (nanTime_rsub hn)), nanTime_add_left (nanTime_rmul (nanTime_radd hn)),
      IEEENaN.add_nan_left _ _ (IEEENaN.mul_nan_right _ _ hn)⟩
  · have hn := IEEENaN.powHalf_neg _ hp
    exact ⟨nanTime_add_right (nanTime_rmul (nanTime_rsub hn)), nanTime_add_right (nanTime_rmul (nanTime_radd hn)),
      IEEENaN.add_nan_right _ _ (IEEENaN.mul_nan_right _ _ hn)⟩

end HkZhu

namespace NReal
open HkZhu

/-- `x` is a number whose real part is `t` -/
def HasRe (x : PyNum NReal) (t : ℝ) : Prop := x = .real (num t) ∨ ∃ im : ℝ, x = .cplx (num t) (num im)

theorem hasRe_rsub {x : PyNum NReal} {t : ℝ} (a : ℝ) (h : HasRe x t) : HasRe (PyNum.rsub (num a) x) (a - t) := by
  rcases h with rfl | ⟨im, rfl⟩
  · left; simp [PyNum.rsub]
  · right; exact ⟨-im, by simp only [PyNum.rsub, nreal_sub]; rfl⟩
theorem hasRe_radd {x : PyNum NReal} {t : ℝ} (a : ℝ) (h : HasRe x t) : HasRe (PyNum.radd (num a) x) (a + t) := by
  rcases h with rfl | ⟨im, rfl⟩
  · left; simp [PyNum.radd]
  · right; exact ⟨im, by simp only [PyNum.radd, nreal_add]⟩
theorem hasRe_rmul {x : PyNum NReal} {t : ℝ} (a : ℝ) (h : HasRe x t) : HasRe (PyNum.rmul (num a) x) (a * t) := by
  rcases h with rfl | ⟨im, rfl⟩
  · left; simp [PyNum.rmul]
  · right; exact ⟨a * im, by simp only [PyNum.rmul, nreal_mul]⟩
theorem hasRe_add {x y : PyNum NReal} {s t : ℝ} (h : HasRe x s) (h' : HasRe y t) : HasRe (PyNum.add x y) (s + t) := by
  rcases h with rfl | ⟨im, rfl⟩ <;> rcases h' with rfl | ⟨im', rfl⟩
  · left; simp [PyNum.add, PyNum.radd]
  · right; exact ⟨im', by simp only [PyNum.add, PyNum.radd, nreal_add]⟩
  · right; exact ⟨im, by simp only [PyNum.add, nreal_add]⟩
  · right; exact ⟨im + im', by simp only [PyNum.add, nreal_add]⟩

theorem getamp_hasRe {d axis : List NReal} (hax : ∀ a ∈ axis, IsNum a) {x : PyNum NReal} {t : ℝ} {a : NReal}
    (hx : HasRe x t) (h : getamp d axis x = .ok a) : ReadsNearest d axis (num t) a := by
  rcases hx with rfl | ⟨im, rfl⟩
  · exact getamp_num hax h
  · exact getamp_cplx hax h

theorem join_py {a b : Kind} (h : ¬ (a = .np ∨ b = .np)) : a.join b = .py := by
  cases a <;> cases b <;> simp_all [Kind.join]
theorem join_np {a b : Kind} (h : a = .np ∨ b = .np) : a.join b = .np := by
  cases a <;> cases b <;> simp_all [Kind.join]

/-- the P slowness, unless it is lost -/
theorem powHalfK_kept {kv kr : Kind} {p v : ℝ} (h : ¬ LostP kv kr p v) :
    HasRe (powHalfK (kv.join kr) (num ((1 / v) ^ 2 - p ^ 2))) (realP p v) := by
  unfold realP
  by_cases hp : p ^ 2 ≤ (1 / v) ^ 2
  · rw [if_pos hp, eta_one]
    left
    have hge : PyFloat.lt (num ((1 / v) ^ 2 - p ^ 2)) (PyFloat.zero : NReal) = false := by
      rw [← Bool.not_eq_true, nreal_zero, nreal_lt]; linarith
    have := nreal_powHalf _ (show 0 ≤ (1 / v) ^ 2 - p ^ 2 by linarith)
    cases kv.join kr <;> simp only [powHalfK, hge, Bool.false_eq_true, if_false, this]
  · rw [if_neg hp]
    push Not at hp
    have hk : kv.join kr = .py := join_py fun hk => h ⟨hp, hk⟩
    have hlt : PyFloat.lt (num ((1 / v) ^ 2 - p ^ 2)) (PyFloat.zero : NReal) = true := by
      rw [nreal_zero, nreal_lt]; linarith
    right
    rw [hk]
    refine ⟨Real.sqrt (-((1 / v) ^ 2 - p ^ 2)), by simp only [powHalfK, hlt, if_true, nreal_powHalfCplx]⟩

theorem powHalfK_lost {kv kr : Kind} {p v : ℝ} (h : LostP kv kr p v) :
    NaNTime (powHalfK (kv.join kr) (num ((1 / v) ^ 2 - p ^ 2)) : PyNum NReal) := by
  rw [join_np h.2]
  refine IEEENaN.powHalf_neg _ ?_
  rw [nreal_zero, nreal_lt]
  linarith [h.1]

/-- the sediment stage (and the single-layer stackings) -/
theorem weigh_sed {Vp : Scalar NReal} {kd : Kind} {p vp x k : ℝ} {w1 w2 w3 v : NReal}
    {d t : List NReal} {ts : PyNum NReal × PyNum NReal × PyNum NReal} (hvp : Vp.val = num vp)
    (h0 : vp ≠ 0) (hax : ∀ a ∈ t, IsNum a)
    (hts : bestTimes Vp kd (num p) (num x) (num k) = .ok ts) (hw : weigh w1 w2 w3 d t ts = .ok v)
    (hS : p ^ 2 ≤ (k / vp) ^ 2) :
    (LostP Vp.kind kd p vp → FirstTwice w1 w2 w3 d t (num (2 * x * eta p (vp / k))) (v + PyFloat.zero)) ∧
    (¬ LostP Vp.kind kd p vp → NearestThrice w1 w2 w3 d t (num (x * (eta p (vp / k) - realP p vp)))
      (num (x * (eta p (vp / k) + realP p vp))) (num (2 * x * eta p (vp / k))) (v + PyFloat.zero)) := by
  have he := bestTimes_ok hts
  rw [hvp, nreal_one, nreal_div _ _ h0, nreal_div _ _ h0, nreal_square, nreal_square,
    nreal_square, nreal_sub, nreal_sub, nreal_powHalf _ (by linarith), ← eta_ratio] at he
  simp only [nreal_two, nreal_mul] at he
  obtain ⟨a1, a2, a3, e1, e2, e3, hval⟩ := weigh_ok.1 hw
  constructor
  · intro hl
    have hn := powHalfK_lost hl
    have n1 : NaNTime ts.1 := by rw [he]; exact nanTime_rmul (nanTime_rsub' hn)
    have n2 : NaNTime ts.2.1 := by rw [he]; exact nanTime_rmul (nanTime_radd' hn)
    obtain ⟨d0, b3, hd0, hb3, hval⟩ := weigh_nan2 (weigh_axis_ne hw) hw n1 n2
    refine ⟨d0, b3, hd0, ?_, by rw [hval]⟩
    rw [he] at hb3
    rw [mul_comm 2 x]
    exact getamp_num hax hb3
  · intro hl
    have hk := powHalfK_kept hl
    rw [he] at e1 e2 e3
    refine ⟨a1, a2, a3, getamp_hasRe hax (hasRe_rmul _ (hasRe_rsub _ hk)) e1,
      getamp_hasRe hax (hasRe_rmul _ (hasRe_radd _ hk)) e2, ?_, by rw [hval]⟩
    rw [mul_comm 2 x]
    exact getamp_num hax e3

/-- the Moho stage -/
theorem weigh_moho {VpS vm : Scalar NReal} {kd : Kind} {p vs v H1 K1 x k : ℝ} {w1 w2 w3 u : NReal}
    {d t : List NReal} {ts : PyNum NReal × PyNum NReal × PyNum NReal} (hvs : VpS.val = num vs)
    (h0 : vs ≠ 0) (hvm : vm.val = num v) (h0' : v ≠ 0) (hax : ∀ a ∈ t, IsNum a)
    (hts : HkSeqYeck.mohoTimes VpS (some vm) kd (num p) (num H1) (num K1) (num x) (num k) = .ok ts)
    (hw : weigh w1 w2 w3 d t ts = .ok u)
    (hS : p ^ 2 ≤ (K1 / vs) ^ 2) (hS' : p ^ 2 ≤ (k / v) ^ 2) :
    (LostP VpS.kind kd p vs ∨ LostP vm.kind kd p v →
      FirstTwice w1 w2 w3 d t (num (2 * H1 * eta p (vs / K1) + 2 * x * eta p (v / k))) (u + PyFloat.zero)) ∧
    (¬ LostP VpS.kind kd p vs → ¬ LostP vm.kind kd p v → NearestThrice w1 w2 w3 d t
      (num (H1 * (eta p (vs / K1) - realP p vs) + x * (eta p (v / k) - realP p v)))
      (num (H1 * (eta p (vs / K1) + realP p vs) + x * (eta p (v / k) + realP p v)))
      (num (2 * H1 * eta p (vs / K1) + 2 * x * eta p (v / k))) (u + PyFloat.zero)) := by
  have he := mohoTimes_formula hts
  rw [hvs, hvm, nreal_one, nreal_div _ _ h0, nreal_div _ _ h0, nreal_div _ _ h0', nreal_div _ _ h0'] at he
  simp only [nreal_square, nreal_sub, nreal_powHalf _ (show 0 ≤ (K1 / vs) ^ 2 - p ^ 2 by linarith),
    nreal_powHalf _ (show 0 ≤ (k / v) ^ 2 - p ^ 2 by linarith), ← eta_ratio, nreal_two, nreal_mul, nreal_add] at he
  obtain ⟨a1, a2, a3, e1, e2, e3, hval⟩ := weigh_ok.1 hw
  constructor
  · intro hl
    have n1 : NaNTime ts.1 := by
      rw [he]
      rcases hl with hl | hl
      · exact nanTime_add_left (nanTime_rmul (nanTime_rsub' (powHalfK_lost hl)))
      · exact nanTime_add_right (nanTime_rmul (nanTime_rsub' (powHalfK_lost hl)))
    have n2 : NaNTime ts.2.1 := by
      rw [he]
      rcases hl with hl | hl
      · exact nanTime_add_left (nanTime_rmul (nanTime_radd' (powHalfK_lost hl)))
      · exact nanTime_add_right (nanTime_rmul (nanTime_radd' (powHalfK_lost hl)))
    obtain ⟨d0, b3, hd0, hb3, hval⟩ := weigh_nan2 (weigh_axis_ne hw) hw n1 n2
    refine ⟨d0, b3, hd0, ?_, by rw [hval]⟩
    rw [he] at hb3
    exact getamp_num hax hb3
  · intro hl hl'
    have hk := powHalfK_kept hl
    have hk' := powHalfK_kept hl'
    rw [he] at e1 e2 e3
    exact ⟨a1, a2, a3,
      getamp_hasRe hax (hasRe_add (hasRe_rmul _ (hasRe_rsub _ hk)) (hasRe_rmul _ (hasRe_rsub _ hk'))) e1,
      getamp_hasRe hax (hasRe_add (hasRe_rmul _ (hasRe_radd _ hk)) (hasRe_rmul _ (hasRe_radd _ hk'))) e2,
      getamp_num hax e3, by rw [hval]⟩

end NReal
end Rfsed
