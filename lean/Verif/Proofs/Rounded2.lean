import Verif.Proofs.Rounded
import Verif.Proofs.PostCritical
import Verif.Proofs.Seq
import Verif.Props.Rounding
import Verif.Spec.Rounding2

/-!
# Error analysis of the two-layer delay times
-/

namespace Rfsed
open PyFloat Spec HkZhu
set_option linter.unusedSectionVars false
variable {R : Rounding}

theorem almost_mono {data axis : List ℝ} {t E E' a : ℝ} (h : AlmostReads data axis t E a) (hE : E ≤ E') :
    AlmostReads data axis t E' a := by
  obtain ⟨i, x, h1, h2, h3⟩ := h
  exact ⟨i, x, h1, h2, fun j y hy => by have := h3 j y hy; linarith⟩

/-- the two vertical slownesses of a layer -/
theorem layer_approx_v {e : ℝ} (he : R.u ≤ e) (hu : e ≤ 1 / 1000) {V rp k : FL R} (kd : Kind) {p : ℝ} (hp : |rp.val - p| ≤ e * |p|)
    (hw : WellConditioned e p V.val k.val) :
    powHalfK kd (square ((one : FL R) / V) - square rp) = .real (powHalf (square ((one : FL R) / V) - square rp)) ∧
    |(powHalf (square (k / V) - square rp)).val - eta p (V.val / k.val)| ≤ 5.03 * e * sensitivity p (k.val / V.val) ∧
    |(powHalf (square ((one : FL R) / V) - square rp)).val - eta p V.val| ≤ 5.03 * e * sensitivity p (1 / V.val) ∧
    0 ≤ eta p (V.val / k.val) ∧ eta p (V.val / k.val) ≤ sensitivity p (k.val / V.val) ∧
    0 ≤ eta p V.val ∧ eta p V.val ≤ sensitivity p (1 / V.val) := by
  have q1 : |(k / V).val - k.val / V.val| ≤ e * |k.val / V.val| := R.err_le he _
  have q2 : |((one : FL R) / V).val - 1 / V.val| ≤ e * |1 / V.val| := by
    rw [FL.val_div, FL.val_one]; exact R.err_le he _
  obtain ⟨s1, e1, z1, l1⟩ := slow_approx (R := R.coarse e he) hu q1 hp hw.1
  obtain ⟨s2, e2, z2, l2⟩ := slow_approx (R := R.coarse e he) hu q2 hp hw.2
  have hkk : powHalfK kd (square ((one : FL R) / V) - square rp) =
      .real (powHalf (square ((one : FL R) / V) - square rp)) := by
    cases kd with
    | np => rfl
    | py =>
      unfold powHalfK
      have : lt (square ((one : FL R) / V) - square rp) zero = false := by
        rw [FL.lt_false, FL.val_zero]
        exact s2.le
      rw [this]; rfl
  rw [eta_ratio, eta_one]
  exact ⟨hkk, e1, e2, z1, l1, z2, l2⟩

theorem layer_approx (hu : R.u ≤ 1 / 1000) {V rp k : FL R} (kd : Kind) {p : ℝ} (hp : |rp.val - p| ≤ R.u * |p|)
    (hw : WellConditioned R.u p V.val k.val) :
    powHalfK kd (square ((one : FL R) / V) - square rp) = .real (powHalf (square ((one : FL R) / V) - square rp)) ∧
    |(powHalf (square (k / V) - square rp)).val - eta p (V.val / k.val)| ≤ 5.03 * R.u * sensitivity p (k.val / V.val) ∧
    |(powHalf (square ((one : FL R) / V) - square rp)).val - eta p V.val| ≤ 5.03 * R.u * sensitivity p (1 / V.val) ∧
    0 ≤ eta p (V.val / k.val) ∧ eta p (V.val / k.val) ≤ sensitivity p (k.val / V.val) ∧
    0 ≤ eta p V.val ∧ eta p V.val ≤ sensitivity p (1 / V.val) :=
  layer_approx_v le_rfl hu kd hp hw

/-- rounded sum of two approximations -/
theorem add_approx (hu : R.u ≤ 1 / 1000) {a b x y c S T : ℝ} (hc : 0 ≤ c) (h1 : |a - x| ≤ c * R.u * S)
    (h2 : |b - y| ≤ c * R.u * T) {d : ℝ} (hx : |x| ≤ d * S) (hy : |y| ≤ d * T) (hS : 0 ≤ S) (hT : 0 ≤ T) :
    |R.fl (a + b) - (x + y)| ≤ (1.001 * c + d) * R.u * (S + T) := by
  have h0 := R.u_nonneg
  have g1 : |a + b - (x + y)| ≤ c * R.u * (S + T) := by
    have : a + b - (x + y) = (a - x) + (b - y) := by ring
    rw [this]
    refine (abs_add_le _ _).trans ?_
    linarith
  refine (fl_approx (R := R) g1).trans ?_
  have g2 : |x + y| ≤ d * (S + T) := (abs_add_le _ _).trans (by linarith)
  have g3 := mul_le_mul_of_nonneg_left g2 h0
  have g4 : R.u * (c * R.u * (S + T)) ≤ 1 / 1000 * (c * R.u * (S + T)) :=
    mul_le_mul_of_nonneg_right hu (by positivity)
  nlinarith

/-- the three delay times of the Moho below a sediment -/
theorem mohoTimes_approx_v {e : ℝ} (he : R.u ≤ e) (hu : e ≤ 1 / 1000) {VpS vm : Scalar (FL R)} {kd : Kind} {rp H1 K1 x k : FL R} {p : ℝ}
    {ts : PyNum (FL R) × PyNum (FL R) × PyNum (FL R)} (hp : |rp.val - p| ≤ e * |p|)
    (hw1 : WellConditioned e p VpS.val.val K1.val) (hw2 : WellConditioned e p vm.val.val k.val)
    (h : HkSeqYeck.mohoTimes VpS (some vm) kd rp H1 K1 x k = .ok ts) :
    let S := timeScale p VpS.val.val H1.val K1.val
    let T := timeScale p vm.val.val x.val k.val
    ∃ t1 t2 t3 : FL R, ts = (.real t1, .real t2, .real t3) ∧
      |t1.val - (tPs p VpS.val.val H1.val K1.val + tPs p vm.val.val x.val k.val)| ≤ 14.1 * e * (1.25 * (S + T)) ∧
      |t2.val - (tPpPs p VpS.val.val H1.val K1.val + tPpPs p vm.val.val x.val k.val)| ≤ 14.1 * e * (1.25 * (S + T)) ∧
      |t3.val - (tPsPs p VpS.val.val H1.val K1.val + tPsPs p vm.val.val x.val k.val)| ≤ 14.1 * e * (1.25 * (S + T)) ∧
      |tPs p VpS.val.val H1.val K1.val + tPs p vm.val.val x.val k.val| ≤ 2 * (1.25 * (S + T)) ∧
      |tPpPs p VpS.val.val H1.val K1.val + tPpPs p vm.val.val x.val k.val| ≤ 2 * (1.25 * (S + T)) ∧
      |tPsPs p VpS.val.val H1.val K1.val + tPsPs p vm.val.val x.val k.val| ≤ 2 * (1.25 * (S + T)) := by
  intro S T
  unfold HkSeqYeck.mohoTimes at h
  obtain ⟨v, hv, h⟩ := bind_eq_ok.1 h
  rw [oneOver_ok hv] at h
  obtain ⟨vm', hm, h⟩ := bind_eq_ok.1 h
  cases hm
  obtain ⟨v', hv', h⟩ := bind_eq_ok.1 h
  rw [oneOver_ok hv'] at h
  obtain ⟨r1, e1, e2, z1, l1, z2, l2⟩ := layer_approx_v he hu (VpS.kind.join kd) hp hw1
  obtain ⟨r3, e3, e4, z3, l3, z4, l4⟩ := layer_approx_v he hu (vm.kind.join kd) hp hw2
  rw [r1, r3] at h
  have h := Except.ok.inj h
  rw [← h]
  have hS0 : 0 ≤ S := timeScale_nonneg _ _ _ _
  have hT0 : 0 ≤ T := timeScale_nonneg _ _ _ _
  have hu0 := (R.u_nonneg.trans he)
  have huT := mul_nonneg hu0 (add_nonneg hS0 hT0)
  -- sizes of the exact parts
  have size : ∀ (V x k : ℝ), 0 ≤ eta p (V / k) → eta p (V / k) ≤ sensitivity p (k / V) → 0 ≤ eta p V →
      eta p V ≤ sensitivity p (1 / V) → |tPs p V x k| ≤ 1 * timeScale p V x k ∧ |tPpPs p V x k| ≤ 1 * timeScale p V x k ∧
        |tPsPs p V x k| ≤ 2 * timeScale p V x k := by
    intro V x k a1 a2 a3 a4
    have b : |x| * eta p V ≤ |x| * sensitivity p (1 / V) := mul_le_mul_of_nonneg_left a4 (abs_nonneg _)
    have c : |x| * eta p (V / k) ≤ |x| * sensitivity p (k / V) := mul_le_mul_of_nonneg_left a2 (abs_nonneg _)
    have d := mul_nonneg (abs_nonneg x) a1
    have e' := mul_nonneg (abs_nonneg x) a3
    unfold tPs tPpPs tPsPs timeScale
    refine ⟨?_, ?_, ?_⟩
    · rw [abs_mul, one_mul]
      apply mul_le_mul_of_nonneg_left _ (abs_nonneg _)
      rw [abs_le]; constructor <;> linarith
    · rw [abs_mul, one_mul]
      apply mul_le_mul_of_nonneg_left _ (abs_nonneg _)
      rw [abs_le]; constructor <;> linarith
    · rw [abs_mul, abs_mul, abs_of_nonneg a1, abs_of_pos (by norm_num : (0 : ℝ) < 2)]
      nlinarith
  obtain ⟨s1, s2, s3⟩ := size VpS.val.val H1.val K1.val z1 l1 z2 l2
  obtain ⟨u1, u2, u3⟩ := size vm.val.val x.val k.val z3 l3 z4 l4
  have hST : 0 ≤ S + T := add_nonneg hS0 hT0
  refine ⟨_, _, _, rfl, ?_, ?_, ?_, ?_, ?_, ?_⟩
  · have a := leg_approx (R := R.coarse e he) hu (H := H1.val) (-1) (by norm_num) e1 e2 z1 z2 l1 l2
    have b := leg_approx (R := R.coarse e he) hu (H := x.val) (-1) (by norm_num) e3 e4 z3 z4 l3 l4
    simp only [neg_one_mul, ← sub_eq_add_neg] at a b
    have := add_approx (R := R.coarse e he) hu (by norm_num) a b s1 u1 hS0 hT0
    rw [Rounding.coarse_u] at this
    refine le_trans (le_of_eq ?_) (this.trans ?_)
    · rfl
    · change _ * e * (S + T) ≤ _
      nlinarith
  · have a := leg_approx (R := R.coarse e he) hu (H := H1.val) 1 (by norm_num) e1 e2 z1 z2 l1 l2
    have b := leg_approx (R := R.coarse e he) hu (H := x.val) 1 (by norm_num) e3 e4 z3 z4 l3 l4
    simp only [one_mul] at a b
    have := add_approx (R := R.coarse e he) hu (by norm_num) a b s2 u2 hS0 hT0
    rw [Rounding.coarse_u] at this
    refine le_trans (le_of_eq ?_) (this.trans ?_)
    · rfl
    · change _ * e * (S + T) ≤ _
      nlinarith
  · have a := leg2_approx (R := R.coarse e he) hu (H := H1.val) e1 z1 l1
    have b := leg2_approx (R := R.coarse e he) hu (H := x.val) e3 z3 l3
    have ha : |H1.val| * sensitivity p (K1.val / VpS.val.val) ≤ S := by
      apply mul_le_mul_of_nonneg_left _ (abs_nonneg _)
      have := sensitivity_nonneg p (1 / VpS.val.val)
      linarith
    have hb : |x.val| * sensitivity p (k.val / vm.val.val) ≤ T := by
      apply mul_le_mul_of_nonneg_left _ (abs_nonneg _)
      have := sensitivity_nonneg p (1 / vm.val.val)
      linarith
    have a' := a.trans (mul_le_mul_of_nonneg_left ha (by positivity : 0 ≤ 14.1 * e))
    have b' := b.trans (mul_le_mul_of_nonneg_left hb (by positivity : 0 ≤ 14.1 * e))
    have := add_approx (R := R.coarse e he) hu (by norm_num) a' b' s3 u3 hS0 hT0
    rw [Rounding.coarse_u] at this
    refine le_trans (le_of_eq ?_) (this.trans ?_)
    · congr 2
      show R.fl (R.fl (R.fl ((two : FL R).val * H1.val) * _) + R.fl (R.fl ((two : FL R).val * x.val) * _)) = _
      rw [FL.val_two, mul_comm (2 : ℝ), mul_comm (2 : ℝ)]
      rfl
    · change _ * e * (S + T) ≤ _
      nlinarith
  · exact (abs_add_le _ _).trans (by change _ ≤ 2 * (1.25 * (S + T)); change _ ≤ 1 * S at s1; change _ ≤ 1 * T at u1; linarith)
  · exact (abs_add_le _ _).trans (by change _ ≤ 2 * (1.25 * (S + T)); change _ ≤ 1 * S at s2; change _ ≤ 1 * T at u2; linarith)
  · exact (abs_add_le _ _).trans (by change _ ≤ 2 * (1.25 * (S + T)); change _ ≤ 2 * S at s3; change _ ≤ 2 * T at u3; linarith)

theorem mohoTimes_approx (hu : R.u ≤ 1 / 1000) {VpS vm : Scalar (FL R)} {kd : Kind} {rp H1 K1 x k : FL R} {p : ℝ}
    {ts : PyNum (FL R) × PyNum (FL R) × PyNum (FL R)} (hp : |rp.val - p| ≤ R.u * |p|)
    (hw1 : WellConditioned R.u p VpS.val.val K1.val) (hw2 : WellConditioned R.u p vm.val.val k.val)
    (h : HkSeqYeck.mohoTimes VpS (some vm) kd rp H1 K1 x k = .ok ts) :
    let S := timeScale p VpS.val.val H1.val K1.val
    let T := timeScale p vm.val.val x.val k.val
    ∃ t1 t2 t3 : FL R, ts = (.real t1, .real t2, .real t3) ∧
      |t1.val - (tPs p VpS.val.val H1.val K1.val + tPs p vm.val.val x.val k.val)| ≤ 14.1 * R.u * (1.25 * (S + T)) ∧
      |t2.val - (tPpPs p VpS.val.val H1.val K1.val + tPpPs p vm.val.val x.val k.val)| ≤ 14.1 * R.u * (1.25 * (S + T)) ∧
      |t3.val - (tPsPs p VpS.val.val H1.val K1.val + tPsPs p vm.val.val x.val k.val)| ≤ 14.1 * R.u * (1.25 * (S + T)) ∧
      |tPs p VpS.val.val H1.val K1.val + tPs p vm.val.val x.val k.val| ≤ 2 * (1.25 * (S + T)) ∧
      |tPpPs p VpS.val.val H1.val K1.val + tPpPs p vm.val.val x.val k.val| ≤ 2 * (1.25 * (S + T)) ∧
      |tPsPs p VpS.val.val H1.val K1.val + tPsPs p vm.val.val x.val k.val| ≤ 2 * (1.25 * (S + T)) :=
  mohoTimes_approx_v le_rfl hu hp hw1 hw2 h

/-- reading and weighing at approximate times, and the final `+ 0` -/
theorem weigh_almost_v {e : ℝ} (he : R.u ≤ e) (hu : e ≤ 1 / 1000) {w1 w2 w3 v t1 t2 t3 : FL R} {L T E τ1 τ2 τ3 : ℝ} {axis d : List (FL R)}
    {axis' : List ℝ} (hax : AxisApprox R L axis axis') (hT : 0 ≤ T) (e1 : |t1.val - τ1| ≤ 14.1 * e * T)
    (e2 : |t2.val - τ2| ≤ 14.1 * e * T) (e3 : |t3.val - τ3| ≤ 14.1 * e * T) (f1 : |τ1| ≤ 2 * T)
    (f2 : |τ2| ≤ 2 * T) (f3 : |τ3| ≤ 2 * T) (hE : 40 * e * (L + T) ≤ E)
    (hv : weigh w1 w2 w3 d axis (.real t1, .real t2, .real t3) = .ok v) :
    AlmostStack w1.val w2.val w3.val (d.map FL.val) axis' τ1 τ2 τ3 E (accumulated R.u 4) (v + zero).val := by
  obtain ⟨a1, a2, a3, g1, g2, g3, rfl⟩ := weigh_ok.1 hv
  refine ⟨a1.val, a2.val, a3.val, almost_mono (read_approx_v he hu hax hT e1 f1 g1) hE,
    almost_mono (read_approx_v he hu hax hT e2 f2 g2) hE, almost_mono (read_approx_v he hu hax hT e3 f3 g3) hE, ?_⟩
  have := fold_approx (xs := [w1 * a1 + w2 * a2 - w3 * a3]) (es := [(_, _)])
    (.cons ⟨weigh_approx, Props.weighted_le _ _ _ _ _ _⟩ .nil) (n := 3) le_rfl (s0 := zero) (s := 0) (M := 0) (by simp)
    (by simp)
  simpa using this

theorem weigh_almost (hu : R.u ≤ 1 / 1000) {w1 w2 w3 v t1 t2 t3 : FL R} {L T E τ1 τ2 τ3 : ℝ} {axis d : List (FL R)}
    {axis' : List ℝ} (hax : AxisApprox R L axis axis') (hT : 0 ≤ T) (e1 : |t1.val - τ1| ≤ 14.1 * R.u * T)
    (e2 : |t2.val - τ2| ≤ 14.1 * R.u * T) (e3 : |t3.val - τ3| ≤ 14.1 * R.u * T) (f1 : |τ1| ≤ 2 * T)
    (f2 : |τ2| ≤ 2 * T) (f3 : |τ3| ≤ 2 * T) (hE : 40 * R.u * (L + T) ≤ E)
    (hv : weigh w1 w2 w3 d axis (.real t1, .real t2, .real t3) = .ok v) :
    AlmostStack w1.val w2.val w3.val (d.map FL.val) axis' τ1 τ2 τ3 E (accumulated R.u 4) (v + zero).val :=
  weigh_almost_v le_rfl hu hax hT e1 e2 e3 f1 f2 f3 hE hv

theorem scale_le {u L T c d : ℝ} (hu : 0 ≤ u) (hL : 0 ≤ L) (hT : 0 ≤ T) (hc : 40 ≤ c) (hd : 40 * d ≤ c) :
    40 * u * (L + d * T) ≤ c * u * (L + T) := by
  have a := mul_nonneg hu hL
  have b := mul_nonneg hu hT
  nlinarith

/-- exact and rounded stack value -/
theorem almost_exact {w1 w2 w3 E m s s' A t1 t2 t3 : ℝ} {data axis : List ℝ} (hE : 0 ≤ E) (hm : 0 ≤ m)
    (h : AlmostStack w1 w2 w3 data axis t1 t2 t3 E m s) (hc : ClearTimes axis t1 t2 t3 E)
    (h' : StackValue w1 w2 w3 data axis t1 t2 t3 s') (hA : ∀ a ∈ data, |a| ≤ A) :
    |s' - s| ≤ m * ((|w1| + |w2| + |w3|) * A) := by
  obtain ⟨a1, a2, a3, r1, r2, r3, hs⟩ := h
  obtain ⟨b1, b2, b3, q1, q2, q3, rfl⟩ := h'
  obtain ⟨c1, c2, c3⟩ := hc
  rw [almost_unique c1 (almost_of_nearest hE q1) r1, almost_unique c2 (almost_of_nearest hE q2) r2,
    almost_unique c3 (almost_of_nearest hE q3) r3, abs_sub_comm]
  refine hs.trans (mul_le_mul_of_nonneg_left ?_ hm)
  have k1 := mul_le_mul_of_nonneg_left (hA _ (Props.almost_mem r1)) (abs_nonneg w1)
  have k2 := mul_le_mul_of_nonneg_left (hA _ (Props.almost_mem r2)) (abs_nonneg w2)
  have k3 := mul_le_mul_of_nonneg_left (hA _ (Props.almost_mem r3)) (abs_nonneg w3)
  simp only [abs_mul]
  linarith

theorem well_pre {u p V k : ℝ} (hu : 0 ≤ u) (h : WellConditioned u p V k) : V ≠ 0 ∧ p ^ 2 ≤ (1 / V) ^ 2 := by
  have h1 := h.2
  constructor
  · rintro rfl
    have : 0 ≤ 5 * u * ((1 / (0 : ℝ)) ^ 2 + p ^ 2) := by positivity
    simp only [div_zero] at h1 this
    nlinarith [sq_nonneg p]
  · have : 0 ≤ 5 * u * ((1 / V) ^ 2 + p ^ 2) := by positivity
    linarith

theorem scalarDiv_val {F : Type} [PyFloat F] {a b c : Scalar F} (h : scalarDiv a b = .ok c) : c.val = a.val / b.val := by
  unfold scalarDiv at h
  split at h
  · cases h; rfl
  · split at h
    · cases h
    · cases h; rfl

/-- the sediment delay `hkYu` derives from the two-way time -/
theorem delay_approx (hu : R.u ≤ 1 / 1000) {tl V v : ℝ} (hv : v ≠ 0) :
    |R.fl (R.fl (R.fl (R.fl (tl * v) / 2) / v) - R.fl (R.fl (R.fl (tl * v) / 2) / V)) - sedimentDelay tl V v| ≤
      4.1 * R.u * shiftScale tl V v ∧
    |sedimentDelay tl V v| ≤ shiftScale tl V v ∧ |tl| ≤ 2 * shiftScale tl V v := by
  have h0 := R.u_nonneg
  have hu2 : R.u * R.u ≤ R.u * (1 / 1000) := mul_le_mul_of_nonneg_left hu h0
  set X := tl * v with hX
  have g1 : |R.fl X / 2 - X / 2| ≤ R.u * |X / 2| := by
    have := R.err X
    rw [← sub_div, abs_div, abs_div, ← mul_div_assoc]
    exact div_le_div_of_nonneg_right this (abs_nonneg _)
  have g2 : |R.fl (R.fl X / 2) - X / 2| ≤ 2.001 * R.u * |X / 2| := by
    refine (fl_approx (R := R) g1).trans ?_
    have := mul_le_mul_of_nonneg_right hu2 (abs_nonneg (X / 2))
    nlinarith
  have g3 : ∀ W : ℝ, |R.fl (R.fl (R.fl X / 2) / W) - X / 2 / W| ≤ 3.01 * R.u * |X / 2 / W| := by
    intro W
    have : |R.fl (R.fl X / 2) / W - X / 2 / W| ≤ 2.001 * R.u * |X / 2 / W| := by
      rw [← sub_div, abs_div, abs_div, ← mul_div_assoc]
      exact div_le_div_of_nonneg_right g2 (abs_nonneg _)
    refine (fl_approx (R := R) this).trans ?_
    have := mul_le_mul_of_nonneg_right hu2 (abs_nonneg (X / 2 / W))
    nlinarith [mul_nonneg h0 (abs_nonneg (X / 2 / W))]
  have e1 : X / 2 / v = tl / 2 := by rw [hX]; field_simp
  have e2 : X / 2 / V = tl / 2 * (v / V) := by rw [hX]; ring
  have a := g3 v
  have b := g3 V
  rw [e1] at a
  rw [e2] at b
  have ht : |tl / 2| = |tl| / 2 := by rw [abs_div]; norm_num
  have hq : |tl / 2 * (v / V)| = |tl| / 2 * |v / V| := by rw [abs_mul, ht]
  rw [ht] at a
  rw [hq] at b
  have hsz : |tl / 2 - tl / 2 * (v / V)| ≤ |tl| / 2 + |tl| / 2 * |v / V| := by
    refine (abs_sub _ _).trans ?_
    rw [ht, hq]
  have hp1 : 0 ≤ |tl| / 2 := by positivity
  have hp2 : 0 ≤ |tl| / 2 * |v / V| := by positivity
  have es : sedimentDelay tl V v = tl / 2 - tl / 2 * (v / V) := by unfold sedimentDelay; ring
  have eS : shiftScale tl V v = |tl| / 2 + |tl| / 2 * |v / V| := by unfold shiftScale; ring
  refine ⟨?_, ?_, ?_⟩
  · rw [es, eS]
    have g4 : |R.fl (R.fl (R.fl X / 2) / v) - R.fl (R.fl (R.fl X / 2) / V) - (tl / 2 - tl / 2 * (v / V))| ≤
        3.01 * R.u * (|tl| / 2 + |tl| / 2 * |v / V|) := by
      rw [show ∀ a b c d : ℝ, a - b - (c - d) = (a - c) - (b - d) by intros; ring]
      refine (abs_sub _ _).trans ?_
      linarith
    refine (fl_approx (R := R) g4).trans ?_
    have k1 := mul_le_mul_of_nonneg_left hsz h0
    have k2 := mul_le_mul_of_nonneg_right hu2 (add_nonneg hp1 hp2)
    nlinarith
  · rw [es, eS]; exact hsz
  · rw [eS]; linarith

/-- the three shifted times of `hkYu` -/
theorem shift_approx (hu : R.u ≤ 1 / 1000) {t1 t2 t3 pd tl : FL R} {τ1 τ2 τ3 δ T D : ℝ} (hT : 0 ≤ T)
    (e1 : |t1.val - τ1| ≤ 14.1 * R.u * T) (e2 : |t2.val - τ2| ≤ 14.1 * R.u * T) (e3 : |t3.val - τ3| ≤ 14.1 * R.u * T)
    (f1 : |τ1| ≤ 2 * T) (f2 : |τ2| ≤ 2 * T) (f3 : |τ3| ≤ 2 * T) (hd : |pd.val - δ| ≤ 4.1 * R.u * D) (hδ : |δ| ≤ D)
    (htl : |tl.val| ≤ 2 * D) :
    |(t1 + pd).val - (τ1 + δ)| ≤ 14.1 * R.u * (1.5 * (T + D)) ∧
    |(t2 + tl - pd).val - (τ2 + tl.val - δ)| ≤ 14.1 * R.u * (1.5 * (T + D)) ∧
    |(t3 + tl).val - (τ3 + tl.val)| ≤ 14.1 * R.u * (1.5 * (T + D)) ∧
    |τ1 + δ| ≤ 2 * (1.5 * (T + D)) ∧ |τ2 + tl.val - δ| ≤ 2 * (1.5 * (T + D)) ∧ |τ3 + tl.val| ≤ 2 * (1.5 * (T + D)) := by
  have h0 := R.u_nonneg
  have hD : 0 ≤ D := (abs_nonneg _).trans hδ
  have hu2 : R.u * R.u ≤ R.u * (1 / 1000) := mul_le_mul_of_nonneg_left hu h0
  have uT := mul_nonneg h0 hT
  have uD := mul_nonneg h0 hD
  have uuT := mul_le_mul_of_nonneg_right hu2 hT
  have uuD := mul_le_mul_of_nonneg_right hu2 hD
  have s1 : |τ1 + δ| ≤ 2 * T + D := (abs_add_le _ _).trans (add_le_add f1 hδ)
  have s2 : |τ2 + tl.val| ≤ 2 * T + 2 * D := (abs_add_le _ _).trans (add_le_add f2 htl)
  have s3 : |τ3 + tl.val| ≤ 2 * T + 2 * D := (abs_add_le _ _).trans (add_le_add f3 htl)
  have s2' : |τ2 + tl.val - δ| ≤ 2 * T + 3 * D := (abs_sub _ _).trans (by linarith)
  have one : ∀ {t τ : ℝ}, |t - τ| ≤ 14.1 * R.u * T → |τ + tl.val| ≤ 2 * T + 2 * D →
      |R.fl (t + tl.val) - (τ + tl.val)| ≤ 16.2 * R.u * T + 2 * R.u * D := by
    intro t τ h s
    have : |t + tl.val - (τ + tl.val)| ≤ 14.1 * R.u * T := by rw [add_sub_add_right_eq_sub]; exact h
    refine (fl_approx (R := R) this).trans ?_
    have k := mul_le_mul_of_nonneg_left s h0
    nlinarith
  refine ⟨?_, ?_, ?_, by linarith, by linarith, by linarith⟩
  · have g : |t1.val + pd.val - (τ1 + δ)| ≤ 14.1 * R.u * T + 4.1 * R.u * D := by
      rw [show ∀ a b c d : ℝ, a + b - (c + d) = (a - c) + (b - d) by intros; ring]
      exact (abs_add_le _ _).trans (add_le_add e1 hd)
    rw [FL.val_add]
    refine (fl_approx (R := R) g).trans ?_
    have k := mul_le_mul_of_nonneg_left s1 h0
    nlinarith
  · have a := one e2 s2
    have g : |R.fl (t2.val + tl.val) - pd.val - (τ2 + tl.val - δ)| ≤ 16.2 * R.u * T + 6.1 * R.u * D := by
      rw [show ∀ a b c d : ℝ, a - b - (c - d) = (a - c) - (b - d) by intros; ring]
      refine (abs_sub _ _).trans ?_
      linarith
    rw [FL.val_sub, FL.val_add]
    refine (fl_approx (R := R) g).trans ?_
    have k := mul_le_mul_of_nonneg_left s2' h0
    nlinarith
  · have a := one e3 s3
    rw [FL.val_add]
    refine a.trans ?_
    nlinarith

end Rfsed
