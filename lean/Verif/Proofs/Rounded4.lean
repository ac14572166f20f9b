import Verif.Proofs.Rounded3
import Verif.Proofs.Stats
import Verif.Spec.Deviation
import Verif.Spec.Waveform
import Verif.Spec.Rounding3
import Mathlib.Tactic.LinearCombination

/-!
# Rounding of the misfit and of the correlation
-/

namespace Rfsed
open PyFloat Spec
set_option linter.unusedSectionVars false
variable {R : Rounding}

/-! ## sums -/

/-- running sum of numbers of any sign -/
theorem sum_abs_approx {xs : List (FL R)} {n : Nat} {s0 : FL R} {s S : ℝ}
    (h0 : |s0.val - s| ≤ accumulated R.u n * S) (hs : |s| ≤ S) :
    |(xs.foldl (fun a b => a + b) s0).val - (s + (xs.map FL.val).sum)| ≤
      accumulated R.u (n + xs.length) * (S + (xs.map (fun x => |x.val|)).sum) := by
  induction xs generalizing n s0 s S with
  | nil => simpa using h0
  | cons x xs ih =>
    have hS : S ≤ S + |x.val| := le_add_of_nonneg_right (abs_nonneg _)
    have h1 : |s0.val + x.val - (s + x.val)| ≤ accumulated R.u n * (S + |x.val|) := by
      have e : s0.val + x.val - (s + x.val) = s0.val - s := by ring
      rw [e]
      exact h0.trans (mul_le_mul_of_nonneg_left hS (accumulated_nonneg _))
    have hb : |s + x.val| ≤ S + |x.val| := (abs_add_le _ _).trans (by linarith)
    have h2 : |(s0 + x).val - (s + x.val)| ≤ accumulated R.u (n + 1) * (S + |x.val|) := accumulated_fl h1 hb
    have := ih h2 hb
    rw [List.foldl_cons, List.map_cons, List.sum_cons, List.map_cons, List.sum_cons, List.length_cons,
      show n + (xs.length + 1) = n + 1 + xs.length by omega, ← add_assoc s, ← add_assoc S]
    exact this

/-- `np.mean` of numbers of any sign -/
theorem mean_abs_approx (hu : R.u ≤ 1 / 1000) (xs : List (FL R)) :
    |(npMean xs).val - (xs.map FL.val).sum / xs.length| ≤
      accumulated R.u (xs.length + 4) * ((xs.map (fun x => |x.val|)).sum / xs.length) := by
  have h1 := sum_abs_approx (xs := xs) (n := 0) (s0 := (zero : FL R)) (s := 0) (S := 0) (by simp [accumulated]) (by simp)
  rw [zero_add, Nat.zero_add, zero_add] at h1
  have hAS : |(xs.map FL.val).sum| ≤ (xs.map (fun x => |x.val|)).sum := by
    clear h1
    induction xs with
    | nil => simp
    | cons x xs ih =>
      rw [List.map_cons, List.sum_cons, List.map_cons, List.sum_cons]
      exact (abs_add_le _ _).trans (by linarith)
  set S := (xs.map FL.val).sum
  set A := (xs.map (fun x => |x.val|)).sum
  set n := xs.length with hn
  have hA : 0 ≤ A := (abs_nonneg _).trans hAS
  have hu0 := R.u_nonneg
  have e : (npMean xs).val = R.fl ((xs.foldl (fun a b => a + b) zero).val / R.fl (n : ℝ)) := by
    show R.fl (_ / R.fl ((n : ℝ) / 10 ^ 0)) = _
    rw [pow_zero, div_one]
  rw [e]
  set T := (xs.foldl (fun a b => a + b) zero).val
  have hab : |S / n| ≤ A / n := by
    rw [abs_div, Nat.abs_cast]
    exact div_le_div_of_nonneg_right hAS (Nat.cast_nonneg _)
  refine accumulated_fl (n := n + 3) ?_ hab
  by_cases h0 : n = 0
  · rw [h0, Nat.cast_zero, R.fl_zero, div_zero, div_zero]
    simp
  have hnp : (0 : ℝ) < n := by exact_mod_cast Nat.pos_of_ne_zero h0
  have hN := R.err (n : ℝ)
  rw [abs_of_pos hnp] at hN
  have hN1 : (1 - R.u) * n ≤ R.fl n := by
    have := neg_le_of_abs_le hN
    linarith
  have hNp : 0 < R.fl (n : ℝ) := lt_of_lt_of_le (by apply mul_pos _ hnp; linarith) hN1
  have e2 : T / R.fl (n : ℝ) - S / n = ((T - S) * n + S * (n - R.fl n)) / (R.fl n * n) := by
    field_simp
    ring
  rw [e2, abs_div, abs_of_pos (mul_pos hNp hnp), div_le_iff₀ (mul_pos hNp hnp)]
  have b1 : |(T - S) * n + S * (n - R.fl n)| ≤ (accumulated R.u n + R.u) * (A * n) := by
    refine (abs_add_le _ _).trans ?_
    rw [abs_mul, abs_mul, abs_of_pos hnp, abs_sub_comm (n : ℝ)]
    have c1 := mul_le_mul_of_nonneg_right h1 hnp.le
    have c2 := mul_le_mul hAS hN (abs_nonneg _) hA
    nlinarith
  refine b1.trans ?_
  have e3 : accumulated R.u (n + 3) * (A / n) * (R.fl n * n) = accumulated R.u (n + 3) * R.fl n * A := by
    field_simp
  rw [e3]
  have b2 : accumulated R.u n + R.u ≤ accumulated R.u (n + 3) * (1 - R.u) := by
    have hp : (1 : ℝ) ≤ (1 + R.u) ^ n := one_le_pow₀ (by linarith)
    have e4 : accumulated R.u (n + 3) = (1 + R.u) ^ n * (1 + R.u) ^ 3 - 1 := by unfold accumulated; ring
    have e5 : accumulated R.u n = (1 + R.u) ^ n - 1 := rfl
    rw [e4, e5]
    set q := (1 + R.u) ^ n
    have k : 0 ≤ R.u * (1 - R.u) := mul_nonneg hu0 (by linarith)
    have k2 : (1 : ℝ) ≤ (1 + R.u) ^ 3 * (1 - R.u) := by
      nlinarith [mul_nonneg hu0 hu0, mul_nonneg k hu0, mul_nonneg (mul_nonneg hu0 hu0) k]
    have k3 := mul_le_mul_of_nonneg_left k2 (by linarith : 0 ≤ q)
    nlinarith
  have b3 : accumulated R.u (n + 3) * (1 - R.u) * n ≤ accumulated R.u (n + 3) * R.fl n := by
    rw [mul_assoc]
    exact mul_le_mul_of_nonneg_left hN1 (accumulated_nonneg _)
  have b4 := mul_le_mul_of_nonneg_right (mul_le_mul_of_nonneg_right b2 hnp.le) hA
  have b5 := mul_le_mul_of_nonneg_right b3 hA
  calc (accumulated R.u n + R.u) * (A * n) = (accumulated R.u n + R.u) * n * A := by ring
    _ ≤ _ := b4
    _ ≤ _ := b5

/-- relative errors add up -/
theorem accumulated_trans {a b c : ℝ} {m n : Nat} (h1 : |a - b| ≤ accumulated R.u m * b)
    (h2 : |b - c| ≤ accumulated R.u n * c) :
    |a - c| ≤ accumulated R.u (m + n) * c := by
  have hm := accumulated_nonneg (R := R) m
  have hb : b ≤ (1 + accumulated R.u n) * c := by
    have := (abs_le.1 h2).2
    linarith
  have e : accumulated R.u (m + n) = accumulated R.u m * (1 + accumulated R.u n) + accumulated R.u n := by
    unfold accumulated; ring
  have e2 : a - c = (a - b) + (b - c) := by ring
  rw [e, e2]
  refine (abs_add_le _ _).trans ?_
  have := mul_le_mul_of_nonneg_left hb hm
  nlinarith

theorem sqrt_rel {x y e : ℝ} (hx : 0 ≤ x) (h : |y - x| ≤ e * x) : |√y - √x| ≤ e * √x := by
  rcases hx.eq_or_lt with rfl | hx
  · have : y = 0 := by simpa using h
    simp [this]
  · have hs := Real.sqrt_pos.2 hx
    have h2 := sqrt_approx hx h
    refine h2.trans (le_of_eq ?_)
    rw [div_eq_iff hs.ne', mul_assoc, Real.mul_self_sqrt hx.le]

/-! ## the misfit -/

/-- sum of rounded squares of rounded differences -/
theorem squares_approx : ∀ (x y : List (FL R)), x.length = y.length →
    |(((vsub x y).map square).map FL.val).sum -
        (List.zipWith (fun a b : ℝ => (a - b) ^ 2) (x.map FL.val) (y.map FL.val)).sum| ≤
      accumulated R.u 3 * (List.zipWith (fun a b : ℝ => (a - b) ^ 2) (x.map FL.val) (y.map FL.val)).sum
  | [], [], _ => by simp [vsub]
  | [], _ :: _, h => by simp at h
  | _ :: _, [], h => by simp at h
  | a :: x, b :: y, h => by
    have ih := squares_approx x y (by simpa using h)
    simp only [vsub, List.zipWith_cons_cons, List.map_cons, List.sum_cons] at ih ⊢
    have h1 := R.err (a.val - b.val)
    have h2 : |R.fl (R.fl (a.val - b.val) * R.fl (a.val - b.val)) - (a.val - b.val) ^ 2| ≤
        accumulated R.u 3 * (a.val - b.val) ^ 2 := by
      refine accumulated_fl (n := 2) ?_ (by rw [abs_of_nonneg (sq_nonneg _)])
      set d := a.val - b.val
      have h3 := mul_approx h1 h1
      rw [← pow_two d] at h3
      refine h3.trans (le_of_eq ?_)
      unfold accumulated
      have : |d| * |d| = d ^ 2 := by rw [← abs_mul, ← pow_two, abs_of_nonneg (sq_nonneg _)]
      linear_combination (2 * R.u + R.u ^ 2) * this
    have e : ((square (a - b) : FL R)).val = R.fl (R.fl (a.val - b.val) * R.fl (a.val - b.val)) := rfl
    rw [e]
    set P := R.fl (R.fl (a.val - b.val) * R.fl (a.val - b.val))
    set Q := (List.map FL.val (List.map square (List.zipWith (fun x1 x2 => x1 - x2) x y))).sum
    set W := (List.zipWith (fun a b : ℝ => (a - b) ^ 2) (x.map FL.val) (y.map FL.val)).sum
    have e2 : P + Q - ((a.val - b.val) ^ 2 + W) = (P - (a.val - b.val) ^ 2) + (Q - W) := by ring
    rw [e2, mul_add]
    exact (abs_add_le _ _).trans (add_le_add h2 ih)

/-- the computed root mean square difference -/
theorem rms_approx (hu : R.u ≤ 1 / 1000) {x y : List (FL R)} (hl : x.length = y.length) :
    |(powHalf (npMean ((vsub x y).map square)) : FL R).val - rms (x.map FL.val) (y.map FL.val)| ≤
      accumulated R.u (x.length + 8) * rms (x.map FL.val) (y.map FL.val) := by
  have hlen : ((vsub x y).map square).length = x.length := by
    rw [List.length_map, vsub, List.length_zipWith, hl, min_self]
  have h0 : 0 ≤ (List.zipWith (fun a b : ℝ => (a - b) ^ 2) (x.map FL.val) (y.map FL.val)).sum := by
    refine List.sum_nonneg (fun z hz => ?_)
    obtain ⟨i, hi, rfl⟩ := List.mem_iff_getElem.1 hz
    rw [List.getElem_zipWith]
    exact sq_nonneg _
  have h1 := squares_approx x y hl
  have hu0 := R.u_nonneg
  -- every rounded square is not negative
  have hnn : ∀ z ∈ (vsub x y).map square, 0 ≤ z.val := by
    intro z hz
    obtain ⟨d, -, rfl⟩ := List.mem_map.1 hz
    show 0 ≤ R.fl (d.val * d.val)
    have := R.err (d.val * d.val)
    rw [abs_of_nonneg (mul_self_nonneg d.val)] at this
    have h2 := (abs_le.1 this).1
    nlinarith [mul_self_nonneg d.val]
  obtain ⟨h2, -⟩ := mean_approx hu hnn
  rw [hlen] at h2
  have h3 : |(((vsub x y).map square).map FL.val).sum / (x.length : ℝ) -
      (List.zipWith (fun a b : ℝ => (a - b) ^ 2) (x.map FL.val) (y.map FL.val)).sum / x.length| ≤
      accumulated R.u 3 *
        ((List.zipWith (fun a b : ℝ => (a - b) ^ 2) (x.map FL.val) (y.map FL.val)).sum / x.length) := by
    rw [← sub_div, abs_div, Nat.abs_cast, ← mul_div_assoc]
    exact div_le_div_of_nonneg_right h1 (Nat.cast_nonneg _)
  have h4 := accumulated_trans h2 h3
  have hm := div_nonneg h0 (Nat.cast_nonneg (α := ℝ) x.length)
  have h5 := sqrt_rel hm h4
  have hr : rms (x.map FL.val) (y.map FL.val) =
      √((List.zipWith (fun a b : ℝ => (a - b) ^ 2) (x.map FL.val) (y.map FL.val)).sum / x.length) := by
    rw [rms, List.length_map]
  rw [hr]
  exact accumulated_fl h5 (by rw [abs_of_nonneg (Real.sqrt_nonneg _)])

/-! ## vectors -/

/-- length of a vector -/
noncomputable def norm2 (x : List ℝ) : ℝ := √((x.map (fun a => a ^ 2)).sum)

/-- scalar product -/
noncomputable def dotR (x y : List ℝ) : ℝ := (List.zipWith (fun a b => a * b) x y).sum

theorem sq_sum_nonneg (x : List ℝ) : 0 ≤ (x.map (fun a => a ^ 2)).sum := by
  refine List.sum_nonneg (fun z hz => ?_)
  obtain ⟨a, -, rfl⟩ := List.mem_map.1 hz
  exact sq_nonneg _

theorem norm2_nonneg (x : List ℝ) : 0 ≤ norm2 x := Real.sqrt_nonneg _

theorem norm2_sq (x : List ℝ) : norm2 x ^ 2 = (x.map (fun a => a ^ 2)).sum := Real.sq_sqrt (sq_sum_nonneg x)

theorem norm2_cons (a : ℝ) (x : List ℝ) : norm2 (a :: x) ^ 2 = a ^ 2 + norm2 x ^ 2 := by
  rw [norm2_sq, norm2_sq, List.map_cons, List.sum_cons]

theorem dotR_cons (a b : ℝ) (x y : List ℝ) : dotR (a :: x) (b :: y) = a * b + dotR x y := by
  rw [dotR, dotR, List.zipWith_cons_cons, List.sum_cons]

theorem dotR_le : ∀ x y : List ℝ, |dotR x y| ≤ norm2 x * norm2 y
  | [], y => by simpa [dotR] using mul_nonneg (norm2_nonneg []) (norm2_nonneg y)
  | a :: x, [] => by simpa [dotR] using mul_nonneg (norm2_nonneg (a :: x)) (norm2_nonneg [])
  | a :: x, b :: y => by
    have ih := dotR_le x y
    have h1 := norm2_cons a x
    have h2 := norm2_cons b y
    have p1 := norm2_nonneg x
    have p2 := norm2_nonneg y
    rw [dotR_cons]
    refine (abs_add_le _ _).trans ?_
    refine (add_le_add le_rfl ih).trans ?_
    refine abs_le_of_sq_le_sq' ?_ (mul_nonneg (norm2_nonneg _) (norm2_nonneg _)) |>.2
    rw [mul_pow, h1, h2, abs_mul]
    have ea : |a| ^ 2 = a ^ 2 := sq_abs a
    have eb : |b| ^ 2 = b ^ 2 := sq_abs b
    rw [← ea, ← eb]
    nlinarith [sq_nonneg (|a| * norm2 y - |b| * norm2 x)]

theorem dotR_abs_le (x y : List ℝ) : (List.zipWith (fun a b => |a * b|) x y).sum ≤ norm2 x * norm2 y := by
  have h := dotR_le (x.map (fun a => |a|)) (y.map (fun a => |a|))
  have e : ∀ x : List ℝ, norm2 (x.map (fun a => |a|)) = norm2 x := by
    intro x
    rw [norm2, norm2, List.map_map]
    congr 3
    funext a
    simp
  rw [e, e] at h
  refine le_trans (le_of_eq ?_) ((le_abs_self _).trans h)
  rw [dotR, List.zipWith_map]
  congr 2
  funext a b
  rw [abs_mul]

theorem dotR_self (x : List ℝ) : dotR x x = norm2 x ^ 2 := by
  rw [norm2_sq, dotR]
  induction x with
  | nil => simp
  | cons a x ih => rw [List.zipWith_cons_cons, List.sum_cons, ih, List.map_cons, List.sum_cons, pow_two]

/-- difference of two vectors -/
def subL (x' x : List ℝ) : List ℝ := List.zipWith (fun a b => a - b) x' x

theorem norm2_subL : ∀ x' x : List ℝ, x'.length = x.length →
    norm2 (subL x' x) ^ 2 = norm2 x' ^ 2 - 2 * dotR x' x + norm2 x ^ 2
  | [], [], _ => by simp [subL, dotR, norm2]
  | [], _ :: _, h => by simp at h
  | _ :: _, [], h => by simp at h
  | a :: x', b :: x, h => by
    have ih := norm2_subL x' x (by simpa using h)
    have e : subL (a :: x') (b :: x) = (a - b) :: subL x' x := rfl
    rw [e, norm2_cons, norm2_cons, norm2_cons, dotR_cons, ih]
    ring

theorem norm2_diff {x' x : List ℝ} (h : x'.length = x.length) : |norm2 x' - norm2 x| ≤ norm2 (subL x' x) := by
  refine abs_le_of_sq_le_sq ?_ (norm2_nonneg _)
  rw [norm2_subL x' x h]
  have := (abs_le.1 (dotR_le x' x)).2
  nlinarith

theorem dotR_subL : ∀ x' x y : List ℝ, x'.length = x.length → dotR (subL x' x) y = dotR x' y - dotR x y
  | [], [], _, _ => by simp [subL, dotR]
  | [], _ :: _, _, h => by simp at h
  | _ :: _, [], _, h => by simp at h
  | a :: x', b :: x, [], h => by simp [dotR]
  | a :: x', b :: x, c :: y, h => by
    have ih := dotR_subL x' x y (by simpa using h)
    have e : subL (a :: x') (b :: x) = (a - b) :: subL x' x := rfl
    rw [e, dotR_cons, dotR_cons, dotR_cons, ih]
    ring

theorem dotR_comm (x y : List ℝ) : dotR x y = dotR y x := by
  rw [dotR, dotR, List.zipWith_comm]
  congr 2
  funext a b
  ring

/-- the cosine of the angle changes little when a vector does -/
theorem cosine_move {x' x y : List ℝ} (h : x'.length = x.length) (hx : 0 < norm2 x) (hx' : 0 < norm2 x')
    (hy : 0 < norm2 y) :
    |dotR x' y / (norm2 x' * norm2 y) - dotR x y / (norm2 x * norm2 y)| ≤ 2 * norm2 (subL x' x) / norm2 x := by
  have hn := norm2_diff h
  have hd : |dotR x' y - dotR x y| ≤ norm2 (subL x' x) * norm2 y := by
    rw [← dotR_subL x' x y h]
    exact dotR_le _ _
  have hc := dotR_le x' y
  set A := norm2 x
  set B := norm2 x'
  set Y := norm2 y
  set D := norm2 (subL x' x)
  have hid : dotR x' y / (B * Y) - dotR x y / (A * Y) =
      ((A - B) * dotR x' y + B * (dotR x' y - dotR x y)) / (A * B * Y) := by
    field_simp
    ring
  rw [hid, abs_div, abs_of_pos (mul_pos (mul_pos hx hx') hy),
    div_le_div_iff₀ (mul_pos (mul_pos hx hx') hy) hx]
  have h1 : |(A - B) * dotR x' y + B * (dotR x' y - dotR x y)| ≤ D * (B * Y) + B * (D * Y) := by
    refine (abs_add_le _ _).trans (add_le_add ?_ ?_)
    · rw [abs_mul]
      refine mul_le_mul ?_ hc (abs_nonneg _) ((abs_nonneg _).trans hn)
      rw [abs_sub_comm]; exact hn
    · rw [abs_mul, abs_of_pos hx']
      exact mul_le_mul_of_nonneg_left hd hx'.le
  nlinarith

/-! ## centring -/

/-- size of the error of the centred vector -/
theorem centred_error : ∀ (c' c : List ℝ) (s u : ℝ), 0 ≤ s → 0 ≤ u →
    List.Forall₂ (fun a b => |a - b| ≤ s + u * |b|) c' c →
    norm2 (subL c' c) ≤ √c.length * s + u * norm2 c := by
  intro c' c s u hs hu h
  have key : norm2 (subL c' c) ^ 2 ≤ c.length * s ^ 2 + 2 * s * u * (c.map (fun a => |a|)).sum + u ^ 2 * norm2 c ^ 2 := by
    induction h with
    | nil => simp [subL, norm2]
    | @cons a b c' c h1 _ ih =>
      have e : subL (a :: c') (b :: c) = (a - b) :: subL c' c := rfl
      rw [e, norm2_cons, norm2_cons, List.length_cons, List.map_cons, List.sum_cons]
      have h2 : (a - b) ^ 2 ≤ (s + u * |b|) ^ 2 := by
        rw [← sq_abs (a - b)]
        exact pow_le_pow_left₀ (abs_nonneg _) h1 2
      have eb : |b| ^ 2 = b ^ 2 := sq_abs b
      push_cast
      nlinarith
  have hsum : (c.map (fun a => |a|)).sum ≤ √c.length * norm2 c := by
    have := dotR_abs_le c (List.replicate c.length 1)
    have e1 : norm2 (List.replicate c.length 1) = √c.length := by
      rw [norm2, List.map_replicate, List.sum_replicate]
      simp
    have e2 : (List.zipWith (fun a b : ℝ => |a * b|) c (List.replicate c.length 1)) = c.map (fun a => |a|) := by
      clear key this e1 h
      induction c with
      | nil => rfl
      | cons a c ih =>
        rw [List.length_cons, List.replicate_succ, List.zipWith_cons_cons, ih, List.map_cons, mul_one]
    rw [e1, e2] at this
    linarith
  have hq : √(c.length : ℝ) ^ 2 = c.length := Real.sq_sqrt (Nat.cast_nonneg _)
  refine abs_le_of_sq_le_sq' (key.trans ?_) (add_nonneg (mul_nonneg (Real.sqrt_nonneg _) hs)
    (mul_nonneg hu (norm2_nonneg _))) |>.2
  have := mul_le_mul_of_nonneg_left hsum (show 0 ≤ 2 * s * u by positivity)
  calc _ ≤ (c.length : ℝ) * s ^ 2 + 2 * s * u * (√c.length * norm2 c) + u ^ 2 * norm2 c ^ 2 := by linarith
    _ = _ := by linear_combination (-(s ^ 2)) * hq

/-- deviations from the mean -/
noncomputable def centred (x : List ℝ) : List ℝ := x.map (fun a => a - mean x)

theorem centred_norm (x : List ℝ) : norm2 (centred x) = √(comoment x x) := by
  rw [norm2, comoment, centred, List.map_map]
  congr 2
  have : ∀ (m : ℝ) (x : List ℝ), x.map ((fun a => a ^ 2) ∘ fun a => a - m) =
      List.zipWith (fun a b => (a - m) * (b - m)) x x := by
    intro m x
    induction x with
    | nil => rfl
    | cons a x ih => rw [List.zipWith_cons_cons, ← ih, List.map_cons, Function.comp, pow_two]
  rw [this]

theorem centred_dot (x y : List ℝ) : dotR (centred x) (centred y) = comoment x y := by
  rw [dotR, comoment, centred, centred, List.zipWith_map]

theorem centred_le (x : List ℝ) : norm2 (centred x) ≤ norm2 x := by
  refine abs_le_of_sq_le_sq' ?_ (norm2_nonneg _) |>.2
  rw [norm2_sq, norm2_sq, centred, List.map_map]
  by_cases hx : x = []
  · subst hx; simp
  have hl : (x.length : ℝ) ≠ 0 := by
    have := List.length_pos_of_ne_nil hx
    positivity
  have key : ∀ (m : ℝ) (x : List ℝ), (x.map ((fun a => a ^ 2) ∘ fun a => a - m)).sum =
      (x.map (fun a => a ^ 2)).sum - 2 * m * x.sum + x.length * m ^ 2 := by
    intro m x
    induction x with
    | nil => simp
    | cons a x ih =>
      rw [List.map_cons, List.sum_cons, ih, List.map_cons, List.sum_cons, List.sum_cons, List.length_cons]
      simp only [Function.comp]
      push_cast; ring
  rw [key]
  have hs : x.sum = x.length * mean x := by rw [mean]; field_simp
  rw [hs]
  nlinarith [mul_nonneg (Nat.cast_nonneg (α := ℝ) x.length) (sq_nonneg (mean x))]

/-- the computed deviations from the mean -/
theorem centre_approx (hu : R.u ≤ 1 / 1000) (x : List (FL R)) :
    norm2 (subL ((centre x).map FL.val) (centred (x.map FL.val))) ≤
      accumulated R.u (x.length + 5) * norm2 (x.map FL.val) := by
  have hm := mean_abs_approx hu x
  set n := x.length with hn
  set A := (x.map (fun x => |x.val|)).sum
  have hu0 := R.u_nonneg
  have e : (x.map FL.val).sum / (n : ℝ) = mean (x.map FL.val) := by rw [mean, List.length_map]
  rw [e] at hm
  have hA0 : 0 ≤ A := by
    refine List.sum_nonneg (fun z hz => ?_)
    obtain ⟨a, -, rfl⟩ := List.mem_map.1 hz
    exact abs_nonneg _
  set s := (1 + R.u) * (accumulated R.u (n + 4) * (A / n)) with hs
  have hs0 : 0 ≤ s := by
    have := accumulated_nonneg (R := R) (n + 4)
    positivity
  have hf : List.Forall₂ (fun a b => |a - b| ≤ s + R.u * |b|) ((centre x).map FL.val) (centred (x.map FL.val)) := by
    have : ∀ l : List (FL R), List.Forall₂ (fun a b => |a - b| ≤ s + R.u * |b|)
        ((l.map (fun a => a - npMean x)).map FL.val) ((l.map FL.val).map (fun a => a - mean (x.map FL.val))) := by
      intro l
      induction l with
      | nil => exact List.Forall₂.nil
      | cons a l ih =>
        refine List.Forall₂.cons ?_ ih
        show |R.fl (a.val - (npMean x).val) - (a.val - mean (x.map FL.val))| ≤ _
        refine fl_approx ?_
        have e : a.val - (npMean x).val - (a.val - mean (x.map FL.val)) = -((npMean x).val - mean (x.map FL.val)) := by ring
        rw [e, abs_neg]
        exact hm
    exact this x
  have h1 := centred_error _ _ s R.u hs0 hu0 hf
  have hlen : (centred (x.map FL.val)).length = n := by rw [centred, List.length_map, List.length_map]
  rw [hlen] at h1
  have hc := centred_le (x.map FL.val)
  -- the mean of the sizes
  have hAn : √(n : ℝ) * (A / n) ≤ norm2 (x.map FL.val) := by
    rcases Nat.eq_zero_or_pos n with h0 | h0
    · rw [h0]; simpa using norm2_nonneg _
    have hn0 : (0 : ℝ) < n := by exact_mod_cast h0
    have h2 := dotR_abs_le (x.map FL.val) (List.replicate n 1)
    have e1 : norm2 (List.replicate n 1) = √(n : ℝ) := by
      rw [norm2, List.map_replicate, List.sum_replicate]
      simp
    have e2 : (List.zipWith (fun a b : ℝ => |a * b|) (x.map FL.val) (List.replicate n 1)) = x.map (fun x => |x.val|) := by
      rw [hn]
      clear * -
      induction x with
      | nil => rfl
      | cons a c ih =>
        rw [List.length_cons, List.replicate_succ, List.map_cons, List.zipWith_cons_cons, ih, List.map_cons, mul_one]
    rw [e1, e2] at h2
    have hq : √(n : ℝ) ^ 2 = n := Real.sq_sqrt hn0.le
    have hsq := Real.sqrt_pos.2 hn0
    rw [← mul_div_assoc, div_le_iff₀ hn0]
    have := mul_le_mul_of_nonneg_left h2 hsq.le
    calc √(n : ℝ) * A ≤ √(n : ℝ) * (norm2 (x.map FL.val) * √(n : ℝ)) := this
      _ = _ := by linear_combination norm2 (x.map FL.val) * hq
  refine h1.trans ?_
  rw [← accumulated_succ, add_mul]
  have ha := accumulated_nonneg (R := R) (n + 4)
  refine add_le_add ?_ (mul_le_mul_of_nonneg_left hc hu0)
  have e3 : √(n : ℝ) * s = (1 + R.u) * accumulated R.u (n + 4) * (√(n : ℝ) * (A / n)) := by rw [hs]; ring
  rw [e3]
  exact mul_le_mul_of_nonneg_left hAn (mul_nonneg (by linarith) ha)

/-- the computed scalar product -/
theorem dot_approx (x y : List (FL R)) : |(dot x y).val - dotR (x.map FL.val) (y.map FL.val)| ≤
    accumulated R.u (x.length + 1) * (norm2 (x.map FL.val) * norm2 (y.map FL.val)) := by
  have h := sum_abs_approx (xs := List.zipWith (fun a b : FL R => a * b) x y) (n := 0) (s0 := (zero : FL R)) (s := 0)
    (S := 0) (by simp [accumulated]) (by simp)
  rw [zero_add, Nat.zero_add, zero_add] at h
  have hlen : (List.zipWith (fun a b : FL R => a * b) x y).length ≤ x.length := by
    rw [List.length_zipWith]; exact min_le_left _ _
  have h2 : ∀ x y : List (FL R), |((List.zipWith (fun a b : FL R => a * b) x y).map FL.val).sum -
      dotR (x.map FL.val) (y.map FL.val)| ≤
      R.u * (List.zipWith (fun a b => |a * b|) (x.map FL.val) (y.map FL.val)).sum ∧
      ((List.zipWith (fun a b : FL R => a * b) x y).map (fun x => |x.val|)).sum ≤
      (1 + R.u) * (List.zipWith (fun a b => |a * b|) (x.map FL.val) (y.map FL.val)).sum := by
    intro x
    induction x with
    | nil => intro y; simp [dotR]
    | cons a x ih =>
      intro y
      cases y with
      | nil => simp [dotR]
      | cons b y =>
        obtain ⟨i1, i2⟩ := ih y
        simp only [List.map_cons, List.zipWith_cons_cons, List.sum_cons, dotR_cons, FL.val_mul]
        have he := R.err (a.val * b.val)
        constructor
        · rw [mul_add]
          refine le_trans ?_ (add_le_add he i1)
          refine le_trans (le_of_eq ?_) (abs_add_le _ _)
          congr 1
          ring
        · rw [mul_add]
          refine add_le_add ?_ i2
          have e : R.fl (a.val * b.val) = a.val * b.val + (R.fl (a.val * b.val) - a.val * b.val) := by ring
          rw [e]
          refine (abs_add_le _ _).trans ?_
          linarith
  obtain ⟨h3, h4⟩ := h2 x y
  have hB := dotR_abs_le (x.map FL.val) (y.map FL.val)
  set B := (List.zipWith (fun a b => |a * b|) (x.map FL.val) (y.map FL.val)).sum
  have e : (dot x y).val = ((List.zipWith (fun a b : FL R => a * b) x y).foldl (fun a b => a + b) zero).val := rfl
  rw [e]
  set T := ((List.zipWith (fun a b : FL R => a * b) x y).foldl (fun a b => a + b) zero).val
  set S := ((List.zipWith (fun a b : FL R => a * b) x y).map FL.val).sum
  have hac := accumulated_mono (R := R) hlen
  have ha0 := accumulated_nonneg (R := R) x.length
  have hA0 : 0 ≤ ((List.zipWith (fun a b : FL R => a * b) x y).map (fun x => |x.val|)).sum := by
    refine List.sum_nonneg (fun z hz => ?_)
    obtain ⟨a, -, rfl⟩ := List.mem_map.1 hz
    exact abs_nonneg _
  have h5 : |T - S| ≤ accumulated R.u x.length * ((1 + R.u) * B) :=
    h.trans (mul_le_mul hac h4 hA0 ha0)
  have e2 : T - dotR (x.map FL.val) (y.map FL.val) = (T - S) + (S - dotR (x.map FL.val) (y.map FL.val)) := by ring
  rw [e2]
  refine (abs_add_le _ _).trans ((add_le_add h5 h3).trans ?_)
  have e3 : accumulated R.u x.length * ((1 + R.u) * B) + R.u * B = accumulated R.u (x.length + 1) * B := by
    rw [← accumulated_succ]; ring
  rw [e3]
  exact mul_le_mul_of_nonneg_left hB (accumulated_nonneg _)

/-! ## the correlation -/

theorem quotient_alg {X Y s k α β d1 d2 : ℝ} (hX : 0 < X) (hY : 0 < Y) (hs : 0 < s) (ha : 0 < 1 + α) (hb : 0 < 1 + β) :
    X * Y / (s * s) * k / (X / s * (1 + α)) * (1 + d1) / (Y / s * (1 + β)) * (1 + d2) =
      k * ((1 + d1) * (1 + d2)) / ((1 + α) * (1 + β)) := by
  field_simp

/-- relative errors of the parts of a quotient -/
theorem quotient_rel {κ ε δ1 δ2 α β u g : ℝ} (hu0 : 0 ≤ u) (hug : 3 * u ≤ g) (hs : g ≤ 1 / 100) (hκ1 : |κ| ≤ 1)
    (hε2 : |ε| ≤ g) (hd1' : |δ1| ≤ u) (hd2' : |δ2| ≤ u) (hα2 : |α| ≤ g) (hβ2 : |β| ≤ g) :
    |(κ + ε) * ((1 + δ1) * (1 + δ2)) / ((1 + α) * (1 + β)) - κ| ≤ 4 * g := by
  have hg0 : 0 ≤ g := by linarith
  have ba := abs_le.1 hα2
  have bb := abs_le.1 hβ2
  have pα : 0 < 1 + α := by linarith
  have pβ : 0 < 1 + β := by linarith
  have hpp := mul_pos pα pβ
  have hδ : |(1 + δ1) * (1 + δ2) - 1| ≤ 2 * u + u * u := by
    have e : (1 + δ1) * (1 + δ2) - 1 = δ1 + δ2 + δ1 * δ2 := by ring
    rw [e]
    refine (abs_add_le _ _).trans ?_
    have := abs_add_le δ1 δ2
    have h2 : |δ1 * δ2| ≤ u * u := by
      rw [abs_mul]; exact mul_le_mul hd1' hd2' (abs_nonneg _) hu0
    linarith
  have hαβ : |(1 + α) * (1 + β) - 1| ≤ 2 * g + g * g := by
    have e : (1 + α) * (1 + β) - 1 = α + β + α * β := by ring
    rw [e]
    refine (abs_add_le _ _).trans ?_
    have := abs_add_le α β
    have h2 : |α * β| ≤ g * g := by
      rw [abs_mul]; exact mul_le_mul hα2 hβ2 (abs_nonneg _) hg0
    linarith
  have huu : 2 * u + u * u ≤ 7 / 10 * g := by
    have : u * u ≤ 1 / 300 * u := mul_le_mul_of_nonneg_right (by linarith) hu0
    linarith
  have hgg : 2 * g + g * g ≤ 201 / 100 * g := by
    have : g * g ≤ 1 / 100 * g := mul_le_mul_of_nonneg_right hs hg0
    linarith
  have hid : (κ + ε) * ((1 + δ1) * (1 + δ2)) / ((1 + α) * (1 + β)) - κ =
      ((ε * ((1 + δ1) * (1 + δ2)) + κ * ((1 + δ1) * (1 + δ2) - 1)) - κ * ((1 + α) * (1 + β) - 1)) /
        ((1 + α) * (1 + β)) := by
    field_simp
    ring
  rw [hid, abs_div, abs_of_pos hpp, div_le_iff₀ hpp]
  have t1 : |ε * ((1 + δ1) * (1 + δ2))| ≤ 101 / 100 * g := by
    rw [abs_mul]
    have : |(1 + δ1) * (1 + δ2)| ≤ 1 + 7 / 10 * g := by
      have e : (1 + δ1) * (1 + δ2) = 1 + ((1 + δ1) * (1 + δ2) - 1) := by ring
      rw [e]
      refine (abs_add_le _ _).trans ?_
      rw [abs_one]
      linarith
    refine (mul_le_mul hε2 this (abs_nonneg _) hg0).trans ?_
    have : g * g ≤ 1 / 100 * g := mul_le_mul_of_nonneg_right hs hg0
    linarith
  have t2 : |κ * ((1 + δ1) * (1 + δ2) - 1)| ≤ 7 / 10 * g := by
    rw [abs_mul]
    have := mul_le_mul hκ1 (hδ.trans huu) (abs_nonneg _) zero_le_one
    linarith
  have t3 : |κ * ((1 + α) * (1 + β) - 1)| ≤ 201 / 100 * g := by
    rw [abs_mul]
    have := mul_le_mul hκ1 (hαβ.trans hgg) (abs_nonneg _) zero_le_one
    linarith
  have tt := (abs_sub _ _).trans (add_le_add ((abs_add_le _ _).trans (add_le_add t1 t2)) t3)
  have hlow : 97 / 100 ≤ (1 + α) * (1 + β) := by
    have := (abs_le.1 hαβ).1
    linarith
  refine tt.trans ?_
  have := mul_le_mul_of_nonneg_left hlow (show 0 ≤ 4 * g by linarith)
  linarith

/-- the quotient that `np.corrcoef` forms, before clipping -/
theorem quotient_approx {a b c X Y P f : ℝ} {n : Nat} (hX : 0 < X) (hY : 0 < Y) (hf : 0 < f) (hP : |P| ≤ X * Y)
    (ha : |a - P| ≤ accumulated R.u n * (X * Y)) (hb : |b - X ^ 2| ≤ accumulated R.u n * X ^ 2)
    (hc : |c - Y ^ 2| ≤ accumulated R.u n * Y ^ 2) (hn : 1 ≤ n) (hs : accumulated R.u (n + 2) ≤ 1 / 100) :
    |R.fl (R.fl (R.fl (a / f) / R.fl √(R.fl (b / f))) / R.fl √(R.fl (c / f))) - P / (X * Y)| ≤
      4 * accumulated R.u (n + 2) := by
  have hu0 := R.u_nonneg
  have hXY := mul_pos hX hY
  set g := accumulated R.u (n + 2) with hg
  have hg1 : accumulated R.u (n + 1) ≤ g := accumulated_mono (by omega)
  have hg3 : 3 * R.u ≤ g := by
    have h3 : accumulated R.u 3 ≤ g := accumulated_mono (by omega)
    have : accumulated R.u 3 = 3 * R.u + 3 * R.u ^ 2 + R.u ^ 3 := by unfold accumulated; ring
    have := pow_nonneg hu0 3
    nlinarith [sq_nonneg R.u]
  have hg0 : 0 ≤ g := accumulated_nonneg _
  have hsf := Real.sqrt_pos.2 hf
  have hff : √f * √f = f := Real.mul_self_sqrt hf.le
  -- the two standard deviations
  have sd : ∀ b X : ℝ, 0 < X → |b - X ^ 2| ≤ accumulated R.u n * X ^ 2 →
      |R.fl √(R.fl (b / f)) - X / √f| ≤ g * (X / √f) := by
    intro b X hX hb
    have h1 : |b / f - X ^ 2 / f| ≤ accumulated R.u n * (X ^ 2 / f) := by
      rw [← sub_div, abs_div, abs_of_pos hf, ← mul_div_assoc]
      exact div_le_div_of_nonneg_right hb hf.le
    have hp : 0 < X ^ 2 / f := div_pos (pow_pos hX 2) hf
    have h2 := accumulated_fl (R := R) h1 (by rw [abs_of_pos hp])
    have h3 := sqrt_rel hp.le h2
    have e : √(X ^ 2 / f) = X / √f := by rw [Real.sqrt_div (sq_nonneg X), Real.sqrt_sq hX.le]
    rw [e] at h3
    exact accumulated_fl h3 (by rw [abs_of_pos (div_pos hX hsf)])
  have hα := sd b X hX hb
  have hβ := sd c Y hY hc
  -- the covariance
  have hε : |R.fl (a / f) - P / f| ≤ g * (X * Y / f) := by
    have h1 : |a / f - P / f| ≤ accumulated R.u n * (X * Y / f) := by
      rw [← sub_div, abs_div, abs_of_pos hf, ← mul_div_assoc]
      exact div_le_div_of_nonneg_right ha hf.le
    have hb : |P / f| ≤ X * Y / f := by
      rw [abs_div, abs_of_pos hf]
      exact div_le_div_of_nonneg_right hP hf.le
    have h2 := accumulated_fl (R := R) h1 hb
    exact h2.trans (mul_le_mul_of_nonneg_right hg1 (div_pos hXY hf).le)
  set sx := R.fl √(R.fl (b / f))
  set sy := R.fl √(R.fl (c / f))
  set q := R.fl (a / f)
  -- relative quantities
  obtain ⟨α, hα1, hα2⟩ : ∃ α, sx = X / √f * (1 + α) ∧ |α| ≤ g := by
    refine ⟨(sx - X / √f) / (X / √f), ?_, ?_⟩
    · have := (div_pos hX hsf).ne'
      field_simp
      ring
    · rw [abs_div, abs_of_pos (div_pos hX hsf), div_le_iff₀ (div_pos hX hsf)]
      exact hα
  obtain ⟨β, hβ1, hβ2⟩ : ∃ β, sy = Y / √f * (1 + β) ∧ |β| ≤ g := by
    refine ⟨(sy - Y / √f) / (Y / √f), ?_, ?_⟩
    · have := (div_pos hY hsf).ne'
      field_simp
      ring
    · rw [abs_div, abs_of_pos (div_pos hY hsf), div_le_iff₀ (div_pos hY hsf)]
      exact hβ
  set κ := P / (X * Y) with hκ
  have hκ1 : |κ| ≤ 1 := by
    rw [hκ, abs_div, abs_of_pos hXY, div_le_one hXY]
    exact hP
  obtain ⟨ε, hε1, hε2⟩ : ∃ ε, q = X * Y / f * (κ + ε) ∧ |ε| ≤ g := by
    refine ⟨(q - P / f) / (X * Y / f), ?_, ?_⟩
    · rw [hκ]
      field_simp
      ring
    · rw [abs_div, abs_of_pos (div_pos hXY hf), div_le_iff₀ (div_pos hXY hf)]
      exact hε
  obtain ⟨δ1, hd1, hd1'⟩ : ∃ δ, R.fl (q / sx) = q / sx * (1 + δ) ∧ |δ| ≤ R.u := by
    by_cases h0 : q / sx = 0
    · exact ⟨0, by rw [h0, R.fl_zero, zero_mul], by simpa using hu0⟩
    · refine ⟨(R.fl (q / sx) - q / sx) / (q / sx), by rw [mul_add, mul_div_cancel₀ _ h0]; ring, ?_⟩
      rw [abs_div, div_le_iff₀ (abs_pos.2 h0)]
      exact R.err _
  rw [hd1]
  set w := q / sx * (1 + δ1) / sy with hw
  obtain ⟨δ2, hd2, hd2'⟩ : ∃ δ, R.fl w = w * (1 + δ) ∧ |δ| ≤ R.u := by
    by_cases h0 : w = 0
    · exact ⟨0, by rw [h0, R.fl_zero, zero_mul], by simpa using hu0⟩
    · refine ⟨(R.fl w - w) / w, by rw [mul_add, mul_div_cancel₀ _ h0]; ring, ?_⟩
      rw [abs_div, div_le_iff₀ (abs_pos.2 h0)]
      exact R.err _
  rw [hd2]
  have ba := abs_le.1 hα2
  have bb := abs_le.1 hβ2
  have pα : 0 < 1 + α := by linarith
  have pβ : 0 < 1 + β := by linarith
  have hw2 : w * (1 + δ2) = (κ + ε) * ((1 + δ1) * (1 + δ2)) / ((1 + α) * (1 + β)) := by
    rw [hw, hε1, hα1, hβ1, ← quotient_alg hX hY hsf pα pβ, hff]
  rw [hw2]
  exact quotient_rel hu0 hg3 hs hκ1 hε2 hd1' hd2' hα2 hβ2

/-- size over variation, as vectors -/
theorem relativeSize_eq {x : List ℝ} (hx : x ≠ []) : relativeSize x = norm2 x / √(comoment x x) := by
  have hl : (0 : ℝ) < x.length := by exact_mod_cast List.length_pos_of_ne_nil hx
  have e : (x.map (fun a => (a - mean x) ^ 2)).sum = comoment x x := by
    have := centred_norm x
    have h2 := norm2_sq (centred x)
    rw [this, Real.sq_sqrt (comoment_nonneg x), centred, List.map_map] at h2
    exact h2.symm
  rw [relativeSize, stdDev, e, norm2, Real.sqrt_div (sq_sum_nonneg x), Real.sqrt_div (comoment_nonneg x)]
  have := Real.sqrt_pos.2 hl
  rw [div_div_div_cancel_right₀ this.ne']

theorem clip_val (q : FL R) : (npClip (-one) one q).val = max (-1) (min 1 q.val) := by
  unfold npClip
  have e1 : (-one : FL R).val = -1 := by
    show -(one : FL R).val = -1
    rw [FL.val_one]
  by_cases h1 : lt q (-one) = true
  · rw [if_pos h1]
    rw [FL.lt_iff, e1] at h1
    rw [e1, max_eq_left]
    exact (min_le_right _ _).trans h1.le
  · rw [if_neg h1]
    rw [Bool.not_eq_true, FL.lt_false, e1] at h1
    by_cases h2 : lt one q = true
    · rw [if_pos h2]
      rw [FL.lt_iff, FL.val_one] at h2
      rw [FL.val_one, min_eq_left h2.le, max_eq_right (by norm_num)]
    · rw [if_neg h2]
      rw [Bool.not_eq_true, FL.lt_false, FL.val_one] at h2
      rw [min_eq_right h2, max_eq_right h1]

theorem clip_near {q t e : ℝ} (ht : |t| ≤ 1) (h : |q - t| ≤ e) : |max (-1) (min 1 q) - t| ≤ e := by
  obtain ⟨t1, t2⟩ := abs_le.1 ht
  obtain ⟨h1, h2⟩ := abs_le.1 h
  rw [abs_le]
  constructor
  · have : t - e ≤ max (-1) (min 1 q) := by
      refine le_trans (le_min ?_ ?_) (le_max_right _ _)
      · have := (abs_nonneg _).trans h
        linarith
      · linarith
    linarith
  · have : max (-1) (min 1 q) ≤ t + e := by
      refine max_le ?_ ((min_le_right _ _).trans (by linarith))
      have := (abs_nonneg _).trans h
      linarith
    linarith

/-- the computed correlation -/
theorem corr_approx (hu : R.u ≤ 1 / 1000) {x y : List (FL R)} {c : FL R} (h : corrcoef01 x y = .ok c)
    (hx : ¬ Constant (x.map FL.val)) (hy : ¬ Constant (y.map FL.val))
    (hs : accumulated R.u (x.length + 3) ≤ 1 / 100)
    (hkx : accumulated R.u (x.length + 5) * relativeSize (x.map FL.val) < 1)
    (hky : accumulated R.u (x.length + 5) * relativeSize (y.map FL.val) < 1) :
    |c.val - pearson (x.map FL.val) (y.map FL.val)| ≤ accumulated R.u (x.length + 5) *
      (4 + 2 * relativeSize (x.map FL.val) + 2 * relativeSize (y.map FL.val)) ∧ |c.val| ≤ 1 := by
  unfold corrcoef01 at h
  split_ifs at h with hl
  push Not at hl
  have h := (Except.ok.inj h).symm
  set n := x.length with hn
  have hn2 : 1 < n := by
    have := length_of_not_constant hx
    rw [List.length_map] at this
    omega
  have hxl : (x.map FL.val).length = n := List.length_map ..
  have hyl : (y.map FL.val).length = n := by rw [List.length_map, hl]
  have hxn : x.map FL.val ≠ [] := by
    rw [← List.length_pos_iff, hxl]; omega
  have hyn : y.map FL.val ≠ [] := by
    rw [← List.length_pos_iff, hyl]; omega
  set fx := (ofNat (n - 1) : FL R) with hfx
  have hfv : fx.val = R.fl ((n - 1 : ℕ) : ℝ) := by
    show R.fl (((n - 1 : ℕ) : ℝ) / 10 ^ 0) = _
    rw [pow_zero, div_one]
  have hf : 0 < fx.val := by
    rw [hfv]
    have h0 : (0 : ℝ) < ((n - 1 : ℕ) : ℝ) := by
      have : 0 < n - 1 := by omega
      exact_mod_cast this
    have := R.err ((n - 1 : ℕ) : ℝ)
    rw [abs_of_pos h0] at this
    have := (abs_le.1 this).1
    have hu0 := R.u_nonneg
    nlinarith
  -- the centred vectors
  have dx := centre_approx hu x
  have dy := centre_approx hu y
  rw [← hl] at dy
  set X := (centre x).map FL.val with hX
  set Y := (centre y).map FL.val with hY
  set c1 := centred (x.map FL.val) with hc1
  set c2 := centred (y.map FL.val) with hc2
  have p1 : 0 < norm2 c1 := by rw [hc1, centred_norm]; exact Real.sqrt_pos.2 (comoment_pos hx)
  have p2 : 0 < norm2 c2 := by rw [hc2, centred_norm]; exact Real.sqrt_pos.2 (comoment_pos hy)
  have kx : relativeSize (x.map FL.val) = norm2 (x.map FL.val) / norm2 c1 := by
    rw [relativeSize_eq hxn, hc1, centred_norm]
  have ky : relativeSize (y.map FL.val) = norm2 (y.map FL.val) / norm2 c2 := by
    rw [relativeSize_eq hyn, hc2, centred_norm]
  have l1 : X.length = c1.length := by rw [hX, hc1, centred, centre]; simp
  have l2 : Y.length = c2.length := by rw [hY, hc2, centred, centre]; simp
  set a5 := accumulated R.u (n + 5)
  have q1 : norm2 (subL X c1) / norm2 c1 ≤ a5 * relativeSize (x.map FL.val) := by
    rw [kx, ← mul_div_assoc]
    exact div_le_div_of_nonneg_right dx p1.le
  have q2 : norm2 (subL Y c2) / norm2 c2 ≤ a5 * relativeSize (y.map FL.val) := by
    rw [ky, ← mul_div_assoc]
    exact div_le_div_of_nonneg_right dy p2.le
  have pX : 0 < norm2 X := by
    have h1 := (abs_le.1 (norm2_diff l1)).1
    have h2 := (div_lt_one p1).1 (lt_of_le_of_lt q1 hkx)
    linarith
  have pY : 0 < norm2 Y := by
    have h1 := (abs_le.1 (norm2_diff l2)).1
    have h2 := (div_lt_one p2).1 (lt_of_le_of_lt q2 hky)
    linarith
  -- exact cosine of the computed vectors
  have m1 := cosine_move (y := c2) l1 p1 pX p2
  have m2 := cosine_move (y := X) l2 p2 pY pX
  rw [dotR_comm Y X, dotR_comm c2 X, mul_comm (norm2 Y), mul_comm (norm2 c2)] at m2
  -- the computed cosine
  have eX : (centre x).length = n := by rw [centre, List.length_map]
  have eY : (centre y).length = n := by rw [centre, List.length_map, ← hl]
  have r1 := dot_approx (centre x) (centre y)
  have r2 := dot_approx (centre x) (centre x)
  have r3 := dot_approx (centre y) (centre y)
  rw [eX] at r1 r2
  rw [eY] at r3
  rw [← hX, ← hY] at r1
  rw [← hX, dotR_self, ← pow_two] at r2
  rw [← hY, dotR_self, ← pow_two] at r3
  have hq := quotient_approx pX pY hf (dotR_le X Y) r1 r2 r3 (by omega) hs
  have hpe : pearson (x.map FL.val) (y.map FL.val) = dotR c1 c2 / (norm2 c1 * norm2 c2) := by
    rw [pearson, hc1, hc2, centred_dot, centred_norm, centred_norm]
  have hp1 : |pearson (x.map FL.val) (y.map FL.val)| ≤ 1 := abs_pearson_le _ _ (by rw [hxl, hyl])
  rw [h, clip_val]
  refine ⟨clip_near hp1 ?_, ?_⟩
  · set Q := R.fl (R.fl (R.fl ((dot (centre x) (centre y)).val / fx.val) /
      R.fl √(R.fl ((dot (centre x) (centre x)).val / fx.val))) /
      R.fl √(R.fl ((dot (centre y) (centre y)).val / fx.val)))
    show |Q - _| ≤ _
    rw [hpe]
    have hac : accumulated R.u (n + 3) ≤ a5 := accumulated_mono (by omega)
    have e : Q - dotR c1 c2 / (norm2 c1 * norm2 c2) = (Q - dotR X Y / (norm2 X * norm2 Y)) +
      ((dotR X Y / (norm2 X * norm2 Y) - dotR X c2 / (norm2 X * norm2 c2)) +
       (dotR X c2 / (norm2 X * norm2 c2) - dotR c1 c2 / (norm2 c1 * norm2 c2))) := by ring
    rw [e]
    refine (abs_add_le _ _).trans ((add_le_add hq ((abs_add_le _ _).trans (add_le_add m2 m1))).trans ?_)
    have g1 : 2 * norm2 (subL X c1) / norm2 c1 ≤ 2 * (a5 * relativeSize (x.map FL.val)) := by
      rw [mul_div_assoc]; linarith
    have g2 : 2 * norm2 (subL Y c2) / norm2 c2 ≤ 2 * (a5 * relativeSize (y.map FL.val)) := by
      rw [mul_div_assoc]; linarith
    show 4 * accumulated R.u (n + 3) + _ ≤ _
    linarith
  · rw [abs_le]
    exact ⟨le_max_left _ _, max_le (by norm_num) (min_le_left _ _)⟩

end Rfsed
