import Verif.Props.WaveformRecovery
import Verif.Props.WaveformIgnores
import Verif.Props.WaveformTotal
import Verif.Spec.Deviation
import Verif.Spec.WaveFigure

/-!
# Property C114: noise in the stacked receiver function and the waveform fit
-/

namespace Rfsed.Props
open Rfsed PyFloat Spec Waveform

/-! ## the three criteria as functions of the data -/

theorem rms_data {x x' y : List ℝ} (h : x.length = y.length) (h' : x'.length = y.length) :
    |rms x' y - rms x y| ≤ rms x x' := by
  have e : x.length = x'.length := h.trans h'.symm
  rw [abs_le]
  have h1 := c44_rms_triangle e h'
  have h2 := c44_rms_triangle e.symm h
  rw [c44_rms_symm e.symm] at h2
  constructor <;> linarith

/-- difference of two records -/
def diffOf (x' x : List ℝ) : List ℝ := List.zipWith (fun a b => a - b) x' x

theorem mean_diff {x x' : List ℝ} (h : x'.length = x.length) : mean (diffOf x' x) = mean x' - mean x := by
  have hl : (diffOf x' x).length = x'.length := by simp [diffOf, h]
  have hs : (diffOf x' x).sum = x'.sum - x.sum := by
    clear hl
    induction x' generalizing x with
    | nil =>
      cases x with
      | nil => simp [diffOf]
      | cons b x => simp at h
    | cons a x' ih =>
      cases x with
      | nil => simp at h
      | cons b x =>
        have := ih (x := x) (by simpa using h)
        simp only [diffOf] at this ⊢
        rw [List.zipWith_cons_cons, List.sum_cons, this, List.sum_cons, List.sum_cons]
        ring
  rw [mean, mean, mean, hs, hl, h, sub_div]

theorem comoment_diff {x x' y : List ℝ} (h : x.length = y.length) (h' : x'.length = y.length) :
    comoment (diffOf x' x) y = comoment x' y - comoment x y := by
  have hm := mean_diff (h'.trans h.symm)
  have key : ∀ (a b c : ℝ) (x x' y : List ℝ), x.length = y.length → x'.length = y.length →
      (List.zipWith (fun u v => (u - (a - b)) * (v - c)) (diffOf x' x) y).sum =
      (List.zipWith (fun u v => (u - a) * (v - c)) x' y).sum -
      (List.zipWith (fun u v => (u - b) * (v - c)) x y).sum := by
    intro a b c x
    induction x with
    | nil =>
      intro x' y h h'
      have : y = [] := List.length_eq_zero_iff.1 (by simpa using h.symm)
      subst this
      simp
    | cons p x ih =>
      intro x' y h h'
      cases y with
      | nil => simp at h
      | cons r y =>
        cases x' with
        | nil => simp at h'
        | cons q x' =>
          have := ih x' y (by simpa using h) (by simpa using h')
          simp only [diffOf] at this ⊢
          rw [List.zipWith_cons_cons, List.zipWith_cons_cons, List.sum_cons, this,
            List.zipWith_cons_cons, List.zipWith_cons_cons, List.sum_cons, List.sum_cons]
          ring
  rw [comoment, hm, key _ _ _ _ _ _ h h', comoment, comoment]

theorem comoment_comm {x y : List ℝ} : comoment x y = comoment y x := by
  rw [comoment, comoment, List.zipWith_comm]
  congr 2
  funext a b
  ring

theorem abs_comoment_le {x y : List ℝ} (h : x.length = y.length) :
    |comoment x y| ≤ √(comoment x x) * √(comoment y y) := by
  rw [← Real.sqrt_mul (comoment_nonneg x)]
  exact Real.abs_le_sqrt (comoment_sq_le x y h)

/-- squared size of the difference -/
theorem comoment_diff_self {x x' : List ℝ} (h : x'.length = x.length) :
    comoment (diffOf x' x) (diffOf x' x) = comoment x' x' - 2 * comoment x' x + comoment x x := by
  have hl : (diffOf x' x).length = x.length := by simp [diffOf, h]
  rw [comoment_diff (by rw [hl]) (by rw [hl, h]), comoment_comm (x := x'), comoment_comm (x := x),
    comoment_diff h.symm rfl, comoment_diff rfl h, comoment_comm (x := x) (y := x')]
  ring

theorem abs_norm_diff {x x' : List ℝ} (h : x'.length = x.length) :
    |√(comoment x' x') - √(comoment x x)| ≤ √(comoment (diffOf x' x) (diffOf x' x)) := by
  refine Real.abs_le_sqrt ?_
  rw [comoment_diff_self h, sub_sq, Real.sq_sqrt (comoment_nonneg _), Real.sq_sqrt (comoment_nonneg _)]
  have := (abs_le.1 (abs_comoment_le h)).2
  nlinarith [Real.sqrt_nonneg (comoment x' x'), Real.sqrt_nonneg (comoment x x)]

/-- removing the mean does not increase the size -/
theorem comoment_le_sum (x : List ℝ) : comoment x x ≤ (x.map (fun a => a ^ 2)).sum := by
  by_cases hx : x = []
  · subst hx; simp [comoment]
  have hl : (0 : ℝ) < x.length := by exact_mod_cast List.length_pos_of_ne_nil hx
  have key : ∀ (m : ℝ) (x : List ℝ), (List.zipWith (fun a b => (a - m) * (b - m)) x x).sum =
      (x.map (fun a => a ^ 2)).sum - 2 * m * x.sum + x.length * m ^ 2 := by
    intro m x
    induction x with
    | nil => simp
    | cons a x ih =>
      rw [List.zipWith_cons_cons, List.sum_cons, ih, List.map_cons, List.sum_cons, List.sum_cons,
        List.length_cons]
      push_cast; ring
  rw [comoment, key]
  have hs : x.sum = x.length * mean x := by rw [mean]; field_simp
  rw [hs]
  nlinarith [mul_nonneg hl.le (sq_nonneg (mean x))]

theorem diff_size {x x' : List ℝ} (h : x'.length = x.length) :
    √(comoment (diffOf x' x) (diffOf x' x)) ≤ √(x.length) * rms x x' := by
  rw [rms, ← Real.sqrt_mul (Nat.cast_nonneg _)]
  refine Real.sqrt_le_sqrt ?_
  by_cases hx : x = []
  · subst hx
    have : x' = [] := List.length_eq_zero_iff.1 (by simpa using h)
    subst this
    simp [diffOf, comoment]
  have hl : (x.length : ℝ) ≠ 0 := by
    have := List.length_pos_of_ne_nil hx
    positivity
  rw [mul_div_cancel₀ _ hl]
  refine (comoment_le_sum _).trans (le_of_eq ?_)
  rw [diffOf, List.map_zipWith, List.zipWith_comm]
  congr 2
  funext a b
  ring

theorem stdDev_eq (x : List ℝ) : stdDev x = √(comoment x x / x.length) := by
  have key : ∀ (m : ℝ) (x : List ℝ), (List.zipWith (fun a b => (a - m) * (b - m)) x x) =
      x.map (fun a => (a - m) ^ 2) := by
    intro m x
    induction x with
    | nil => rfl
    | cons a x ih => rw [List.zipWith_cons_cons, ih, List.map_cons, pow_two]
  rw [stdDev, comoment, key]

theorem size_std {x : List ℝ} (hx : x ≠ []) : √(comoment x x) = √(x.length) * stdDev x := by
  have hl : (x.length : ℝ) ≠ 0 := by
    have := List.length_pos_of_ne_nil hx
    positivity
  rw [stdDev_eq, ← Real.sqrt_mul (Nat.cast_nonneg _), mul_div_cancel₀ _ hl]

theorem ne_nil_of_not_constant {x : List ℝ} (h : ¬ Constant x) : x ≠ [] := by
  rintro rfl
  exact h (fun a ha => by cases ha)

theorem stdDev_pos {x : List ℝ} (h : ¬ Constant x) : 0 < stdDev x := by
  have hl : (0 : ℝ) < x.length := by exact_mod_cast List.length_pos_of_ne_nil (ne_nil_of_not_constant h)
  rw [stdDev_eq]
  exact Real.sqrt_pos.2 (div_pos (comoment_pos h) hl)

/-- how far the correlation moves when the data change -/
theorem pearson_data {x x' y : List ℝ} (h : x.length = y.length) (h' : x'.length = y.length)
    (hx : ¬ Constant x) (hx' : ¬ Constant x') (hy : ¬ Constant y) :
    |pearson x' y - pearson x y| ≤ 2 * rms x x' / stdDev x := by
  have e : x'.length = x.length := h'.trans h.symm
  have pA := Real.sqrt_pos.2 (comoment_pos hx)
  have pB := Real.sqrt_pos.2 (comoment_pos hx')
  have pY := Real.sqrt_pos.2 (comoment_pos hy)
  have hn := abs_norm_diff e
  have hd : |comoment x' y - comoment x y| ≤
      √(comoment (diffOf x' x) (diffOf x' x)) * √(comoment y y) := by
    rw [← comoment_diff h h']
    exact abs_comoment_le (x := diffOf x' x) (y := y) (by simp [diffOf, e, h])
  have hc := abs_comoment_le h'
  have hD := diff_size e
  have hA : √(comoment x x) = √(x.length) * stdDev x := size_std (ne_nil_of_not_constant hx)
  have hs : (0 : ℝ) < √(x.length) := by
    refine Real.sqrt_pos.2 ?_
    exact_mod_cast List.length_pos_of_ne_nil (ne_nil_of_not_constant hx)
  have hfin : 2 * √(comoment (diffOf x' x) (diffOf x' x)) / √(comoment x x) ≤ 2 * rms x x' / stdDev x := by
    rw [hA, div_le_div_iff₀ (by rw [← hA]; exact pA) (stdDev_pos hx)]
    have := mul_le_mul_of_nonneg_right hD (stdDev_pos hx).le
    nlinarith
  refine le_trans ?_ hfin
  set A := √(comoment x x)
  set B := √(comoment x' x')
  set Y := √(comoment y y)
  set D := √(comoment (diffOf x' x) (diffOf x' x))
  rw [pearson, pearson]
  have hid : comoment x' y / (B * Y) - comoment x y / (A * Y) =
      ((A - B) * comoment x' y + B * (comoment x' y - comoment x y)) / (A * B * Y) := by
    field_simp
    ring
  rw [hid, abs_div, abs_of_pos (by positivity : 0 < A * B * Y), div_le_div_iff₀ (by positivity) pA]
  have h1 : |(A - B) * comoment x' y + B * (comoment x' y - comoment x y)| ≤ D * (B * Y) + B * (D * Y) := by
    refine (abs_add_le _ _).trans (add_le_add ?_ ?_)
    · rw [abs_mul]
      refine mul_le_mul ?_ hc (abs_nonneg _) ((abs_nonneg _).trans hn)
      rw [abs_sub_comm]; exact hn
    · rw [abs_mul, abs_of_pos pB]
      exact mul_le_mul_of_nonneg_left hd pB.le
  nlinarith

/-- how close to 1 the correlation of a noisy copy is -/
theorem pearson_copy {x y : List ℝ} (h : x.length = y.length) (hx : ¬ Constant x) (hy : ¬ Constant y) :
    1 - (rms x y) ^ 2 / (2 * stdDev x * stdDev y) ≤ pearson x y := by
  have pA := Real.sqrt_pos.2 (comoment_pos hx)
  have pB := Real.sqrt_pos.2 (comoment_pos hy)
  have hD := diff_size h
  have hs : (0 : ℝ) < √(y.length) := by
    refine Real.sqrt_pos.2 ?_
    exact_mod_cast List.length_pos_of_ne_nil (ne_nil_of_not_constant hy)
  have hD2 : comoment (diffOf x y) (diffOf x y) ≤ (√(y.length) * rms x y) ^ 2 := by
    rw [c44_rms_symm h, ← Real.sq_sqrt (comoment_nonneg (diffOf x y))]
    exact pow_le_pow_left₀ (Real.sqrt_nonneg _) hD 2
  rw [comoment_diff_self h] at hD2
  have eA : √(comoment x x) = √(y.length) * stdDev x := by
    rw [size_std (ne_nil_of_not_constant hx), h]
  have eB : √(comoment y y) = √(y.length) * stdDev y := size_std (ne_nil_of_not_constant hy)
  have e1 := Real.sq_sqrt (comoment_nonneg x)
  have e2 := Real.sq_sqrt (comoment_nonneg y)
  have p1 := stdDev_pos hx
  have p2 := stdDev_pos hy
  have hq : (rms x y) ^ 2 / (2 * stdDev x * stdDev y) =
      (√(y.length) * rms x y) ^ 2 / (2 * (√(comoment x x) * √(comoment y y))) := by
    rw [eA, eB]
    field_simp
  rw [hq, pearson, sub_le_iff_le_add, ← sub_le_iff_le_add', ← sub_nonneg]
  have : (√(y.length) * rms x y) ^ 2 / (2 * (√(comoment x x) * √(comoment y y))) -
      (1 - comoment x y / (√(comoment x x) * √(comoment y y))) =
      ((√(y.length) * rms x y) ^ 2 - 2 * (√(comoment x x) * √(comoment y y)) + 2 * comoment x y) /
        (2 * (√(comoment x x) * √(comoment y y))) := by
    field_simp
    ring
  rw [this]
  refine div_nonneg ?_ (by positivity)
  nlinarith [sq_nonneg (√(comoment x x) - √(comoment y y))]

/-- every sample of `x'` has the sign of the same sample of `x`, because the noise is smaller than the data -/
theorem signOf_noise {x x' : List ℝ} (h : BelowSignal x x') : signOf x' = signOf x := by
  induction h with
  | nil => rfl
  | @cons a b l1 l2 h1 h2 ih =>
    have ih' : l2.map (fun a : ℝ => (SignType.sign a : ℝ)) = l1.map (fun a : ℝ => (SignType.sign a : ℝ)) := ih
    simp only [signOf, List.map_cons, ih']
    congr 2
    rcases h1 with h1 | rfl
    · rcases lt_trichotomy a 0 with h | h | h
      · rw [abs_of_neg h] at h1
        have := (abs_lt.1 h1).2
        rw [sign_neg h, sign_neg (by linarith)]
      · rw [h] at h1
        simp at h1
        exact absurd h1 (not_lt.2 (abs_nonneg _))
      · rw [abs_of_pos h] at h1
        have := (abs_lt.1 h1).1
        rw [sign_pos h, sign_pos (by linarith)]
    · rfl

/-! ## the tables of two runs -/

/-- a column whose entries move by at most `ε`: the largest one moves by at most `ε`, and the winner of one
table is, in the other, within `2 ε` of the largest -/
theorem near_max {sols sols' : List (Sol ℝ)} {col : Sol ℝ → ℝ} {b b' : Sol ℝ} {ε : ℝ}
    (hb : b ∈ sols ∧ ∀ s ∈ sols, col s ≤ col b) (hb' : b' ∈ sols' ∧ ∀ s ∈ sols', col s ≤ col b')
    (hto : ∀ s ∈ sols, ∃ s' ∈ sols', s'.h = s.h ∧ s'.k = s.k)
    (hback : ∀ s' ∈ sols', ∃ s ∈ sols, s.h = s'.h ∧ s.k = s'.k)
    (hnear : ∀ s ∈ sols, ∀ s' ∈ sols', s'.h = s.h → s'.k = s.k → |col s' - col s| ≤ ε) :
    |col b' - col b| ≤ ε ∧
    (∀ s ∈ sols, s.h = b'.h → s.k = b'.k → col b - 2 * ε ≤ col s) ∧
    ((∀ s ∈ sols, ¬ (s.h = b.h ∧ s.k = b.k) → col s < col b - 2 * ε) → b'.h = b.h ∧ b'.k = b.k) := by
  obtain ⟨t', ht', t1, t2⟩ := hto b hb.1
  have n1 := abs_le.1 (hnear b hb.1 t' ht' t1 t2)
  have m1 := hb'.2 t' ht'
  obtain ⟨t, ht, u1, u2⟩ := hback b' hb'.1
  have n2 := abs_le.1 (hnear t ht b' hb'.1 u1.symm u2.symm)
  have m2 := hb.2 t ht
  refine ⟨abs_le.2 ⟨by linarith, by linarith⟩, fun s hs e1 e2 => ?_, fun hm => ?_⟩
  · have n3 := abs_le.1 (hnear s hs b' hb'.1 e1.symm e2.symm)
    linarith
  · by_contra hne
    have := hm t ht (fun h => hne ⟨by rw [← u1]; exact h.1, by rw [← u2]; exact h.2⟩)
    linarith

section
variable {env : WEnv ℝ} {rfs rfs' : List (Trace ℝ)} {tr0 tr0' : Trace ℝ}
  {preonset HSed VpSed VpCrust rayp gaussian wc wr wp : ℝ} {KMoho HMoho : List ℝ} {R R' : WResult ℝ}
  {S S' : List (List ℝ)} {sd sd' : List ℝ} {H K : ℝ}

/-- rows of two runs with the same grid pair up -/
theorem rows_pair {rfs rfs' : List (Trace ℝ)}
    (h : WaveformFitting env rfs preonset HSed VpSed VpCrust rayp KMoho HMoho gaussian wc wr wp = .ok R)
    (h' : WaveformFitting env rfs' preonset HSed VpSed VpCrust rayp KMoho HMoho gaussian wc wr wp = .ok R') :
    ∀ s ∈ R.WaveformSolutions, ∃ s' ∈ R'.WaveformSolutions, s'.h = s.h ∧ s'.k = s.k := by
  intro s hs
  obtain ⟨g1, g2⟩ := row_in_grid h s hs
  exact grid_row h' g1 g2

/-- the criteria of two rows of the same model: same synthetic, different data -/
theorem two_rows (h0 : rfs[0]? = some tr0) (hd : 0 < tr0.delta) (h0' : rfs'[0]? = some tr0')
    (hdel : tr0'.delta = tr0.delta)
    (h : WaveformFitting env rfs preonset HSed VpSed VpCrust rayp KMoho HMoho gaussian wc wr wp = .ok R)
    (h' : WaveformFitting env rfs' preonset HSed VpSed VpCrust rayp KMoho HMoho gaussian wc wr wp = .ok R')
    (hS : env.stackR rfs = .ok S) (hsd : S[0]? = some sd)
    (hS' : env.stackR rfs' = .ok S') (hsd' : S'[0]? = some sd') (hlen : sd'.length = sd.length)
    {s s' : Sol ℝ} (hs : s ∈ R.WaveformSolutions) (hs' : s' ∈ R'.WaveformSolutions)
    (eh : s'.h = s.h) (ek : s'.k = s.k) :
    ∃ syn, env.synthRF (modelOf HSed VpSed VpCrust rayp tr0.delta preonset gaussian sd.length s.h s.k) = .ok syn ∧
    let x := window tr0.delta preonset sd
    let x' := window tr0.delta preonset sd'
    let y := window tr0.delta preonset syn
    x.length = y.length ∧ x'.length = y.length ∧ s.rmse = rms x y ∧ s'.rmse = rms x' y ∧
    (¬ Constant x → ¬ Constant y → s.corr = pearson x y) ∧
    (¬ Constant x' → ¬ Constant y → s'.corr = pearson x' y) ∧
    env.pg (signOf x) (signOf y) tr0.delta = .ok s.pg ∧ env.pg (signOf x') (signOf y) tr0.delta = .ok s'.pg := by
  obtain ⟨_, _, e1, e2, hcrit⟩ := c36_serial_window h0 hd h
  rw [hS] at e1; cases Except.ok.inj e1
  rw [hsd] at e2; cases e2
  obtain ⟨_, _, e1, e2, hcrit'⟩ := c36_serial_window h0' (by rw [hdel]; exact hd) h'
  rw [hS'] at e1; cases Except.ok.inj e1
  rw [hsd'] at e2; cases e2
  obtain ⟨y, hy, q1, q2, q3, q4, q5, q6, q7⟩ := hcrit s hs
  obtain ⟨y', hy', p1, p2, p3, p4, p5, p6, p7⟩ := hcrit' s' hs'
  rw [eh, ek, hdel, hlen, hy] at hy'
  cases Except.ok.inj hy'
  rw [hdel] at p1 p3 p6 p7
  exact ⟨y, hy, q1, p1, q3, p3, q6, p6, q7, p7⟩

theorem produced_of {rfs : List (Trace ℝ)}
    (h : WaveformFitting env rfs preonset HSed VpSed VpCrust rayp KMoho HMoho gaussian wc wr wp = .ok R) :
    Produced R.WaveformSolutions R.printed wc wr wp :=
  .inl ⟨env, rfs, preonset, HSed, VpSed, VpCrust, rayp, gaussian, KMoho, HMoho, R, h, rfl, rfl⟩

/-- **C114** Two runs that differ only in the stacked record: every misfit, and the best misfit, differ by at most
the root mean square difference of the two records over the fitted window; the model that is best with the second
record has, with the first, a misfit within twice that of the best, and it is the same model if all others are
worse by more than that. -/
theorem c114_rmse (h0 : rfs[0]? = some tr0) (hd : 0 < tr0.delta) (h0' : rfs'[0]? = some tr0')
    (hdel : tr0'.delta = tr0.delta)
    (h : WaveformFitting env rfs preonset HSed VpSed VpCrust rayp KMoho HMoho gaussian wc wr wp = .ok R)
    (h' : WaveformFitting env rfs' preonset HSed VpSed VpCrust rayp KMoho HMoho gaussian wc wr wp = .ok R')
    (hS : env.stackR rfs = .ok S) (hsd : S[0]? = some sd)
    (hS' : env.stackR rfs' = .ok S') (hsd' : S'[0]? = some sd') (hlen : sd'.length = sd.length) :
    let ε := rms (window tr0.delta preonset sd) (window tr0.delta preonset sd')
    (∀ s ∈ R.WaveformSolutions, ∀ s' ∈ R'.WaveformSolutions, s'.h = s.h → s'.k = s.k → |s'.rmse - s.rmse| ≤ ε) ∧
    |R'.printed.rmse.rmse - R.printed.rmse.rmse| ≤ ε ∧
    (∀ s ∈ R.WaveformSolutions, s.h = R'.printed.rmse.h → s.k = R'.printed.rmse.k →
      s.rmse ≤ R.printed.rmse.rmse + 2 * ε) ∧
    ((∀ s ∈ R.WaveformSolutions, ¬ (s.h = R.printed.rmse.h ∧ s.k = R.printed.rmse.k) →
        R.printed.rmse.rmse + 2 * ε < s.rmse) →
      R'.printed.rmse.h = R.printed.rmse.h ∧ R'.printed.rmse.k = R.printed.rmse.k) := by
  intro ε
  have hnear : ∀ s ∈ R.WaveformSolutions, ∀ s' ∈ R'.WaveformSolutions, s'.h = s.h → s'.k = s.k →
      |s'.rmse - s.rmse| ≤ ε := by
    intro s hs s' hs' eh ek
    obtain ⟨y, -, l1, l2, r1, r2, -⟩ := two_rows h0 hd h0' hdel h h' hS hsd hS' hsd' hlen hs hs' eh ek
    rw [r1, r2]
    exact rms_data l1 l2
  obtain ⟨-, ⟨b1, b2⟩, -⟩ := best_rows (produced_of h)
  obtain ⟨-, ⟨c1, c2⟩, -⟩ := best_rows (produced_of h')
  obtain ⟨g1, g2, g3⟩ := near_max (col := fun s => -s.rmse) (ε := ε)
    ⟨b1, fun s hs => neg_le_neg (b2 s hs)⟩ ⟨c1, fun s hs => neg_le_neg (c2 s hs)⟩
    (rows_pair h h') (rows_pair h' h) (fun s hs s' hs' e1 e2 => by
      have := hnear s hs s' hs' e1 e2
      rwa [neg_sub_neg, abs_sub_comm])
  refine ⟨hnear, ?_, fun s hs e1 e2 => ?_, fun hm => g3 (fun s hs hne => ?_)⟩
  · rw [neg_sub_neg, abs_sub_comm] at g1; exact g1
  · have := g2 s hs e1 e2
    linarith
  · have := hm s hs hne
    show -s.rmse < -R.printed.rmse.rmse - 2 * ε
    linarith

/-- **C114** The same for the correlations, with the tolerance twice the root mean square difference of the
two records divided by the standard deviation of the first, when the two records and the synthetics are not
constant over the window. -/
theorem c114_corr (h0 : rfs[0]? = some tr0) (hd : 0 < tr0.delta) (h0' : rfs'[0]? = some tr0')
    (hdel : tr0'.delta = tr0.delta)
    (h : WaveformFitting env rfs preonset HSed VpSed VpCrust rayp KMoho HMoho gaussian wc wr wp = .ok R)
    (h' : WaveformFitting env rfs' preonset HSed VpSed VpCrust rayp KMoho HMoho gaussian wc wr wp = .ok R')
    (hS : env.stackR rfs = .ok S) (hsd : S[0]? = some sd)
    (hS' : env.stackR rfs' = .ok S') (hsd' : S'[0]? = some sd') (hlen : sd'.length = sd.length)
    (hx : ¬ Constant (window tr0.delta preonset sd)) (hx' : ¬ Constant (window tr0.delta preonset sd'))
    (hwig : Wiggles env HSed VpSed VpCrust rayp tr0.delta preonset gaussian sd.length KMoho HMoho) :
    let α := 2 * rms (window tr0.delta preonset sd) (window tr0.delta preonset sd') /
      stdDev (window tr0.delta preonset sd)
    (∀ s ∈ R.WaveformSolutions, ∀ s' ∈ R'.WaveformSolutions, s'.h = s.h → s'.k = s.k → |s'.corr - s.corr| ≤ α) ∧
    |R'.printed.corr.corr - R.printed.corr.corr| ≤ α ∧
    (∀ s ∈ R.WaveformSolutions, s.h = R'.printed.corr.h → s.k = R'.printed.corr.k →
      R.printed.corr.corr - 2 * α ≤ s.corr) ∧
    ((∀ s ∈ R.WaveformSolutions, ¬ (s.h = R.printed.corr.h ∧ s.k = R.printed.corr.k) →
        s.corr < R.printed.corr.corr - 2 * α) →
      R'.printed.corr.h = R.printed.corr.h ∧ R'.printed.corr.k = R.printed.corr.k) := by
  intro α
  have hnear : ∀ s ∈ R.WaveformSolutions, ∀ s' ∈ R'.WaveformSolutions, s'.h = s.h → s'.k = s.k →
      |s'.corr - s.corr| ≤ α := by
    intro s hs s' hs' eh ek
    obtain ⟨y, hy, l1, l2, -, -, r1, r2, -⟩ := two_rows h0 hd h0' hdel h h' hS hsd hS' hsd' hlen hs hs' eh ek
    obtain ⟨g1, g2⟩ := row_in_grid h s hs
    have hy' := hwig _ g1 _ g2 y hy
    rw [r1 hx hy', r2 hx' hy']
    exact pearson_data l1 l2 hx hx' hy'
  obtain ⟨⟨b1, b2⟩, -⟩ := best_rows (produced_of h)
  obtain ⟨⟨c1, c2⟩, -⟩ := best_rows (produced_of h')
  exact ⟨hnear, near_max (col := Sol.corr) ⟨b1, b2⟩ ⟨c1, c2⟩ (rows_pair h h') (rows_pair h' h) hnear⟩

/-- **C114** Noise smaller than the signal at every sample of the window leaves every phase criterion as it
is. -/
theorem c114_phase (h0 : rfs[0]? = some tr0) (hd : 0 < tr0.delta) (h0' : rfs'[0]? = some tr0')
    (hdel : tr0'.delta = tr0.delta)
    (h : WaveformFitting env rfs preonset HSed VpSed VpCrust rayp KMoho HMoho gaussian wc wr wp = .ok R)
    (h' : WaveformFitting env rfs' preonset HSed VpSed VpCrust rayp KMoho HMoho gaussian wc wr wp = .ok R')
    (hS : env.stackR rfs = .ok S) (hsd : S[0]? = some sd)
    (hS' : env.stackR rfs' = .ok S') (hsd' : S'[0]? = some sd') (hlen : sd'.length = sd.length)
    (hsmall : BelowSignal (window tr0.delta preonset sd) (window tr0.delta preonset sd')) :
    ∀ s ∈ R.WaveformSolutions, ∀ s' ∈ R'.WaveformSolutions, s'.h = s.h → s'.k = s.k → s'.pg = s.pg := by
  intro s hs s' hs' eh ek
  obtain ⟨y, -, -, -, -, -, -, -, r1, r2⟩ := two_rows h0 hd h0' hdel h h' hS hsd hS' hsd' hlen hs hs' eh ek
  rw [signOf_noise hsmall, r1] at r2
  exact (Except.ok.inj r2).symm

theorem isMax_printed {sols : List (Sol ℝ)} {col : Sol ℝ → ℝ} {m : ℝ} {b : Sol ℝ}
    (hm : IsMaxVal (sols.map col) m) (hb : b ∈ sols ∧ ∀ s ∈ sols, col s ≤ col b) : m = col b := by
  obtain ⟨h1, h2⟩ := hm
  obtain ⟨s, hs, rfl⟩ := List.mem_map.1 h1
  exact le_antisymm (hb.2 s hs) (h2 _ (List.mem_map_of_mem hb.1))

theorem near_maxVal {sols sols' : List (Sol ℝ)} {col : Sol ℝ → ℝ} {m m' ε : ℝ}
    (hm : IsMaxVal (sols.map col) m) (hm' : IsMaxVal (sols'.map col) m')
    (hto : ∀ s ∈ sols, ∃ s' ∈ sols', s'.h = s.h ∧ s'.k = s.k)
    (hback : ∀ s' ∈ sols', ∃ s ∈ sols, s.h = s'.h ∧ s.k = s'.k)
    (hnear : ∀ s ∈ sols, ∀ s' ∈ sols', s'.h = s.h → s'.k = s.k → |col s' - col s| ≤ ε) : |m' - m| ≤ ε := by
  obtain ⟨b, hb, rfl⟩ := List.mem_map.1 hm.1
  obtain ⟨b', hb', rfl⟩ := List.mem_map.1 hm'.1
  exact (near_max ⟨hb, fun s hs => hm.2 _ (List.mem_map_of_mem hs)⟩
    ⟨hb', fun s hs => hm'.2 _ (List.mem_map_of_mem hs)⟩ hto hback hnear).1

/-- a misfit divided by the largest misfit -/
theorem near_ratio {r r' m m' ε : ℝ} (h0' : 0 ≤ r') (hm : 0 < m) (hr' : r' ≤ m')
    (h1 : |r' - r| ≤ ε) (h2 : |m' - m| ≤ ε) : |r' / m' - r / m| ≤ 2 * ε / m := by
  have hε : 0 ≤ ε := (abs_nonneg _).trans h1
  rcases (h0'.trans hr').eq_or_lt with e | e
  · have : r' = 0 := le_antisymm (by rw [e]; exact hr') h0'
    rw [this, zero_sub, abs_neg] at h1
    rw [← e, div_zero, zero_sub, abs_neg, abs_div, abs_of_pos hm]
    exact div_le_div_of_nonneg_right (by linarith) hm.le
  · have hid : r' / m' - r / m = ((r' - r) + r' / m' * (m - m')) / m := by field_simp; ring
    rw [hid, abs_div, abs_of_pos hm]
    refine div_le_div_of_nonneg_right ?_ hm.le
    have hq : |r' / m'| ≤ 1 := by
      rw [abs_of_nonneg (div_nonneg h0' e.le)]
      exact (div_le_one e).2 hr'
    refine (abs_add_le _ _).trans ?_
    rw [abs_mul, abs_sub_comm m m']
    have := mul_le_mul hq h2 (abs_nonneg _) zero_le_one
    linarith

/-- a correlation divided by the largest correlation -/
theorem near_corr_ratio {c c' m m' α : ℝ} (hc : |c'| ≤ 1) (hm : α < m)
    (h1 : |c' - c| ≤ α) (h2 : |m' - m| ≤ α) : |c' / m' - c / m| ≤ α / m * (1 + 1 / (m - α)) := by
  have hα : 0 ≤ α := (abs_nonneg _).trans h1
  have pm : 0 < m := lt_of_le_of_lt hα hm
  have pd : 0 < m - α := sub_pos.2 hm
  have hm' : m - α ≤ m' := by linarith [(abs_le.1 h2).1]
  have pm' : 0 < m' := lt_of_lt_of_le pd hm'
  have hid : c' / m' - c / m = ((c' - c) + c' / m' * (m - m')) / m := by field_simp; ring
  have hr : α / m * (1 + 1 / (m - α)) = α * (1 + 1 / (m - α)) / m := by ring
  rw [hid, abs_div, abs_of_pos pm, hr]
  refine div_le_div_of_nonneg_right ?_ pm.le
  have hq : |c' / m'| ≤ 1 / (m - α) := by
    rw [abs_div, abs_of_pos pm']
    exact div_le_div₀ zero_le_one hc pd hm'
  refine (abs_add_le _ _).trans ?_
  rw [abs_mul, abs_sub_comm m m']
  have := mul_le_mul hq h2 (abs_nonneg _) (by positivity)
  linarith

/-- **C114** The goodness of fit. Noise below the signal changes each value by at most
`wc · α/c · (1 + 1/(c - α)) + wr · 2 ε / r`, with `ε` the root mean square noise over the window, `α` that of
`c114_corr`, `c` the best correlation (larger than `α`) and `r` the largest misfit without noise; the best overall
model is the same if its goodness exceeds that of all others by more than twice this. -/
theorem c114_gof (h0 : rfs[0]? = some tr0) (hd : 0 < tr0.delta) (h0' : rfs'[0]? = some tr0')
    (hdel : tr0'.delta = tr0.delta)
    (h : WaveformFitting env rfs preonset HSed VpSed VpCrust rayp KMoho HMoho gaussian wc wr wp = .ok R)
    (h' : WaveformFitting env rfs' preonset HSed VpSed VpCrust rayp KMoho HMoho gaussian wc wr wp = .ok R')
    (hS : env.stackR rfs = .ok S) (hsd : S[0]? = some sd)
    (hS' : env.stackR rfs' = .ok S') (hsd' : S'[0]? = some sd') (hlen : sd'.length = sd.length)
    (hx : ¬ Constant (window tr0.delta preonset sd)) (hx' : ¬ Constant (window tr0.delta preonset sd'))
    (hwig : Wiggles env HSed VpSed VpCrust rayp tr0.delta preonset gaussian sd.length KMoho HMoho)
    (hsmall : BelowSignal (window tr0.delta preonset sd) (window tr0.delta preonset sd'))
    (hwc : 0 ≤ wc) (hwr : 0 ≤ wr) {ε α r : ℝ}
    (hε : ε = rms (window tr0.delta preonset sd) (window tr0.delta preonset sd'))
    (hα : α = 2 * ε / stdDev (window tr0.delta preonset sd))
    (hc : α < R.printed.corr.corr) (hr : IsMaxVal (R.WaveformSolutions.map Sol.rmse) r) (hr0 : 0 < r) :
    let c := R.printed.corr.corr
    let τ := wc * (α / c * (1 + 1 / (c - α))) + wr * (2 * ε / r)
    (∀ s ∈ R.WaveformSolutions, ∀ s' ∈ R'.WaveformSolutions, s'.h = s.h → s'.k = s.k → |s'.gof - s.gof| ≤ τ) ∧
    |R'.printed.gof.gof - R.printed.gof.gof| ≤ τ ∧
    (∀ s ∈ R.WaveformSolutions, s.h = R'.printed.gof.h → s.k = R'.printed.gof.k →
      R.printed.gof.gof - 2 * τ ≤ s.gof) ∧
    ((∀ s ∈ R.WaveformSolutions, ¬ (s.h = R.printed.gof.h ∧ s.k = R.printed.gof.k) →
        s.gof < R.printed.gof.gof - 2 * τ) →
      R'.printed.gof.h = R.printed.gof.h ∧ R'.printed.gof.k = R.printed.gof.k) := by
  intro c τ
  obtain ⟨n1, -⟩ := c114_rmse h0 hd h0' hdel h h' hS hsd hS' hsd' hlen
  obtain ⟨n2, -⟩ := c114_corr h0 hd h0' hdel h h' hS hsd hS' hsd' hlen hx hx' hwig
  have n3 := c114_phase h0 hd h0' hdel h h' hS hsd hS' hsd' hlen hsmall
  rw [← hε, ← hα] at n2
  rw [← hε] at n1
  obtain ⟨mc, mr, mp, a1, a2, a3, a4⟩ := produced_gof (produced_of h)
  obtain ⟨mc', mr', mp', b1, b2, b3, b4⟩ := produced_gof (produced_of h')
  obtain ⟨p1, -, p3⟩ := best_rows (produced_of h)
  obtain ⟨-, -, q3⟩ := best_rows (produced_of h')
  have emc : mc = c := isMax_printed a1 p1
  have emr : mr = r := le_antisymm (hr.2 _ a2.1) (a2.2 _ hr.1)
  rw [emc] at a1 a4
  rw [emr] at a2 a4
  have fwd := rows_pair h h'
  have back := rows_pair h' h
  have d1 := near_maxVal a1 b1 fwd back n2
  have d2 := near_maxVal a2 b2 fwd back n1
  have d3 : mp' = mp := by
    have : |mp' - mp| ≤ 0 := near_maxVal a3 b3 fwd back (fun s hs s' hs' e1 e2 => by
      rw [n3 s hs s' hs' e1 e2]; simp)
    have := abs_nonpos_iff.1 this
    linarith
  have hcrit' := (c44_rows h0' (by rw [hdel]; exact hd) h')
  obtain ⟨_, _, -, -, hcrit'⟩ := hcrit'
  have hnear : ∀ s ∈ R.WaveformSolutions, ∀ s' ∈ R'.WaveformSolutions, s'.h = s.h → s'.k = s.k →
      |s'.gof - s.gof| ≤ τ := by
    intro s hs s' hs' e1 e2
    obtain ⟨k1, k2, k3, -⟩ := hcrit' s' hs'
    rw [a4 s hs, b4 s' hs', d3, n3 s hs s' hs' e1 e2]
    have f1 := near_corr_ratio (abs_le.2 ⟨k2, k3⟩) hc (n2 s hs s' hs' e1 e2) d1
    have f2 := near_ratio k1 hr0 (b2.2 _ (List.mem_map_of_mem hs')) (n1 s hs s' hs' e1 e2) d2
    have hid : wc * (s'.corr / mc') + wr * (1 - s'.rmse / mr') + wp * (s.pg / mp) -
        (wc * (s.corr / c) + wr * (1 - s.rmse / r) + wp * (s.pg / mp)) =
        wc * (s'.corr / mc' - s.corr / c) - wr * (s'.rmse / mr' - s.rmse / r) := by ring
    rw [hid]
    refine (abs_sub _ _).trans (add_le_add ?_ ?_)
    · rw [abs_mul, abs_of_nonneg hwc]
      exact mul_le_mul_of_nonneg_left f1 hwc
    · rw [abs_mul, abs_of_nonneg hwr]
      exact mul_le_mul_of_nonneg_left f2 hwr
  exact ⟨hnear, near_max (col := Sol.gof) p3 q3 fwd back hnear⟩

/-- **C114** Data that are a noisy copy of the synthetic of a model of the grid, with root mean square noise `ε` over
the window. The best misfit is at most `ε`; the synthetic of the model found is within `2 ε` of that of the
true one, which is found if the synthetics of all others are farther away; and the best correlation is at least
`1 - ε² / (2 σ σ')`, with `σ` and `σ'` the standard deviations of the data and the synthetic. -/
theorem c114_truth {syn : List ℝ} (h0 : rfs[0]? = some tr0) (hd : 0 < tr0.delta)
    (h : WaveformFitting env rfs preonset HSed VpSed VpCrust rayp KMoho HMoho gaussian wc wr wp = .ok R)
    (hS : env.stackR rfs = .ok S) (hsd : S[0]? = some sd) (hH : H ∈ HMoho) (hK : K ∈ KMoho)
    (hsyn : env.synthRF (modelOf HSed VpSed VpCrust rayp tr0.delta preonset gaussian sd.length H K) = .ok syn)
    {ε : ℝ} (hε : ε = rms (window tr0.delta preonset sd) (window tr0.delta preonset syn)) :
    R.printed.rmse.rmse ≤ ε ∧
    (∃ syn', env.synthRF (modelOf HSed VpSed VpCrust rayp tr0.delta preonset gaussian sd.length
        R.printed.rmse.h R.printed.rmse.k) = .ok syn' ∧
      rms (window tr0.delta preonset syn') (window tr0.delta preonset syn) ≤ 2 * ε) ∧
    ((∀ H' ∈ HMoho, ∀ K' ∈ KMoho, ∀ syn', ¬ (H' = H ∧ K' = K) →
        env.synthRF (modelOf HSed VpSed VpCrust rayp tr0.delta preonset gaussian sd.length H' K') = .ok syn' →
        2 * ε < rms (window tr0.delta preonset syn') (window tr0.delta preonset syn)) →
      R.printed.rmse.h = H ∧ R.printed.rmse.k = K) ∧
    (¬ Constant (window tr0.delta preonset sd) → ¬ Constant (window tr0.delta preonset syn) →
      1 - ε ^ 2 / (2 * stdDev (window tr0.delta preonset sd) * stdDev (window tr0.delta preonset syn)) ≤
        R.printed.corr.corr) := by
  obtain ⟨⟨c1, c2⟩, ⟨r1, r2⟩, -⟩ := best_rows (produced_of h)
  obtain ⟨S', sd', e1, e2, hcrit⟩ := c36_serial_window h0 hd h
  rw [hS] at e1; cases Except.ok.inj e1
  rw [hsd] at e2; cases e2
  obtain ⟨s, hs, sh, sk⟩ := grid_row h hH hK
  obtain ⟨y, hy, q1, q2, q3, q4, q5, q6, q7⟩ := hcrit s hs
  rw [sh, sk, hsyn] at hy
  cases Except.ok.inj hy
  obtain ⟨y', hy', p1, p2, p3, -⟩ := hcrit _ r1
  have hbest : R.printed.rmse.rmse ≤ ε := by rw [hε, ← q3]; exact r2 s hs
  have hclose : rms (window tr0.delta preonset y') (window tr0.delta preonset syn) ≤ 2 * ε := by
    have := c44_rms_triangle p1.symm q1
    rw [c44_rms_symm p1.symm, ← p3, ← hε] at this
    linarith
  refine ⟨hbest, ⟨y', hy', hclose⟩, fun hfar => ?_, fun hx hy => ?_⟩
  · by_contra hne
    obtain ⟨g1, g2⟩ := row_in_grid h _ r1
    exact absurd hclose (not_le.2 (hfar _ g1 _ g2 y' hne hy'))
  · have := pearson_copy q1 hx hy
    rw [← q6 hx hy, ← hε] at this
    exact this.trans (c2 s hs)

/-- **C114** The same for the parallel version, any number of processes and schedule. -/
theorem c114_truth_parallel {syn : List ℝ} {P : Para ℝ} {nproc : ℕ} {res : List (List (Crit ℝ))}
    {savepath format : String} {sols : List (Sol ℝ)} {best : Best ℝ} {figs : List (Fig ℝ)}
    (h0 : rfs[0]? = some tr0) (hd : 0 < tr0.delta) (hn : 0 < nproc)
    (hP : WaveformPara env rfs preonset HSed VpSed VpCrust rayp KMoho HMoho gaussian = .ok P)
    (h : RunWaveformfitting env nproc HMoho P (.ok (res.map some)))
    (hplot : plotbestmodel env res P (some wc) (some wr) (some wp) savepath format = .ok (sols, best, figs))
    (hS : env.stackR rfs = .ok S) (hsd : S[0]? = some sd) (hH : H ∈ HMoho) (hK : K ∈ KMoho)
    (hsyn : env.synthRF (modelOf HSed VpSed VpCrust rayp tr0.delta preonset gaussian sd.length H K) = .ok syn)
    {ε : ℝ} (hε : ε = rms (window tr0.delta preonset sd) (window tr0.delta preonset syn)) :
    best.rmse.rmse ≤ ε ∧
    (∃ syn', env.synthRF (modelOf HSed VpSed VpCrust rayp tr0.delta preonset gaussian sd.length
        best.rmse.h best.rmse.k) = .ok syn' ∧
      rms (window tr0.delta preonset syn') (window tr0.delta preonset syn) ≤ 2 * ε) ∧
    ((∀ H' ∈ HMoho, ∀ K' ∈ KMoho, ∀ syn', ¬ (H' = H ∧ K' = K) →
        env.synthRF (modelOf HSed VpSed VpCrust rayp tr0.delta preonset gaussian sd.length H' K') = .ok syn' →
        2 * ε < rms (window tr0.delta preonset syn') (window tr0.delta preonset syn)) →
      best.rmse.h = H ∧ best.rmse.k = K) := by
  obtain ⟨R, hR⟩ := c37_converse wc wr wp hn (List.ne_nil_of_mem hK) (List.ne_nil_of_mem hH) hP h
  obtain ⟨hperm, e1, e2, -⟩ := c37_same_best hn hR hP h hplot
  obtain ⟨g1, -⟩ := c114_truth h0 hd hR hS hsd hH hK hsyn hε
  have hprod : Produced sols best wc wr wp := .inr ⟨env, res, P, savepath, format, figs, hplot⟩
  obtain ⟨-, ⟨r1, -⟩, -⟩ := best_rows hprod
  obtain ⟨S', sd', a1, a2, hcrit⟩ := c36_serial_window h0 hd hR
  rw [hS] at a1; cases Except.ok.inj a1
  rw [hsd] at a2; cases a2
  have hbest : best.rmse.rmse ≤ ε := by rw [e2]; exact g1
  obtain ⟨s, hs, sh, sk⟩ := grid_row hR hH hK
  obtain ⟨y, hy, q1, -⟩ := hcrit s hs
  rw [sh, sk, hsyn] at hy
  cases Except.ok.inj hy
  obtain ⟨y', hy', p1, p2, p3, -⟩ := hcrit _ (hperm.mem_iff.1 r1)
  have hclose : rms (window tr0.delta preonset y') (window tr0.delta preonset syn) ≤ 2 * ε := by
    have := c44_rms_triangle p1.symm q1
    rw [c44_rms_symm p1.symm, ← p3, ← hε] at this
    linarith
  refine ⟨hbest, ⟨y', hy', hclose⟩, fun hfar => ?_⟩
  by_contra hne
  obtain ⟨g1, g2⟩ := row_in_grid hR _ (hperm.mem_iff.1 r1)
  exact absurd hclose (not_le.2 (hfar _ g1 _ g2 y' hne hy'))

end

/-! ## a concrete case -/

theorem rEnv_three (m : SynthArgs ℝ) : ∃ x y z, rEnv.synthRF m = .ok [x, y, z] := by
  by_cases h : m.depth[1]? = some 30
  · exact ⟨0, 1, 2, by simp [rEnv, h]⟩
  · exact ⟨0, 1, 1, by simp [rEnv, h]⟩

theorem rEnv_synth (n : ℕ) (H : ℝ) : rEnv.synthRF (modelOf 1 2 6 (6/100) 1 0 1 n H 2) =
    .ok (@ite _ (H = 30) (Classical.propDecidable _) [0, 1, 2] [0, 1, 1]) := by
  by_cases h : H = 30
  · rw [if_pos h]; simp [rEnv, modelOf, h]
  · rw [if_neg h]; simp [rEnv, modelOf, h]

theorem rNoise : rms [0, 1, 2] [0, 1, 201/100] = √(1/30000) := by
  rw [rms]; congr 1; norm_num

theorem rStd : stdDev [0, 1, 2] = √(2/3) := by
  rw [stdDev]; congr 1; simp [mean]; norm_num

theorem rAlpha : 2 * √(1/30000 : ℝ) / √(2/3) ≤ 1/50 := by
  rw [div_le_iff₀ (Real.sqrt_pos.2 (by norm_num))]
  have h1 : √(1/30000 : ℝ) ≤ 6/1000 := Real.sqrt_le_iff.2 ⟨by norm_num, by norm_num⟩
  have h2 : (8/10 : ℝ) ≤ √(2/3) := Real.le_sqrt_of_sq_le (by norm_num)
  linarith

/-- Data `0, 1, 2` made with Moho depth 30 km, and the same with the last sample raised by `1/100`: the
hypotheses of `c114_rmse`, `c114_corr`, `c114_phase`, `c114_gof` and `c114_truth` are met, and the noisy data
give 30 km too, by the misfit and by the goodness of fit. -/
example : ∃ R R' : WResult ℝ,
    WaveformFitting rEnv [wTraceOf 0 1 2] 0 1 2 6 (6/100) [2] [40, 30] 1 0.4 0.4 0.2 = .ok R ∧
    WaveformFitting rEnv [wTraceOf 0 1 (201/100)] 0 1 2 6 (6/100) [2] [40, 30] 1 0.4 0.4 0.2 = .ok R' ∧
    R'.printed.rmse.h = 30 ∧ R'.printed.gof.h = R.printed.gof.h ∧
    R'.printed.rmse.rmse ≤ √(1/30000) ∧ |R'.printed.corr.corr - R.printed.corr.corr| ≤ 1/50 := by
  have ok := fun a b c => (wRunOf (env := rEnv) (K := [2]) (H := [40, 30]) a b c 0.4 0.4 0.2 (by simp) (by simp)
    (fun _ => rfl) rEnv_three (fun _ _ _ => ⟨_, rfl⟩)).1
  obtain ⟨R, h⟩ := ok 0 1 2
  obtain ⟨R', h'⟩ := ok 0 1 (201/100)
  refine ⟨R, R', h, h', ?_⟩
  have hd : 0 < (wTraceOf 0 1 2).delta := show (0 : ℝ) < 1 by norm_num
  have hw : ∀ a b c : ℝ, window (wTraceOf 0 1 2).delta 0 [a, b, c] = [a, b, c] := wWindow
  have hv : ∀ c : ℝ, ¬ Constant (window (wTraceOf 0 1 2).delta 0 [0, 1, c]) := fun c => by
    rw [hw]; exact fun h => by have := h 0 (by simp) 1 (by simp); norm_num at this
  have hsyn : ∀ H, rEnv.synthRF (modelOf 1 2 6 (6/100) (wTraceOf 0 1 2).delta 0 1 ([0, 1, 2] : List ℝ).length H 2) =
      .ok (@ite _ (H = 30) (Classical.propDecidable _) [0, 1, 2] [0, 1, 1]) := rEnv_synth _
  have hwig : Wiggles rEnv 1 2 6 (6/100) (wTraceOf 0 1 2).delta 0 1 ([0, 1, 2] : List ℝ).length [2] [40, 30] := by
    intro H _ K hK syn hs
    have hK2 : K = 2 := by simpa using hK
    rw [hK2, hsyn] at hs
    cases Except.ok.inj hs
    split
    · exact hv 2
    · exact hv 1
  have hsmall : BelowSignal (window (wTraceOf 0 1 2).delta 0 [0, 1, 2])
      (window (wTraceOf 0 1 2).delta 0 [0, 1, 201/100]) := by
    rw [hw, hw]
    exact .cons (.inr rfl) (.cons (.inr rfl) (.cons (.inl (by norm_num [abs_lt])) .nil))
  have hε : rms (window (wTraceOf 0 1 2).delta 0 [0, 1, 2]) (window (wTraceOf 0 1 2).delta 0 [0, 1, 201/100])
      = √(1/30000) := by rw [hw, hw, rNoise]
  have hσ : stdDev (window (wTraceOf 0 1 2).delta 0 [0, 1, 2]) = √(2/3) := by rw [hw, rStd]
  have hsmallε : √(1/30000 : ℝ) ≤ 6/1000 := Real.sqrt_le_iff.2 ⟨by norm_num, by norm_num⟩
  have hthird : (1/2 : ℝ) ≤ √(1/3) := Real.le_sqrt_of_sq_le (by norm_num)
  -- the clean run
  obtain ⟨_, _, e1, e2, hcrit⟩ := c36_serial_window (tr0 := wTraceOf 0 1 2) rfl hd h
  cases Except.ok.inj e1
  cases e2
  have hrow : ∀ s ∈ R.WaveformSolutions, (s.h = 30 ∧ s.rmse = 0) ∨ (s.h = 40 ∧ s.rmse = √(1/3)) := by
    intro s hs
    obtain ⟨g1, g2⟩ := row_in_grid h s hs
    have hk : s.k = 2 := by simpa using g2
    obtain ⟨y, hy, q1, -, q3, -⟩ := hcrit s hs
    rw [hk] at hy
    have hy := (hsyn s.h).symm.trans hy
    rcases (by simpa using g1 : s.h = 40 ∨ s.h = 30) with e | e
    · right
      refine ⟨e, ?_⟩
      rw [e, if_neg (by norm_num)] at hy
      cases Except.ok.inj hy
      rw [q3]
      show rms (window (wTraceOf 0 1 2).delta 0 [0, 1, 2]) _ = _
      rw [hw, hw, rms]; congr 1; norm_num
    · left
      refine ⟨e, ?_⟩
      rw [e, if_pos rfl] at hy
      cases Except.ok.inj hy
      rw [q3, c44_rms_zero q1]
      rfl
  have hclean := c86_recovers (tr0 := wTraceOf 0 1 2) (H := 30) (K := 2) rfl hd h (S := [[0, 1, 2]]) rfl rfl
    (by simp) (by simp) ((hsyn 30).trans (by rw [if_pos rfl])) rfl
  have hc1 : R.printed.corr.corr = 1 := hclean.2.2.2 (hv 2)
  obtain ⟨s30, m30, e30, -⟩ := grid_row h (H := 30) (K := 2) (by simp) (by simp)
  obtain ⟨s40, m40, e40, -⟩ := grid_row h (H := 40) (K := 2) (by simp) (by simp)
  have r40 : s40.rmse = √(1/3) := by
    rcases hrow s40 m40 with e | e
    · rw [e40] at e; norm_num at e
    · exact e.2
  have hr : IsMaxVal (R.WaveformSolutions.map Sol.rmse) (√(1/3)) := by
    refine ⟨by rw [← r40]; exact List.mem_map_of_mem m40, fun x hx => ?_⟩
    obtain ⟨s, hs, rfl⟩ := List.mem_map.1 hx
    rcases hrow s hs with e | e
    · rw [e.2]; exact Real.sqrt_nonneg _
    · rw [e.2]
  obtain ⟨-, -, -, m4⟩ := c114_rmse (tr0 := wTraceOf 0 1 2) (tr0' := wTraceOf 0 1 (201/100)) rfl hd rfl rfl h h'
    rfl rfl rfl rfl rfl
  obtain ⟨-, k2, -⟩ := c114_corr (tr0 := wTraceOf 0 1 2) (tr0' := wTraceOf 0 1 (201/100)) rfl hd rfl rfl h h'
    rfl rfl rfl rfl rfl (hv 2) (hv _) hwig
  obtain ⟨t1, -, t3, -⟩ := c114_truth (tr0 := wTraceOf 0 1 (201/100)) (H := 30) (K := 2) rfl hd h'
    (S := [[0, 1, 201/100]]) rfl rfl (by simp) (by simp) ((hsyn 30).trans (by rw [if_pos rfl])) (ε := √(1/30000))
    (by
      show _ = rms (window (wTraceOf 0 1 2).delta 0 [0, 1, 201/100]) (window (wTraceOf 0 1 2).delta 0 [0, 1, 2])
      rw [c44_rms_symm (by rw [hw, hw]; rfl), hε])
  have hα := rAlpha
  have hα0 : 0 ≤ 2 * √(1/30000 : ℝ) / √(2/3) := by positivity
  set α := 2 * √(1/30000 : ℝ) / √(2/3) with hαdef
  obtain ⟨-, -, -, g4⟩ := c114_gof (tr0 := wTraceOf 0 1 2) (tr0' := wTraceOf 0 1 (201/100)) rfl hd rfl rfl h h'
    rfl rfl rfl rfl rfl (hv 2) (hv _) hwig hsmall (by norm_num) (by norm_num) (ε := √(1/30000)) (α := α)
    hε.symm (by rw [hαdef]; exact congrArg _ hσ.symm) (by rw [hc1]; linarith) hr (by linarith)
  refine ⟨(t3 ?_).1, (g4 ?_).1, t1, ?_⟩
  · intro H' hH' K' hK' syn' hne hs'
    have hK2 : K' = 2 := by simpa using hK'
    have hH30 : H' ≠ 30 := fun e => hne ⟨e, hK2⟩
    rw [hK2] at hs'
    have hs' := (hsyn H').symm.trans hs'
    rw [if_neg hH30] at hs'
    cases Except.ok.inj hs'
    show _ < rms (window (wTraceOf 0 1 2).delta 0 [0, 1, 1]) (window (wTraceOf 0 1 2).delta 0 [0, 1, 2])
    have : rms (window (wTraceOf 0 1 2).delta 0 [0, 1, 1]) (window (wTraceOf 0 1 2).delta 0 [0, 1, 2]) = √(1/3) := by
      rw [hw, hw, rms]; congr 1; norm_num
    rw [this]; linarith
  · intro s hs hne
    have hover := c86_overall (tr0 := wTraceOf 0 1 2) (H := 30) (K := 2) rfl hd h (S := [[0, 1, 2]]) rfl rfl
        (by simp) (by simp) ((hsyn 30).trans (by rw [if_pos rfl])) rfl (hv 2) (by norm_num) (by norm_num)
        (by norm_num) (by norm_num) ⟨s40, m40, by rw [r40]; linarith⟩ (top := 10) (by norm_num)
        (fun x d => by simp [rEnv]) (fun x y d v hv => by
          have := Except.ok.inj hv
          rw [← this]; split_ifs <;> norm_num)
    obtain ⟨-, -, ⟨b1, -⟩⟩ := best_rows (produced_of h)
    have hb30 : R.printed.gof.h = 30 := by
      rcases hrow _ b1 with e | e
      · exact e.1
      · rw [hover.2.1] at e; linarith [e.2]
    have hk : ∀ s ∈ R.WaveformSolutions, s.k = 2 := fun s hs => by simpa using (row_in_grid h s hs).2
    have hs40 : s.rmse = √(1/3) := by
      rcases hrow s hs with e | e
      · exact absurd ⟨e.1.trans hb30.symm, (hk s hs).trans (hk _ b1).symm⟩ hne
      · exact e.2
    obtain ⟨mc, mr, mp, a1, a2, a3, a4⟩ := produced_gof (produced_of h)
    obtain ⟨p1, -, -⟩ := best_rows (produced_of h)
    have emc : mc = 1 := (isMax_printed a1 p1).trans hc1
    have emr : mr = √(1/3) := le_antisymm (hr.2 _ a2.1) (a2.2 _ hr.1)
    have hpg : ∀ s ∈ R.WaveformSolutions, 0 < s.pg := by
      intro s hs
      obtain ⟨y, -, -, -, -, -, -, -, q⟩ := hcrit s hs
      have := Except.ok.inj q
      rw [← this]; split_ifs <;> norm_num
    have hmp : 0 < mp := by
      obtain ⟨b, hb, e⟩ := List.mem_map.1 a3.1
      rw [← e]; exact hpg b hb
    have hsp : s.pg / mp ≤ 1 := (div_le_one hmp).2 (a3.2 _ (List.mem_map_of_mem hs))
    have hsc : s.corr ≤ 1 := by rw [← hc1]; exact p1.2 s hs
    rw [a4 s hs, hover.1, emc, emr, hs40, div_self (by linarith : √(1/3 : ℝ) ≠ 0), hc1]
    have f1 : α / 1 * (1 + 1 / (1 - α)) ≤ 5/100 := by
      have : 1 / (1 - α) ≤ 1.1 := by rw [div_le_iff₀ (by linarith)]; linarith
      nlinarith
    have f2 : 2 * √(1/30000 : ℝ) / √(1/3) ≤ 3/100 := by
      rw [div_le_iff₀ (by linarith)]; linarith
    linarith
  · have k3 : |R'.printed.corr.corr - R.printed.corr.corr| ≤
        2 * rms (window (wTraceOf 0 1 2).delta 0 [0, 1, 2]) (window (wTraceOf 0 1 2).delta 0 [0, 1, 201/100]) /
        stdDev (window (wTraceOf 0 1 2).delta 0 [0, 1, 2]) := k2
    rw [hε, hσ] at k3
    exact k3.trans hα

end Rfsed.Props
