import Verif.Py.Stats
import Verif.Spec.Waveform
import Verif.Proofs.ExceptList
import Verif.Proofs.Argmax
import Mathlib.Algebra.Order.BigOperators.Ring.Finset
import Mathlib.Algebra.BigOperators.Fin
import Mathlib.Tactic.Linarith
import Mathlib.Data.Sign.Basic
import Mathlib.Tactic.Ring
import Mathlib.Tactic.FieldSimp
import Mathlib.Tactic.Positivity
import Mathlib.Algebra.Order.Floor.Ring
import Mathlib.Algebra.Order.Archimedean.Real.Basic

/-! Helper lemmas about `Py/Stats`. -/

namespace Rfsed
open PyFloat Spec

theorem foldl_add_real (xs : List ℝ) (a : ℝ) : xs.foldl (· + ·) a = a + xs.sum := by
  induction xs generalizing a with
  | nil => simp
  | cons x xs ih => rw [List.foldl_cons, ih, List.sum_cons]; ring

theorem npMean_eq_mean (xs : List ℝ) : npMean xs = mean xs := by
  simp [npMean, mean, foldl_add_real]

theorem centre_real (xs : List ℝ) : centre xs = xs.map (fun x => x - mean xs) := by
  simp [centre, npMean_eq_mean]

theorem dot_centre (x y : List ℝ) : dot (centre x) (centre y) = comoment x y := by
  rw [dot, foldl_add_real, centre_real, centre_real, List.zipWith_map]
  simp [comoment]

/-- a sum over `zipWith` as a sum over indices -/
theorem zipWith_sum (f : ℝ → ℝ → ℝ) (x y : List ℝ) (h : x.length = y.length) :
    (List.zipWith f x y).sum = ∑ i : Fin x.length, f (x.get i) (y.get (i.cast h)) := by
  induction x generalizing y with
  | nil => simp
  | cons a x ih =>
    cases y with
    | nil => simp at h
    | cons b y =>
      have h' : x.length = y.length := by simpa using h
      rw [List.zipWith_cons_cons, List.sum_cons, ih y h']
      symm
      exact Fin.sum_univ_succ (n := x.length) _

theorem comoment_nonneg (x : List ℝ) : 0 ≤ comoment x x := by
  rw [comoment, zipWith_sum _ _ _ rfl]
  exact Finset.sum_nonneg (fun i _ => mul_self_nonneg _)

theorem comoment_sq_le (x y : List ℝ) (h : x.length = y.length) :
    comoment x y ^ 2 ≤ comoment x x * comoment y y := by
  have hy : comoment y y = ∑ i : Fin x.length, (y.get (i.cast h) - mean y) ^ 2 := by
    rw [comoment, zipWith_sum _ _ _ rfl]
    symm
    refine Fintype.sum_equiv (finCongr h) _ _ (fun i => ?_)
    simp [pow_two]
  have hx : comoment x x = ∑ i : Fin x.length, (x.get i - mean x) ^ 2 := by
    rw [comoment, zipWith_sum _ _ _ rfl]
    exact Finset.sum_congr rfl (fun i _ => by simp [pow_two])
  rw [hx, hy, comoment, zipWith_sum _ _ _ h]
  exact Finset.sum_mul_sq_le_sq_mul_sq _ _ _

theorem abs_pearson_le (x y : List ℝ) (h : x.length = y.length) : |pearson x y| ≤ 1 := by
  rw [pearson, abs_div]
  have h1 := Real.sqrt_nonneg (comoment x x)
  have h2 := Real.sqrt_nonneg (comoment y y)
  have h3 : |comoment x y| ≤ Real.sqrt (comoment x x) * Real.sqrt (comoment y y) := by
    rw [← Real.sqrt_mul (comoment_nonneg x)]
    exact Real.abs_le_sqrt (comoment_sq_le x y h)
  rw [abs_of_nonneg (mul_nonneg h1 h2)]
  exact div_le_one_of_le₀ h3 (mul_nonneg h1 h2)

theorem npClip_real {x : ℝ} (h : |x| ≤ 1) : npClip (-(one : ℝ)) one x = x := by
  have := abs_le.1 h
  unfold npClip
  rw [if_neg (by simp; linarith), if_neg (by simp; linarith)]

theorem comoment_pos {x : List ℝ} (h : ¬ Constant x) : 0 < comoment x x := by
  refine lt_of_le_of_ne (comoment_nonneg x) (fun h0 => h ?_)
  rw [comoment, zipWith_sum _ _ _ rfl] at h0
  have := (Finset.sum_eq_zero_iff_of_nonneg
    (fun (i : Fin x.length) _ => mul_self_nonneg (x.get i - mean x))).1 h0.symm
  have key : ∀ a ∈ x, a = mean x := by
    intro a ha
    obtain ⟨i, rfl⟩ := List.get_of_mem ha
    have := this i (Finset.mem_univ _)
    have := mul_self_eq_zero.1 this
    linarith
  intro a ha b hb
  rw [key a ha, key b hb]

theorem comoment_const {x : List ℝ} (h : Constant x) (hx : x ≠ []) : comoment x x = 0 := by
  obtain ⟨a, t, rfl⟩ := List.exists_cons_of_ne_nil hx
  have hall : ∀ b ∈ a :: t, b = a := fun b hb => h b hb a (by simp)
  have hs : (a :: t).sum = (a :: t).length * a := by
    rw [List.eq_replicate_of_mem hall]; simp
  have hm : mean (a :: t) = a := by
    rw [mean, hs]
    have : ((a :: t).length : ℝ) ≠ 0 := by simp; positivity
    field_simp
  rw [comoment, zipWith_sum _ _ _ rfl]
  refine Finset.sum_eq_zero (fun i _ => ?_)
  rw [hm, hall _ (List.get_mem _ i)]
  simp

/-- a non-constant list has at least two entries -/
theorem length_of_not_constant {x : List ℝ} (h : ¬ Constant x) : 2 ≤ x.length := by
  by_contra hc
  apply h
  match x, hc with
  | [], _ => intro a ha; simp at ha
  | [a], _ => intro b hb c hc; simp at hb hc; rw [hb, hc]
  | a :: b :: t, h => simp at h

theorem corrcoef01_real {x y : List ℝ} (hl : x.length = y.length) (hx : ¬ Constant x)
    (hy : ¬ Constant y) : corrcoef01 x y = .ok (pearson x y) := by
  have hn := length_of_not_constant hx
  rw [corrcoef01, if_neg (by simp [hl])]
  have hf : (0 : ℝ) < ((x.length - 1 : ℕ) : ℝ) := by
    have : 0 < x.length - 1 := by omega
    exact_mod_cast this
  have key : dot (centre x) (centre y) / (ofNat (x.length - 1) : ℝ) /
      powHalf (dot (centre x) (centre x) / ofNat (x.length - 1)) /
      powHalf (dot (centre y) (centre y) / ofNat (x.length - 1)) = pearson x y := by
    rw [dot_centre, dot_centre, dot_centre, pearson]
    simp only [real_powHalf, real_ofNat]
    set f : ℝ := ((x.length - 1 : ℕ) : ℝ) with hfdef
    have hcx := comoment_pos hx
    have hcy := comoment_pos hy
    rw [Real.sqrt_div hcx.le, Real.sqrt_div hcy.le]
    have h1 := Real.sqrt_pos.2 hcx
    have h2 := Real.sqrt_pos.2 hcy
    have h3 := Real.sqrt_pos.2 hf
    have h4 : Real.sqrt f * Real.sqrt f = f := Real.mul_self_sqrt hf.le
    have e : comoment x y / f / (√(comoment x x) / √f) / (√(comoment y y) / √f) =
        (√f * √f) / f * (comoment x y / (√(comoment x x) * √(comoment y y))) := by
      field_simp
    rw [e, h4, div_self hf.ne', one_mul]
  simp only [key]
  rw [npClip_real (abs_pearson_le x y hl)]

/-- the value is always in `[-1, 1]` -/
theorem corrcoef01_bounds {x y : List ℝ} {c : ℝ} (h : corrcoef01 x y = .ok c) :
    -1 ≤ c ∧ c ≤ 1 := by
  rw [corrcoef01] at h
  split at h
  · cases h
  · have h := Except.ok.inj h
    rw [← h, npClip]
    split
    · simp
    · split
      · simp
      · rename_i h1 h2
        rw [Bool.not_eq_true, real_lt_false, real_one] at h1 h2
        exact ⟨h1, h2⟩

theorem isFinite_real (x : ℝ) : isFinite x = true := by simp [isFinite]

theorem meanSquaredError_real {x y : List ℝ} {m : ℝ} :
    meanSquaredError x y = .ok m ↔ x.length = y.length ∧ x ≠ [] ∧
      m = (List.zipWith (fun a b => (a - b) ^ 2) x y).sum / x.length := by
  rw [meanSquaredError]
  have hfin : ∀ l : List ℝ, l.all isFinite = true := fun l =>
    List.all_eq_true.2 (fun a _ => isFinite_real a)
  split
  · rename_i h
    constructor
    · intro h'; cases h'
    · rintro ⟨h1, h2, _⟩
      rcases h with h | h
      · exact absurd h1 h
      · exact absurd (List.length_eq_zero_iff.1 h) h2
  · rename_i h
    push Not at h
    rw [hfin, hfin, if_neg (by simp)]
    have e : npMean ((vsub x y).map square) =
        (List.zipWith (fun a b => (a - b) ^ 2) x y).sum / (x.length : ℝ) := by
      rw [npMean_eq_mean, mean, vsub, List.map_zipWith]
      simp [← h.1]
    rw [e]
    constructor
    · intro h'
      exact ⟨h.1, fun e => h.2 (by simp [e]), (Except.ok.inj h').symm⟩
    · rintro ⟨_, _, h'⟩; rw [h']

theorem signs_real (x : List ℝ) : signs x = x.map (fun a : ℝ => (SignType.sign a : ℝ)) := by
  rw [signs]
  refine List.map_congr_left (fun a _ => ?_)
  rcases lt_trichotomy a 0 with h | h | h
  · rw [if_neg (by simp [h.ne])]
    simp [abs_of_neg h, h, div_neg, h.ne]
  · subst h; simp
  · rw [if_neg (by simp [h.ne'])]
    simp [abs_of_pos h, h, h.ne']

theorem pyMax_real {xs : List ℝ} {m : ℝ} (h : pyMax xs = .ok m) : IsMaxVal xs m := by
  cases xs with
  | nil => cases h
  | cons x xs =>
    replace h := Except.ok.inj h
    subst h
    induction xs generalizing x with
    | nil => simp [IsMaxVal]
    | cons y ys ih =>
      rw [List.foldl_cons]
      have hcase : (if PyFloat.lt x y then y else x) = max x y := by
        by_cases hxy : x < y
        · rw [if_pos (by simpa using hxy), max_eq_right hxy.le]
        · rw [if_neg (by simpa using hxy), max_eq_left (not_lt.1 hxy)]
      rw [hcase]
      obtain ⟨h1, h2⟩ := ih (max x y)
      have hge := h2 (max x y) (by simp)
      constructor
      · rcases List.mem_cons.1 h1 with h | h
        · rw [h]
          rcases max_choice x y with e | e <;> rw [e] <;> simp
        · exact List.mem_cons_of_mem _ (List.mem_cons_of_mem _ h)
      · intro z hz
        rcases List.mem_cons.1 hz with rfl | hz
        · exact (le_max_left _ _).trans hge
        · rcases List.mem_cons.1 hz with rfl | hz
          · exact (le_max_right _ _).trans hge
          · exact h2 z (List.mem_cons_of_mem _ hz)

theorem pyMin_real {xs : List ℝ} {m : ℝ} (h : pyMin xs = .ok m) : IsMinVal xs m := by
  cases xs with
  | nil => cases h
  | cons x xs =>
    replace h := Except.ok.inj h
    subst h
    induction xs generalizing x with
    | nil => simp [IsMinVal]
    | cons y ys ih =>
      rw [List.foldl_cons]
      have hcase : (if PyFloat.lt y x then y else x) = min x y := by
        by_cases hxy : y < x
        · rw [if_pos (by simpa using hxy), min_eq_right hxy.le]
        · rw [if_neg (by simpa using hxy), min_eq_left (not_lt.1 hxy)]
      rw [hcase]
      obtain ⟨h1, h2⟩ := ih (min x y)
      have hge := h2 (min x y) (by simp)
      constructor
      · rcases List.mem_cons.1 h1 with h | h
        · rw [h]
          rcases min_choice x y with e | e <;> rw [e] <;> simp
        · exact List.mem_cons_of_mem _ (List.mem_cons_of_mem _ h)
      · intro z hz
        rcases List.mem_cons.1 hz with rfl | hz
        · exact hge.trans (min_le_left _ _)
        · rcases List.mem_cons.1 hz with rfl | hz
          · exact hge.trans (min_le_right _ _)
          · exact h2 z (List.mem_cons_of_mem _ hz)

theorem pyMax_ok {F : Type} [PyFloat F] {xs : List F} (h : xs ≠ []) : ∃ m, pyMax xs = .ok m := by
  cases xs with
  | nil => exact absurd rfl h
  | cons x xs => exact ⟨_, rfl⟩

theorem pyMin_ok {F : Type} [PyFloat F] {xs : List F} (h : xs ≠ []) : ∃ m, pyMin xs = .ok m := by
  cases xs with
  | nil => exact absurd rfl h
  | cons x xs => exact ⟨_, rfl⟩

theorem IsMaxVal.unique {xs ys : List ℝ} {m m' : ℝ} (hp : xs.Perm ys) (h : IsMaxVal xs m)
    (h' : IsMaxVal ys m') : m = m' :=
  le_antisymm (h'.2 m (hp.mem_iff.1 h.1)) (h.2 m' (hp.mem_iff.2 h'.1))

/-- the fill loop, started at row `z` of a table whose first `z` rows are `pre` -/
theorem fillFold {α : Type} (rows : List α) (pre post : List α) :
    rows.foldlM (fun (st : List α × Nat) row => do
      let t ← setItem st.1 st.2 row
      pure (t, st.2 + 1)) (pre ++ post, pre.length) =
    if rows.length ≤ post.length then
      (.ok (pre ++ rows ++ post.drop rows.length, pre.length + rows.length) : Except PyErr _)
    else .error .indexError := by
  induction rows generalizing pre post with
  | nil => simp
  | cons r rs ih =>
    rw [List.foldlM_cons]
    cases post with
    | nil => simp [setItem]
    | cons q post =>
      have h1 : setItem (pre ++ q :: post) pre.length r = .ok ((pre ++ [r]) ++ post) := by
        rw [setItem, if_pos (by simp)]
        simp
      rw [h1, except_ok_bind, except_pure, except_ok_bind]
      have h2 : pre.length + 1 = (pre ++ [r]).length := by simp
      simp only
      rw [h2, ih (pre ++ [r]) post]
      by_cases hle : rs.length ≤ post.length
      · rw [if_pos hle, if_pos (by simpa using hle)]
        simp
        omega
      · rw [if_neg hle, if_neg (by simpa using hle)]

theorem fillRows_eq {α : Type} (z : α) (n : Nat) (rows : List α) :
    fillRows z n rows = if rows.length ≤ n then
      .ok (rows ++ List.replicate (n - rows.length) z) else .error .indexError := by
  have := fillFold rows [] (List.replicate n z)
  rw [fillRows]
  simp only [List.nil_append, List.length_nil, List.length_replicate] at this
  rw [this]
  split <;> simp

theorem fillRows_self {α : Type} (z : α) (rows : List α) :
    fillRows z rows.length rows = .ok rows := by
  rw [fillRows_eq]; simp

/-- appending loop -/
theorem appendLoop {α β ε : Type} (f : α → Except ε β) (xs : List α) (acc : List β) :
    xs.foldlM (fun (sol : List β) x => do let c ← f x; pure (sol ++ [c])) acc =
      (xs.mapM f).map (acc ++ ·) := by
  induction xs generalizing acc with
  | nil => simp
  | cons x xs ih =>
    rw [List.foldlM_cons, List.mapM_cons]
    cases hf : f x with
    | error e => rfl
    | ok c =>
      have := ih (acc ++ [c])
      simp only [except_pure, except_ok_bind] at this ⊢
      rw [this]
      cases hm : List.mapM f xs with
      | error e => rfl
      | ok cs => simp

end Rfsed
