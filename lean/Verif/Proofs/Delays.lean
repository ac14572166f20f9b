import Verif.Spec.Delays
import Verif.Proofs.Forward
import Verif.Proofs.ForwardSym2

/-! # The layered response as a quotient of pulse trains -/

namespace Rfsed.Synrf
open Matrix Complex Rfsed.Spec

variable {ω p : ℝ} {l : Layer}

/-- travel time of an S wave through the layers -/
noncomputable def sTime (p : ℝ) (ls : List Layer) : ℝ := (ls.map (fun l => l.h * vert l.β p)).sum

/-- sum of matrices with phase factors -/
noncomputable def mPulses (C : List Mat4) (d : List ℝ) (ω : ℝ) : Mat4 :=
  (List.zipWith (fun (C : Mat4) (d : ℝ) => exp (I * (ω * d : ℝ)) • C) C d).sum

theorem mPulses_append {A B : List Mat4} {a b : List ℝ} (h : A.length = a.length) :
    mPulses (A ++ B) (a ++ b) ω = mPulses A a ω + mPulses B b ω := by
  rw [mPulses, List.zipWith_append h, List.sum_append]; rfl

theorem mPulses_mul {A : List Mat4} (M : Mat4) (a : List ℝ) (t : ℝ) (ha : A.length = a.length) :
    mPulses (A.map (· * M)) (a.map (fun s => t + s)) ω = exp (I * (ω * t : ℝ)) • (mPulses A a ω * M) := by
  induction A generalizing a with
  | nil => simp [mPulses]
  | cons x xs ih =>
    cases a with
    | nil => simp at ha
    | cons y ys =>
      have := ih ys (by simpa using ha)
      simp only [mPulses, List.map_cons, List.zipWith_cons_cons, List.sum_cons] at this ⊢
      rw [this, Matrix.add_mul, smul_add, Matrix.smul_mul, smul_smul, ← exp_add]
      congr 3
      push_cast; ring

theorem mPulses_entry (C : List Mat4) (d : List ℝ) (E : Mat4) (j k : Fin 4) :
    (E * mPulses C d ω) j k = pulses (C.map (fun M => (E * M) j k)) d ω := by
  induction C generalizing d with
  | nil => simp [mPulses, pulses]
  | cons x xs ih =>
    cases d with
    | nil => simp [mPulses, pulses]
    | cons y ys =>
      have := ih ys
      simp only [mPulses, pulses, List.map_cons, List.zipWith_cons_cons, List.sum_cons] at this ⊢
      rw [Matrix.mul_add, Matrix.add_apply, this, Matrix.mul_smul, Matrix.smul_apply, smul_eq_mul, mul_comm]

/-- scaling of the tractions with frequency -/
noncomputable def wS (ω : ℝ) : Mat4 := Matrix.diagonal ![1, 1, (ω : ℂ), (ω : ℂ)]

theorem wS_inv (hω : ω ≠ 0) : wS ω⁻¹ * wS ω = 1 := by
  have : (ω : ℂ) ≠ 0 := by exact_mod_cast hω
  ext j k
  fin_cases j <;> fin_cases k <;> simp [wS, this]

theorem lE_freq (hg : Good p l) (hω : ω ≠ 0) : lE ω p l = lE 1 p l * wS ω⁻¹ := by
  have h0 : (ω : ℂ) ≠ 0 := by exact_mod_cast hω
  rw [lE, lE, eInverse_eq, eInverse_eq]
  ext j k
  fin_cases j <;> fin_cases k <;> simp [gE, wS] <;> field_simp

theorem lW_freq (hg : Good p l) : lW ω p l = wS ω * lW 1 p l := by
  rw [lW, lW]
  ext j k
  fin_cases j <;> fin_cases k <;> simp [gW, wS] <;> ring

theorem lp_eig (hg : Good p l) (hω : ω ≠ 0) (z : ℝ) :
    lp ω p l z = wS ω * (lW 1 p l * Matrix.diagonal (lD ω p l z) * lE 1 p l) * wS ω⁻¹ := by
  have h := lE_lp hg hω z
  have : lp ω p l z = lW ω p l * (Matrix.diagonal (lD ω p l z) * lE ω p l) := by
    rw [← h, ← Matrix.mul_assoc, lW_lE hg hω, Matrix.one_mul]
  rw [this, lW_freq hg, lE_freq hg hω]
  simp only [Matrix.mul_assoc]

/-- the projection on one of the four waves -/
noncomputable def proj (k : Fin 4) : Mat4 := Matrix.diagonal (Pi.single k 1)

theorem diag_lD (h : ℝ) : Matrix.diagonal (lD ω p l h) = exp (-I * (ω * (h * vert l.β p) : ℝ)) •
    (exp (I * (ω * 0 : ℝ)) • proj 3 + (exp (I * (ω * (h * (vert l.β p - vert l.α p)) : ℝ)) • proj 2 +
      (exp (I * (ω * (h * (vert l.β p + vert l.α p)) : ℝ)) • proj 0 +
        exp (I * (ω * (2 * h * vert l.β p) : ℝ)) • proj 1))) := by
  simp only [smul_add, smul_smul, ← exp_add, vert_eq]
  ext j k
  fin_cases j <;> fin_cases k <;>
    simp [lD, proj, Matrix.diagonal_apply, Pi.single_apply] <;> congr 1 <;> ring

theorem delays_length (ls : List Layer) : (delays p ls).length = 4 ^ ls.length := by
  induction ls with
  | nil => rfl
  | cons l ls ih => simp [delays, legs, ih, pow_succ]; ring

/-- amplitudes of the pulses for a stack of layers -/
noncomputable def stackAmp (p : ℝ) : List Layer → List Mat4
  | [] => [1]
  | l :: ls => ([3, 2, 0, 1] : List (Fin 4)).flatMap
      (fun k => (stackAmp p ls).map (fun C : Mat4 => C * (lW 1 p l * proj k * lE 1 p l)))

theorem stackAmp_length (ls : List Layer) : (stackAmp p ls).length = 4 ^ ls.length := by
  induction ls with
  | nil => rfl
  | cons l ls ih => simp [stackAmp, ih, pow_succ]; ring

theorem stackAmp_rethick (ls : List Layer) (h : List ℝ) (hl : h.length = ls.length) :
    stackAmp p (rethick ls h) = stackAmp p ls := by
  induction ls generalizing h with
  | nil => simp [rethick]
  | cons l ls ih =>
    cases h with
    | nil => simp at hl
    | cons h hs =>
      have := ih hs (by simpa using hl)
      rw [rethick] at this
      rw [rethick, List.zipWith_cons_cons, stackAmp, stackAmp, this]
      rfl

theorem prodMat_pulses (hω : ω ≠ 0) (ls : List Layer) (hg : ∀ l ∈ ls, Good p l) :
    prodMat ω p ls = exp (-I * (ω * sTime p ls : ℝ)) •
      (wS ω * mPulses (stackAmp p ls) (delays p ls) ω * wS ω⁻¹) := by
  induction ls with
  | nil =>
    have : wS ω * wS ω⁻¹ = 1 := mul_eq_one_comm.1 (wS_inv hω)
    simp [prodMat, sTime, stackAmp, delays, mPulses, this]
  | cons l ls ih =>
    have hl := hg l (by simp)
    rw [prodMat, ih (fun k hk => hg k (List.mem_cons_of_mem _ hk)), lp_eig hl hω, diag_lD]
    have hlen : (stackAmp p ls).length = (delays p ls).length := by rw [stackAmp_length, delays_length]
    have hm : mPulses (stackAmp p (l :: ls)) (delays p (l :: ls)) ω =
        mPulses (stackAmp p ls) (delays p ls) ω * (lW 1 p l *
        (exp (I * (ω * 0 : ℝ)) • proj 3 + (exp (I * (ω * (l.h * (vert l.β p - vert l.α p)) : ℝ)) • proj 2 +
      (exp (I * (ω * (l.h * (vert l.β p + vert l.α p)) : ℝ)) • proj 0 +
        exp (I * (ω * (2 * l.h * vert l.β p) : ℝ)) • proj 1))) * lE 1 p l) := by
      simp only [stackAmp, delays, legs, List.flatMap_cons, List.flatMap_nil, List.append_nil]
      rw [mPulses_append (by simp [hlen]), mPulses_append (by simp [hlen]), mPulses_append (by simp [hlen]),
        mPulses_mul _ _ _ hlen, mPulses_mul _ _ _ hlen, mPulses_mul _ _ _ hlen, mPulses_mul _ _ _ hlen]
      simp only [Matrix.mul_add, Matrix.add_mul, Matrix.mul_smul, Matrix.smul_mul]
    rw [hm]
    have e : exp (-I * (ω * sTime p (l :: ls) : ℝ)) =
        exp (-I * (ω * sTime p ls : ℝ)) * exp (-I * (ω * (l.h * vert l.β p) : ℝ)) := by
      rw [← exp_add]; congr 1; simp [sTime]; ring
    rw [e]
    generalize (exp (I * (ω * 0 : ℝ)) • proj 3 + (exp (I * (ω * (l.h * (vert l.β p - vert l.α p)) : ℝ)) • proj 2 +
      (exp (I * (ω * (l.h * (vert l.β p + vert l.α p)) : ℝ)) • proj 0 +
        exp (I * (ω * (2 * l.h * vert l.β p) : ℝ)) • proj 1))) = X
    simp only [Matrix.mul_smul, Matrix.smul_mul, smul_smul]
    congr 1
    · exact mul_comm _ _
    generalize mPulses (stackAmp p ls) (delays p ls) ω = Y
    calc _ = wS ω * Y * (wS ω⁻¹ * wS ω) * (lW 1 p l * X * lE 1 p l) * wS ω⁻¹ := by simp only [Matrix.mul_assoc]
      _ = _ := by rw [wS_inv hω, Matrix.mul_one, Matrix.mul_assoc (wS ω)]

/-- amplitudes in row `j`, column `k` below a half-space -/
noncomputable def ampRow (p : ℝ) (xs : List Layer) (l : Layer) (j k : Fin 4) : List ℂ :=
  (stackAmp p xs).map (fun M => (lE 1 p l * M) j k)

theorem slMat_pulses (hω : ω ≠ 0) (xs : List Layer) (hxs : xs ≠ []) (hg : ∀ k ∈ xs ++ [l], Good p k)
    (hn : xs ++ [l] ≠ []) (j k : Fin 4) (hk : k = 0 ∨ k = 1) :
    slMat ω p (xs ++ [l]) hn j k = lD ω p l l.h j * exp (-I * (ω * sTime p xs : ℝ)) *
      pulses (ampRow p xs l j k) (delays p xs) ω := by
  have hl : Good p l := hg l (by simp)
  have hlen : 0 < xs.length := List.length_pos_iff.2 hxs
  unfold slMat
  rw [if_pos (by simp; omega)]
  have e1 : (xs ++ [l]).getLast hn = l := by simp
  rw [e1, prodMat_append]
  have e3 : prodMat ω p [l] = lp ω p l l.h := by simp [prodMat]
  rw [e3, ← Matrix.mul_assoc, lE_lp hl hω, Matrix.mul_assoc, Matrix.diagonal_mul, mul_assoc]
  congr 1
  rw [prodMat_pulses hω xs (fun k hk => hg k (by simp [hk])), lE_freq hl hω, Matrix.mul_smul, Matrix.smul_apply,
    smul_eq_mul]
  congr 1
  have e4 : lE 1 p l * wS ω⁻¹ * (wS ω * mPulses (stackAmp p xs) (delays p xs) ω * wS ω⁻¹) =
      lE 1 p l * mPulses (stackAmp p xs) (delays p xs) ω * wS ω⁻¹ := by
    calc _ = lE 1 p l * (wS ω⁻¹ * wS ω) * mPulses (stackAmp p xs) (delays p xs) ω * wS ω⁻¹ := by
          simp only [Matrix.mul_assoc]
      _ = _ := by rw [wS_inv hω, Matrix.mul_one]
  rw [e4, ampRow, ← mPulses_entry]
  rw [wS, Matrix.mul_diagonal]
  rcases hk with rfl | rfl <;> simp

end Rfsed.Synrf
