import Verif.Proofs.Arith
import Verif.Proofs.Forward
import Verif.Model.ForwardRounded

/-! # The formulas of the forward modelling: values and safety -/

namespace Rfsed.Synrf
open Matrix Complex Rfsed.Spec Rfsed

variable {ω p dt : ℝ} {l : Layer}

/-- the values of an array of formulas -/
noncomputable def valM (a : Arr4) : Mat4 := fun i j => (a i j).val

/-- all formulas of an array are safe -/
def SafeM (a : Arr4) : Prop := ∀ i j, (a i j).Safe

theorem val_matmulE (a b : Arr4) : valM (matmulE a b) = valM a * valM b := by
  funext i j
  rw [Matrix.mul_apply]
  rfl

theorem safe_matmulE {a b : Arr4} (ha : SafeM a) (hb : SafeM b) : SafeM (matmulE a b) :=
  fun i j k => ⟨ha i k, hb k j⟩

theorem re_add (a b : RE) : (a + b).val = a.val + b.val := rfl
theorem re_sub (a b : RE) : (a - b).val = a.val - b.val := rfl
theorem re_mul (a b : RE) : (a * b).val = a.val * b.val := rfl
theorem re_div (a b : RE) : (a / b).val = a.val / b.val := rfl
theorem re_neg (a : RE) : (-a).val = -a.val := rfl
theorem ce_sub (a b : CE) : (a - b).val = a.val - b.val := rfl
theorem ce_mul (a b : CE) : (a * b).val = a.val * b.val := rfl
theorem ce_div (a b : CE) : (a / b).val = a.val / b.val := rfl
theorem ce_neg (a : CE) : (-a).val = -a.val := rfl

theorem val_eInvOf (o : RE) (ho : o.val = ω) : valM (eInvOf o p l) = lE ω p l := by
  funext i j
  rw [lE, eInverse, valM, eInvOf, eInverseE]
  subst ho
  fin_cases i <;> fin_cases j <;> rfl

theorem val_propOf (o : RE) (ho : o.val = ω) : valM (propOf o p l) = lp ω p l l.h := by
  funext i j
  rw [lp, propagatorSol, valM, propOf, propagatorSolE]
  subst ho
  fin_cases i <;> fin_cases j <;> rfl

theorem rs_add {a b : RE} (ha : a.Safe) (hb : b.Safe) : (a + b).Safe := ⟨ha, hb⟩
theorem rs_sub {a b : RE} (ha : a.Safe) (hb : b.Safe) : (a - b).Safe := ⟨ha, hb⟩
theorem rs_mul {a b : RE} (ha : a.Safe) (hb : b.Safe) : (a * b).Safe := ⟨ha, hb⟩
theorem rs_div {a b : RE} (ha : a.Safe) (hb : b.Safe) (h : b.val ≠ 0) : (a / b).Safe := ⟨ha, hb, h⟩
theorem rs_neg {a : RE} (ha : a.Safe) : (-a).Safe := ha
theorem rs_c (x : ℝ) : (RE.c x).Safe := trivial

theorem safe_eInvOf (o : RE) (ho : o.Safe) (hω : o.val ≠ 0) (h : Good p l) : SafeM (eInvOf o p l) := by
  obtain ⟨⟨ha, hb, h1, h2⟩, hr⟩ := h
  have hx : vslow l.α p ≠ 0 := (vslow_pos h1).ne'
  have hy : vslow l.β p ≠ 0 := (vslow_pos h2).ne'
  have sx : (RE.sqrt (RE.c 1 / (RE.c l.α * RE.c l.α) - RE.c p * RE.c p)).Safe :=
    ⟨rs_sub (rs_div (rs_c _) (rs_mul (rs_c _) (rs_c _)) (mul_ne_zero ha ha)) (rs_mul (rs_c _) (rs_c _)), h1⟩
  have sy : (RE.sqrt (RE.c 1 / (RE.c l.β * RE.c l.β) - RE.c p * RE.c p)).Safe :=
    ⟨rs_sub (rs_div (rs_c _) (rs_mul (rs_c _) (rs_c _)) (mul_ne_zero hb hb)) (rs_mul (rs_c _) (rs_c _)), h2⟩
  have sb : (RE.c 1 - RE.c 2 * RE.c l.β * RE.c l.β * RE.c p * RE.c p).Safe := by
    repeat' first | exact rs_c _ | apply rs_sub | apply rs_mul
  have h2' : (2 : ℝ) ≠ 0 := two_ne_zero
  have n1 : (2 : ℝ) * l.α * vslow l.α p ≠ 0 := mul_ne_zero (mul_ne_zero h2' ha) hx
  have n2 : (2 : ℝ) * o.val * l.ρ * l.α * vslow l.α p ≠ 0 :=
    mul_ne_zero (mul_ne_zero (mul_ne_zero (mul_ne_zero h2' hω) hr) ha) hx
  have n3 : (2 : ℝ) * o.val * l.ρ * l.α ≠ 0 := mul_ne_zero (mul_ne_zero (mul_ne_zero h2' hω) hr) ha
  have n4 : (2 : ℝ) * l.β * vslow l.β p ≠ 0 := mul_ne_zero (mul_ne_zero h2' hb) hy
  have n5 : (2 : ℝ) * o.val * l.ρ * l.β ≠ 0 := mul_ne_zero (mul_ne_zero (mul_ne_zero h2' hω) hr) hb
  have n6 : (2 : ℝ) * o.val * l.ρ * l.β * vslow l.β p ≠ 0 :=
    mul_ne_zero (mul_ne_zero (mul_ne_zero (mul_ne_zero h2' hω) hr) hb) hy
  have c2 := rs_c 2
  have cr := rs_c l.ρ
  have ca := rs_c l.α
  have cb := rs_c l.β
  have cp := rs_c p
  have e00 := rs_div (rs_mul (rs_mul cb cb) cp) ca ha
  have e01 := rs_div sb (rs_mul (rs_mul c2 ca) sx) n1
  have e02 := rs_div (rs_neg cp) (rs_mul (rs_mul (rs_mul (rs_mul c2 ho) cr) ca) sx) n2
  have e03 := rs_div (rs_c (-1)) (rs_mul (rs_mul (rs_mul c2 ho) cr) ca) n3
  have e10 := rs_div sb (rs_mul (rs_mul c2 cb) sy) n4
  have e11 := rs_mul (rs_neg cb) cp
  have e12 := rs_div (rs_c (-1)) (rs_mul (rs_mul (rs_mul c2 ho) cr) cb) n5
  have e13 := rs_div cp (rs_mul (rs_mul (rs_mul (rs_mul c2 ho) cr) cb) sy) n6
  intro i j
  rw [eInvOf, eInverseE]
  fin_cases i <;> fin_cases j <;>
    first | exact e00 | exact e01 | exact e02 | exact e03 | exact e10 | exact e11 | exact e12 | exact e13

theorem safe_propOf (o : RE) (ho : o.Safe) (hω : o.val ≠ 0) (h : Good p l) : SafeM (propOf o p l) := by
  obtain ⟨⟨ha, hb, h1, h2⟩, hr⟩ := h
  have hx : vslow l.α p ≠ 0 := (vslow_pos h1).ne'
  have hy : vslow l.β p ≠ 0 := (vslow_pos h2).ne'
  have c2 := rs_c 2
  have cr := rs_c l.ρ
  have ca := rs_c l.α
  have cb := rs_c l.β
  have cp := rs_c p
  have cz := rs_c l.h
  have sb2 := rs_mul cb cb
  have sp2 := rs_mul cp cp
  have sx : (RE.sqrt (RE.c 1 / (RE.c l.α * RE.c l.α) - RE.c p * RE.c p)).Safe :=
    ⟨rs_sub (rs_div (rs_c _) (rs_mul (rs_c _) (rs_c _)) (mul_ne_zero ha ha)) (rs_mul (rs_c _) (rs_c _)), h1⟩
  have sy : (RE.sqrt (RE.c 1 / (RE.c l.β * RE.c l.β) - RE.c p * RE.c p)).Safe :=
    ⟨rs_sub (rs_div (rs_c _) (rs_mul (rs_c _) (rs_c _)) (mul_ne_zero hb hb)) (rs_mul (rs_c _) (rs_c _)), h2⟩
  have sb := rs_sub (rs_c 1) (rs_mul (rs_mul c2 sb2) sp2)
  have tx := rs_mul (rs_mul ho sx) cz
  have ty := rs_mul (rs_mul ho sy) cz
  have cx : (RE.cos (o * RE.sqrt (RE.c 1 / (RE.c l.α * RE.c l.α) - RE.c p * RE.c p) * RE.c l.h)).Safe := tx
  have sn : (RE.sin (o * RE.sqrt (RE.c 1 / (RE.c l.α * RE.c l.α) - RE.c p * RE.c p) * RE.c l.h)).Safe := tx
  have cy : (RE.cos (o * RE.sqrt (RE.c 1 / (RE.c l.β * RE.c l.β) - RE.c p * RE.c p) * RE.c l.h)).Safe := ty
  have sm : (RE.sin (o * RE.sqrt (RE.c 1 / (RE.c l.β * RE.c l.β) - RE.c p * RE.c p) * RE.c l.h)).Safe := ty
  have nr : o.val * l.ρ ≠ 0 := mul_ne_zero hω hr
  have sr := rs_mul ho cr
  have p00 := rs_add (rs_mul (rs_mul (rs_mul c2 sb2) sp2) cx) (rs_mul sb cy)
  have p01 := rs_mul cp (rs_sub (rs_mul (rs_div sb sx hx) sn) (rs_mul (rs_mul (rs_mul c2 sb2) sy) sm))
  have p02 := rs_div (rs_add (rs_mul (rs_div sp2 sx hx) sn) (rs_mul sy sm)) sr nr
  have p03 := rs_div (rs_mul cp (rs_add (rs_neg cx) cy)) sr nr
  have p10 := rs_mul cp (rs_sub (rs_mul (rs_mul (rs_mul c2 sb2) sx) sn) (rs_mul (rs_div sb sy hy) sm))
  have p11 := rs_add (rs_mul sb cx) (rs_mul (rs_mul (rs_mul c2 sb2) sp2) cy)
  have p13 := rs_div (rs_add (rs_mul sx sn) (rs_mul (rs_div sp2 sy hy) sm)) sr nr
  have p20 := rs_mul sr (rs_sub (rs_mul (rs_mul (rs_mul (rs_mul (rs_mul (rs_c (-4)) sb2) sb2) sp2) sx) sn)
    (rs_mul (rs_div (rs_mul sb sb) sy hy) sm))
  have p21 := rs_mul (rs_mul (rs_mul (rs_mul (rs_mul (rs_mul c2 ho) sb2) cr) cp) sb) (rs_sub cx cy)
  have p31 := rs_mul (rs_mul (rs_neg ho) cr) (rs_add (rs_mul (rs_div (rs_mul sb sb) sx hx) sn)
    (rs_mul (rs_mul (rs_mul (rs_mul (rs_mul (rs_c 4) sb2) sb2) sp2) sy) sm))
  intro i j
  rw [propOf, propagatorSolE]
  fin_cases i <;> fin_cases j <;>
    first | exact p00 | exact p01 | exact p02 | exact p03 | exact p10 | exact p11 | exact p13 | exact p20 | exact p21 | exact p31

theorem val_fold (o : RE) (ho : o.val = ω) (rest : List Layer) (a : Arr4) :
    valM (rest.foldl (fun m k => matmulE (propOf o p k) m) a) = prodMat ω p rest * valM a := by
  induction rest generalizing a with
  | nil => simp [prodMat]
  | cons k rest ih => rw [List.foldl_cons, ih, val_matmulE, val_propOf o ho, prodMat, Matrix.mul_assoc]

theorem safe_fold (o : RE) (ho : o.Safe) (hω : o.val ≠ 0) (rest : List Layer) (h : ∀ k ∈ rest, Good p k) (a : Arr4)
    (ha : SafeM a) : SafeM (rest.foldl (fun m k => matmulE (propOf o p k) m) a) := by
  induction rest generalizing a with
  | nil => exact ha
  | cons k rest ih =>
    rw [List.foldl_cons]
    exact ih (fun x hx => h x (List.mem_cons_of_mem _ hx)) _
      (safe_matmulE (safe_propOf o ho hω (h k (List.mem_cons_self ..))) ha)

theorem val_slE (o : RE) (ho : o.val = ω) (rest : List Layer) : valM (slE o p l rest) = slMat ω p (l :: rest) (by simp) := by
  rw [slE, slMat]
  cases rest with
  | nil => simp only [if_true, List.length_cons, List.length_nil, lt_irrefl, if_false]; exact val_eInvOf o ho
  | cons k rest =>
    simp only [reduceCtorEq, if_false]
    rw [if_pos (by simp), val_matmulE, val_eInvOf o ho, val_fold o ho, val_propOf o ho]
    rfl

theorem safe_slE (o : RE) (ho : o.Safe) (hω : o.val ≠ 0) (rest : List Layer) (h : ∀ k ∈ l :: rest, Good p k) :
    SafeM (slE o p l rest) := by
  rw [slE]
  have hE := safe_eInvOf o ho hω (h _ (List.getLast_mem (by simp : l :: rest ≠ [])))
  split_ifs
  · exact hE
  · exact safe_matmulE hE (safe_fold o ho hω rest (fun k hk => h k (List.mem_cons_of_mem _ hk)) _
      (safe_propOf o ho hω (h l (List.mem_cons_self ..))))

theorem val_haskellE (o : RE) (ho : o.val = ω) (ipha : ℤ) (rest : List Layer) :
    ((haskellE o p ipha l rest).1.val, (haskellE o p ipha l rest).2.val) = resp p (l :: rest) (by simp) ipha ω := by
  have hv := val_slE (p := p) (l := l) o ho rest
  have e : ∀ i j, (slE o p l rest i j).val = slMat ω p (l :: rest) (by simp) i j := fun i j => congrFun (congrFun hv i) j
  rw [resp, haskellE]
  simp only [den]
  split_ifs <;> simp only [ce_div, ce_sub, ce_mul, ce_neg, e]

theorem safe_haskellE (o : RE) (ho : o.Safe) (hω : o.val ≠ 0) (ipha : ℤ) (rest : List Layer)
    (h : ∀ k ∈ l :: rest, Good p k) :
    (haskellE o p ipha l rest).1.Safe ∧ (haskellE o p ipha l rest).2.Safe := by
  have hs := safe_slE o ho hω rest h
  have hv := val_slE (p := p) (l := l) o rfl rest
  have e : ∀ i j, (slE o p l rest i j).val = slMat o.val p (l :: rest) (by simp) i j :=
    fun i j => congrFun (congrFun hv i) j
  have hd := den_ne_zero (ω := o.val) (by simp : l :: rest ≠ []) hω h
  have hd' : (slE o p l rest 2 0 * slE o p l rest 3 1 - slE o p l rest 2 1 * slE o p l rest 3 0).val ≠ 0 := by
    rw [ce_sub, ce_mul, ce_mul, e, e, e, e]
    exact hd
  have sd : (slE o p l rest 2 0 * slE o p l rest 3 1 - slE o p l rest 2 1 * slE o p l rest 3 0).Safe :=
    ⟨⟨hs 2 0, hs 3 1⟩, ⟨hs 2 1, hs 3 0⟩⟩
  rw [haskellE]
  split_ifs
  · exact ⟨⟨hs 3 1, sd, hd'⟩, ⟨hs 3 0, sd, hd'⟩⟩
  · exact ⟨⟨hs 2 1, sd, hd'⟩, ⟨hs 2 0, sd, hd'⟩⟩

theorem omgE_val (n : Nat) (dt : ℝ) (i : Nat) : (omgE n dt i).val = binFreq n dt i := rfl

theorem omgE_safe {n : Nat} {dt : ℝ} (hn : 0 < n) (hdt : dt ≠ 0) (i : Nat) : (omgE n dt i).Safe := by
  have : ((n : ℝ) * dt) ≠ 0 := mul_ne_zero (by exact_mod_cast hn.ne') hdt
  exact rs_div (rs_mul (rs_mul (rs_c _) (rs_c _)) (rs_c _)) (rs_mul (rs_c _) (rs_c _)) this

end Rfsed.Synrf
