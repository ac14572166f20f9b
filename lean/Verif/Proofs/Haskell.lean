import Verif.Proofs.EInverse2

/-! # `haskell` for a list of layers -/

namespace Rfsed.Synrf
open Matrix Complex Rfsed.Spec

variable {ω p : ℝ}

theorem okBind {R S : Type} (a : R) (f : R → Except PyErr S) : (Except.ok a >>= f) = f a := rfl

/-- product of the propagators, top layer rightmost -/
noncomputable def prodMat (ω p : ℝ) : List Layer → Mat4
  | [] => 1
  | l :: ls => prodMat ω p ls * lp ω p l l.h

theorem prodMat_append (xs ys : List Layer) :
    prodMat ω p (xs ++ ys) = prodMat ω p ys * prodMat ω p xs := by
  induction xs with
  | nil => simp [prodMat]
  | cons x xs ih => simp [prodMat, ih, Matrix.mul_assoc]

theorem item_map {R S : Type} (f : R → S) (xs : List R) (i : Nat) (h : i < xs.length) :
    item (xs.map f) i = .ok (f xs[i]) := by
  simp [item, h]

theorem propFold (ls : List Layer) (m : Nat) : ∀ (k : Nat) (acc : Mat4 × Prop), k + m = ls.length →
    (List.range' k m).foldlM (fun (acc : Mat4 × Prop) (i : Nat) => do
      let r ← item (rhos ls) i
      let a ← item (alphas ls) i
      let b ← item (betas ls) i
      let z ← item (hs ls) i
      pure (propagatorSol ω r a b p z * acc.1, acc.2 ∧ layerFinite a b p ∧ r ≠ 0)) acc =
    (.ok (prodMat ω p (ls.drop k) * acc.1, acc.2 ∧ ∀ l ∈ ls.drop k, Good p l) : Except PyErr (Mat4 × Prop)) := by
  induction m with
  | zero =>
    intro k acc hk
    have : ls.drop k = [] := List.drop_eq_nil_of_le (by omega)
    simp [this, prodMat, pure, Except.pure]
  | succ m ih =>
    intro k acc hk
    have hlt : k < ls.length := by omega
    rw [List.range'_succ, List.foldlM_cons]
    simp only [rhos, alphas, betas, hs, item_map _ _ _ hlt, bind, Except.bind, pure, Except.pure]
    have := ih (k + 1) (propagatorSol ω ls[k].ρ ls[k].α ls[k].β p ls[k].h * acc.1,
      acc.2 ∧ layerFinite ls[k].α ls[k].β p ∧ ls[k].ρ ≠ 0) (by omega)
    simp only [rhos, alphas, betas, hs, bind, Except.bind, pure, Except.pure] at this
    rw [this, List.drop_eq_getElem_cons hlt]
    congr 2
    · rw [prodMat, lp, Matrix.mul_assoc]
    · rw [List.forall_mem_cons, and_assoc]
      have : Good p ls[k] ↔ layerFinite ls[k].α ls[k].β p ∧ ls[k].ρ ≠ 0 :=
        ⟨fun h => ⟨h.1, h.2⟩, fun h => ⟨h.1, h.2⟩⟩
      rw [this]

theorem propProduct_eq (l : Layer) (ls : List Layer) :
    propProduct ω p (l :: ls).length (alphas (l :: ls)) (betas (l :: ls)) (rhos (l :: ls)) (hs (l :: ls)) =
    .ok (prodMat ω p (l :: ls), layerFinite l.α l.β p ∧ ∀ k ∈ ls, Good p k) := by
  have h0 : 0 < (l :: ls).length := by simp
  have e1 : item (rhos (l :: ls)) 0 = .ok l.ρ := item_map _ _ _ h0
  have e2 : item (alphas (l :: ls)) 0 = .ok l.α := item_map _ _ _ h0
  have e3 : item (betas (l :: ls)) 0 = .ok l.β := item_map _ _ _ h0
  have e4 : item (hs (l :: ls)) 0 = .ok l.h := item_map _ _ _ h0
  rw [propProduct, e1, okBind, e2, okBind, e3, okBind, e4, okBind,
    propFold (ω := ω) (p := p) (l :: ls) ((l :: ls).length - 1) 1
      (propagatorSol ω l.ρ l.α l.β p l.h, layerFinite l.α l.β p) (by simp; omega)]
  rw [List.drop_succ_cons, List.drop_zero, prodMat, lp]

/-- the matrix `sl` of `haskell` -/
noncomputable def slMat (ω p : ℝ) (ls : List Layer) (hn : ls ≠ []) : Mat4 :=
  if 1 < ls.length then lE ω p (ls.getLast hn) * prodMat ω p ls else lE ω p (ls.getLast hn)

/-- the determinant in `haskell` -/
noncomputable def den (M : Mat4) : ℂ := M 2 0 * M 3 1 - M 2 1 * M 3 0

/-- what `haskell` needs in order not to return NaN -/
def AllFinite (p : ℝ) : List Layer → Prop
  | [] => True
  | [l] => layerFinite l.α l.β p
  | l :: ls => layerFinite l.α l.β p ∧ ∀ k ∈ ls, Good p k

theorem lastItem_map {S : Type} (f : Layer → S) (ls : List Layer) (hn : ls ≠ []) :
    lastItem (ls.map f) = .ok (f (ls.getLast hn)) := by
  unfold lastItem
  have : 0 < ls.length := List.length_pos_iff.2 hn
  rw [List.length_map, item_map _ _ _ (by omega), List.getLast_eq_getElem]

open Classical in
theorem haskell_eq (ls : List Layer) (hn : ls ≠ []) (ipha : ℤ) :
    haskell ω p ls.length ipha (alphas ls) (betas ls) (rhos ls) (hs ls) =
    .ok (if ¬ AllFinite p ls ∨ den (slMat ω p ls hn) = 0 then none
      else if 0 ≤ ipha then
        some (slMat ω p ls hn 3 1 / den (slMat ω p ls hn), -slMat ω p ls hn 3 0 / den (slMat ω p ls hn))
      else some (-slMat ω p ls hn 2 1 / den (slMat ω p ls hn), slMat ω p ls hn 2 0 / den (slMat ω p ls hn))) := by
  unfold haskell
  have hr := lastItem_map (fun l => l.ρ) ls hn
  have ha := lastItem_map (fun l => l.α) ls hn
  have hb := lastItem_map (fun l => l.β) ls hn
  obtain ⟨l, rest, rfl⟩ : ∃ l rest, ls = l :: rest := List.exists_cons_of_ne_nil hn
  have hp := propProduct_eq (ω := ω) (p := p) l rest
  rw [rhos, hr, alphas, ha, betas, hb]
  rw [rhos, alphas, betas] at hp
  simp only [bind, Except.bind, hp]
  have hfin : (if 1 < (l :: rest).length then
      (eInverse ω ((l :: rest).getLast hn).ρ ((l :: rest).getLast hn).α ((l :: rest).getLast hn).β p *
        prodMat ω p (l :: rest), (layerFinite l.α l.β p ∧ ∀ k ∈ rest, Good p k) ∧
        layerFinite ((l :: rest).getLast hn).α ((l :: rest).getLast hn).β p ∧ ((l :: rest).getLast hn).ρ ≠ 0)
      else (eInverse ω ((l :: rest).getLast hn).ρ ((l :: rest).getLast hn).α ((l :: rest).getLast hn).β p,
        layerFinite ((l :: rest).getLast hn).α ((l :: rest).getLast hn).β p)) =
      (slMat ω p (l :: rest) hn, AllFinite p (l :: rest)) := by
    cases rest with
    | nil => simp [slMat, AllFinite, lE]
    | cons m rest =>
      have h1 : 1 < (l :: m :: rest).length := by simp
      rw [if_pos h1, slMat, if_pos h1, lE, AllFinite]
      · congr 1
        apply propext
        constructor
        · exact fun h => h.1
        · intro h
          have := h.2 _ (List.getLast_mem (l := m :: rest) (by simp))
          rw [List.getLast_cons (by simp)]
          exact ⟨h, this.1, this.2⟩
      · simp
  rw [hfin]
  change (if ¬ AllFinite p (l :: rest) ∨ den (slMat ω p (l :: rest) hn) = 0 then pure none
    else if 0 ≤ ipha then pure _ else pure _) = _
  by_cases h1 : ¬ AllFinite p (l :: rest) ∨ den (slMat ω p (l :: rest) hn) = 0
  · rw [if_pos h1, if_pos h1]; rfl
  · rw [if_neg h1, if_neg h1]
    by_cases h2 : 0 ≤ ipha
    · rw [if_pos h2, if_pos h2]; rfl
    · rw [if_neg h2, if_neg h2]; rfl

end Rfsed.Synrf
