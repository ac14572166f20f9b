import Verif.Proofs.FwdSeis2

/-! # The surface response as a function -/

namespace Rfsed.Synrf
open Matrix Complex Rfsed.Spec

variable {ω p dt : ℝ} {ls : List Layer} {ipha : ℤ}

/-- the value `haskell` returns -/
noncomputable def resp (p : ℝ) (ls : List Layer) (hn : ls ≠ []) (ipha : ℤ) (ω : ℝ) : ℂ × ℂ :=
  let M := slMat ω p ls hn
  if 0 ≤ ipha then (M 3 1 / den M, -M 3 0 / den M) else (-M 2 1 / den M, M 2 0 / den M)

theorem haskell_good (hω : ω ≠ 0) (hn : ls ≠ []) (h : ∀ l ∈ ls, Good p l) :
    haskell ω p ls.length ipha (alphas ls) (betas ls) (rhos ls) (hs ls) = .ok (some (resp p ls hn ipha ω)) := by
  rw [haskell_eq ls hn, if_neg, resp]
  · split_ifs <;> rfl
  · push Not
    exact ⟨allFinite_of_good h, den_ne_zero hn hω h⟩

/-- which wave `ipha` selects -/
def incOf (ipha : ℤ) : Incident := if 0 ≤ ipha then .P else .S

theorem resp_iff (hω : ω ≠ 0) (hn : ls ≠ []) (h : ∀ l ∈ ls, Good p l) (ur uz : ℂ) :
    (∃ A B, Response ω p (refDepth ls hn) ls (incOf ipha) ur uz A B) ↔ (ur, uz) = resp p ls hn ipha ω := by
  simp only [response_iff hω hn h]
  set M := slMat ω p ls hn with hM
  have hd : den M ≠ 0 := den_ne_zero hn hω h
  have e2 : ∀ k : Fin 4, (M *ᵥ ![ur, uz, 0, 0]) k = M k 0 * ur + M k 1 * uz := by
    intro k
    simp [Matrix.mulVec, dotProduct, Fin.sum_univ_four]
  have key : (∃ A B, M *ᵥ ![ur, uz, 0, 0] = ![A, B, (incVec (incOf ipha)).1, (incVec (incOf ipha)).2]) ↔
      M 2 0 * ur + M 2 1 * uz = (incVec (incOf ipha)).1 ∧ M 3 0 * ur + M 3 1 * uz = (incVec (incOf ipha)).2 := by
    constructor
    · rintro ⟨A, B, h⟩
      rw [← e2, ← e2, h]
      exact ⟨rfl, rfl⟩
    · rintro ⟨h1, h2⟩
      refine ⟨M 0 0 * ur + M 0 1 * uz, M 1 0 * ur + M 1 1 * uz, ?_⟩
      funext k
      rw [e2]
      fin_cases k
      · rfl
      · rfl
      · exact h1
      · exact h2
  rw [key]
  simp only [resp, incOf, ← hM]
  simp only [den] at hd ⊢
  by_cases hi : 0 ≤ ipha
  · simp only [if_pos hi, incVec, Prod.mk.injEq]
    constructor
    · rintro ⟨h1, h2⟩
      constructor <;> rw [eq_div_iff hd]
      · linear_combination M 3 1 * h1 - M 2 1 * h2
      · linear_combination M 2 0 * h2 - M 3 0 * h1
    · rintro ⟨rfl, rfl⟩
      constructor <;> field_simp <;> ring
  · simp only [if_neg hi, incVec, Prod.mk.injEq]
    constructor
    · rintro ⟨h1, h2⟩
      constructor <;> rw [eq_div_iff hd]
      · linear_combination M 3 1 * h1 - M 2 1 * h2
      · linear_combination M 2 0 * h2 - M 3 0 * h1
    · rintro ⟨rfl, rfl⟩
      constructor
      · ring
      · rw [← div_self hd]; ring

end Rfsed.Synrf
