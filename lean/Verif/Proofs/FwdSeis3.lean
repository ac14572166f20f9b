import Verif.Proofs.ForwardSym2
import Verif.Proofs.ExceptList

/-! # Facts about `fwd_seis` for arbitrary arrays -/

namespace Rfsed.Synrf
open Complex Rfsed.Spec

variable {dt rayp : ℝ} {ipha : ℤ} {npts : Nat} {a b r h : List ℝ}

theorem setItem_some {R : Type} {x y : List R} {i : Nat} {v : R} (h : setItem x i v = .ok y) :
    y = x.set i v := by
  unfold setItem at h
  split_ifs at h
  exact (Except.ok.inj h).symm

/-- the spectra have the full length and no zero frequency -/
theorem fwdSpectra_inv {n : Nat} {U V : List ℂ}
    (hs : fwdSpectra rayp dt n ipha a b r h = .ok (some (U, V))) :
    (U.length = n ∧ U.getD 0 0 = 0) ∧ (V.length = n ∧ V.getD 0 0 = 0) := by
  have key : ∀ (is : List Nat) (acc : Option (List ℂ × List ℂ)) (U V : List ℂ),
      (∀ i ∈ is, 1 ≤ i) →
      (∀ U V, acc = some (U, V) → (U.length = n ∧ U.getD 0 0 = 0) ∧ (V.length = n ∧ V.getD 0 0 = 0)) →
      is.foldlM (fun (acc : Option (List ℂ × List ℂ)) (i : Nat) => do
        let omg ← scalarDiv ⟨.py, 2 * Real.pi * (i : ℝ)⟩ ⟨.py, (n : ℝ) * dt⟩
        let u ← haskell omg.val rayp h.length ipha a b r h
        match acc, u with
        | some (ur, uz), some (a, b) =>
            let ur ← setItem ur i a
            let uz ← setItem uz i b
            pure (some (ur, uz))
        | _, _ => pure none) acc = (.ok (some (U, V)) : Except PyErr _) →
      (U.length = n ∧ U.getD 0 0 = 0) ∧ (V.length = n ∧ V.getD 0 0 = 0) := by
    intro is
    induction is with
    | nil =>
      intro acc U V _ hinv hf
      exact hinv U V (Except.ok.inj hf)
    | cons i is ih =>
      intro acc U V hi hinv hf
      rw [List.forall_mem_cons] at hi
      rw [List.foldlM_cons] at hf
      obtain ⟨acc', h1, h2⟩ := bind_eq_ok.1 hf
      refine ih acc' U V hi.2 ?_ h2
      obtain ⟨omg, _, h1⟩ := bind_eq_ok.1 h1
      obtain ⟨u, _, h1⟩ := bind_eq_ok.1 h1
      intro U' V' e
      subst e
      match acc, u, h1 with
      | none, _, h1 => exact absurd (Except.ok.inj h1) (by simp)
      | some _, none, h1 => exact absurd (Except.ok.inj h1) (by simp)
      | some (x, y), some (c, d), h1 =>
        obtain ⟨x', hx, h1⟩ := bind_eq_ok.1 h1
        obtain ⟨y', hy, h1⟩ := bind_eq_ok.1 h1
        have e := Option.some.inj (Except.ok.inj h1)
        rw [Prod.mk.injEq] at e
        obtain ⟨rfl, rfl⟩ := e
        have hin := hinv x y rfl
        rw [setItem_some hx, setItem_some hy]
        have hz : ∀ (w : List ℂ) (c : ℂ), w.getD 0 0 = 0 → (w.set i c).getD 0 0 = 0 := by
          intro w c hw
          rw [List.getD_eq_getElem?_getD, List.getElem?_set_ne (by omega), ← List.getD_eq_getElem?_getD, hw]
        exact ⟨⟨by rw [List.length_set, hin.1.1], hz _ _ hin.1.2⟩,
          ⟨by rw [List.length_set, hin.2.1], hz _ _ hin.2.2⟩⟩
  refine key _ _ U V ?_ ?_ hs
  · intro i hi; rw [List.mem_range'_1] at hi; exact hi.1
  · intro U V e
    have e := Option.some.inj e
    rw [Prod.mk.injEq] at e
    obtain ⟨rfl, rfl⟩ := e
    refine ⟨⟨by simp, ?_⟩, ⟨by simp, ?_⟩⟩ <;> cases n <;> simp

theorem ifft_sum {n : Nat} (U : List ℂ) (h0 : U.getD 0 0 = 0) : (toRe (ifft U n)).sum = 0 := by
  rcases Nat.eq_zero_or_pos n with rfl | hn
  · simp [ifft, toRe]
  have e : toRe (ifft U n) = (List.range n).map (fun k : Nat => ((∑ i ∈ Finset.range n,
      U.getD i 0 * W n ((k : ℤ) * i)) / n).re) := by
    simp only [toRe, ifft, List.map_map]
    rfl
  have hl : ∀ f : Nat → ℝ, ((List.range n).map f).sum = ∑ k ∈ Finset.range n, f k := by
    intro f
    rw [Finset.sum_range, ← List.sum_ofFn, List.ofFn_eq_map, ← List.map_coe_finRange_eq_range, List.map_map]
    rfl
  rw [e, hl, ← Complex.re_sum, ← Finset.sum_div, Finset.sum_comm]
  have : ∑ i ∈ Finset.range n, ∑ k ∈ Finset.range n, U.getD i 0 * W n ((k : ℤ) * i) = 0 := by
    apply Finset.sum_eq_zero
    intro i hi
    rw [Finset.mem_range] at hi
    rw [← Finset.mul_sum]
    by_cases hi0 : i = 0
    · subst hi0; rw [h0, zero_mul]
    · have hw := sum_W hn (i : ℤ)
      rw [hw, if_neg, mul_zero]
      intro hd
      have := Int.le_of_dvd (by omega) hd
      omega
  rw [this]; simp

end Rfsed.Synrf
