import Verif.Proofs.Haskell3
import Verif.Proofs.Fft
import Verif.Proofs.Deconv2

/-! # Closed form of `fwd_seis` -/

namespace Rfsed.Synrf
open Matrix Complex Rfsed.Spec

variable {p dt : ℝ} {ls : List Layer} {ipha : ℤ}

/-- `haskell` as a function of the frequency -/
noncomputable def hask (p : ℝ) (ls : List Layer) (ipha : ℤ) (ω : ℝ) : Except PyErr (Option (ℂ × ℂ)) :=
  haskell ω p ls.length ipha (alphas ls) (betas ls) (rhos ls) (hs ls)

/-- the frequencies of `fwd_seis` -/
noncomputable def binFreq (n : Nat) (dt : ℝ) (i : Nat) : ℝ := 2 * Real.pi * i / (n * dt)

/-- the spectrum array -/
noncomputable def specList (n m : Nat) (U : Nat → ℂ) : List ℂ :=
  (List.range n).map (fun i : Nat => if 1 ≤ i ∧ i ≤ m then U i else 0)

theorem specList_zero (n : Nat) (U : Nat → ℂ) : specList n 0 U = List.replicate n 0 := by
  apply List.ext_getElem
  · simp [specList]
  · intro i h1 h2
    simp only [specList, List.getElem_map, List.getElem_range, List.getElem_replicate]
    rw [if_neg (by omega)]

theorem specList_set (n m : Nat) (U : Nat → ℂ) :
    (specList n m U).set (m + 1) (U (m + 1)) = specList n (m + 1) U := by
  apply List.ext_getElem
  · simp [specList]
  · intro i h1 h2
    rw [List.getElem_set]
    simp only [specList, List.getElem_map, List.getElem_range]
    split_ifs with a b c <;> first | rfl | omega | (subst a; rfl)

theorem fwdFold_some {n : Nat} (hn : (n : ℝ) * dt ≠ 0) (rayp : ℝ) (nlay : Nat)
    (a b r h : List ℝ) (U V : Nat → ℂ) (m : Nat) (hm : m ≤ n / 2)
    (hU : ∀ i, 1 ≤ i → i ≤ m → haskell (binFreq n dt i) rayp nlay ipha a b r h = .ok (some (U i, V i))) :
    (List.range' 1 m).foldlM (fun (acc : Option (List ℂ × List ℂ)) (i : Nat) => do
      let omg ← scalarDiv ⟨.py, 2 * Real.pi * (i : ℝ)⟩ ⟨.py, (n : ℝ) * dt⟩
      let u ← haskell omg.val rayp nlay ipha a b r h
      match acc, u with
      | some (ur, uz), some (a, b) =>
          let ur ← setItem ur i a
          let uz ← setItem uz i b
          pure (some (ur, uz))
      | _, _ => pure none)
    (some (List.replicate n (0 : ℂ), List.replicate n (0 : ℂ))) =
    (.ok (some (specList n m U, specList n m V)) : Except PyErr (Option (List ℂ × List ℂ))) := by
  induction m with
  | zero => simp [specList_zero, pure, Except.pure]
  | succ m ih =>
    have h1 := ih (by omega) (fun i a b => hU i a (by omega))
    rw [List.range'_1_concat, List.foldlM_append, h1, okBind]
    have h2 := hU (m + 1) (by omega) (by omega)
    have hlt : m + 1 < n := by omega
    have e : (scalarDiv ⟨.py, 2 * Real.pi * ((1 + m : Nat) : ℝ)⟩ ⟨.py, (n : ℝ) * dt⟩ : Except PyErr (Scalar ℝ)) =
        .ok ⟨.py, binFreq n dt (m + 1)⟩ := by
      rw [Nat.add_comm 1 m]
      exact scalarDiv_py hn
    rw [Nat.add_comm 1 m] at e
    have l1 : m + 1 < (specList n m U).length := by simpa [specList] using hlt
    have l2 : m + 1 < (specList n m V).length := by simpa [specList] using hlt
    rw [Nat.add_comm 1 m]
    have s1 : setItem (specList n m U) (m + 1) (U (m + 1)) = .ok (specList n (m + 1) U) := by
      rw [setItem, if_pos l1, specList_set]
    have s2 : setItem (specList n m V) (m + 1) (V (m + 1)) = .ok (specList n (m + 1) V) := by
      rw [setItem, if_pos l2, specList_set]
    simp only [List.foldlM_cons, List.foldlM_nil, e, h2, s1, s2, bind, Except.bind, pure, Except.pure]

theorem fwdFold_none (n : Nat) (rayp : ℝ) (nlay : Nat) (a b r h : List ℝ) (is : List Nat)
    (hdt : (n : ℝ) * dt ≠ 0)
    (hU : ∀ i ∈ is, ∃ u, haskell (binFreq n dt i) rayp nlay ipha a b r h = .ok u) :
    is.foldlM (fun (acc : Option (List ℂ × List ℂ)) (i : Nat) => do
      let omg ← scalarDiv ⟨.py, 2 * Real.pi * (i : ℝ)⟩ ⟨.py, (n : ℝ) * dt⟩
      let u ← haskell omg.val rayp nlay ipha a b r h
      match acc, u with
      | some (ur, uz), some (a, b) =>
          let ur ← setItem ur i a
          let uz ← setItem uz i b
          pure (some (ur, uz))
      | _, _ => pure none)
    none = (.ok none : Except PyErr (Option (List ℂ × List ℂ))) := by
  induction is with
  | nil => rfl
  | cons i is ih =>
    rw [List.forall_mem_cons] at hU
    obtain ⟨u, hu⟩ := hU.1
    have e : (scalarDiv ⟨.py, 2 * Real.pi * (i : ℝ)⟩ ⟨.py, (n : ℝ) * dt⟩ : Except PyErr (Scalar ℝ)) =
        .ok ⟨.py, binFreq n dt i⟩ := scalarDiv_py hdt
    rw [List.foldlM_cons, e, okBind]
    simp only []
    rw [hu, okBind]
    exact ih hU.2

end Rfsed.Synrf
