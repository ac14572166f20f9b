import Verif.Proofs.Forward
import Verif.Proofs.FwdSeis2
import Verif.Proofs.FwdSeis3
import Verif.Proofs.ForwardSym
import Verif.Proofs.ForwardSym2
import Verif.Props.Forward

/-! Lemmas about the `synrf` object: success and failure of the forward run -/

namespace Rfsed.Synrf
open PyFloat Spec

theorem item_of_lt {R : Type} {x : List R} {i : Nat} (h : i < x.length) : ∃ v, item x i = .ok v := by
  unfold item; rw [List.getElem?_eq_getElem h]; exact ⟨_, rfl⟩

theorem item_of_le {R : Type} {x : List R} {i : Nat} (h : x.length ≤ i) :
    item x i = .error .indexError := by
  unfold item; rw [List.getElem?_eq_none h]

/-- a monadic fold over functions that succeed or raise `IndexError` -/
theorem foldlM_dichotomy {R S : Type} {f : S → R → Except PyErr S} (P : R → Prop)
    (hok : ∀ r, P r → ∀ s, ∃ s', f s r = .ok s')
    (herr : ∀ r, ¬ P r → ∀ s, f s r = .error .indexError) (l : List R) :
    ((∀ r ∈ l, P r) → ∀ s, ∃ s', l.foldlM f s = .ok s') ∧
    ((∃ r ∈ l, ¬ P r) → ∀ s, l.foldlM f s = .error .indexError) := by
  induction l with
  | nil => exact ⟨fun _ s => ⟨s, rfl⟩, fun ⟨_, h, _⟩ => by simp at h⟩
  | cons r l ih =>
    constructor
    · intro h s
      obtain ⟨s', hs'⟩ := hok r (h r (by simp)) s
      rw [List.foldlM_cons, hs']
      exact ih.1 (fun a ha => h a (by simp [ha])) s'
    · rintro ⟨a, ha, hPa⟩ s
      rw [List.foldlM_cons]
      by_cases hr : P r
      · obtain ⟨s', hs'⟩ := hok r hr s
        rw [hs']
        refine ih.2 ⟨a, ?_, hPa⟩ s'
        rcases List.mem_cons.1 ha with rfl | ha
        · exact absurd hr hPa
        · exact ha
      · rw [herr r hr s]; rfl

theorem four_items {T : Type} (i : Nat) (a b r h : List ℝ) (k : ℝ → ℝ → ℝ → ℝ → Except PyErr T)
    (hh : ¬ (i < r.length ∧ i < a.length ∧ i < b.length ∧ i < h.length)) :
    (do let r ← item r i
        let a ← item a i
        let b ← item b i
        let z ← item h i
        k r a b z) = .error .indexError := by
  by_cases h1 : i < r.length
  · obtain ⟨v1, e1⟩ := item_of_lt h1
    rw [e1]
    by_cases h2 : i < a.length
    · obtain ⟨v2, e2⟩ := item_of_lt h2
      rw [okBind, e2, okBind]
      by_cases h3 : i < b.length
      · obtain ⟨v3, e3⟩ := item_of_lt h3
        rw [e3, okBind, item_of_le (by omega)]; rfl
      · rw [item_of_le (by omega)]; rfl
    · rw [okBind, item_of_le (by omega)]; rfl
  · rw [item_of_le (by omega)]; rfl

variable {ω p dt : ℝ} {npts : Nat} {ipha : ℤ} {a b r h : List ℝ}

/-- enough material parameters for the thicknesses -/
def Complete (a b r h : List ℝ) : Prop :=
  h ≠ [] ∧ h.length ≤ a.length ∧ h.length ≤ b.length ∧ h.length ≤ r.length

theorem propProduct_total (hc : Complete a b r h) : ∃ m, propProduct ω p h.length a b r h = .ok m := by
  obtain ⟨h0, h1, h2, h3⟩ := hc
  have hpos : 0 < h.length := List.length_pos_iff.2 h0
  unfold propProduct
  obtain ⟨v1, e1⟩ := item_of_lt (x := r) (i := 0) (by omega)
  obtain ⟨v2, e2⟩ := item_of_lt (x := a) (i := 0) (by omega)
  obtain ⟨v3, e3⟩ := item_of_lt (x := b) (i := 0) (by omega)
  obtain ⟨v4, e4⟩ := item_of_lt (x := h) (i := 0) (by omega)
  rw [e1, okBind, e2, okBind, e3, okBind, e4, okBind]
  refine (foldlM_dichotomy (fun i : Nat => i < h.length) ?_ ?_ _).1 ?_ _
  · intro i hi s
    obtain ⟨v1, e1⟩ := item_of_lt (x := r) (i := i) (by omega)
    obtain ⟨v2, e2⟩ := item_of_lt (x := a) (i := i) (by omega)
    obtain ⟨v3, e3⟩ := item_of_lt (x := b) (i := i) (by omega)
    obtain ⟨v4, e4⟩ := item_of_lt (x := h) (i := i) (by omega)
    rw [e1, okBind, e2, okBind, e3, okBind, e4, okBind]
    exact ⟨_, rfl⟩
  · intro i hi s
    exact four_items i a b r h _ (fun hh => hi hh.2.2.2)
  · intro i hi
    rw [List.mem_range'_1] at hi
    omega

theorem propProduct_error (hc : ¬ Complete a b r h) :
    propProduct ω p h.length a b r h = .error .indexError := by
  unfold propProduct
  by_cases h0 : (0 < r.length ∧ 0 < a.length ∧ 0 < b.length ∧ 0 < h.length)
  · obtain ⟨v1, e1⟩ := item_of_lt h0.1
    obtain ⟨v2, e2⟩ := item_of_lt h0.2.1
    obtain ⟨v3, e3⟩ := item_of_lt h0.2.2.1
    obtain ⟨v4, e4⟩ := item_of_lt h0.2.2.2
    rw [e1, okBind, e2, okBind, e3, okBind, e4, okBind]
    refine (foldlM_dichotomy
      (fun i : Nat => i < r.length ∧ i < a.length ∧ i < b.length ∧ i < h.length) ?_ ?_ _).2 ?_ _
    · rintro i ⟨i1, i2, i3, i4⟩ s
      obtain ⟨v1, e1⟩ := item_of_lt i1
      obtain ⟨v2, e2⟩ := item_of_lt i2
      obtain ⟨v3, e3⟩ := item_of_lt i3
      obtain ⟨v4, e4⟩ := item_of_lt i4
      rw [e1, okBind, e2, okBind, e3, okBind, e4, okBind]
      exact ⟨_, rfl⟩
    · intro i hi s
      exact four_items i a b r h _ hi
    · have : ¬ (h.length ≤ a.length ∧ h.length ≤ b.length ∧ h.length ≤ r.length) := fun hh =>
        hc ⟨List.length_pos_iff.1 h0.2.2.2, hh⟩
      refine ⟨h.length - 1, ?_, ?_⟩
      · rw [List.mem_range'_1]
        constructor
        · by_contra hlt
          exact this ⟨by omega, by omega, by omega⟩
        · omega
      · intro hh
        exact this ⟨by omega, by omega, by omega⟩
  · exact four_items 0 a b r h _ h0

theorem haskell_total (hc : Complete a b r h) : ∃ u, haskell ω p h.length ipha a b r h = .ok u := by
  have h0 := hc
  obtain ⟨h0, h1, h2, h3⟩ := h0
  have hpos : 0 < h.length := List.length_pos_iff.2 h0
  unfold haskell lastItem
  obtain ⟨v1, e1⟩ := item_of_lt (x := r) (i := r.length - 1) (by omega)
  obtain ⟨v2, e2⟩ := item_of_lt (x := a) (i := a.length - 1) (by omega)
  obtain ⟨v3, e3⟩ := item_of_lt (x := b) (i := b.length - 1) (by omega)
  obtain ⟨m, e4⟩ := propProduct_total (ω := ω) (p := p) hc
  rw [e1, okBind, e2, okBind, e3, okBind, e4, okBind]
  simp only []
  generalize (if 1 < h.length then (eInverse ω v1 v2 v3 p * m.1, m.2 ∧ layerFinite v2 v3 p ∧ v1 ≠ 0)
    else (eInverse ω v1 v2 v3 p, layerFinite v2 v3 p)) = q
  split
  · exact ⟨_, rfl⟩
  · split <;> exact ⟨_, rfl⟩

theorem haskell_error (hc : ¬ Complete a b r h) :
    haskell ω p h.length ipha a b r h = .error .indexError := by
  unfold haskell lastItem
  by_cases h1 : 0 < r.length
  · obtain ⟨v1, e1⟩ := item_of_lt (x := r) (i := r.length - 1) (by omega)
    rw [e1, okBind]
    by_cases h2 : 0 < a.length
    · obtain ⟨v2, e2⟩ := item_of_lt (x := a) (i := a.length - 1) (by omega)
      rw [e2, okBind]
      by_cases h3 : 0 < b.length
      · obtain ⟨v3, e3⟩ := item_of_lt (x := b) (i := b.length - 1) (by omega)
        rw [e3, okBind, propProduct_error hc]; rfl
      · rw [item_of_le (by omega)]; rfl
    · rw [item_of_le (by omega)]; rfl
  · rw [item_of_le (by omega)]; rfl

theorem scalarDiv_zero (x : ℝ) :
    (scalarDiv ⟨.py, x⟩ ⟨.py, 0⟩ : Except PyErr (Scalar ℝ)) = .error .zeroDivisionError := by
  unfold scalarDiv
  simp [Kind.join]

theorem nextPow2_two {n : Nat} (h : 2 ≤ n) : 1 ≤ nextPow2 n / 2 := by
  have := le_nextPow2 n
  omega

/-- the outcome of `fwd_seis`: it succeeds, or raises what is said here -/
theorem fwd_seis_outcome :
    (npts = 0 → fwd_seis p dt npts ipha a b r h = .error .valueError) ∧
    (npts = 1 → fwd_seis p dt npts ipha a b r h = .ok (.num [0], .num [0])) ∧
    (2 ≤ npts → dt = 0 → fwd_seis p dt npts ipha a b r h = .error .zeroDivisionError) ∧
    (2 ≤ npts → dt ≠ 0 → ¬ Complete a b r h →
      fwd_seis p dt npts ipha a b r h = .error .indexError) ∧
    (2 ≤ npts → dt ≠ 0 → Complete a b r h → ∃ u, fwd_seis p dt npts ipha a b r h = .ok u) := by
  refine ⟨?_, ?_, ?_, ?_, ?_⟩
  · rintro rfl
    unfold fwd_seis
    simp [nextPow2, fwdSpectra, bind, Except.bind, pure, Except.pure]
  · rintro rfl
    unfold fwd_seis
    have h1 : nextPow2 1 = 1 := by simp [nextPow2]
    simp only [h1, fwdSpectra, show (1 / 2 + 1 - 1 : Nat) = 0 from rfl, List.range'_zero,
      List.foldlM_nil]
    simp [bind, Except.bind, pure, Except.pure, Samples.take, toRe, ifft]
  · rintro h2 rfl
    have h1 := nextPow2_two h2
    unfold fwd_seis fwdSpectra
    obtain ⟨m, hm⟩ : ∃ m, nextPow2 npts / 2 + 1 - 1 = m + 1 := ⟨nextPow2 npts / 2 - 1, by omega⟩
    simp only [hm]
    rw [List.range'_succ, List.foldlM_cons, mul_zero, scalarDiv_zero]
    rfl
  · intro h2 hdt hc
    have h1 := nextPow2_two h2
    have hnd : ((nextPow2 npts : Nat) : ℝ) * dt ≠ 0 :=
      mul_ne_zero (by exact_mod_cast (by omega : nextPow2 npts ≠ 0)) hdt
    unfold fwd_seis fwdSpectra
    obtain ⟨m, hm⟩ : ∃ m, nextPow2 npts / 2 + 1 - 1 = m + 1 := ⟨nextPow2 npts / 2 - 1, by omega⟩
    simp only [hm]
    rw [List.range'_succ, List.foldlM_cons, scalarDiv_py hnd, okBind, haskell_error hc]
    rfl
  · intro h2 hdt hc
    have h1 := nextPow2_two h2
    have hnd : ((nextPow2 npts : Nat) : ℝ) * dt ≠ 0 :=
      mul_ne_zero (by exact_mod_cast (by omega : nextPow2 npts ≠ 0)) hdt
    have hspec : ∃ s, fwdSpectra p dt (nextPow2 npts) ipha a b r h = .ok s := by
      unfold fwdSpectra
      simp only []
      have key : ∀ (l : List Nat) (s : Option (List ℂ × List ℂ)),
          (∀ i ∈ l, i < nextPow2 npts) →
          (∀ U V, s = some (U, V) → U.length = nextPow2 npts ∧ V.length = nextPow2 npts) →
          ∃ s', l.foldlM (fun (acc : Option (List ℂ × List ℂ)) (i : Nat) => do
            let omg ← scalarDiv ⟨.py, 2 * Real.pi * (i : ℝ)⟩ ⟨.py, (nextPow2 npts : ℝ) * dt⟩
            let u ← haskell omg.val p h.length ipha a b r h
            match acc, u with
            | some (ur, uz), some (a, b) =>
                let ur ← setItem ur i a
                let uz ← setItem uz i b
                pure (some (ur, uz))
            | _, _ => pure none) s = (.ok s' : Except PyErr (Option (List ℂ × List ℂ))) := by
        intro l
        induction l with
        | nil => intro s _ _; exact ⟨s, rfl⟩
        | cons i l ih =>
          intro s hi hs
          obtain ⟨u, hu⟩ := haskell_total (ω := (2 * Real.pi * (i : ℝ)) / ((nextPow2 npts : ℝ) * dt))
            (p := p) (ipha := ipha) hc
          rw [List.foldlM_cons, scalarDiv_py hnd, okBind]
          simp only []
          rw [hu, okBind]
          have hi' : ∀ j ∈ l, j < nextPow2 npts := fun j hj => hi j (by simp [hj])
          match s, u with
          | none, u =>
            simp only [pure, Except.pure, bind, Except.bind]
            exact ih none hi' (by simp)
          | some (U, V), none =>
            simp only [pure, Except.pure, bind, Except.bind]
            exact ih none hi' (by simp)
          | some (U, V), some (x, y) =>
            obtain ⟨l1, l2⟩ := hs U V rfl
            have s1 : setItem U i x = .ok (U.set i x) := by
              rw [setItem, if_pos (by rw [l1]; exact hi i (by simp))]
            have s2 : setItem V i y = .ok (V.set i y) := by
              rw [setItem, if_pos (by rw [l2]; exact hi i (by simp))]
            simp only [s1, s2, pure, Except.pure, bind, Except.bind]
            refine ih (some (U.set i x, V.set i y)) hi' ?_
            rintro U' V' e
            cases e
            simp [l1, l2]
      refine key _ _ ?_ ?_
      · intro i hi
        rw [List.mem_range'_1] at hi
        omega
      · rintro U V e
        cases e
        simp
    obtain ⟨s, hs⟩ := hspec
    unfold fwd_seis
    simp only []
    rw [hs, okBind, if_neg (by omega)]
    cases s with
    | none => exact ⟨_, rfl⟩
    | some q => exact ⟨_, rfl⟩

/-- a loop that got through -/
theorem fwdLoop_ok {o : Obj} : ∀ {ps : List ℝ} {acc res : List SynTr × List SynTr},
    fwdLoop o ps acc = (res, .ok ()) ↔ ∃ us : List (Samples × Samples),
      List.Forall₂ (fun p u => fwd_seis p o.dt o.npts o.ipha o.vp o.vs o.rho o.thickness = .ok u) ps us ∧
      res = (acc.1 ++ us.map (fun u => ⟨u.1, o.dt⟩), acc.2 ++ us.map (fun u => ⟨u.2, o.dt⟩))
  | [], acc, res => by
    simp only [fwdLoop, List.forall₂_nil_left_iff, exists_eq_left, List.map_nil, List.append_nil]
    constructor
    · rintro ⟨rfl, _⟩; rfl
    · rintro rfl; rfl
  | p :: ps, acc, res => by
    unfold fwdLoop
    cases e : fwd_seis p o.dt o.npts o.ipha o.vp o.vs o.rho o.thickness with
    | error x =>
      simp only
      constructor
      · intro h; simp at h
      · rintro ⟨us, hf, _⟩
        cases hf with
        | cons h1 _ => rw [e] at h1; cases h1
    | ok q =>
      obtain ⟨ur, uz⟩ := q
      simp only
      rw [fwdLoop_ok]
      constructor
      · rintro ⟨us, hf, rfl⟩
        exact ⟨(ur, uz) :: us, .cons e hf, by simp⟩
      · rintro ⟨us, hf, rfl⟩
        cases hf with
        | cons h1 h2 =>
          rw [e] at h1
          cases Except.ok.inj h1
          exact ⟨_, h2, by simp⟩

end Rfsed.Synrf
