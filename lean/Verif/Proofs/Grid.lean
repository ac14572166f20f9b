import Verif.Model.Grid
import Verif.Proofs.ExceptList

namespace Rfsed
open PyFloat
set_option linter.unusedSectionVars false
variable {F : Type} [PyFloat F]

/-- the grid points in K-major order -/
def gridPoints (K H : List F) : List (F × F) := K.flatMap (fun k => H.map (fun h => (k, h)))

theorem gridPoints_length (K H : List F) : (gridPoints K H).length = K.length * H.length :=
  length_flatMap_map K H Prod.mk

theorem gridFold (value : F → F → Except PyErr F) (ps : List (F × F)) :
    ∀ (rows : List (Row F)),
    ps.foldlM (fun (st : List (Row F) × Nat) p => do
        let s ← value p.1 p.2
        let stk ← setItem st.1 st.2 ⟨p.2, p.1, s⟩
        pure (stk, st.2 + 1)) (rows ++ List.replicate ps.length Row.zero, rows.length)
      = (do let new ← ps.mapM (fun p => do
                  let s ← value p.1 p.2
                  pure (⟨p.2, p.1, s⟩ : Row F))
            pure (rows ++ new, rows.length + ps.length)) := by
  induction ps with
  | nil => intro rows; simp
  | cons p ps ih =>
    intro rows
    rw [List.foldlM_cons, List.mapM_cons]
    cases hv : value p.1 p.2 with
    | error e => simp
    | ok s =>
      have hset : setItem (rows ++ List.replicate (p :: ps).length Row.zero) rows.length
          (⟨p.2, p.1, s⟩ : Row F)
          = .ok ((rows ++ [⟨p.2, p.1, s⟩]) ++ List.replicate ps.length Row.zero) := by
        unfold setItem
        rw [if_pos (by simp)]
        simp [List.replicate_succ]
      simp only [except_ok_bind, hset, except_pure]
      have := ih (rows ++ [⟨p.2, p.1, s⟩])
      simp only [List.length_append, List.length_singleton, except_pure] at this
      rw [this]
      cases hm : List.mapM (fun p : F × F => value p.1 p.2 >>= fun s =>
          (Except.ok (⟨p.2, p.1, s⟩ : Row F) : Except PyErr (Row F))) ps with
      | error e => simp
      | ok new => simp; omega

theorem gridLoop_eq (K H : List F) (value : F → F → Except PyErr F) :
    gridLoop K H value
      = (gridPoints K H).mapM (fun p => do
          let s ← value p.1 p.2
          pure (⟨p.2, p.1, s⟩ : Row F)) := by
  unfold gridLoop
  rw [foldlM_nested K H (fun k (st : List (Row F) × Nat) h => do
      let s ← value k h
      let stk ← setItem st.1 st.2 ⟨h, k, s⟩
      pure (stk, st.2 + 1))]
  have := gridFold value (gridPoints K H) []
  rw [gridPoints_length] at this
  simp only [List.nil_append, List.length_nil] at this
  rw [gridPoints] at this
  rw [this]
  unfold gridPoints
  cases (List.mapM (fun p : F × F => do
          let s ← value p.1 p.2
          pure (⟨p.2, p.1, s⟩ : Row F)) (K.flatMap (fun k => H.map (fun h => (k, h))))) <;> rfl

/-- Complete description of a successful grid search. -/
theorem gridLoop_ok {K H : List F} {value : F → F → Except PyErr F} {stk : List (Row F)}
    (h : gridLoop K H value = .ok stk) :
    stk.length = K.length * H.length ∧
    (∀ (i j : Nat) (k x : F), K[i]? = some k → H[j]? = some x →
      ∃ s, value k x = .ok s ∧ stk[i * H.length + j]? = some ⟨x, k, s⟩) ∧
    (∀ (n : Nat) (row : Row F), stk[n]? = some row → ∃ i j : Nat, n = i * H.length + j ∧
      K[i]? = some row.k ∧ H[j]? = some row.h ∧ value row.k row.h = .ok row.s) := by
  rw [gridLoop_eq] at h
  refine ⟨by rw [mapM_length h, gridPoints_length], ?_, ?_⟩
  · intro i j k x hk hx
    have hp := getElem?_flatMap_map K H Prod.mk i j k x hk hx
    obtain ⟨row, hrow, hv⟩ := mapM_getElem h hp
    obtain ⟨s, hs, hv⟩ := bind_eq_ok.1 hv
    cases hv
    exact ⟨s, hs, hrow⟩
  · intro n row hrow
    obtain ⟨p, hp, hv⟩ := mapM_getElem' h hrow
    obtain ⟨i, j, k, x, hn, hk, hx, rfl⟩ := getElem?_flatMap_map' K H Prod.mk n p hp
    obtain ⟨s, hs, hv⟩ := bind_eq_ok.1 hv
    cases hv
    exact ⟨i, j, hn, hk, hx, hs⟩

theorem mem_gridPoints {K H : List F} {p : F × F} :
    p ∈ gridPoints K H ↔ p.1 ∈ K ∧ p.2 ∈ H := by
  unfold gridPoints
  simp only [List.mem_flatMap, List.mem_map]
  constructor
  · rintro ⟨k, hk, h, hh, rfl⟩; exact ⟨hk, hh⟩
  · rintro ⟨hk, hh⟩; exact ⟨p.1, hk, p.2, hh, rfl⟩

theorem gridLoop_total {K H : List F} {value : F → F → Except PyErr F}
    (h : ∀ k ∈ K, ∀ x ∈ H, ∃ s, value k x = .ok s) : ∃ stk, gridLoop K H value = .ok stk := by
  rw [gridLoop_eq]
  apply mapM_ok_of_forall
  rintro p hp
  obtain ⟨h1, h2⟩ := mem_gridPoints.1 hp
  obtain ⟨s, hs⟩ := h _ h1 _ h2
  exact ⟨_, by rw [hs]; rfl⟩

theorem gridLoop_error {K H : List F} {value : F → F → Except PyErr F} {e : PyErr}
    (h : gridLoop K H value = .error e) : ∃ k ∈ K, ∃ x ∈ H, value k x = .error e := by
  rw [gridLoop_eq] at h
  obtain ⟨p, hp, hv⟩ := mapM_error_mem h
  obtain ⟨h1, h2⟩ := mem_gridPoints.1 hp
  refine ⟨_, h1, _, h2, ?_⟩
  rcases bind_eq_error.1 hv with h | ⟨a, _, h⟩
  · exact h
  · cases h

theorem gridLoop_congr {K H : List F} {v v' : F → F → Except PyErr F}
    (h : ∀ k ∈ K, ∀ x ∈ H, v k x = v' k x) : gridLoop K H v = gridLoop K H v' := by
  rw [gridLoop_eq, gridLoop_eq]
  apply mapM_congr_mem
  intro p hp
  obtain ⟨h1, h2⟩ := mem_gridPoints.1 hp
  rw [h _ h1 _ h2]

theorem gridLoop_value_ok {K H : List F} {value : F → F → Except PyErr F} {stk : List (Row F)}
    (h : gridLoop K H value = .ok stk) {k x : F} (hk : k ∈ K) (hx : x ∈ H) :
    ∃ s, value k x = .ok s := by
  obtain ⟨i, hi, rfl⟩ := List.getElem_of_mem hk
  obtain ⟨j, hj, rfl⟩ := List.getElem_of_mem hx
  obtain ⟨s, hs, _⟩ := (gridLoop_ok h).2.1 i j K[i] H[j] (by simp [hi]) (by simp [hj])
  exact ⟨s, hs⟩

end Rfsed
