import Verif.Proofs.Variants
import Verif.Proofs.Plot
import Verif.Spec.Grid

/-! # Tables of nested grids -/

namespace Rfsed
open PyFloat
variable {F : Type} [PyFloat F]

theorem gridLoop_mem {K H : List F} {v : F → F → Except PyErr F} {tb : List (Row F)}
    (h : gridLoop K H v = .ok tb) (row : Row F) :
    row ∈ tb ↔ row.k ∈ K ∧ row.h ∈ H ∧ v row.k row.h = .ok row.s := by
  obtain ⟨_, h1, h2⟩ := gridLoop_ok h
  constructor
  · intro hr
    obtain ⟨n, hn⟩ := List.mem_iff_getElem?.1 hr
    obtain ⟨i, j, -, hk, hh, hv⟩ := h2 n row hn
    exact ⟨List.mem_of_getElem? hk, List.mem_of_getElem? hh, hv⟩
  · rintro ⟨hk, hh, hv⟩
    obtain ⟨i, hi⟩ := List.mem_iff_getElem?.1 hk
    obtain ⟨j, hj⟩ := List.mem_iff_getElem?.1 hh
    obtain ⟨s, hs, hr⟩ := h1 i j _ _ hi hj
    rw [hv] at hs
    cases hs
    exact List.mem_of_getElem? hr

theorem gridLoop_sub {K H K' H' : List F} {v : F → F → Except PyErr F} {tb tb' : List (Row F)}
    (h : gridLoop K H v = .ok tb) (h' : gridLoop K' H' v = .ok tb') (hK : K ⊆ K') (hH : H ⊆ H') (row : Row F) :
    row ∈ tb ↔ row ∈ tb' ∧ row.k ∈ K ∧ row.h ∈ H := by
  rw [gridLoop_mem h, gridLoop_mem h']
  constructor
  · rintro ⟨a, b, c⟩; exact ⟨⟨hK a, hH b, c⟩, a, b⟩
  · rintro ⟨⟨-, -, c⟩, a, b⟩; exact ⟨a, b, c⟩

theorem gridLoop_sub_ok {K H K' H' : List F} {v : F → F → Except PyErr F} {tb' : List (Row F)}
    (h' : gridLoop K' H' v = .ok tb') (hK : K ⊆ K') (hH : H ⊆ H') : ∃ tb, gridLoop K H v = .ok tb :=
  gridLoop_total (fun _ hk _ hx => gridLoop_value_ok h' (hK hk) (hH hx))

theorem best_le [IEEEOrder F] {tb tb' : List (Row F)} {n' : Nat} {b' : Row F}
    (hnum : ∀ row ∈ tb', isNaN row.s = false) (hb' : argmax (tb'.map Row.s) = .ok n')
    (h' : tb'[n']? = some b') {b : Row F} (hb : b ∈ tb) (hsub : ∀ row ∈ tb, row ∈ tb') : le b.s b'.s = true := by
  have hm := argmax_firstMax (by
    intro s hs
    obtain ⟨row, hrow, rfl⟩ := List.mem_map.1 hs
    exact hnum row hrow) hb'
  obtain ⟨x, hx, h1, -⟩ := hm
  rw [List.getElem?_map, h'] at hx
  cases hx
  obtain ⟨m, hm⟩ := List.mem_iff_getElem?.1 (hsub b hb)
  exact h1 m b.s (by rw [List.getElem?_map, hm]; rfl)

end Rfsed
