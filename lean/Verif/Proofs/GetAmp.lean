import Verif.Model.HkZhu
import Verif.Model.HkSeqYeck
import Verif.Model.HkYu
import Verif.Model.SynthHk
import Verif.Model.ReverbFilter
import Verif.Spec.Stacking
import Verif.Proofs.Argmax
import Verif.Proofs.Grid

namespace Rfsed
open PyFloat Spec
set_option linter.unusedSectionVars false
variable {F : Type} [PyFloat F]

theorem seq_getamp_eq : @HkSeqYeck.getamp F _ = HkZhu.getamp := rfl
theorem yu_getamp_eq : @HkYu.getamp F _ = HkZhu.getamp := rfl
theorem synth_getamp_eq : @SynthAnalysis.getamp F _ = HkZhu.getamp := rfl
theorem reverb_getamp_eq : @ReverbFilter.getamp F _ = HkZhu.getamp := rfl

theorem nearest_iff_firstMin {axis : List F} {t : F} {i : Nat} :
    NearestSample axis t i ↔ IsFirstMin (axis.map (fun x => abs (x - t))) i := by
  unfold NearestSample IsFirstMin
  simp only [List.getElem?_map, Option.map_eq_some_iff]
  constructor
  · rintro ⟨x, hx, h1, h2⟩
    refine ⟨_, ⟨x, hx, rfl⟩, ?_, ?_⟩
    · rintro j y ⟨a, ha, rfl⟩; exact h1 j a ha
    · rintro j y hj ⟨a, ha, rfl⟩; exact h2 j a hj ha
  · rintro ⟨_, ⟨x, hx, rfl⟩, h1, h2⟩
    refine ⟨x, hx, ?_, ?_⟩
    · intro j y hy; exact h1 j _ ⟨y, hy, rfl⟩
    · intro j y hj hy; exact h2 j _ hj ⟨y, hy, rfl⟩

theorem NearestSample.unique [IEEEOrder F] {axis : List F} {t : F} {i j : Nat}
    (hi : NearestSample axis t i) (hj : NearestSample axis t j) : i = j :=
  IsFirstMin.unique (nearest_iff_firstMin.1 hi) (nearest_iff_firstMin.1 hj)

theorem ReadsNearest.unique [IEEEOrder F] {data axis : List F} {t a b : F}
    (ha : ReadsNearest data axis t a) (hb : ReadsNearest data axis t b) : a = b := by
  obtain ⟨i, hi, h1⟩ := ha
  obtain ⟨j, hj, h2⟩ := hb
  rw [NearestSample.unique hi hj, h2] at h1
  exact (Option.some.inj h1).symm

theorem NearestSample.lt {axis : List F} {t : F} {i : Nat} (h : NearestSample axis t i) :
    i < axis.length := by
  obtain ⟨x, hx, _⟩ := h
  by_contra hc
  rw [List.getElem?_eq_none (by omega)] at hx; cases hx

/-- distances are not NaN -/
def DistOk (axis : List F) (t : F) : Prop := ∀ x ∈ axis, isNaN (abs (x - t)) = false

theorem distOk_noNaN {axis : List F} {t : F} (h : DistOk axis t) :
    NoNaN (axis.map (fun x => abs (x - t))) := by
  intro y hy
  obtain ⟨x, hx, rfl⟩ := List.mem_map.1 hy
  exact h x hx

theorem distOk_real (axis : List ℝ) (t : ℝ) : DistOk axis t := fun _ _ => rfl

theorem exists_nearest [IEEEOrder F] {axis : List F} {t : F} (h : DistOk axis t)
    (hne : axis ≠ []) : ∃ i, NearestSample axis t i := by
  obtain ⟨i, hi⟩ := argmin_ok (xs := axis.map (fun x => abs (x - t))) (by simpa using hne)
  exact ⟨i, nearest_iff_firstMin.2 (argmin_firstMin (distOk_noNaN h) hi)⟩

theorem getamp_of_nearest [IEEEOrder F] {data axis : List F} {t : F} (h : DistOk axis t) {i : Nat}
    (hi : NearestSample axis t i) : HkZhu.getamp data axis (.real t) = item data i := by
  unfold HkZhu.getamp
  have : argmin (axis.map (fun x => PyNum.absSub x (.real t))) = .ok i :=
    argmin_eq_of_firstMin (distOk_noNaN h) (nearest_iff_firstMin.1 hi)
  rw [this]; rfl

theorem getamp_ok_iff [IEEEOrder F] {data axis : List F} {t a : F} (h : DistOk axis t) :
    HkZhu.getamp data axis (.real t) = .ok a ↔ ReadsNearest data axis t a := by
  constructor
  · intro hg
    have hne : axis ≠ [] := by
      rintro rfl
      simp [HkZhu.getamp, argmin] at hg
    obtain ⟨i, hi⟩ := exists_nearest h hne
    rw [getamp_of_nearest h hi, item_ok] at hg
    exact ⟨i, hi, hg⟩
  · rintro ⟨i, hi, ha⟩
    rw [getamp_of_nearest h hi, item_ok]; exact ha

theorem getamp_error_iff [IEEEOrder F] {data axis : List F} {t : F} {e : PyErr}
    (h : DistOk axis t) :
    HkZhu.getamp data axis (.real t) = .error e ↔
      (axis = [] ∧ e = .valueError) ∨
      (∃ i, NearestSample axis t i ∧ data.length ≤ i ∧ e = .indexError) := by
  by_cases hne : axis = []
  · subst hne
    have : HkZhu.getamp data [] (.real t) = .error .valueError := rfl
    rw [this]
    constructor
    · intro h; cases h; exact .inl ⟨rfl, rfl⟩
    · rintro (⟨_, rfl⟩ | ⟨i, hi, _⟩)
      · rfl
      · exact absurd (NearestSample.lt hi) (by simp)
  · obtain ⟨i, hi⟩ := exists_nearest h hne
    rw [getamp_of_nearest h hi, item_error]
    constructor
    · rintro ⟨h1, h2⟩; exact .inr ⟨i, hi, h1, h2⟩
    · rintro (⟨h1, _⟩ | ⟨j, hj, h1, h2⟩)
      · exact absurd h1 hne
      · rw [NearestSample.unique hi hj]; exact ⟨h1, h2⟩

/-- a time with NaN distance to every sample reads sample 0 -/
theorem getamp_nan {data axis : List F} {t : PyNum F} (hne : axis ≠ [])
    (h : ∀ x ∈ axis, isNaN (PyNum.absSub x t) = true) :
    HkZhu.getamp data axis t = item data 0 := by
  unfold HkZhu.getamp
  cases axis with
  | nil => exact absurd rfl hne
  | cons x xs =>
    simp [argmin, h x (by simp)]

/-- whatever the time is, the position read lies on the axis -/
theorem getamp_total [IEEEOrder F] {data axis : List F} {t : PyNum F} (hne : axis ≠ [])
    (hl : axis.length ≤ data.length) : ∃ i a, i < axis.length ∧ data[i]? = some a ∧
      HkZhu.getamp data axis t = .ok a := by
  obtain ⟨i, hi⟩ := argmin_ok (xs := axis.map (fun x => PyNum.absSub x t)) (by simpa using hne)
  have hlt : i < axis.length := by simpa using argmin_lt hi
  refine ⟨i, data[i], hlt, by simp, ?_⟩
  unfold HkZhu.getamp
  rw [hi, except_ok_bind, item_lt]

theorem getamp_error_cases [IEEEOrder F] {data axis : List F} {t : PyNum F} {e : PyErr}
    (hg : HkZhu.getamp data axis t = .error e) : 
    (axis = [] ∧ e = .valueError) ∨ (data.length < axis.length ∧ e = .indexError) := by
  by_cases hne : axis = []
  · subst hne
    have : HkZhu.getamp data [] t = .error .valueError := rfl
    rw [this] at hg; cases hg; exact .inl ⟨rfl, rfl⟩
  · right
    obtain ⟨i, hi⟩ := argmin_ok (xs := axis.map (fun x => PyNum.absSub x t)) (by simpa using hne)
    have hlt : i < axis.length := by simpa using argmin_lt hi
    unfold HkZhu.getamp at hg
    rw [hi, except_ok_bind, item_error] at hg
    exact ⟨by omega, hg.2⟩

end Rfsed
