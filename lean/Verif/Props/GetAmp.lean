import Verif.Proofs.HkZhu
import Verif.Spec.Sample
import Mathlib.Algebra.Order.Floor.Semiring
import Mathlib.Algebra.Order.Archimedean.Real.Basic

/-!
# Properties C01, C02: picking amplitudes
-/

namespace Rfsed.Props
open PyFloat Spec HkZhu

section
variable {F : Type} [PyFloat F] [IEEEOrder F]

/-- **C01** (floating-point numbers).  If no distance to `t` is NaN, `getamp`
returns `a` exactly when `a` is the entry of the data at the nearest time sample,
the earliest one on ties. -/
theorem c01_getamp_reads_nearest (rfdata tarray : List F) (t a : F)
    (hnum : ∀ x ∈ tarray, isNaN (PyFloat.abs (x - t)) = false) :
    getamp rfdata tarray (.real t) = .ok a ↔
      ∃ i, rfdata[i]? = some a ∧ ∃ x, tarray[i]? = some x ∧
        (∀ (j : Nat) (y : F), tarray[j]? = some y →
          le (PyFloat.abs (x - t)) (PyFloat.abs (y - t)) = true) ∧
        (∀ (j : Nat) (y : F), j < i → tarray[j]? = some y →
          lt (PyFloat.abs (x - t)) (PyFloat.abs (y - t)) = true) := by
  rw [getamp_ok_iff hnum]
  constructor
  · rintro ⟨i, hi, ha⟩; exact ⟨i, ha, hi⟩
  · rintro ⟨i, ha, hi⟩; exact ⟨i, hi, ha⟩

/-- **C01**, error side: `ValueError` exactly for an empty time array, `IndexError`
exactly when the nearest position lies beyond the data, nothing else. -/
theorem c01_getamp_errors (rfdata tarray : List F) (t : F) (e : PyErr)
    (hnum : ∀ x ∈ tarray, isNaN (PyFloat.abs (x - t)) = false) :
    getamp rfdata tarray (.real t) = .error e ↔
      (tarray = [] ∧ e = .valueError) ∨
      (∃ i, NearestSample tarray t i ∧ rfdata.length ≤ i ∧ e = .indexError) :=
  getamp_error_iff hnum

omit [IEEEOrder F] in
/-- **C01**: the five copies of `getamp` are the same function. -/
theorem c01_getamp_copies_agree (rfdata tarray : List F) (t : PyNum F) :
    HkSeqYeck.getamp rfdata tarray t = HkZhu.getamp rfdata tarray t ∧
    HkYu.getamp rfdata tarray t = HkZhu.getamp rfdata tarray t ∧
    SynthAnalysis.getamp rfdata tarray t = HkZhu.getamp rfdata tarray t ∧
    ReverbFilter.getamp rfdata tarray t = HkZhu.getamp rfdata tarray t :=
  ⟨rfl, rfl, rfl, rfl⟩
end

/-- **C01** in exact arithmetic: no hypothesis is needed. -/
theorem c01_getamp_reads_nearest_real (rfdata tarray : List ℝ) (t a : ℝ) :
    getamp rfdata tarray (.real t) = .ok a ↔
      ∃ i, rfdata[i]? = some a ∧ ∃ x, tarray[i]? = some x ∧
        (∀ (j : Nat) (y : ℝ), tarray[j]? = some y → |x - t| ≤ |y - t|) ∧
        (∀ (j : Nat) (y : ℝ), j < i → tarray[j]? = some y → |x - t| < |y - t|) := by
  rw [c01_getamp_reads_nearest rfdata tarray t a (fun _ _ => rfl)]
  simp

/-- the hypotheses are satisfiable, and the tie rule is visible: with samples at
0, 1, 2 and `t = 1/2` the first of the two nearest is read -/
example : getamp [5, 6, 7] [0, 1, 2] (.real (1 / 2 : ℝ)) = .ok 5 := by
  rw [c01_getamp_reads_nearest_real]
  refine ⟨0, by simp, 0, by simp, ?_, by intro j y hj; omega⟩
  intro j y hy
  rcases j with _ | _ | _ | j
  all_goals simp at hy
  all_goals subst hy
  · norm_num
  · rw [abs_of_nonpos, abs_of_nonneg] <;> norm_num
  · rw [abs_of_nonpos, abs_of_nonneg] <;> norm_num

theorem timeAxis_get (δ pre : ℝ) (l i : Nat) (x : ℝ) :
    (timeAxis δ pre l)[i]? = some x ↔ i < l ∧ x = δ * i - pre := by
  unfold timeAxis
  rw [List.getElem?_map, Option.map_eq_some_iff]
  simp only [real_ofNat]
  constructor
  · rintro ⟨a, ha, rfl⟩
    have hil : i < l := by
      by_contra hc
      rw [List.getElem?_eq_none (by simpa using hc)] at ha; cases ha
    rw [List.getElem?_range hil] at ha
    cases ha
    exact ⟨hil, rfl⟩
  · rintro ⟨h, rfl⟩
    exact ⟨i, List.getElem?_range h, rfl⟩

/-- **C02**: on the axis `δ·i - preonset` (`0 ≤ i < n`) a time within the record
reads a sample at most half a sampling interval away. -/
theorem c02_within_half_sample (data : List ℝ) (δ pre t : ℝ) (hδ : 0 < δ)
    (hne : data ≠ []) (h1 : -pre ≤ t) (h2 : t ≤ δ * (data.length - 1) - pre) :
    ∃ (i : Nat) (a : ℝ), getamp data (timeAxis δ pre data.length) (.real t) = .ok a ∧
      data[i]? = some a ∧ |(δ * i - pre) - t| ≤ δ / 2 := by
  have hpos : 0 < data.length := List.length_pos_iff.2 hne
  obtain ⟨i, hi⟩ := exists_nearest (distOk_real (timeAxis δ pre data.length) t)
    (by rw [← List.length_pos_iff, timeAxis_length]; exact hpos)
  have hil : i < data.length := by simpa [timeAxis_length] using NearestSample.lt hi
  refine ⟨i, data[i], ?_, by simp, ?_⟩
  · rw [getamp_of_nearest (distOk_real _ _) hi, item_lt hil]
  · obtain ⟨x, hx, hmin, _⟩ := hi
    obtain ⟨_, rfl⟩ := (timeAxis_get _ _ _ _ _).1 hx
    -- a sample within half an interval exists
    set u : ℝ := (t + pre) / δ with hu
    have hu0 : 0 ≤ u := div_nonneg (by linarith) hδ.le
    have hu1 : u ≤ (data.length : ℝ) - 1 := by
      rw [hu, div_le_iff₀ hδ]; nlinarith
    set j : Nat := ⌊u + 1 / 2⌋₊ with hj
    have hj1 : (j : ℝ) ≤ u + 1 / 2 := Nat.floor_le (by linarith)
    have hj2 : u + 1 / 2 < j + 1 := Nat.lt_floor_add_one _
    have hjl : j < data.length := by
      have : (j : ℝ) < data.length := by linarith
      exact_mod_cast this
    have hjn := hmin j (δ * j - pre) ((timeAxis_get _ _ _ _ _).2 ⟨hjl, rfl⟩)
    simp only [real_abs, real_le] at hjn
    refine hjn.trans ?_
    have hut : t = δ * u - pre := by rw [hu]; field_simp; ring
    have : δ * (j : ℝ) - pre - t = δ * (j - u) := by rw [hut]; ring
    rw [this, abs_mul, abs_of_pos hδ]
    have : |(j : ℝ) - u| ≤ 1 / 2 := abs_le.2 ⟨by linarith, by linarith⟩
    nlinarith

/-- **C02**: a time not after the first sample reads the first sample. -/
theorem c02_before_record (data : List ℝ) (δ pre t d0 : ℝ) (hδ : 0 < δ)
    (h0 : data[0]? = some d0) (ht : t ≤ -pre) :
    getamp data (timeAxis δ pre data.length) (.real t) = .ok d0 := by
  have hpos : 0 < data.length := by
    by_contra hc
    rw [List.getElem?_eq_none (by omega)] at h0; cases h0
  have hi : NearestSample (timeAxis δ pre data.length) t 0 := by
    refine ⟨δ * (0 : ℕ) - pre, (timeAxis_get _ _ _ _ _).2 ⟨hpos, rfl⟩, ?_, by intro j y hj; omega⟩
    intro j y hy
    obtain ⟨_, rfl⟩ := (timeAxis_get _ _ _ _ _).1 hy
    simp only [real_abs, real_le]
    have hj : (0 : ℝ) ≤ j := Nat.cast_nonneg j
    have : 0 ≤ δ * (j : ℝ) := mul_nonneg hδ.le hj
    rw [abs_of_nonneg (by push_cast; linarith), abs_of_nonneg (by linarith)]
    push_cast; linarith
  rw [getamp_of_nearest (distOk_real _ _) hi, item_ok, h0]

/-- **C02**: a time not before the last sample reads the last sample. -/
theorem c02_after_record (data : List ℝ) (δ pre t d : ℝ) (hδ : 0 < δ)
    (h0 : data.getLast? = some d) (ht : δ * (data.length - 1) - pre ≤ t) :
    getamp data (timeAxis δ pre data.length) (.real t) = .ok d := by
  have hne : data ≠ [] := by rintro rfl; simp at h0
  have hpos : 0 < data.length := List.length_pos_iff.2 hne
  have hd : data[data.length - 1]? = some d := by rw [← List.getLast?_eq_getElem?]; exact h0
  have hcast : ((data.length - 1 : ℕ) : ℝ) = (data.length : ℝ) - 1 := by
    rw [Nat.cast_sub (by omega)]; simp
  have hi : NearestSample (timeAxis δ pre data.length) t (data.length - 1) := by
    refine ⟨δ * ((data.length - 1 : ℕ) : ℝ) - pre,
      (timeAxis_get _ _ _ _ _).2 ⟨by omega, rfl⟩, ?_, ?_⟩
    · intro j y hy
      obtain ⟨hjl, rfl⟩ := (timeAxis_get _ _ _ _ _).1 hy
      simp only [real_abs, real_le]
      have hj : (j : ℝ) ≤ ((data.length - 1 : ℕ) : ℝ) := by exact_mod_cast (by omega)
      have : δ * (j : ℝ) ≤ δ * ((data.length - 1 : ℕ) : ℝ) := mul_le_mul_of_nonneg_left hj hδ.le
      rw [hcast] at *
      rw [abs_of_nonpos (by linarith), abs_of_nonpos (by linarith)]
      linarith
    · intro j y hjlt hy
      obtain ⟨hjl, rfl⟩ := (timeAxis_get _ _ _ _ _).1 hy
      simp only [real_abs, real_lt]
      have hj : (j : ℝ) < ((data.length - 1 : ℕ) : ℝ) := by exact_mod_cast hjlt
      have : δ * (j : ℝ) < δ * ((data.length - 1 : ℕ) : ℝ) := mul_lt_mul_of_pos_left hj hδ
      rw [hcast] at *
      rw [abs_of_nonpos (by linarith), abs_of_nonpos (by linarith)]
      linarith
  rw [getamp_of_nearest (distOk_real _ _) hi, item_ok, hd]

/-- **C02**, consequence: a time that is a sample time reads exactly that sample. -/
theorem c02_on_sample (data : List ℝ) (δ pre d : ℝ) (i : Nat) (hδ : 0 < δ)
    (h0 : data[i]? = some d) :
    getamp data (timeAxis δ pre data.length) (.real (δ * i - pre)) = .ok d := by
  have hil : i < data.length := by
    by_contra hc
    rw [List.getElem?_eq_none (by omega)] at h0; cases h0
  have hi : NearestSample (timeAxis δ pre data.length) (δ * i - pre) i := by
    refine ⟨δ * i - pre, (timeAxis_get _ _ _ _ _).2 ⟨hil, rfl⟩, ?_, ?_⟩
    · intro j y hy; simp
    · intro j y hj hy
      obtain ⟨_, rfl⟩ := (timeAxis_get _ _ _ _ _).1 hy
      simp only [real_abs, real_lt, sub_self, abs_zero]
      have : (j : ℝ) < i := by exact_mod_cast hj
      rw [abs_pos]
      have : δ * (j : ℝ) < δ * i := mul_lt_mul_of_pos_left this hδ
      linarith
  rw [getamp_of_nearest (distOk_real _ _) hi, item_ok, h0]

/-- hypotheses of C02 are met by a concrete record -/
example : ∃ (i : Nat) (a : ℝ),
    getamp [3, 4, 5] (timeAxis (1 / 2) 1 3) (.real (-0.1)) = .ok a ∧ [3, 4, (5 : ℝ)][i]? = some a ∧
      |((1 / 2 : ℝ) * i - 1) - (-0.1)| ≤ 1 / 2 / 2 :=
  c02_within_half_sample [3, 4, 5] (1 / 2) 1 (-0.1) (by norm_num) (by simp) (by norm_num)
    (by norm_num)

end Rfsed.Props
