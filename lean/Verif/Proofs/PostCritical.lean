import Verif.Proofs.HkMore

namespace Rfsed
open PyFloat Spec
set_option linter.unusedSectionVars false
variable {F : Type} [PyFloat F]

namespace HkZhu

/-- adjusted times of the modified H-k method -/
def yuShift (tlag Pdelay : F) (ts : PyNum F × PyNum F × PyNum F) : PyNum F × PyNum F × PyNum F :=
  (PyNum.addr ts.1 Pdelay, PyNum.subr (PyNum.addr ts.2.1 tlag) Pdelay, PyNum.addr ts.2.2 tlag)

theorem yuCell_eq (flt : HkYu.FltInput F) (rp Vp : Scalar F) (Pd w1 w2 w3 k x : F) :
    HkYu.cell flt rp Vp Pd (some w1) (some w2) (some w3) k x = (do
      let ts ← bestTimes Vp rp.kind rp.val x k
      let v ← weigh w1 w2 w3 flt.filteredrf flt.time (yuShift flt.tlag.val Pd ts)
      pure (v + zero)) := by
  unfold HkYu.cell bestTimes weigh yuShift
  cases oneOver Vp with
  | error e => rfl
  | ok v =>
    simp only [except_ok_bind, except_pure, yu_getamp_eq, except_bind_assoc, HkYu.need]

/-- a time that is not a number: all distances are NaN -/
def NaNTime : PyNum F → Prop
  | .real t => isNaN t = true
  | .cplx re _ => isNaN re = true

theorem getamp_nanTime [IEEENaN F] {d t : List F} {x : PyNum F} (hne : t ≠ []) (hx : NaNTime x) :
    getamp d t x = item d 0 := by
  apply getamp_nan hne
  intro y _
  cases x with
  | real x => exact IEEENaN.abs_nan _ (IEEENaN.sub_nan_right _ _ hx)
  | cplx re im => exact IEEENaN.hypot_nan_left _ _ (IEEENaN.sub_nan_right _ _ hx)

theorem nanTime_rmul [IEEENaN F] {a : F} {x : PyNum F} (h : NaNTime x) : NaNTime (PyNum.rmul a x) := by
  cases x <;> exact IEEENaN.mul_nan_right _ _ h
theorem nanTime_rsub [IEEENaN F] {a : F} {x : PyNum F} (h : isNaN a = true) :
    NaNTime (PyNum.rsub a x) := by
  cases x <;> exact IEEENaN.sub_nan_left _ _ h
theorem nanTime_radd [IEEENaN F] {a : F} {x : PyNum F} (h : isNaN a = true) :
    NaNTime (PyNum.radd a x) := by
  cases x <;> exact IEEENaN.add_nan_left _ _ h
theorem nanTime_rsub' [IEEENaN F] {a : F} {x : PyNum F} (h : NaNTime x) :
    NaNTime (PyNum.rsub a x) := by
  cases x <;> exact IEEENaN.sub_nan_right _ _ h
theorem nanTime_radd' [IEEENaN F] {a : F} {x : PyNum F} (h : NaNTime x) :
    NaNTime (PyNum.radd a x) := by
  cases x <;> exact IEEENaN.add_nan_right _ _ h
theorem nanTime_addr [IEEENaN F] {a : F} {x : PyNum F} (h : NaNTime x) : NaNTime (PyNum.addr x a) := by
  cases x <;> exact IEEENaN.add_nan_left _ _ h
theorem nanTime_subr [IEEENaN F] {a : F} {x : PyNum F} (h : NaNTime x) : NaNTime (PyNum.subr x a) := by
  cases x <;> exact IEEENaN.sub_nan_left _ _ h

theorem bestTimes_ok {Vp : Scalar F} {kd : Kind} {rp x k : F} {ts : PyNum F × PyNum F × PyNum F}
    (h : bestTimes Vp kd rp x k = .ok ts) :
    ts = (PyNum.rmul x (PyNum.rsub (powHalf (square (k / Vp.val) - square rp))
            (powHalfK (Vp.kind.join kd) (square (one / Vp.val) - square rp))),
          PyNum.rmul x (PyNum.radd (powHalf (square (k / Vp.val) - square rp))
            (powHalfK (Vp.kind.join kd) (square (one / Vp.val) - square rp))),
          PyNum.real (x * two * powHalf (square (k / Vp.val) - square rp))) := by
  unfold bestTimes at h
  obtain ⟨v, h1, h⟩ := bind_eq_ok.1 h
  rw [← oneOver_ok h1]
  cases h; rfl

/-- S leg post-critical: all three times are NaN -/
theorem bestTimes_postS [IEEENaN F] {Vp : Scalar F} {kd : Kind} {rp x k : F}
    {ts : PyNum F × PyNum F × PyNum F} (h : bestTimes Vp kd rp x k = .ok ts)
    (hpost : lt (square (k / Vp.val) - square rp) zero = true) :
    NaNTime ts.1 ∧ NaNTime ts.2.1 ∧ NaNTime ts.2.2 := by
  have hn := IEEENaN.powHalf_neg _ hpost
  rw [bestTimes_ok h]
  exact ⟨nanTime_rmul (nanTime_rsub hn), nanTime_rmul (nanTime_radd hn),
    IEEENaN.mul_nan_right _ _ hn⟩

/-- P leg post-critical with numpy numbers: Ps and PpPs times are NaN -/
theorem bestTimes_postP [IEEENaN F] {Vp : Scalar F} {kd : Kind} {rp x k : F}
    {ts : PyNum F × PyNum F × PyNum F} (h : bestTimes Vp kd rp x k = .ok ts)
    (hnp : Vp.kind = .np ∨ kd = .np)
    (hpost : lt (square (one / Vp.val) - square rp) zero = true) :
    NaNTime ts.1 ∧ NaNTime ts.2.1 ∧
      ts.2.2 = .real (x * two * powHalf (square (k / Vp.val) - square rp)) := by
  have hj : Vp.kind.join kd = .np := by
    rcases hnp with h | h <;> rw [h]
    · cases kd <;> rfl
    · cases Vp.kind <;> rfl
  have hn : NaNTime (powHalfK (Vp.kind.join kd) (square (one / Vp.val) - square rp)) := by
    rw [hj]; exact IEEENaN.powHalf_neg _ hpost
  rw [bestTimes_ok h]
  exact ⟨nanTime_rmul (nanTime_rsub' hn), nanTime_rmul (nanTime_radd' hn), rfl⟩

theorem weigh_nan [IEEENaN F] {w1 w2 w3 v : F} {d t : List F} {ts : PyNum F × PyNum F × PyNum F}
    (hne : t ≠ []) (h : weigh w1 w2 w3 d t ts = .ok v)
    (h1 : NaNTime ts.1) (h2 : NaNTime ts.2.1) (h3 : NaNTime ts.2.2) :
    ∃ d0, d[0]? = some d0 ∧ v = w1 * d0 + w2 * d0 - w3 * d0 := by
  obtain ⟨a1, a2, a3, e1, e2, e3, rfl⟩ := weigh_ok.1 h
  rw [getamp_nanTime hne h1] at e1
  rw [getamp_nanTime hne h2, e1] at e2
  rw [getamp_nanTime hne h3, e1] at e3
  cases e2; cases e3
  exact ⟨a1, item_ok.1 e1, rfl⟩

theorem weigh_nan2 [IEEENaN F] {w1 w2 w3 v : F} {d t : List F} {ts : PyNum F × PyNum F × PyNum F}
    (hne : t ≠ []) (h : weigh w1 w2 w3 d t ts = .ok v)
    (h1 : NaNTime ts.1) (h2 : NaNTime ts.2.1) :
    ∃ d0 a3, d[0]? = some d0 ∧ getamp d t ts.2.2 = .ok a3 ∧ v = w1 * d0 + w2 * d0 - w3 * a3 := by
  obtain ⟨a1, a2, a3, e1, e2, e3, rfl⟩ := weigh_ok.1 h
  rw [getamp_nanTime hne h1] at e1
  rw [getamp_nanTime hne h2, e1] at e2
  cases e2
  exact ⟨a1, a3, item_ok.1 e1, e3, rfl⟩

theorem getamp_axis_ne {d t : List F} {x : PyNum F} {a : F} (h : getamp d t x = .ok a) : t ≠ [] := by
  rintro rfl
  simp [getamp, argmin] at h

theorem weigh_axis_ne {w1 w2 w3 v : F} {d t : List F} {ts : PyNum F × PyNum F × PyNum F}
    (h : weigh w1 w2 w3 d t ts = .ok v) : t ≠ [] := by
  obtain ⟨a1, _, _, e1, _⟩ := weigh_ok.1 h
  exact getamp_axis_ne e1

end HkZhu

/-! numbers in `NReal` -/
namespace NReal
/-- not NaN -/
def IsNum (a : NReal) : Prop := PyFloat.isNaN a = false

theorem isNum_iff {a : NReal} : IsNum a ↔ ∃ x, a = num x := by
  cases a <;> simp [IsNum]
theorem IsNum.add {a b : NReal} (ha : IsNum a) (hb : IsNum b) : IsNum (a + b) := by
  obtain ⟨x, rfl⟩ := isNum_iff.1 ha
  obtain ⟨y, rfl⟩ := isNum_iff.1 hb
  simp [IsNum]
theorem IsNum.sub {a b : NReal} (ha : IsNum a) (hb : IsNum b) : IsNum (a - b) := by
  obtain ⟨x, rfl⟩ := isNum_iff.1 ha
  obtain ⟨y, rfl⟩ := isNum_iff.1 hb
  simp [IsNum]
theorem IsNum.mul {a b : NReal} (ha : IsNum a) (hb : IsNum b) : IsNum (a * b) := by
  obtain ⟨x, rfl⟩ := isNum_iff.1 ha
  obtain ⟨y, rfl⟩ := isNum_iff.1 hb
  simp [IsNum]
theorem isNum_zero : IsNum (PyFloat.zero : NReal) := by simp [IsNum]

theorem weigh_isNum {w1 w2 w3 v : NReal} {d t : List NReal} {ts : PyNum NReal × PyNum NReal × PyNum NReal}
    (h : HkZhu.weigh w1 w2 w3 d t ts = .ok v) (h1 : IsNum w1) (h2 : IsNum w2) (h3 : IsNum w3)
    (hd : ∀ a ∈ d, IsNum a) : IsNum v := by
  obtain ⟨a1, a2, a3, e1, e2, e3, rfl⟩ := HkZhu.weigh_ok.1 h
  exact ((h1.mul (hd _ (HkZhu.getamp_mem e1))).add (h2.mul (hd _ (HkZhu.getamp_mem e2)))).sub
    (h3.mul (hd _ (HkZhu.getamp_mem e3)))

/-- distance to a complex time orders like the distance to its real part -/
theorem nearest_hypot {axis : List NReal} (hax : ∀ a ∈ axis, IsNum a) {re im : ℝ} {i : Nat} :
    IsFirstMin (axis.map (fun x => PyNum.absSub x (.cplx (num re) (num im)))) i ↔
      IsFirstMin (axis.map (fun x => PyFloat.abs (x - num re))) i := by
  have key : ∀ x y : ℝ, (Real.sqrt ((x - re) ^ 2 + (-im) ^ 2) ≤ Real.sqrt ((y - re) ^ 2 + (-im) ^ 2)
      ↔ |x - re| ≤ |y - re|) := by
    intro x y
    rw [Real.sqrt_le_sqrt_iff (by positivity), add_le_add_iff_right, sq_le_sq]
  have hnum : ∀ (j : Nat) (a : NReal), axis[j]? = some a → ∃ x, a = num x := fun j a h =>
    isNum_iff.1 (hax a (List.mem_of_getElem? h))
  have hle : ∀ x y : ℝ, PyFloat.le (PyNum.absSub (num x) (.cplx (num re) (num im)))
        (PyNum.absSub (num y) (.cplx (num re) (num im))) = true
      ↔ PyFloat.le (PyFloat.abs (num x - num re)) (PyFloat.abs (num y - num re)) = true := by
    intro x y
    have e : ∀ z : ℝ, PyNum.absSub (num z) (.cplx (num re) (num im))
        = num (Real.sqrt ((z - re) ^ 2 + (-im) ^ 2)) := fun z => rfl
    rw [e, e, nreal_le, key]
    simp
  have hlt : ∀ x y : ℝ, PyFloat.lt (PyNum.absSub (num x) (.cplx (num re) (num im)))
        (PyNum.absSub (num y) (.cplx (num re) (num im))) = true
      ↔ PyFloat.lt (PyFloat.abs (num x - num re)) (PyFloat.abs (num y - num re)) = true := by
    intro x y
    have e : ∀ z : ℝ, PyNum.absSub (num z) (.cplx (num re) (num im))
        = num (Real.sqrt ((z - re) ^ 2 + (-im) ^ 2)) := fun z => rfl
    rw [e, e, nreal_lt, ← not_le, key]
    simp
  unfold IsFirstMin
  simp only [List.getElem?_map, Option.map_eq_some_iff]
  constructor
  · rintro ⟨_, ⟨a, ha, rfl⟩, h1, h2⟩
    obtain ⟨x, rfl⟩ := hnum _ _ ha
    refine ⟨_, ⟨_, ha, rfl⟩, ?_, ?_⟩
    · rintro j _ ⟨b, hb, rfl⟩
      obtain ⟨y, rfl⟩ := hnum _ _ hb
      exact (hle x y).1 (h1 j _ ⟨_, hb, rfl⟩)
    · rintro j _ hj ⟨b, hb, rfl⟩
      obtain ⟨y, rfl⟩ := hnum _ _ hb
      exact (hlt x y).1 (h2 j _ hj ⟨_, hb, rfl⟩)
  · rintro ⟨_, ⟨a, ha, rfl⟩, h1, h2⟩
    obtain ⟨x, rfl⟩ := hnum _ _ ha
    refine ⟨_, ⟨_, ha, rfl⟩, ?_, ?_⟩
    · rintro j _ ⟨b, hb, rfl⟩
      obtain ⟨y, rfl⟩ := hnum _ _ hb
      exact (hle x y).2 (h1 j _ ⟨_, hb, rfl⟩)
    · rintro j _ hj ⟨b, hb, rfl⟩
      obtain ⟨y, rfl⟩ := hnum _ _ hb
      exact (hlt x y).2 (h2 j _ hj ⟨_, hb, rfl⟩)

theorem getamp_cplx {d axis : List NReal} (hax : ∀ a ∈ axis, IsNum a) {re im : ℝ} {a : NReal}
    (h : HkZhu.getamp d axis (.cplx (num re) (num im)) = .ok a) :
    ReadsNearest d axis (num re) a := by
  unfold HkZhu.getamp at h
  obtain ⟨i, hi, h⟩ := bind_eq_ok.1 h
  have hn : NoNaN (axis.map (fun x => PyNum.absSub x (.cplx (num re) (num im)))) := by
    intro y hy
    obtain ⟨x, hx, rfl⟩ := List.mem_map.1 hy
    obtain ⟨z, rfl⟩ := isNum_iff.1 (hax x hx)
    rfl
  have := argmin_firstMin hn hi
  rw [nearest_hypot hax] at this
  exact ⟨i, nearest_iff_firstMin.2 this, item_ok.1 h⟩

theorem getamp_num {d axis : List NReal} (hax : ∀ a ∈ axis, IsNum a) {t : ℝ} {a : NReal}
    (h : HkZhu.getamp d axis (.real (num t)) = .ok a) : ReadsNearest d axis (num t) a := by
  refine (getamp_ok_iff ?_).1 h
  intro x hx
  obtain ⟨z, rfl⟩ := isNum_iff.1 (hax x hx)
  rfl

end NReal
end Rfsed
