import Verif.Py.Numpy
import Verif.Py.Fft
import Mathlib.Data.Nat.Log

/-!
# More numpy / obspy vocabulary (used by `synrf.py`)
-/

namespace Rfsed

/-- obspy's `next_pow_2(i) = int(round(2 ** np.ceil(np.log2(i))))` for a natural number:
the least power of two that is at least `i`; for `0` numpy computes `2 ** -inf = 0`. -/
def nextPow2 (i : Nat) : Nat := if i = 0 then 0 else 2 ^ Nat.clog 2 i

/-- `a[lo:hi] = v` for a one-dimensional numpy array (`0 ≤ lo`, `0 ≤ hi`): `v` must have as
many entries as the slice, or one (broadcast); otherwise `ValueError`. -/
def setSlice {α : Type} (a : List α) (lo hi : Nat) (v : List α) : Except PyErr (List α) :=
  let hi := min hi a.length
  let lo := min lo hi
  if v.length = hi - lo then .ok (a.take lo ++ v ++ a.drop hi)
  else match v with
    | [x] => .ok (a.take lo ++ List.replicate (hi - lo) x ++ a.drop hi)
    | _ => .error .valueError

/-- `a[lo:hi]` for `0 ≤ lo`, `0 ≤ hi` -/
def slice {α : Type} (a : List α) (lo hi : Nat) : List α := (a.drop lo).take (hi - lo)

/-- `a[0:hi]` where `hi` may be negative (then counted from the end) -/
def sliceTo {α : Type} (a : List α) (hi : Int) : List α :=
  if hi < 0 then a.take (a.length - hi.natAbs) else a.take hi.toNat

/-- `np.sum(x ** 2)` -/
noncomputable def sumSq (x : List ℝ) : ℝ := (x.map (fun v : ℝ => v ^ 2)).sum

/-- `x - y` for arrays of equal length -/
noncomputable def arrSub (x y : List ℝ) : List ℝ := List.zipWith (· - ·) x y

/-- Python `int(x)`: truncation towards zero -/
noncomputable def pyInt (x : ℝ) : ℤ := if 0 ≤ x then ⌊x⌋ else ⌈x⌉

end Rfsed
