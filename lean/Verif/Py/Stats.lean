import Verif.Py.Numpy

/-!
# Further Python / numpy / sklearn vocabulary used by the waveform fitting modules
-/

namespace Rfsed
open PyFloat

/-- `int(x)`: truncation towards zero; raises for NaN (`ValueError`). -/
class PyTrunc (F : Type) where
  trunc : F → Except PyErr Int

/-- truncation of a real number towards zero -/
noncomputable def truncR (x : ℝ) : ℤ := @ite _ (0 ≤ x) (Classical.propDecidable _) ⌊x⌋ ⌈x⌉

noncomputable instance : PyTrunc ℝ where
  trunc x := .ok (truncR x)

noncomputable instance : PyTrunc NReal where
  trunc
    | .num x => .ok (truncR x)
    | .nan => .error .valueError

variable {F : Type} [PyFloat F]

/-- `x ** n` for a literal integer `n ≥ 1`; simplification: repeated multiplication
(differs from `pow` by rounding only). -/
def powNat (x : F) : Nat → F
  | 0 => one
  | 1 => x
  | n + 2 => powNat x (n + 1) * x

/-- builtin `max(xs)`: keeps the first element and replaces it by each later one that compares
greater; `ValueError` for an empty sequence. -/
def pyMax : List F → Except PyErr F
  | [] => .error .valueError
  | x :: xs => .ok (xs.foldl (fun m y => if lt m y then y else m) x)

/-- builtin `min(xs)`. -/
def pyMin : List F → Except PyErr F
  | [] => .error .valueError
  | x :: xs => .ok (xs.foldl (fun m y => if lt y m then y else m) x)

/-- `a[start:stop]` with `start ≥ 0` and any integer `stop` (a negative one counts from the end). -/
def pySlice {α : Type} (a : List α) (start : Nat) (stop : Int) : List α :=
  let e : Nat := if 0 ≤ stop then stop.toNat else (stop + a.length).toNat
  (a.take e).drop start

/-- `np.where(xs == v)[0]`: the positions of the entries equal to `v`, in order. -/
def whereEq (xs : List F) (v : F) : List Nat :=
  (List.range xs.length).filter (fun i => match xs[i]? with
    | some x => eq x v
    | none => false)

/-- entrywise difference -/
def vsub (x y : List F) : List F := List.zipWith (· - ·) x y

/-- sum of products -/
def dot (x y : List F) : F := (List.zipWith (· * ·) x y).foldl (· + ·) zero

/-- `xs - np.mean(xs)` -/
def centre (xs : List F) : List F := xs.map (fun x => x - npMean xs)

/-- `np.std(xs)` -/
def npStd (xs : List F) : F := powHalf (npMean ((centre xs).map square))

/-- `np.clip(x, lo, hi)` (NaN stays NaN) -/
def npClip (lo hi x : F) : F := if lt x lo then lo else if lt hi x then hi else x

/-- `np.corrcoef(x, y)[0, 1]`: covariance with the factor `1/(n-1)` divided by the two standard
deviations, clipped to `[-1, 1]`; arrays of different lengths cannot be combined
(`ValueError`). For a single sample the factor is `1/0`. -/
def corrcoef01 (x y : List F) : Except PyErr F :=
  if x.length ≠ y.length then .error .valueError
  else
    let fact := ofNat (x.length - 1)
    let cov := fun a b : List F => dot (centre a) (centre b) / fact
    .ok (npClip (-one) one (cov x y / powHalf (cov x x) / powHalf (cov y y)))

/-- neither NaN nor infinite -/
def isFinite (x : F) : Bool := eq (x - x) zero

/-- `sklearn.metrics.mean_squared_error(x, y)`: raises `ValueError` for different lengths, empty
input and entries that are not finite. -/
def meanSquaredError (x y : List F) : Except PyErr F :=
  if x.length ≠ y.length ∨ x.length = 0 then .error .valueError
  else if !(x.all isFinite && y.all isFinite) then .error .valueError
  else .ok (npMean ((vsub x y).map square))

/-- `np.where(abs(xs) == 0, abs(xs), xs / abs(xs))` -/
def signs (xs : List F) : List F :=
  xs.map (fun x => if eq (PyFloat.abs x) zero then PyFloat.abs x else x / PyFloat.abs x)

/-- `table = np.zeros((n, …)); z = 0; for row in rows: table[z,:] = row; z = z + 1`;
`IndexError` when there are more rows than `n`. -/
def fillRows {α : Type} (zeroRow : α) (n : Nat) (rows : List α) : Except PyErr (List α) := do
  let st ← rows.foldlM (fun (st : List α × Nat) row => do
    let t ← setItem st.1 st.2 row
    pure (t, st.2 + 1)) (List.replicate n zeroRow, 0)
  pure st.1

end Rfsed
