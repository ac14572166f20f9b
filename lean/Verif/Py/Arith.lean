import Mathlib.Analysis.SpecialFunctions.Trigonometric.Basic
import Mathlib.Analysis.Real.Sqrt

/-!
# Arithmetic expressions evaluated in inexact arithmetic

An expression is a formula of the code; `val` is its exact value and `Rnd ε` relates it to the values a machine can obtain
for it: every operation returns its exact result, *applied to the values obtained for its operands*, up to the relative
error `ε`.  `none` stands for NaN or an infinity; after a division by zero or the root of a negative number nothing is
assumed.  Shared subexpressions may even be rounded differently at each occurrence (more than a machine does).
-/

namespace Rfsed

/-- `o` is a number within `ε * s` of `v` -/
def Rounded {V : Type} [NormedAddCommGroup V] (ε s : ℝ) (v : V) (o : Option V) : Prop :=
  ∃ z, o = some z ∧ ‖z - v‖ ≤ ε * s

/-- formulas with real values -/
inductive RE where
  /-- a literal, an argument -/
  | c (x : ℝ)
  | neg (a : RE)
  | add (a b : RE)
  | sub (a b : RE)
  | mul (a b : RE)
  | div (a b : RE)
  | sqrt (a : RE)
  | cos (a : RE)
  | sin (a : RE)

namespace RE

instance : Add RE := ⟨RE.add⟩
instance : Sub RE := ⟨RE.sub⟩
instance : Mul RE := ⟨RE.mul⟩
instance : Div RE := ⟨RE.div⟩
instance : Neg RE := ⟨RE.neg⟩

/-- exact value -/
noncomputable def val : RE → ℝ
  | .c x => x
  | .neg a => -a.val
  | .add a b => a.val + b.val
  | .sub a b => a.val - b.val
  | .mul a b => a.val * b.val
  | .div a b => a.val / b.val
  | .sqrt a => Real.sqrt a.val
  | .cos a => Real.cos a.val
  | .sin a => Real.sin a.val

/-- no division by zero and no root of a number that is not positive, in exact arithmetic -/
def Safe : RE → Prop
  | .c _ => True
  | .neg a => a.Safe
  | .add a b => a.Safe ∧ b.Safe
  | .sub a b => a.Safe ∧ b.Safe
  | .mul a b => a.Safe ∧ b.Safe
  | .div a b => a.Safe ∧ b.Safe ∧ b.val ≠ 0
  | .sqrt a => a.Safe ∧ 0 < a.val
  | .cos a => a.Safe
  | .sin a => a.Safe

/-- the values a machine of relative accuracy `ε` can obtain -/
def Rnd (ε : ℝ) : RE → Option ℝ → Prop
  | .c x, o => Rounded ε |x| x o
  | .neg a, o => ∃ x, a.Rnd ε x ∧ o = x.map (fun x : ℝ => -x)
  | .add a b, o => ∃ x y, a.Rnd ε x ∧ b.Rnd ε y ∧
      ∀ x' y', x = some x' → y = some y' → Rounded ε |x' + y'| (x' + y') o
  | .sub a b, o => ∃ x y, a.Rnd ε x ∧ b.Rnd ε y ∧
      ∀ x' y', x = some x' → y = some y' → Rounded ε |x' - y'| (x' - y') o
  | .mul a b, o => ∃ x y, a.Rnd ε x ∧ b.Rnd ε y ∧
      ∀ x' y', x = some x' → y = some y' → Rounded ε |x' * y'| (x' * y') o
  | .div a b, o => ∃ x y, a.Rnd ε x ∧ b.Rnd ε y ∧
      ∀ x' y', x = some x' → y = some y' → y' ≠ 0 → Rounded ε |x' / y'| (x' / y') o
  | .sqrt a, o => ∃ x, a.Rnd ε x ∧ ∀ x', x = some x' → 0 ≤ x' → Rounded ε |Real.sqrt x'| (Real.sqrt x') o
  | .cos a, o => ∃ x, a.Rnd ε x ∧ ∀ x', x = some x' → Rounded ε |Real.cos x'| (Real.cos x') o
  | .sin a, o => ∃ x, a.Rnd ε x ∧ ∀ x', x = some x' → Rounded ε |Real.sin x'| (Real.sin x') o

end RE

/-- formulas with complex values -/
inductive CE where
  /-- a real number stored in a complex array -/
  | re (a : RE)
  /-- a real number times `1j` -/
  | im (a : RE)
  | neg (a : CE)
  | sub (a b : CE)
  | mul (a b : CE)
  | div (a b : CE)
  /-- an entry of a product of 4×4 matrices (`np.matmul`) -/
  | dot (a b : Fin 4 → CE)

namespace CE

instance : Sub CE := ⟨CE.sub⟩
instance : Mul CE := ⟨CE.mul⟩
instance : Div CE := ⟨CE.div⟩
instance : Neg CE := ⟨CE.neg⟩

/-- exact value -/
noncomputable def val : CE → ℂ
  | .re a => (a.val : ℂ)
  | .im a => (a.val : ℂ) * Complex.I
  | .neg a => -a.val
  | .sub a b => a.val - b.val
  | .mul a b => a.val * b.val
  | .div a b => a.val / b.val
  | .dot a b => ∑ k, (a k).val * (b k).val

/-- no division by zero and no root of a number that is not positive, in exact arithmetic -/
def Safe : CE → Prop
  | .re a => a.Safe
  | .im a => a.Safe
  | .neg a => a.Safe
  | .sub a b => a.Safe ∧ b.Safe
  | .mul a b => a.Safe ∧ b.Safe
  | .div a b => a.Safe ∧ b.Safe ∧ b.val ≠ 0
  | .dot a b => ∀ k, (a k).Safe ∧ (b k).Safe

/-- the values a machine of relative accuracy `ε` can obtain; the terms of a matrix product may be added in any order, so
its error is relative to the sum of their moduli -/
def Rnd (ε : ℝ) : CE → Option ℂ → Prop
  | .re a, o => ∃ x, a.Rnd ε x ∧ o = x.map (fun x : ℝ => (x : ℂ))
  | .im a, o => ∃ x, a.Rnd ε x ∧ ∀ x', x = some x' → Rounded ε |x'| ((x' : ℂ) * Complex.I) o
  | .neg a, o => ∃ x, a.Rnd ε x ∧ o = x.map (fun x : ℂ => -x)
  | .sub a b, o => ∃ x y, a.Rnd ε x ∧ b.Rnd ε y ∧
      ∀ x' y', x = some x' → y = some y' → Rounded ε ‖x' - y'‖ (x' - y') o
  | .mul a b, o => ∃ x y, a.Rnd ε x ∧ b.Rnd ε y ∧
      ∀ x' y', x = some x' → y = some y' → Rounded ε ‖x' * y'‖ (x' * y') o
  | .div a b, o => ∃ x y, a.Rnd ε x ∧ b.Rnd ε y ∧
      ∀ x' y', x = some x' → y = some y' → y' ≠ 0 → Rounded ε ‖x' / y'‖ (x' / y') o
  | .dot a b, o => ∃ x y : Fin 4 → Option ℂ, (∀ k, (a k).Rnd ε (x k)) ∧ (∀ k, (b k).Rnd ε (y k)) ∧
      ∀ x' y' : Fin 4 → ℂ, (∀ k, x k = some (x' k)) → (∀ k, y k = some (y' k)) →
        Rounded ε (∑ k, ‖x' k‖ * ‖y' k‖) (∑ k, x' k * y' k) o

end CE

end Rfsed
