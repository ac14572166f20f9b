import Verif.Py.Numpy

/-!
# The grid search loop shared by all H-k stacking functions
-/

namespace Rfsed
open PyFloat
variable {F : Type} [PyFloat F]

/-- hkZhu.py:137-170 (and, with the same text, hkSeqYeck.py:166-199 and 224-260,
hkYu.py:139-170, SynthAnalysis.py: the loops of `hkSynth` and `hkSeqSynth`): the double loop with the running row index `z` writing into
`np.zeros((len(K)*len(H), 3))`.  (`for i in range(len(K)): Ktemp = K[i]` is
written as iteration over `K`.) -/
def gridLoop (K H : List F) (value : F → F → Except PyErr F) : Except PyErr (List (Row F)) := do
  let (stk, _) ← K.foldlM (fun st Ktemp =>
    H.foldlM (fun (st : List (Row F) × Nat) Htemp => do
      let s ← value Ktemp Htemp
      let stk ← setItem st.1 st.2 ⟨Htemp, Ktemp, s⟩
      pure (stk, st.2 + 1)) st)
    (List.replicate (K.length * H.length) Row.zero, 0)
  pure stk

end Rfsed
