import Verif.Py.Numpy

/-!
# Model of `/repo/src/rfsed/ReverbFilter.py` (amplitude picking)
-/

namespace Rfsed.ReverbFilter
open PyFloat
variable {F : Type} [PyFloat F]

/-- `getamp`, ReverbFilter.py:43-60: `rfdata[np.abs(tarray - t).argmin()]`. -/
def getamp (rfdata tarray : List F) (t : PyNum F) : Except PyErr F := do
  let i ← argmin (tarray.map (fun x => PyNum.absSub x t))
  item rfdata i

end Rfsed.ReverbFilter
