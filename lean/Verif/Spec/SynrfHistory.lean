import Verif.Model.SynrfForward

/-!
# Specification: histories of method calls on a `synrf` object
-/

namespace Rfsed.Spec
open Synrf

/-- the ray parameters an argument of the constructor stands for; `none`: of no admissible type -/
def slownesses : RaypArg → Option (List ℝ)
  | .float x => some [x]
  | .list xs => some xs
  | .ndarray xs => some xs
  | .other => none

/-- a method call -/
inductive Call where
  | runFwd
  | filter (a : FilterArgs)
  | deconv (pre_filt : Option (List ℝ)) (preonset gaussian : ℝ) (method : Option String)
      (kw : KwArgs)

/-- what the caller gets back: nothing, an exception or receiver functions -/
inductive Outcome where
  | done
  | raised (e : PyErr)
  | rfs (l : List RFTr)

/-- make one call -/
noncomputable def call (bp : Bandpass) (o : Obj) : Call → Obj × Outcome
  | .runFwd => let r := run_fwd o; (r.1, match r.2 with | .ok () => .done | .error e => .raised e)
  | .filter a => let r := Synrf.filter bp o a; (r.1, match r.2 with | .ok () => .done | .error e => .raised e)
  | .deconv pf pre g m kw =>
    let r := run_deconvolution bp o pf pre g m kw
    (r.1, match r.2 with | .ok l => .rfs l | .error e => .raised e)

/-- the object after a sequence of calls (exceptions are caught by the caller) -/
noncomputable def after (bp : Bandpass) (o : Obj) (calls : List Call) : Obj :=
  calls.foldl (fun o c => (call bp o c).1) o

/-- the band-pass a call asks for: `filter` always one, `run_deconvolution` one if it is given a
pre-filter of two to four numbers (order 2, zero phase unless given) -/
noncomputable def Call.pass : Call → Option FilterArgs
  | .runFwd => none
  | .filter a => some a
  | .deconv (some [f1, f2]) _ _ _ _ => some ⟨f1, f2, 2, true⟩
  | .deconv (some [f1, f2, k]) _ _ _ _ => some ⟨f1, f2, k, true⟩
  | .deconv (some [f1, f2, k, z]) _ _ _ _ =>
      some ⟨f1, f2, k, @decide (z ≠ 0) (Classical.propDecidable _)⟩
  | .deconv _ _ _ _ _ => none

/-- `filter` is not `run_fwd` -/
def Call.isFwd : Call → Bool
  | .runFwd => true
  | _ => false

/-- a trace to which the filters `ps` have been applied one after the other -/
def passed (f : FilterArgs → ℝ → List ℝ → List ℝ) (ps : List FilterArgs) (t : SynTr) : SynTr :=
  match t.data with
  | .nan _ => t
  | .num x => { t with data := .num (ps.foldl (fun x a => f a t.delta x) x) }

end Rfsed.Spec
