import Verif.Model.ExtractEq
import Verif.Py.Pool

/-!
# Model of `rfsed/ExtractEqMultiproc.py`
-/

namespace Rfsed.Extract

/-- an event with the attributes `Add_sta_time_2cat` adds, ExtractEqMultiproc.py:82-86 -/
structure StaEvent where
  event : Event
  stalat : ℝ
  stalon : ℝ
  Request_start : ℝ
  Request_end : ℝ

/-- the dictionary `{'eqstart': …, 'eqend': …, 'onset': …}`, ExtractEqMultiproc.py:136 -/
structure Window where
  eqstart : Time
  eqend : Time
  onset : Time

/-- `Add_sta_time_2cat`, ExtractEqMultiproc.py:45-87 -/
def Add_sta_time_2cat (d : Disk) (catalogfile : String) (stalat stalon : ℝ)
    (Request_window : List ℝ) : Except PyErr (List StaEvent) := do
  let cat ← read_events d catalogfile
  cat.mapM (fun i => do
    let w0 ← item Request_window 0
    let w1 ← item Request_window 1
    pure ⟨i, stalat, stalon, w0, w1⟩)

/-- `Eq_times`, ExtractEqMultiproc.py:89-137: a list of one dictionary -/
noncomputable def Eq_times (env : Obspy) (catalog : StaEvent) : Except PyErr (List Window) := do
  let Request_window := [catalog.Request_start, catalog.Request_end]
  let o ← item catalog.event.origins 0
  let _ ← item catalog.event.magnitudes 0
  let eqdepth ← inKm o.depth
  env.gps2dist catalog.stalat catalog.stalon o.latitude o.longitude
  let distdeg ← env.degrees catalog.stalat catalog.stalon o.latitude o.longitude
  let arrivals ← env.travelTimes eqdepth distdeg
  let P ← item arrivals 0
  let onset := o.time + env.toNs P
  let w0 ← item Request_window 0
  let eqstart := (o.time + env.toNs P) - env.toNs |w0|
  let w1 ← item Request_window 1
  let eqend := (o.time + env.toNs P) + env.toNs |w1|
  pure [⟨eqstart, eqend, onset⟩]

/-- `Get_Eqtimes_multiproc`, ExtractEqMultiproc.py:141-175, can return (or raise) `out` -/
def Get_Eqtimes_multiproc (env : Obspy) (catalog : List StaEvent) (nproc : Nat)
    (out : Except PyErr (List (Option (List Window)))) : Prop :=
  ∃ log, Pool.MapsTo nproc (Eq_times env) catalog out log

/-- `Get_EqStream_multiproc`, ExtractEqMultiproc.py:178-217; the first component of the input is
the one-element tuple of `itertools.product`, here a list -/
def Get_EqStream_multiproc (env : Obspy) (d : Disk) (inputparams : List String × List (List Window)) :
    Except PyErr (List Wave) := do
  let datafile ← item inputparams.1 0
  inputparams.2.foldlM (fun Datast (i : List Window) => do
    let w ← item i 0
    let Eqdata ← readWindow env d datafile w.eqstart w.eqend
    pure (Datast ++ Eqdata.map (stamp w.onset))) []

/-- `AllStream += EqStreams[i]`, ExtractEqMultiproc.py:267 (`TypeError` for `None`) -/
def concat (AllStream : List Wave) : Option (List Wave) → Except PyErr (List Wave)
  | none => .error .typeError
  | some s => .ok (AllStream ++ s)

/-- `ExtractEq_Multiproc`, ExtractEqMultiproc.py:220-268, can end with the disk and outcome
`res`.  The workers read the disk, which nobody changes before the final `write`. -/
def ExtractEq_Multiproc (env : Obspy) (d : Disk) (datafiles : List String)
    (timewindow : List (List Window)) (nproc : Nat) (filename : String)
    (res : Disk × Except PyErr Unit) : Prop :=
  ∃ out log, Pool.MapsTo nproc (Get_EqStream_multiproc env d)
      (datafiles.map (fun f => ([f], timewindow))) out log ∧
    res = match out with
      | .error e => (d, .error e)
      | .ok EqStreams =>
        match EqStreams.foldlM concat [] with
        | .error e => (d, .error e)
        | .ok AllStream => write env d filename AllStream

/-- The disks a call of `ExtractEq_Multiproc`, ExtractEqMultiproc.py:220-268, passes through, that is,
those a crash can leave: until line 267 there is only reading, and while `Stream.write` (line 268) is
at work its file may contain anything. -/
inductive ExtractEqMultiprocReaches (env : Obspy) (d : Disk) (datafiles : List String)
    (timewindow : List (List Window)) (nproc : Nat) (filename : String) : Disk → Prop
  | reading : ExtractEqMultiprocReaches env d datafiles timewindow nproc filename d
  | writing {EqStreams : List (Option (List Wave))} {log : List (List String × List (List Window))}
      {AllStream : List Wave}
      (h : Pool.MapsTo nproc (Get_EqStream_multiproc env d)
        (datafiles.map (fun f => ([f], timewindow))) (.ok EqStreams) log)
      (hs : EqStreams.foldlM concat [] = .ok AllStream) (hne : AllStream.isEmpty = false) (f : File) :
      ExtractEqMultiprocReaches env d datafiles timewindow nproc filename (d.put filename f)

end Rfsed.Extract
