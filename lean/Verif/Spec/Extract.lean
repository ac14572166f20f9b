import Verif.Model.ExtractEqMultiproc

/-!
# Specification: cutting events out of continuous data
-/

namespace Rfsed.Spec
open Extract

/-- `t` is the theoretical first arrival of an event at a station: origin time plus the first
travel time for its depth and distance -/
def Onset (env : Obspy) (stalat stalon : ℝ) (ev : Event) (t : Time) : Prop :=
  ∃ o depth dist P later, ev.origins.head? = some o ∧ ev.magnitudes ≠ [] ∧
    o.depth = some depth ∧ env.gps2dist stalat stalon o.latitude o.longitude = .ok () ∧
    env.degrees stalat stalon o.latitude o.longitude = .ok dist ∧
    env.travelTimes (depth / 1000) dist = .ok (P :: later) ∧ t = o.time + env.toNs P

/-- the window from `|a|` seconds before to `|b|` seconds after an onset -/
noncomputable def around (env : Obspy) (a b : ℝ) (onset : Time) : Window :=
  ⟨onset - env.toNs |a|, onset + env.toNs |b|, onset⟩

/-- a window lies inside the span of the first trace of a file -/
def Covers (env : Obspy) (file : List Wave) (w : Window) : Prop :=
  ∃ t0, file.head? = some t0 ∧ env.tick t0.starttime ≤ env.tick w.eqstart ∧
    env.tick w.eqend ≤ env.tick t0.endtime

/-- the traces of one event from one file, every one with the onset of that event -/
def eventTraces (env : Obspy) (w : Window) (file : List Wave) : List Wave :=
  (env.cut file w.eqstart w.eqend).map (fun t => { t with onset := some w.onset })

open Classical in
/-- what is to be written serially: file by file, the fully covered events in catalogue order -/
noncomputable def coveredEvents (env : Obspy) (files : List (List Wave)) (ws : List Window) :
    List Wave :=
  files.flatMap (fun file => (ws.filter (fun w => Covers env file w)).flatMap
    (fun w => eventTraces env w file))

/-- what is to be written in parallel: file by file, whatever there is of every event -/
def allEvents (env : Obspy) (files : List (List Wave)) (ws : List Window) : List Wave :=
  files.flatMap (fun file => ws.flatMap (fun w => eventTraces env w file))

/-- the path is that of a file whose path continues `datapath` without a further slash (hidden
files are skipped if `datapath` is a directory) -/
def Matches (datapath path : String) : Prop :=
  ∃ rest, path = datapath ++ rest ∧ '/' ∉ rest.toList ∧
    ((datapath = "" ∨ ∃ dir, datapath = dir ++ "/") → ∀ r, rest ≠ "." ++ r)

/-- the data files of a run: existing paths matching `datapath*`, in increasing order -/
def DataFiles (d : Disk) (datapath : String) (paths : List String) : Prop :=
  paths.Pairwise (· < ·) ∧ ∀ p, p ∈ paths ↔ (d.lookup p ≠ none ∧ Matches datapath p)

/-- the traces in the files -/
def Contents (d : Disk) (paths : List String) (files : List (List Wave)) : Prop :=
  List.Forall₂ (fun p ts => d.lookup p = some (.stream ts)) paths files

end Rfsed.Spec
