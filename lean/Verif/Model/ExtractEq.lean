import Verif.Py.Array
import Mathlib.Data.Real.Basic
import Mathlib.Data.String.Basic

/-!
# Model of `rfsed/ExtractEq.py`

Times are the integer nanoseconds of obspy's `UTCDateTime`.  Travel times, distances, cutting a
time window out of a stream and what a file format keeps of a stream are obspy's: they are the
fields of `Obspy`, about which nothing is assumed here.
-/

namespace Rfsed.Extract

/-- nanoseconds since 1970 (`UTCDateTime._ns`) -/
abbrev Time := ℤ

/-- obspy `Trace`: identifier, `stats.starttime`, `stats.endtime`, samples and the attribute
`stats.onset` if there is one -/
structure Wave where
  id : String
  starttime : Time
  endtime : Time
  data : List ℝ
  onset : Option Time

/-- an `Origin` of a QuakeML event; `depth` (in metres) may be missing -/
structure Origin where
  time : Time
  latitude : ℝ
  longitude : ℝ
  depth : Option ℝ

/-- an event of a catalogue -/
structure Event where
  origins : List Origin
  magnitudes : List ℝ

/-- what is found at a path: waveform data, a catalogue, or something obspy cannot read (another
format, a directory, …), with the exception `obspy.read` raises for it -/
inductive File where
  | stream (ts : List Wave)
  | catalog (evs : List Event)
  | unreadable (e : PyErr)

/-- The part of the file system that matters.  The paths are distinct (`Disk.WF`), their order is
the order in which the system happens to list them. -/
structure Disk where
  files : List (String × File)

def Disk.WF (d : Disk) : Prop := (d.files.map Prod.fst).Nodup

/-- what is at a path -/
def Disk.lookup (d : Disk) (path : String) : Option File :=
  (d.files.find? (fun f => f.1 == path)).map Prod.snd

/-- exceptions of obspy: no such file, nothing in it, writing an empty stream, unknown format -/
def noSuchFile : PyErr := .external 1
def cannotOpen : PyErr := .external 2
def emptyStream : PyErr := .external 3
def unknownFormat : PyErr := .external 4

/-- obspy and iasp91 -/
structure Obspy where
  /-- the nanoseconds `UTCDateTime ± seconds` adds or subtracts -/
  toNs : ℝ → ℤ
  /-- `UTCDateTime`s are compared after rounding to their precision (microseconds) -/
  tick : Time → ℤ
  /-- `gps2dist_azimuth`; its result is not used, its exceptions are -/
  gps2dist : ℝ → ℝ → ℝ → ℝ → Except PyErr Unit
  /-- `locations2degrees` -/
  degrees : ℝ → ℝ → ℝ → ℝ → Except PyErr ℝ
  /-- `TauPyModel("iasp91").get_travel_times(depth in km, distance in degrees)`: the arrival times
  in seconds, in the order obspy returns them -/
  travelTimes : ℝ → ℝ → Except PyErr (List ℝ)
  /-- what `read(file, starttime, endtime)` keeps of the traces of the file -/
  cut : List Wave → Time → Time → List Wave
  /-- `Stream.write(filename)` for a non-empty stream: what a later `read` finds there, or an
  exception (unknown format, missing directory, …) -/
  encode : String → List Wave → Except PyErr (List Wave)
  /-- what a `Stream.write(filename)` that raises has left at the path (`none`: nothing, the path
  is as it was) -/
  leftover : String → List Wave → Option File := fun _ _ => none

/-- `obspy.read(path)`: never an empty stream -/
def read (d : Disk) (path : String) : Except PyErr (List Wave) :=
  match d.lookup path with
  | none => .error noSuchFile
  | some (.stream []) => .error cannotOpen
  | some (.stream ts) => .ok ts
  | some (.catalog _) => .error unknownFormat
  | some (.unreadable e) => .error e

/-- `obspy.read(path, starttime=…, endtime=…)`: the stream may be empty -/
def readWindow (env : Obspy) (d : Disk) (path : String) (starttime endtime : Time) :
    Except PyErr (List Wave) :=
  match d.lookup path with
  | none => .error noSuchFile
  | some (.stream ts) => .ok (env.cut ts starttime endtime)
  | some (.catalog _) => .error unknownFormat
  | some (.unreadable e) => .error e

/-- `obspy.read_events(path)` -/
def read_events (d : Disk) (path : String) : Except PyErr (List Event) :=
  match d.lookup path with
  | none => .error noSuchFile
  | some (.catalog evs) => .ok evs
  | some _ => .error unknownFormat

/-- store something at a path -/
def Disk.put (d : Disk) (path : String) (f : File) : Disk :=
  ⟨(path, f) :: d.files.filter (fun g => !(g.1 == path))⟩

/-- `Stream.write(filename)`: the disk afterwards and the outcome -/
def write (env : Obspy) (d : Disk) (filename : String) (st : List Wave) : Disk × Except PyErr Unit :=
  if st.isEmpty then (d, .error emptyStream)
  else match env.encode filename st with
    | .error e => (match env.leftover filename st with
        | none => d
        | some f => d.put filename f, .error e)
    | .ok ts => (d.put filename (.stream ts), .ok ())

/-- does the pattern `prefix*` match a path?  The star does not match `/`, nor a leading dot of a
file name.  Simplification: `prefix` contains no wildcard characters itself. -/
def globMatch (pre path : String) : Bool :=
  pre.toList.isPrefixOf path.toList &&
  let rest := path.toList.drop pre.toList.length
  !rest.contains '/' &&
  !((pre.toList.getLast? == none || pre.toList.getLast? == some '/') && rest.head? == some '.')

/-- `glob("%s*" % datapath)`, ExtractEq.py:83 -/
def glob (d : Disk) (datapath : String) : List String :=
  (d.files.map Prod.fst).filter (globMatch datapath)

/-- `sorted` on strings: by code points -/
def sorted (l : List String) : List String := l.mergeSort (fun a b => decide (a ≤ b))

/-- `depth / 1000`, ExtractEq.py:103 and ExtractEqMultiproc.py:123 (`TypeError` for `None`) -/
noncomputable def inKm : Option ℝ → Except PyErr ℝ
  | none => .error .typeError
  | some d => .ok (d / 1000)

/-- one round of the loop over the catalogue, ExtractEq.py:98-116:
`[eqstart, eqend, onset]` of an event -/
noncomputable def timeWindow (env : Obspy) (stalat stalon : ℝ) (Request_window : List ℝ) (ev : Event) :
    Except PyErr (Time × Time × Time) := do
  let o ← item ev.origins 0
  let _ ← item ev.magnitudes 0
  let eqdepth ← inKm o.depth
  env.gps2dist stalat stalon o.latitude o.longitude
  let distdeg ← env.degrees stalat stalon o.latitude o.longitude
  let traveltime ← env.travelTimes eqdepth distdeg
  let P ← item traveltime 0
  let onset := o.time + env.toNs P
  let w0 ← item Request_window 0
  let eqstart := (o.time + env.toNs P) - env.toNs |w0|
  let w1 ← item Request_window 1
  let eqend := (o.time + env.toNs P) + env.toNs |w1|
  pure (eqstart, eqend, onset)

/-- `Eqdata[j].stats.onset = onset` -/
def stamp (onset : Time) (t : Wave) : Wave := { t with onset := some onset }

/-- one round of the inner loop, ExtractEq.py:124-132, for the file at `path` whose first trace
is `t0` -/
def extractWindow (env : Obspy) (d : Disk) (path : String) (t0 : Wave) (Datast : List Wave)
    (t : Time × Time × Time) : Except PyErr (List Wave) := do
  let onset := t.2.2
  if env.tick t.1 ≥ env.tick t0.starttime ∧ env.tick t.2.1 ≤ env.tick t0.endtime then
    let Eqdata ← readWindow env d path t.1 t.2.1
    let _ ← item Eqdata 0
    pure (Datast ++ Eqdata.map (stamp onset))
  else pure Datast

/-- one round of the outer loop, ExtractEq.py:120-132 -/
def extractFile (env : Obspy) (d : Disk) (time_window : List (Time × Time × Time))
    (Datast : List Wave) (path : String) : Except PyErr (List Wave) := do
  let st ← read d path
  let t0 ← item st 0
  time_window.foldlM (extractWindow env d path t0) Datast

/-- ExtractEq.py:83-132: everything before writing -/
noncomputable def collect (env : Obspy) (d : Disk) (datapath catalog : String) (stalat stalon : ℝ)
    (Request_window : List ℝ) : Except PyErr (List Wave) := do
  let datafiles := sorted (glob d datapath)
  let first ← item datafiles 0
  let firstfile ← read d first
  let last ← item datafiles (datafiles.length - 1)
  let lastfile ← read d last
  let _ ← item firstfile 0
  let _ ← item lastfile 0
  let cat ← read_events d catalog
  let time_window ← cat.mapM (timeWindow env stalat stalon Request_window)
  datafiles.foldlM (extractFile env d time_window) []

/-- `ExtractEq`, ExtractEq.py:44-133: the disk afterwards and the outcome -/
noncomputable def ExtractEq (env : Obspy) (d : Disk) (datapath filename catalog : String)
    (stalat stalon : ℝ) (Request_window : List ℝ) : Disk × Except PyErr Unit :=
  match collect env d datapath catalog stalat stalon Request_window with
  | .error e => (d, .error e)
  | .ok Datast => write env d filename Datast

/-- The disks a call of `ExtractEq`, ExtractEq.py:44-133, passes through, that is, those a crash can
leave: lines 44-132 only read, and while `Stream.write` (line 133) is at work its file may contain
anything. -/
inductive ExtractEqReaches (env : Obspy) (d : Disk) (datapath filename catalog : String)
    (stalat stalon : ℝ) (Request_window : List ℝ) : Disk → Prop
  | reading : ExtractEqReaches env d datapath filename catalog stalat stalon Request_window d
  | writing {Datast : List Wave}
      (h : collect env d datapath catalog stalat stalon Request_window = .ok Datast)
      (hne : Datast.isEmpty = false) (f : File) :
      ExtractEqReaches env d datapath filename catalog stalat stalon Request_window (d.put filename f)

end Rfsed.Extract
