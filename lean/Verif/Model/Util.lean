import Verif.Py.Array
import Mathlib.Data.String.Basic
import Mathlib.Data.List.Basic

/-!
# Model of `rfsed/util.py`: output directories and installation of the examples

The file system is a map from absolute paths (lists of components) to directories and files with
contents in `β`.  Symbolic links, permissions and time stamps are left out.
-/

namespace Rfsed.Util
variable {β : Type}

abbrev Path := List String

inductive Node (β : Type) where
  | dir
  | file (content : β)

abbrev FS (β : Type) := Path → Option (Node β)

def isdir (fs : FS β) (p : Path) : Prop := fs p = some .dir

def FS.set (fs : FS β) (p : Path) (n : Node β) : FS β := fun q => if q = p then some n else fs q

def fileExistsError : PyErr := .external 11
def fileNotFoundError : PyErr := .external 12
def distutilsFileError : PyErr := .external 13

open Classical in
/-- `os.mkdir(path)`.  Where a component of the path is a file Python raises `NotADirectoryError`
instead of `FileNotFoundError`; both are `fileNotFoundError` here. -/
noncomputable def mkdir (fs : FS β) (p : Path) : Except PyErr (FS β) :=
  match fs p with
  | some _ => .error fileExistsError
  | none => if isdir fs p.dropLast then .ok (fs.set p .dir) else .error fileNotFoundError

open Classical in
/-- the body of the six `save_…` functions, util.py:126-129: the file system afterwards and the
returned path.  The path ends in a slash, so that `os.path.exists` is true of directories only. -/
noncomputable def saveDir (fs : FS β) (savepath : Path) : FS β × Except PyErr Path :=
  if isdir fs savepath then (fs, .ok savepath)
  else match mkdir fs savepath with
    | .error e => (fs, .error e)
    | .ok fs' => (fs', .ok savepath)

/-- `save_Eq_data`, util.py:114-129; `pkg` is the directory of the installed package -/
noncomputable def save_Eq_data (pkg : Path) (fs : FS β) := saveDir fs (pkg ++ ["examples", "earthquake_data"])
/-- `save_IRIS_waveform`, util.py:131-146 -/
noncomputable def save_IRIS_waveform (pkg : Path) (fs : FS β) :=
  saveDir fs (pkg ++ ["examples", "IRIS_Downloaded_Waveform"])
/-- `save_calculated_RF`, util.py:148-163 -/
noncomputable def save_calculated_RF (pkg : Path) (fs : FS β) :=
  saveDir fs (pkg ++ ["examples", "Calculated_Receiver_Functions"])
/-- `save_catalog`, util.py:165-180 -/
noncomputable def save_catalog (pkg : Path) (fs : FS β) := saveDir fs (pkg ++ ["examples", "catalog"])
/-- `save_plot`, util.py:182-197 -/
noncomputable def save_plot (pkg : Path) (fs : FS β) := saveDir fs (pkg ++ ["examples", "plots"])
/-- `save_tests`, util.py:199-214 -/
noncomputable def save_tests (pkg : Path) (fs : FS β) := saveDir fs (pkg ++ ["examples", "test_output"])

/-! ### Several processes in a `save_…` function at once

`os.path.exists` and `os.mkdir` are two separate accesses (util.py:127-128). -/

/-- where a caller is: before `exists`, between `exists` (answered no) and `mkdir`, returned,
raised -/
inductive Caller where
  | start
  | missing
  | returned
  | raised (e : PyErr)

/-- one caller makes one access -/
inductive Access (savepath : Path) : FS β × List Caller → FS β × List Caller → Prop where
  | exists_yes (fs : FS β) (a b : List Caller) : isdir fs savepath →
      Access savepath (fs, a ++ .start :: b) (fs, a ++ .returned :: b)
  | exists_no (fs : FS β) (a b : List Caller) : ¬ isdir fs savepath →
      Access savepath (fs, a ++ .start :: b) (fs, a ++ .missing :: b)
  | mkdir_ok (fs fs' : FS β) (a b : List Caller) : mkdir fs savepath = .ok fs' →
      Access savepath (fs, a ++ .missing :: b) (fs', a ++ .returned :: b)
  | mkdir_err (fs : FS β) (a b : List Caller) (e : PyErr) : mkdir fs savepath = .error e →
      Access savepath (fs, a ++ .missing :: b) (fs, a ++ .raised e :: b)

/-- any number of accesses in any order -/
inductive Accesses (savepath : Path) (s0 : FS β × List Caller) : FS β × List Caller → Prop where
  | refl : Accesses savepath s0 s0
  | step {s s' : FS β × List Caller} : Accesses savepath s0 s → Access savepath s s' →
      Accesses savepath s0 s'

/-! ### `distutils.dir_util.copy_tree` (CPython's) -/

mutual
/-- what is copied: the directories `examples` and `data` of the package -/
inductive SrcTree (β : Type) where
  | file (content : β)
  | dir (entries : SrcList β)
/-- the entries of a directory in the order of `os.listdir` -/
inductive SrcList (β : Type) where
  | nil
  | cons (name : String) (t : SrcTree β) (rest : SrcList β)
end

/-- a process: the file system and `distutils.dir_util._path_created`, the directories the process
remembers having created -/
structure Proc (β : Type) where
  fs : FS β
  created : Path → Prop

open Classical in
/-- `mkpath`: how many components of the path lead to the deepest existing directory -/
noncomputable def climb (fs : FS β) (p : Path) : Nat → Nat
  | 0 => 0
  | k + 1 => if isdir fs (p.take (k + 1)) then k + 1 else climb fs p k

open Classical in
/-- `mkpath`: create directories one after the other -/
noncomputable def mkdirs (s : Proc β) : List Path → Proc β × Except PyErr Unit
  | [] => (s, .ok ())
  | h :: hs =>
    if s.created h then mkdirs s hs
    else match mkdir s.fs h with
      | .ok fs' => mkdirs ⟨fs', fun p => s.created p ∨ p = h⟩ hs
      | .error _ =>
        if isdir s.fs h then mkdirs ⟨s.fs, fun p => s.created p ∨ p = h⟩ hs
        else (s, .error distutilsFileError)

open Classical in
/-- `distutils.dir_util.mkpath` -/
noncomputable def mkpath (s : Proc β) (p : Path) : Proc β × Except PyErr Unit :=
  if isdir s.fs p ∨ p = [] then (s, .ok ())
  else if s.created p then (s, .ok ())
  else
    let k := climb s.fs p (p.length - 1)
    mkdirs s ((List.range (p.length - k)).map (fun i : Nat => p.take (k + i + 1)))

open Classical in
/-- `distutils.file_util.copy_file(src, dst)` for a source file called `name`: into `dst` if that
is a directory, else to `dst`, replacing a file there -/
noncomputable def copy_file (s : Proc β) (c : β) (name : String) (dst : Path) :
    Proc β × Except PyErr Unit :=
  let dst := if isdir s.fs dst then dst ++ [name] else dst
  if isdir s.fs dst then (s, .error distutilsFileError)
  else if isdir s.fs dst.dropLast then ({ s with fs := s.fs.set dst (.file c) }, .ok ())
  else (s, .error distutilsFileError)

/-- `a; b`: go on unless an exception was raised -/
def andThen (r : Proc β × Except PyErr Unit) (f : Proc β → Proc β × Except PyErr Unit) :
    Proc β × Except PyErr Unit :=
  match r.2 with
  | .error e => (r.1, .error e)
  | .ok () => f r.1

mutual
/-- one entry of a directory: `copy_tree` for a directory, `copy_file` for a file -/
noncomputable def copyEntry (s : Proc β) (name : String) (dst : Path) : SrcTree β → Proc β × Except PyErr Unit
  | .file c => copy_file s c name dst
  | .dir g => andThen (mkpath s dst) (fun s => copyEntries s dst g)
/-- the loop of `copy_tree`; names beginning with `.nfs` are skipped -/
noncomputable def copyEntries (s : Proc β) (dst : Path) : SrcList β → Proc β × Except PyErr Unit
  | .nil => (s, .ok ())
  | .cons n t rest =>
    if ".nfs".toList.isPrefixOf n.toList then copyEntries s dst rest
    else andThen (copyEntry s n (dst ++ [n]) t) (fun s => copyEntries s dst rest)
end

/-- `distutils.dir_util.copy_tree(src, dst)` -/
noncomputable def copy_tree (s : Proc β) (src : SrcTree β) (dst : Path) : Proc β × Except PyErr Unit :=
  match src with
  | .file _ => (s, .error distutilsFileError)
  | .dir g => andThen (mkpath s dst) (fun s => copyEntries s dst g)

/-- `install_examples(path)`, util.py:216-261 -/
noncomputable def install_examples (examples data : SrcTree β) (s : Proc β) (path : Path) :
    Proc β × Except PyErr Unit :=
  andThen (copy_tree s examples (path ++ ["examples"]))
    (fun s => copy_tree s data (path ++ ["data"]))

/-- `install_rfsed_tests(path)`, util.py:263-291 -/
noncomputable def install_rfsed_tests (tests : SrcTree β) (s : Proc β) (path : Path) :
    Proc β × Except PyErr Unit :=
  copy_tree s tests path

/-! ### The example data -/

/-- opening the file at a path: its contents -/
def openFile (fs : FS β) (p : Path) : Except PyErr β :=
  match fs p with
  | some (.file c) => .ok c
  | some .dir => .error (.external 14)
  | none => .error fileNotFoundError

/-- `read_rf` of the package `rf`: external, a function `parse` of the contents of the file -/
def read_rf {γ : Type} (parse : β → Except PyErr γ) (fs : FS β) (p : Path) : Except PyErr γ := do
  let c ← openFile fs p
  parse c

/-- `rfMoho_example`, util.py:34-48 -/
def rfMoho_example {γ : Type} (pkg : Path) (parse : β → Except PyErr γ) (fs : FS β) : Except PyErr γ :=
  read_rf parse fs (pkg ++ ["data", "rfstreams_Moho", "rfstreams.h5"])
/-- `rfSed_example`, util.py:50-64 -/
def rfSed_example {γ : Type} (pkg : Path) (parse : β → Except PyErr γ) (fs : FS β) : Except PyErr γ :=
  read_rf parse fs (pkg ++ ["data", "rfstreams_Sed", "rfstreams.h5"])
/-- `raw_data_example`, util.py:66-81: a path, nothing is read -/
def raw_data_example (pkg : Path) : Path := pkg ++ ["data", "Raw_Data"]
/-- `catalog_example`, util.py:83-96: a path, nothing is read -/
def catalog_example (pkg : Path) : Path := pkg ++ ["data", "Earthquake_Catalog", "eq_events.quakeml"]
/-- `read_raw_waveform_data`, util.py:98-112 -/
def read_raw_waveform_data {γ : Type} (pkg : Path) (parse : β → Except PyErr γ) (fs : FS β) : Except PyErr γ :=
  read_rf parse fs (pkg ++ ["examples", "IRIS_Downloaded_Waveform", "00_eq_data.h5"])

end Rfsed.Util
