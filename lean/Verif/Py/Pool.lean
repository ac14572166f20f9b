import Verif.Py.Float

/-!
# `multiprocessing.Pool(nproc).map(f, inputs)` as a transition system

Modelled from CPython's `multiprocessing/pool.py` (`_map_async`, `_get_tasks`, `mapstar`,
`worker`, `_handle_results`, `MapResult`).  Any number of workers; they take tasks (chunks)
from a common queue in order, finish in any order, and a handler thread stores the results.
A worker process may be killed at any moment while it holds a task: the pool replaces the worker
(`_maintain_pool`), but nobody repeats its task.  Not modelled: pickling; that a killed worker may
take a lock of a queue with it, which only stops further steps.

Used in `/repo/src/rfsed/WaveformFittingMultiproc.py:263-268` and
`/repo/src/rfsed/ExtractEqMultiproc.py:169-174, 258-268`.
-/

namespace Rfsed.Pool
variable {α β : Type}

/-- `_map_async`: `chunksize, extra = divmod(len(iterable), len(self._pool) * 4);
if extra: chunksize += 1`. -/
def chunksize (n nproc : Nat) : Nat :=
  n / (nproc * 4) + (if n % (nproc * 4) = 0 then 0 else 1)

/-- `_get_tasks`: cut into consecutive chunks (`islice`) until nothing is left. -/
def chunksOf (c : Nat) (xs : List α) : List (List α) :=
  if _h : xs = [] ∨ c = 0 then [] else xs.take c :: chunksOf c (xs.drop c)
termination_by xs.length
decreasing_by
  have h1 : xs ≠ [] := fun e => _h (Or.inl e)
  have h2 : c ≠ 0 := fun e => _h (Or.inr e)
  have := List.length_pos_of_ne_nil h1
  rw [List.length_drop]; omega

/-- tasks with their job index -/
def tasks (c : Nat) (xs : List α) : List (Nat × List α) :=
  (chunksOf c xs).zipIdx.map (fun p => (p.2, p.1))

/-- `mapstar`: `list(map(f, chunk))`, stops at the first exception. -/
def runChunk (f : α → Except PyErr β) (xs : List α) : Except PyErr (List β) := xs.mapM f

/-- the inputs `mapstar` evaluates `f` on: up to and including the first that raises -/
def evaluated (f : α → Except PyErr β) : List α → List α
  | [] => []
  | x :: xs => match f x with
    | .ok _ => x :: evaluated f xs
    | .error _ => [x]

/-- State of the pool and of the `MapResult` while `map` waits. -/
structure State (α β : Type) where
  /-- task queue -/
  pending : List (Nat × List α)
  /-- tasks being evaluated by some worker (workers are interchangeable) -/
  running : List (Nat × List α)
  /-- result queue -/
  outq : List (Nat × Except PyErr (List β))
  /-- `MapResult._number_left` -/
  left : Nat
  /-- `MapResult._value`, a list of results, `None` where nothing was stored yet -/
  value : List (Option β)
  /-- `MapResult._success = False` with the exception kept in `_value` -/
  failure : Option PyErr
  /-- every evaluation of `f` so far, in order of chunk completion (or death of the worker) -/
  log : List α
  /-- not part of the program's state: the tasks that were held by workers when they were killed -/
  lost : List (Nat × List α) := []

/-- `MapResult.__init__` and `_map_async`. -/
def init (nproc : Nat) (inputs : List α) : State α β :=
  let n := inputs.length
  let c := chunksize n nproc
  { pending := tasks c inputs, running := [], outq := [],
    left := if c = 0 then 0 else n / c + (if n % c = 0 then 0 else 1),
    value := List.replicate n none, failure := none, log := [] }

/-- `MapResult._set(i, success_result)`. -/
def setResult (c : Nat) (s : State α β) (i : Nat) (r : Except PyErr (List β)) : State α β :=
  match s.failure, r with
  | none, .ok ys => { s with
      left := s.left - 1,
      value := s.value.take (i * c) ++ ys.map some ++ s.value.drop ((i + 1) * c) }
  | none, .error e => { s with left := s.left - 1, failure := some e }
  | some _, _ => { s with left := s.left - 1 }

/-- One step of the pool with `nproc` workers and chunk size `c`. -/
inductive Step (nproc c : Nat) (f : α → Except PyErr β) : State α β → State α β → Prop where
  /-- an idle worker takes the next task -/
  | take (s : State α β) (t : Nat × List α) (ts : List (Nat × List α)) :
      s.pending = t :: ts → s.running.length < nproc →
      Step nproc c f s { s with pending := ts, running := s.running ++ [t] }
  /-- some worker finishes its task -/
  | finish (s : State α β) (a b : List (Nat × List α)) (t : Nat × List α) :
      s.running = a ++ t :: b →
      Step nproc c f s { s with running := a ++ b, outq := s.outq ++ [(t.1, runChunk f t.2)],
                                log := s.log ++ evaluated f t.2 }
  /-- a worker is killed after `k` evaluations for its task; a new worker takes its place -/
  | die (s : State α β) (a b : List (Nat × List α)) (t : Nat × List α) (k : Nat) :
      s.running = a ++ t :: b →
      Step nproc c f s { s with running := a ++ b, lost := s.lost ++ [t],
                                log := s.log ++ (evaluated f t.2).take k }
  /-- the result handler stores the next result -/
  | handle (s : State α β) (i : Nat) (r : Except PyErr (List β))
      (q : List (Nat × Except PyErr (List β))) :
      s.outq = (i, r) :: q →
      Step nproc c f s (setResult c { s with outq := q } i r)

/-- reachable states -/
inductive Reach (nproc c : Nat) (f : α → Except PyErr β) (s0 : State α β) : State α β → Prop where
  | refl : Reach nproc c f s0 s0
  | step {s s' : State α β} : Reach nproc c f s0 s → Step nproc c f s s' → Reach nproc c f s0 s'

/-- `MapResult.get()` once `_number_left == 0`. -/
def outcome (s : State α β) : Except PyErr (List (Option β)) :=
  match s.failure with
  | some e => .error e
  | none => .ok s.value

/-- `Pool(nproc).map(f, inputs)` can return (or raise) `out` under some schedule; `log` is the
list of evaluations.  `Pool(0)` raises `ValueError`. -/
def MapsTo (nproc : Nat) (f : α → Except PyErr β) (inputs : List α)
    (out : Except PyErr (List (Option β))) (log : List α) : Prop :=
  (nproc = 0 ∧ out = .error .valueError ∧ log = []) ∨
  (0 < nproc ∧ ∃ s, Reach nproc (chunksize inputs.length nproc) f (init nproc inputs) s ∧
    s.left = 0 ∧ outcome s = out ∧ s.log = log)

end Rfsed.Pool
