import Verif.Props.Extract
import Mathlib.Data.Real.Archimedean
import Mathlib.Algebra.Order.Floor.Ring
import Mathlib.Tactic.NormNum

/-!
# Properties C50 (end to end), C82, C83: reruns and listing order; witnesses
-/

namespace Rfsed.Props
open Spec Extract

/-- **C50** End to end: if the serial extraction succeeds, the parallel one run over the same files
with the windows it computes from the same catalogue writes a stream of which the serial one is a
subsequence. -/
theorem c50_pipeline {env : Obspy} {d : Disk} (hd : d.WF) {datapath f1 f2 catalog : String}
    {la lo a b : ℝ} (hs : (ExtractEq env d datapath f1 catalog la lo [a, b]).2 = .ok ())
    {paths : List String} (hp : DataFiles d datapath paths) {n1 n2 : Nat} (h1 : 0 < n1) (h2 : 0 < n2)
    {evs : List StaEvent} (hadd : Add_sta_time_2cat d catalog la lo [a, b] = .ok evs)
    {tw : List (List Window)} (htw : Get_Eqtimes_multiproc env evs n1 (.ok (tw.map some)))
    {res : Disk × Except PyErr Unit} (hpar : ExtractEq_Multiproc env d paths tw n2 f2 res) :
    ∃ S M : List Wave, S ≠ [] ∧ S.Sublist M ∧
      (∃ kept, env.encode f1 S = .ok kept ∧
        (ExtractEq env d datapath f1 catalog la lo [a, b]).1.lookup f1 = some (.stream kept)) ∧
      (∀ kept, env.encode f2 M = .ok kept → res.2 = .ok () ∧ res.1.lookup f2 = some (.stream kept)) ∧
      (∀ e, env.encode f2 M = .error e → res.2 = .error e ∧
        ∀ p, p ≠ f2 → res.1.lookup p = d.lookup p) := by
  obtain ⟨paths', files, evs', os, kept, g1, g2, g3, g4, g5, g6, g7, g8, g9, g10⟩ :=
    (c49_writes hd datapath f1 catalog la lo a b []).1 hs
  obtain rfl := dataFiles_unique hp g1
  obtain ⟨evs'', e1, e2⟩ := c48_windows (env := env) (la := la) (lo := lo) (a := a) (b := b)
    (r := []) g5 h1
  rw [hadd] at e1
  cases e1
  have e3 := (e2 _ htw).1 os g6
  have e4 : tw = (os.map (around env a b)).map (fun w => [w]) := by
    have := Except.ok.inj e3
    have h : tw.map some = ((os.map (around env a b)).map (fun w => [w])).map some := by
      rw [this, List.map_map, List.map_map]; rfl
    exact List.map_injective_iff.2 (Option.some_injective _) h
  subst e4
  have hsub := c50_serial_within_parallel env files (os.map (around env a b))
  have hM : allEvents env files (os.map (around env a b)) ≠ [] := by
    intro h0
    rw [h0] at hsub
    exact g8 (List.sublist_nil.1 hsub)
  have hpp := c50_parallel_stream g3 (os.map (around env a b)) h2 f2 hpar
  refine ⟨_, _, g8, hsub, ⟨kept, g9, g10⟩, ?_, ?_⟩
  · intro k hk
    obtain ⟨q1, q2⟩ := hpp.2.1 hM k hk
    exact ⟨q1, by rw [q2]; simp⟩
  · intro e he
    obtain ⟨q1, q2⟩ := hpp.2.2 hM e he
    exact ⟨q1, fun p hp => by rw [q2, if_neg hp]⟩

/-! ## C83: the order in which the system lists files is irrelevant -/

theorem read_congr {d d' : Disk} {p : String} (h : d.lookup p = d'.lookup p) :
    Extract.read d p = Extract.read d' p := by unfold Extract.read; rw [h]

theorem readWindow_congr {env : Obspy} {d d' : Disk} {p : String}
    (h : d.lookup p = d'.lookup p) (a b : Time) :
    readWindow env d p a b = readWindow env d' p a b := by unfold readWindow; rw [h]

theorem extractFile_congr {env : Obspy} {d d' : Disk} {p : String} (h : d.lookup p = d'.lookup p)
    (tw : List (Time × Time × Time)) (acc : List Wave) :
    extractFile env d tw acc p = extractFile env d' tw acc p := by
  have hw : ∀ t0, extractWindow env d p t0 = extractWindow env d' p t0 := by
    intro t0; funext acc t
    unfold extractWindow
    simp only [readWindow_congr h]
  unfold extractFile
  simp only [read_congr h, hw]

theorem collect_congr {env : Obspy} {d d' : Disk} {datapath catalog : String}
    (hg : sorted (glob d datapath) = sorted (glob d' datapath))
    (hl : ∀ p ∈ sorted (glob d datapath), d.lookup p = d'.lookup p)
    (hc : d.lookup catalog = d'.lookup catalog) (la lo : ℝ) (w : List ℝ) :
    collect env d datapath catalog la lo w = collect env d' datapath catalog la lo w := by
  have hf : ∀ (tw : List (Time × Time × Time)) (ps : List String) (acc : List Wave),
      (∀ p ∈ ps, d.lookup p = d'.lookup p) →
      ps.foldlM (extractFile env d tw) acc = ps.foldlM (extractFile env d' tw) acc := by
    intro tw ps
    induction ps with
    | nil => intro acc _; rfl
    | cons p ps ih =>
      intro acc h
      rw [List.foldlM_cons, List.foldlM_cons, extractFile_congr (h p (by simp))]
      congr 1
      funext s
      exact ih s (fun q hq => h q (by simp [hq]))
  have hr : ∀ i, (item (sorted (glob d datapath)) i >>= fun x => Extract.read d x) =
      (item (sorted (glob d datapath)) i >>= fun x => Extract.read d' x) := by
    intro i
    cases h : item (sorted (glob d datapath)) i with
    | error e => rfl
    | ok x =>
      have : x ∈ sorted (glob d datapath) := by
        unfold item at h
        split at h
        · rename_i y hy
          cases h
          exact List.mem_of_getElem? hy
        · cases h
      simp only [except_ok_bind, read_congr (hl x this)]
  have he : read_events d catalog = read_events d' catalog := by
    unfold read_events; rw [hc]
  unfold collect
  have h0 := hr 0
  have h1 := hr ((sorted (glob d datapath)).length - 1)
  simp only [← hg]
  cases e0 : item (sorted (glob d datapath)) 0 with
  | error e => rfl
  | ok x =>
    rw [e0] at h0
    simp only [except_ok_bind] at h0 ⊢
    rw [h0]
    cases Extract.read d' x with
    | error e => rfl
    | ok ff =>
      simp only [except_ok_bind]
      cases e1 : item (sorted (glob d datapath)) ((sorted (glob d datapath)).length - 1) with
      | error e => rfl
      | ok y =>
        rw [e1] at h1
        simp only [except_ok_bind] at h1 ⊢
        rw [h1, he]
        simp only [hf _ _ _ hl]

/-- **C83** `ExtractEq` depends on what is stored, not on the order in which the file system lists
it: on two disks with the same contents it has the same outcome and leaves the same contents. -/
theorem c83_listing_order (env : Obspy) {d d' : Disk} (hd : d.WF) (hd' : d'.WF)
    (hl : ∀ p, d.lookup p = d'.lookup p) (datapath filename catalog : String) (la lo : ℝ)
    (w : List ℝ) :
    let r := ExtractEq env d datapath filename catalog la lo w
    let r' := ExtractEq env d' datapath filename catalog la lo w
    r.2 = r'.2 ∧ ∀ p, r.1.lookup p = r'.1.lookup p := by
  have hg : sorted (glob d datapath) = sorted (glob d' datapath) := by
    apply dataFiles_unique (sorted_glob hd datapath)
    obtain ⟨h1, h2⟩ := sorted_glob hd' datapath
    exact ⟨h1, fun p => by rw [h2, hl]⟩
  have hc := collect_congr (env := env) hg (fun p _ => hl p) (hl catalog) la lo w
  intro r r'
  have e : r = ExtractEq env d datapath filename catalog la lo w := rfl
  have e' : r' = ExtractEq env d' datapath filename catalog la lo w := rfl
  rw [e, e']
  unfold ExtractEq
  rw [hc]
  cases collect env d' datapath catalog la lo w with
  | error e => exact ⟨rfl, hl⟩
  | ok S =>
    simp only [write]
    split
    · exact ⟨rfl, hl⟩
    · cases env.encode filename S with
      | error e =>
        refine ⟨rfl, fun p => ?_⟩
        cases env.leftover filename S with
        | none => exact hl p
        | some f => simp only [lookup_put, hl]
      | ok k =>
        refine ⟨rfl, fun p => ?_⟩
        simp only [lookup_put, hl]

/-! ## C82: running it again -/

/-- **C82** If the output file is neither one of the data files nor the catalogue, running
`ExtractEq` again succeeds again and changes nothing. -/
theorem c82_rerun (env : Obspy) {d : Disk} (hd : d.WF) {datapath filename catalog : String}
    (hm : ¬ Matches datapath filename) (hc : filename ≠ catalog) (la lo : ℝ) (w : List ℝ)
    (h : (ExtractEq env d datapath filename catalog la lo w).2 = .ok ()) :
    let d' := (ExtractEq env d datapath filename catalog la lo w).1
    (ExtractEq env d' datapath filename catalog la lo w).2 = .ok () ∧
    ∀ p, (ExtractEq env d' datapath filename catalog la lo w).1.lookup p = d'.lookup p := by
  have hsplit : ∃ S kept, collect env d datapath catalog la lo w = .ok S ∧ S ≠ [] ∧
      env.encode filename S = .ok kept := by
    unfold ExtractEq at h
    cases hS : collect env d datapath catalog la lo w with
    | error e => rw [hS] at h; cases h
    | ok S =>
      rw [hS] at h
      simp only [write] at h
      by_cases he : S.isEmpty
      · rw [if_pos he] at h; cases h
      · rw [if_neg he] at h
        cases hk : env.encode filename S with
        | error e => rw [hk] at h; cases h
        | ok k => exact ⟨S, k, rfl, by simpa using he, hk⟩
  obtain ⟨S, kept, hS, hne, hk⟩ := hsplit
  have h1 : (ExtractEq env d datapath filename catalog la lo w) =
      (d.put filename (.stream kept), .ok ()) := by
    unfold ExtractEq
    simp only [hS, write]
    rw [if_neg (by simpa using hne), hk]
  have hg : sorted (glob d datapath) = sorted (glob (d.put filename (.stream kept)) datapath) := by
    apply dataFiles_unique (sorted_glob hd datapath)
    obtain ⟨q1, q2⟩ := sorted_glob (put_wf hd filename (.stream kept)) datapath
    refine ⟨q1, fun p => ?_⟩
    rw [q2, lookup_put]
    by_cases hp : p = filename
    · subst hp; simp [hm]
    · simp [hp]
  have hcol := collect_congr (env := env) (d := d) (d' := d.put filename (.stream kept))
    (catalog := catalog) hg (by
      intro p hp
      rw [lookup_put, if_neg]
      rintro rfl
      exact hm (((sorted_glob hd datapath).2 _).1 hp).2) (by
      rw [lookup_put, if_neg (Ne.symm hc)]) la lo w
  intro d'
  have hd' : d' = d.put filename (.stream kept) := by
    show (ExtractEq env d datapath filename catalog la lo w).1 = _
    rw [h1]
  rw [hd']
  have h2 : ExtractEq env (d.put filename (.stream kept)) datapath filename catalog la lo w =
      ((d.put filename (.stream kept)).put filename (.stream kept), .ok ()) := by
    unfold ExtractEq
    rw [← hcol]
    simp only [hS, write]
    rw [if_neg (by simpa using hne), hk]
  rw [h2]
  refine ⟨rfl, fun p => ?_⟩
  rw [lookup_put, lookup_put]
  split <;> rfl

/-! ## A concrete world

Whole seconds; one event at time 0 whose first arrival takes 600 s; files that are cut sample by
sample; every file name can be written. -/

/-- cut one trace with one sample per second -/
def trim (a b : Time) (t : Wave) : Option Wave :=
  if max t.starttime a ≤ min t.endtime b then
    some { t with
      starttime := max t.starttime a, endtime := min t.endtime b,
      data := (t.data.drop (max t.starttime a - t.starttime).toNat).take
        (min t.endtime b - max t.starttime a + 1).toNat }
  else none

noncomputable def world : Obspy where
  toNs x := ⌊x⌋
  tick t := t
  gps2dist _ _ _ _ := .ok ()
  degrees _ _ _ _ := .ok 60
  travelTimes _ _ := .ok [600, 700]
  cut ts a b := ts.filterMap (trim a b)
  encode _ ts := .ok ts

def quake : Event := ⟨[⟨0, 10, 20, some 33000⟩], [6]⟩

/-- a record from `a` to `b` -/
def record (a b : Time) : Wave := ⟨"NL.OPLO.BHZ", a, b, List.replicate (b - a + 1).toNat 0, none⟩

@[simp] theorem record_start (a b : Time) : (record a b).starttime = a := rfl
@[simp] theorem record_end (a b : Time) : (record a b).endtime = b := rfl

theorem quake_onset : Onset world 51 5 quake 600 :=
  ⟨⟨0, 10, 20, some 33000⟩, 33000, 60, 600, [700], rfl, by simp [quake], rfl, rfl, rfl, rfl, by
    simp [world]⟩

theorem quake_window : around world (-50) 150 600 = ⟨550, 750, 600⟩ := by
  simp only [around, world]
  have h1 : ⌊|(-50 : ℝ)|⌋ = 50 := by
    rw [show |(-50 : ℝ)| = ((50 : ℤ) : ℝ) by norm_num]; exact Int.floor_intCast 50
  have h2 : ⌊|(150 : ℝ)|⌋ = 150 := by
    rw [show |(150 : ℝ)| = ((150 : ℤ) : ℝ) by norm_num]; exact Int.floor_intCast 150
  rw [h1, h2]; norm_num

example : Monotone world.toNs ∧ world.toNs 0 = 0 ∧
    Eq_times world ⟨quake, 51, 5, -50, 150⟩ = .ok [⟨550, 750, 600⟩] := by
  refine ⟨Int.floor_mono, by simp [world], ?_⟩
  rw [← quake_window]
  exact Eq_times_ok.2 ⟨600, quake_onset, rfl⟩

/-- **C50** The two really differ: of an event that the second record of a file covers, the serial
code takes nothing, the parallel code takes it, and it also takes the beginning of the window from
a file that ends within it. -/
theorem c50_differ :
    coveredEvents world [[record 0 100, record 500 900], [record 0 650]] [⟨550, 750, 600⟩] = [] ∧
    (allEvents world [[record 0 100, record 500 900], [record 0 650]] [⟨550, 750, 600⟩]).map
      (fun t => (t.starttime, t.endtime, t.onset)) =
      [(550, 750, some 600), (550, 650, some 600)] := by
  classical
  have c1 : ¬ Covers world [record 0 100, record 500 900] ⟨550, 750, 600⟩ := by
    simp [Covers, world]
  have c2 : ¬ Covers world [record 0 650] ⟨550, 750, 600⟩ := by
    simp [Covers, world]
  constructor
  · simp [coveredEvents, c1, c2]
  · simp [allEvents, eventTraces, world, trim]

/-- one data file and a catalogue -/
def oneFile : Disk := ⟨[("data/a", .stream [record 0 900]), ("cat.xml", .catalog [quake])]⟩

theorem str_lt {s t : String} (h : s.toList < t.toList) : s < t := String.lt_iff_toList_lt.2 h

/-- the data files of a disk that lists two matching paths -/
theorem oneFile_paths : DataFiles oneFile "data/" ["data/a"] := by
  refine ⟨by simp, fun p => ?_⟩
  rw [lookup_ne_none, ← globMatch_iff]
  simp only [oneFile, List.map_cons, List.map_nil, List.mem_cons, List.not_mem_nil, or_false]
  constructor
  · rintro rfl; exact ⟨by simp, by decide⟩
  · rintro ⟨rfl | rfl, h⟩
    · rfl
    · exact absurd h (by decide)

theorem twoFiles_paths (f : File) :
    DataFiles (oneFile.put "data/out" f) "data/" ["data/a", "data/out"] := by
  refine ⟨by simpa using str_lt (by decide), fun p => ?_⟩
  rw [lookup_put, ← globMatch_iff]
  by_cases hp : p = "data/out"
  · subst hp
    simp; decide
  · have := (oneFile_paths.2 p)
    rw [← globMatch_iff] at this
    simp only [hp, if_false, List.mem_cons, List.not_mem_nil, or_false] at this ⊢
    exact this

theorem covers_900 : Covers world [record 0 900] ⟨550, 750, 600⟩ := by simp [Covers, world]

/-- what is cut out -/
noncomputable def piece : Wave := ⟨"NL.OPLO.BHZ", 550, 750, List.replicate 201 0, some 600⟩

theorem piece_eq : eventTraces world ⟨550, 750, 600⟩ [record 0 900] = [piece] := by
  simp only [eventTraces, world, List.filterMap_cons, List.filterMap_nil, trim, record_start,
    record_end, piece]
  norm_num [record]
  rfl

theorem covers_piece : Covers world [piece] ⟨550, 750, 600⟩ := by simp [Covers, world, piece]

theorem piece_again : eventTraces world ⟨550, 750, 600⟩ [piece] = [piece] := by
  simp only [eventTraces, world, List.filterMap_cons, List.filterMap_nil, trim, piece]
  norm_num
  rfl

theorem first_run : (ExtractEq world oneFile "data/" "data/out" "cat.xml" 51 5 [-50, 150]) =
    (oneFile.put "data/out" (.stream [piece]), .ok ()) := by
  classical
  have hw : oneFile.WF := by simp [Disk.WF, oneFile]
  have hc : collect world oneFile "data/" "cat.xml" 51 5 [-50, 150] = .ok [piece] := by
    refine (collect_ok hw).2 ⟨_, [[record 0 900]], [quake], [600], oneFile_paths, by simp,
      .cons rfl .nil, by simp, rfl, .cons quake_onset .nil, ?_, ?_⟩
    · simp only [List.mem_singleton, forall_eq, quake_window]
      intro _ h
      have := piece_eq
      rw [eventTraces, h] at this
      simp at this
    · simp only [List.map_cons, List.map_nil, quake_window, coveredEvents, List.flatMap_cons,
        List.flatMap_nil, List.append_nil]
      simp [covers_900, piece_eq]
  unfold ExtractEq
  rw [hc]
  rfl

/-- **C82** Writing the output next to the data feeds it back: the first run extracts one trace,
the second one, with the same arguments, two. -/
theorem c82_self_feeding :
    let d1 := (ExtractEq world oneFile "data/" "data/out" "cat.xml" 51 5 [-50, 150]).1
    let d2 := (ExtractEq world d1 "data/" "data/out" "cat.xml" 51 5 [-50, 150]).1
    d1.lookup "data/out" = some (.stream [piece]) ∧
    d2.lookup "data/out" = some (.stream [piece, piece]) := by
  classical
  intro d1 d2
  have h1 : d1 = oneFile.put "data/out" (.stream [piece]) := by
    show (ExtractEq world oneFile "data/" "data/out" "cat.xml" 51 5 [-50, 150]).1 = _
    rw [first_run]
  have hw : oneFile.WF := by simp [Disk.WF, oneFile]
  have hc : collect world (oneFile.put "data/out" (.stream [piece])) "data/" "cat.xml" 51 5 [-50, 150] =
      .ok [piece, piece] := by
    refine (collect_ok (put_wf hw _ _)).2 ⟨_, [[record 0 900], [piece]], [quake], [600],
      twoFiles_paths _, by simp, .cons ?_ (.cons ?_ .nil), by simp, ?_, .cons quake_onset .nil,
      ?_, ?_⟩
    · rw [lookup_put]; rfl
    · rw [lookup_put]; rfl
    · rw [lookup_put]; rfl
    · simp only [List.mem_cons, List.not_mem_nil, or_false, forall_eq, forall_eq_or_imp, quake_window]
      constructor
      · intro _ h
        have := piece_eq
        rw [eventTraces, h] at this
        simp at this
      · intro _ h
        have := piece_again
        rw [eventTraces, h] at this
        simp at this
    · simp only [List.map_cons, List.map_nil, quake_window, coveredEvents, List.flatMap_cons,
        List.flatMap_nil, List.append_nil]
      simp [covers_900, piece_eq, covers_piece, piece_again]
  refine ⟨by rw [h1, lookup_put]; rfl, ?_⟩
  show (ExtractEq world d1 "data/" "data/out" "cat.xml" 51 5 [-50, 150]).1.lookup _ = _
  rw [h1]
  unfold ExtractEq
  rw [hc]
  simp [write, world, lookup_put]

/-- the hypotheses of `c82_rerun` hold if the output goes elsewhere -/
example : ¬ Matches "data/" "out.h5" ∧ "out.h5" ≠ "cat.xml" := by
  rw [← globMatch_iff]
  exact ⟨by decide, by decide⟩

end Rfsed.Props
