import Verif.Props.ExtractMore

/-!
# Property C108: extractions that are killed, and running them again; independent extractions

A crash can leave any of the disks a call passes through (`ExtractEqReaches`,
`ExtractEqMultiprocReaches`): while the output is being written its file may contain anything.
-/

namespace Rfsed.Props
open Spec Extract

/-- the parts of two disks an extraction reads are the same -/
def SameInputs (d d' : Disk) (datapath catalog : String) : Prop :=
  (∀ p, Matches datapath p → d'.lookup p = d.lookup p) ∧ d'.lookup catalog = d.lookup catalog

/-- what is collected depends on the inputs only -/
theorem collect_inputs (env : Obspy) {d d' : Disk} (hd : d.WF) (hd' : d'.WF) {datapath catalog : String}
    (h : SameInputs d d' datapath catalog) (la lo : ℝ) (w : List ℝ) :
    collect env d datapath catalog la lo w = collect env d' datapath catalog la lo w := by
  have hg : sorted (glob d datapath) = sorted (glob d' datapath) := by
    apply dataFiles_unique (sorted_glob hd datapath)
    obtain ⟨q1, q2⟩ := sorted_glob hd' datapath
    refine ⟨q1, fun p => ?_⟩
    rw [q2]
    constructor
    · rintro ⟨h1, h2⟩; exact ⟨by rwa [← h.1 p h2], h2⟩
    · rintro ⟨h1, h2⟩; exact ⟨by rwa [h.1 p h2], h2⟩
  exact collect_congr hg (fun p hp => (h.1 p (((sorted_glob hd datapath).2 p).1 hp).2).symm)
    h.2.symm la lo w

/-- **C108** (what an extraction reads): on two disks that agree on the data files and the catalogue,
`ExtractEq` has the same outcome, and if that is success the output files are equal; every other path is
left as it was. -/
theorem c108_inputs (env : Obspy) {d d' : Disk} (hd : d.WF) (hd' : d'.WF)
    {datapath filename catalog : String} (h : SameInputs d d' datapath catalog) (la lo : ℝ) (w : List ℝ) :
    let r := ExtractEq env d datapath filename catalog la lo w
    let r' := ExtractEq env d' datapath filename catalog la lo w
    r'.2 = r.2 ∧ (r.2 = .ok () → r'.1.lookup filename = r.1.lookup filename) ∧
    ∀ p, p ≠ filename → r'.1.lookup p = d'.lookup p := by
  intro r r'
  have e : r = ExtractEq env d datapath filename catalog la lo w := rfl
  have e' : r' = ExtractEq env d' datapath filename catalog la lo w := rfl
  refine ⟨?_, ?_, (c49_nothing_else env d' datapath filename catalog la lo w).1⟩
  · rw [e, e']
    unfold ExtractEq
    rw [← collect_inputs env hd hd' h]
    cases collect env d datapath catalog la lo w with
    | error e => rfl
    | ok S =>
      simp only [write]
      split
      · rfl
      · cases env.encode filename S <;> rfl
  · rw [e, e']
    unfold ExtractEq
    rw [← collect_inputs env hd hd' h]
    cases collect env d datapath catalog la lo w with
    | error e => intro h; cases h
    | ok S =>
      simp only [write]
      split
      · intro h; cases h
      · cases env.encode filename S with
        | error e => intro h; cases h
        | ok k => intro _; simp [lookup_put]

/-- **C108** (what a crash can touch): wherever `ExtractEq` is killed, no file but the output file has
changed; and the output file has changed only if all the reading was done: the data path matches
files, all of them hold traces, every event has an onset and some window is covered. -/
theorem c108_crash (env : Obspy) {d d' : Disk} (hd : d.WF) {datapath filename catalog : String}
    {la lo a b : ℝ} {r : List ℝ}
    (h : ExtractEqReaches env d datapath filename catalog la lo (a :: b :: r) d') :
    d'.WF ∧ (∀ p, p ≠ filename → d'.lookup p = d.lookup p) ∧
    (d'.lookup filename ≠ d.lookup filename →
      ∃ paths files evs onsets, DataFiles d datapath paths ∧ paths ≠ [] ∧
        Contents d paths files ∧ (∀ f ∈ files, f ≠ []) ∧
        d.lookup catalog = some (.catalog evs) ∧
        List.Forall₂ (Onset env la lo) evs onsets ∧
        coveredEvents env files (onsets.map (around env a b)) ≠ []) := by
  cases h with
  | reading => exact ⟨hd, fun _ _ => rfl, fun h => absurd rfl h⟩
  | writing hS hne f =>
    refine ⟨put_wf hd _ _, fun p hp => by rw [lookup_put, if_neg hp], fun _ => ?_⟩
    obtain ⟨paths, files, evs, os, h1, h2, h3, h4, h5, h6, -, rfl⟩ := (collect_ok hd).1 hS
    exact ⟨paths, files, evs, os, h1, h2, h3, h4, h5, h6, by simpa using hne⟩

/-- **C108** The disk a call ends with is one of those it passes through, for both outcomes. -/
theorem c108_ends (env : Obspy) (d : Disk) (datapath filename catalog : String) (la lo : ℝ)
    (w : List ℝ) :
    ExtractEqReaches env d datapath filename catalog la lo w
      (ExtractEq env d datapath filename catalog la lo w).1 := by
  unfold ExtractEq
  cases h : collect env d datapath catalog la lo w with
  | error e => exact .reading
  | ok S =>
    simp only [write]
    split
    · exact .reading
    · rename_i hS
      have hS' : S.isEmpty = false := by simpa using hS
      cases env.encode filename S with
      | ok k => exact .writing h hS' _
      | error e =>
        cases env.leftover filename S with
        | none => exact .reading
        | some f => exact .writing h hS' f

/-- any number of calls to `ExtractEq` with the same arguments, each of them killed somewhere, raising
or finishing, one after the other -/
inductive Attempts (env : Obspy) (datapath filename catalog : String) (la lo : ℝ) (w : List ℝ) :
    Disk → Disk → Prop
  | none (d : Disk) : Attempts env datapath filename catalog la lo w d d
  | more {d d' d'' : Disk} (h : Attempts env datapath filename catalog la lo w d d')
      (hr : ExtractEqReaches env d' datapath filename catalog la lo w d'') :
      Attempts env datapath filename catalog la lo w d d''

theorem reaches_frame {env : Obspy} {d d' : Disk} {datapath filename catalog : String} {la lo : ℝ}
    {w : List ℝ} (hd : d.WF) (h : ExtractEqReaches env d datapath filename catalog la lo w d') :
    d'.WF ∧ ∀ p, p ≠ filename → d'.lookup p = d.lookup p := by
  cases h with
  | reading => exact ⟨hd, fun _ _ => rfl⟩
  | writing hS hne f => exact ⟨put_wf hd _ _, fun p hp => by rw [lookup_put, if_neg hp]⟩

theorem attempts_frame {env : Obspy} {d d' : Disk} {datapath filename catalog : String} {la lo : ℝ}
    {w : List ℝ} (hd : d.WF) (h : Attempts env datapath filename catalog la lo w d d') :
    d'.WF ∧ ∀ p, p ≠ filename → d'.lookup p = d.lookup p := by
  induction h with
  | none => exact ⟨hd, fun _ _ => rfl⟩
  | more h hr ih =>
    obtain ⟨h1, h2⟩ := ih
    obtain ⟨h3, h4⟩ := reaches_frame h1 hr
    exact ⟨h3, fun p hp => (h4 p hp).trans (h2 p hp)⟩

/-- **C108** (recovery): if the output file is neither one of the data files nor the catalogue, then
after any number of attempts that were killed at any point, raised or finished, one more call has the
outcome the very first call would have had if left alone, and if that is success every file is as that
call would have left it. -/
theorem c108_recovery (env : Obspy) {d d' : Disk} (hd : d.WF) {datapath filename catalog : String}
    (hm : ¬ Matches datapath filename) (hc : filename ≠ catalog) {la lo : ℝ} {w : List ℝ}
    (h : Attempts env datapath filename catalog la lo w d d') :
    let alone := ExtractEq env d datapath filename catalog la lo w
    let again := ExtractEq env d' datapath filename catalog la lo w
    again.2 = alone.2 ∧ (alone.2 = .ok () → ∀ p, again.1.lookup p = alone.1.lookup p) ∧
    ∀ p, p ≠ filename → again.1.lookup p = d.lookup p := by
  obtain ⟨hd', hf⟩ := attempts_frame hd h
  have hs : SameInputs d d' datapath catalog :=
    ⟨fun p hp => hf p (by rintro rfl; exact hm hp), hf _ (Ne.symm hc)⟩
  obtain ⟨h1, h2, h3⟩ := c108_inputs env hd hd' (filename := filename) hs la lo w
  intro alone again
  refine ⟨h1, fun hok p => ?_, fun p hp => (h3 p hp).trans (hf p hp)⟩
  by_cases hp : p = filename
  · subst hp; exact h2 hok
  · rw [h3 p hp, hf p hp]
    exact ((c49_nothing_else env d datapath filename catalog la lo w).1 p hp).symm

/-- **C108** (two extractions): if neither output is a data file or the catalogue of the other, it does
not matter which of two extractions is run first: both have the same outcomes in either order, and if
both succeed the files are the same. -/
theorem c108_commute (env : Obspy) {d : Disk} (hd : d.WF) {D1 F1 C1 D2 F2 C2 : String}
    (hne : F1 ≠ F2) (m12 : ¬ Matches D1 F2) (m21 : ¬ Matches D2 F1) (c12 : F2 ≠ C1) (c21 : F1 ≠ C2)
    {la1 lo1 la2 lo2 : ℝ} {w1 w2 : List ℝ} :
    let a1 := ExtractEq env d D1 F1 C1 la1 lo1 w1
    let a2 := ExtractEq env a1.1 D2 F2 C2 la2 lo2 w2
    let b2 := ExtractEq env d D2 F2 C2 la2 lo2 w2
    let b1 := ExtractEq env b2.1 D1 F1 C1 la1 lo1 w1
    a1.2 = b1.2 ∧ a2.2 = b2.2 ∧
    (a1.2 = .ok () → a2.2 = .ok () → ∀ p, a2.1.lookup p = b1.1.lookup p) := by
  intro a1 a2 b2 b1
  obtain ⟨wa, fa⟩ := reaches_frame hd (c108_ends env d D1 F1 C1 la1 lo1 w1)
  obtain ⟨wb, fb⟩ := reaches_frame hd (c108_ends env d D2 F2 C2 la2 lo2 w2)
  obtain ⟨p1, p2, p3⟩ := c108_inputs env hd wa (filename := F2) (datapath := D2) (catalog := C2)
    ⟨fun p hp => fa p (by rintro rfl; exact m21 hp), fa _ (Ne.symm c21)⟩ la2 lo2 w2
  obtain ⟨q1, q2, q3⟩ := c108_inputs env hd wb (filename := F1) (datapath := D1) (catalog := C1)
    ⟨fun p hp => fb p (by rintro rfl; exact m12 hp), fb _ (Ne.symm c12)⟩ la1 lo1 w1
  refine ⟨q1.symm, p1, fun h1 h2 p => ?_⟩
  by_cases e1 : p = F1
  · subst e1
    rw [q2 h1]
    exact p3 _ hne
  · by_cases e2 : p = F2
    · subst e2
      rw [q3 _ e1]
      exact p2 (p1 ▸ h2)
    · rw [q3 p e1, p3 p e2]
      exact (fa p e1).trans (fb p e2).symm

/-! ## The multiprocess extraction -/

/-- **C108** (multiprocess crash): wherever `ExtractEq_Multiproc` is killed, under whatever schedule, no
file but the output file has changed. -/
theorem c108_parallel_crash {env : Obspy} {d d' : Disk} (hd : d.WF) {paths : List String}
    {tw : List (List Window)} {nproc : Nat} {filename : String}
    (h : ExtractEqMultiprocReaches env d paths tw nproc filename d') :
    d'.WF ∧ ∀ p, p ≠ filename → d'.lookup p = d.lookup p := by
  cases h with
  | reading => exact ⟨hd, fun _ _ => rfl⟩
  | writing hS hne h3 f => exact ⟨put_wf hd _ _, fun p hp => by rw [lookup_put, if_neg hp]⟩

/-- any number of calls to `ExtractEq_Multiproc` with the same arguments, each killed anywhere -/
inductive ParallelAttempts (env : Obspy) (paths : List String) (tw : List (List Window)) (nproc : Nat)
    (filename : String) : Disk → Disk → Prop
  | none (d : Disk) : ParallelAttempts env paths tw nproc filename d d
  | more {d d' d'' : Disk} (h : ParallelAttempts env paths tw nproc filename d d')
      (hr : ExtractEqMultiprocReaches env d' paths tw nproc filename d'') :
      ParallelAttempts env paths tw nproc filename d d''

/-- **C108** (multiprocess recovery): if the files hold traces and the output file is none of them, then
after any number of attempts, killed at any point, any complete call, under any schedule, has the outcome
an undisturbed one has under any schedule, and if that is success leaves the same files. -/
theorem c108_parallel_recovery {env : Obspy} {d d' : Disk} (hd : d.WF) {paths : List String}
    {files : List (List Wave)} (hf : Contents d paths files) (ws : List Window) {nproc : Nat}
    (hn : 0 < nproc) {filename : String} (hm : filename ∉ paths)
    (h : ParallelAttempts env paths (ws.map (fun w => [w])) nproc filename d d')
    {alone again : Disk × Except PyErr Unit}
    (h1 : ExtractEq_Multiproc env d paths (ws.map (fun w => [w])) nproc filename alone)
    (h2 : ExtractEq_Multiproc env d' paths (ws.map (fun w => [w])) nproc filename again) :
    again.2 = alone.2 ∧ (alone.2 = .ok () → ∀ p, again.1.lookup p = alone.1.lookup p) ∧
    ∀ p, p ≠ filename → again.1.lookup p = d.lookup p := by
  have hfr : d'.WF ∧ ∀ p, p ≠ filename → d'.lookup p = d.lookup p := by
    clear h1 h2 hf
    induction h with
    | none => exact ⟨hd, fun _ _ => rfl⟩
    | more h hr ih =>
      obtain ⟨g1, g2⟩ := ih
      obtain ⟨g3, g4⟩ := c108_parallel_crash g1 hr
      exact ⟨g3, fun p hp => (g4 p hp).trans (g2 p hp)⟩
  obtain ⟨-, hl⟩ := hfr
  have hf' : Contents d' paths files := by
    have aux : ∀ {ps : List String} {fs : List (List Wave)}, filename ∉ ps → Contents d ps fs →
        Contents d' ps fs := by
      intro ps fs hps hc
      induction hc with
      | nil => exact .nil
      | cons hx _ ih =>
        simp only [List.mem_cons, not_or] at hps
        exact .cons (by rw [hl _ (Ne.symm hps.1)]; exact hx) (ih hps.2)
    exact aux hm hf
  obtain ⟨a1, a2, a3⟩ := c50_parallel_stream hf ws hn filename h1
  obtain ⟨b1, b2, b3⟩ := c50_parallel_stream hf' ws hn filename h2
  by_cases h0 : allEvents env files ws = []
  · rw [a1 h0, b1 h0]
    exact ⟨rfl, (fun h => by cases h), hl⟩
  · cases hk : env.encode filename (allEvents env files ws) with
    | ok kept =>
      obtain ⟨r1, r2⟩ := a2 h0 kept hk
      obtain ⟨s1, s2⟩ := b2 h0 kept hk
      refine ⟨by rw [r1, s1], fun _ p => ?_, fun p hp => by rw [s2, if_neg hp, hl p hp]⟩
      rw [r2, s2]
      by_cases hp : p = filename
      · simp [hp]
      · simp [hp, hl p hp]
    | error e =>
      obtain ⟨r1, r2⟩ := a3 h0 e hk
      obtain ⟨s1, s2⟩ := b3 h0 e hk
      refine ⟨by rw [r1, s1], fun h => ?_, fun p hp => by rw [s2, if_neg hp, hl p hp]⟩
      rw [r1] at h; cases h

/-! ## The output among the data: the hypothesis matters -/

/-- **C108** With the output file among the data files a crash is not recovered from: in the world of one
event and one record the extraction succeeds if it is left alone, but it can be killed in such a way that
all later calls raise. -/
theorem c108_stuck (e : PyErr) :
    (ExtractEq world oneFile "data/" "data/out" "cat.xml" 51 5 [-50, 150]).2 = .ok () ∧
    ∃ d', ExtractEqReaches world oneFile "data/" "data/out" "cat.xml" 51 5 [-50, 150] d' ∧
      ∀ d'', Attempts world "data/" "data/out" "cat.xml" 51 5 [-50, 150] d' d'' →
        d'' = d' ∧ ∃ x, (ExtractEq world d'' "data/" "data/out" "cat.xml" 51 5 [-50, 150]).2 = .error x := by
  have hw : oneFile.WF := by simp [Disk.WF, oneFile]
  have hd' := put_wf hw "data/out" (.unreadable e)
  have hcol : ∀ S, collect world (oneFile.put "data/out" (.unreadable e)) "data/" "cat.xml" 51 5
      [-50, 150] ≠ .ok S := by
    intro S hS
    obtain ⟨paths, files, evs, os, g1, g2, g3, -⟩ := (collect_ok hd').1 hS
    obtain rfl := dataFiles_unique g1 (twoFiles_paths _)
    obtain ⟨-, g4⟩ : True ∧ _ := ⟨trivial, g3⟩
    cases g4 with
    | cons _ t =>
      cases t with
      | cons hx _ => rw [lookup_put] at hx; simp at hx
  refine ⟨by rw [first_run], oneFile.put "data/out" (.unreadable e), ?_, ?_⟩
  · have hr := first_run
    cases h : collect world oneFile "data/" "cat.xml" 51 5 [-50, 150] with
    | error x => unfold ExtractEq at hr; rw [h] at hr; exact absurd (congrArg Prod.snd hr) (by simp)
    | ok S =>
      refine .writing h ?_ _
      cases S with
      | nil => unfold ExtractEq at hr; rw [h] at hr; simp [write] at hr
      | cons _ _ => rfl
  · intro d'' h
    have : d'' = oneFile.put "data/out" (.unreadable e) := by
      generalize hd0 : oneFile.put "data/out" (.unreadable e) = d0 at h
      induction h with
      | none => rfl
      | more _ hr ih =>
        have := ih
        subst this
        cases hr with
        | reading => rfl
        | writing hS _ _ => rw [← hd0] at hS; exact absurd hS (hcol _)
    refine ⟨this, ?_⟩
    rw [this]
    unfold ExtractEq
    cases h : collect world (oneFile.put "data/out" (.unreadable e)) "data/" "cat.xml" 51 5
      [-50, 150] with
    | ok S => exact absurd h (hcol S)
    | error x => exact ⟨x, rfl⟩

/-- the hypotheses of `c108_recovery` hold for an output elsewhere, of which a crash leaves rubbish -/
example (e : PyErr) : ¬ Matches "data/" "out.h5" ∧ "out.h5" ≠ "cat.xml" ∧
    (ExtractEq world oneFile "data/" "out.h5" "cat.xml" 51 5 [-50, 150]).2 = .ok () ∧
    Attempts world "data/" "out.h5" "cat.xml" 51 5 [-50, 150] oneFile
      (oneFile.put "out.h5" (.unreadable e)) := by
  have hr := first_run
  cases h : collect world oneFile "data/" "cat.xml" 51 5 [-50, 150] with
  | error x => unfold ExtractEq at hr; rw [h] at hr; exact absurd (congrArg Prod.snd hr) (by simp)
  | ok S =>
    have hS : S.isEmpty = false := by
      cases S with
      | nil => unfold ExtractEq at hr; rw [h] at hr; simp [write] at hr
      | cons _ _ => rfl
    refine ⟨by rw [← globMatch_iff]; decide, by decide, ?_, .more (.none _) (.writing h hS _)⟩
    unfold ExtractEq
    rw [h]
    simp [write, hS, world]

end Rfsed.Props
