import Verif.Proofs.Extract2
import Mathlib.Tactic.Linarith

/-!
# Properties C47–C50: cutting events out of continuous data
-/

namespace Rfsed.Props
open Spec Extract

/-! ## C47 -/

/-- **C47** `Eq_times` returns one window for an event with a theoretical first arrival: from `|a|`
seconds before to `|b|` seconds after it; otherwise it raises. -/
theorem c47_eq_times (env : Obspy) (ev : Event) (la lo a b : ℝ) (r : List Window) :
    Eq_times env ⟨ev, la, lo, a, b⟩ = .ok r ↔
      ∃ t, Onset env la lo ev t ∧ r = [⟨t - env.toNs |a|, t + env.toNs |b|, t⟩] :=
  Eq_times_ok

/-- **C47** The window contains the onset and has the requested length. -/
theorem c47_contains_onset {env : Obspy} (hm : Monotone env.toNs) (h0 : env.toNs 0 = 0)
    {ev : Event} {la lo a b : ℝ} {w : Window} (h : Eq_times env ⟨ev, la, lo, a, b⟩ = .ok [w]) :
    w.eqstart ≤ w.onset ∧ w.onset ≤ w.eqend ∧
      w.eqend - w.eqstart = env.toNs |a| + env.toNs |b| ∧
      w.onset - w.eqstart = env.toNs |a| := by
  obtain ⟨t, -, hw⟩ := Eq_times_ok.1 h
  simp only [around, List.cons.injEq, and_true] at hw
  have ha : 0 ≤ env.toNs |a| := by rw [← h0]; exact hm (abs_nonneg a)
  have hb : 0 ≤ env.toNs |b| := by rw [← h0]; exact hm (abs_nonneg b)
  subst hw
  refine ⟨?_, ?_, ?_, ?_⟩ <;> simp only <;> linarith

/-- **C47** Asking for `[-50, 150]` or `[50, 150]` is the same: signs do not matter, in the serial
and in the parallel code. -/
theorem c47_sign_irrelevant (env : Obspy) {a b a' b' : ℝ} (ha : |a| = |a'|) (hb : |b| = |b'|)
    (ev : Event) (la lo : ℝ) :
    Eq_times env ⟨ev, la, lo, a, b⟩ = Eq_times env ⟨ev, la, lo, a', b'⟩ ∧
    ∀ d datapath filename catalog, ExtractEq env d datapath filename catalog la lo [a, b] =
      ExtractEq env d datapath filename catalog la lo [a', b'] := by
  have h : ∀ e, timeWindow env la lo [a, b] e = timeWindow env la lo [a', b'] e := by
    intro e
    unfold timeWindow
    simp only [item, List.getElem?_cons_zero, List.getElem?_cons_succ, except_ok_bind, ha, hb]
  constructor
  · rw [Eq_times_timeWindow, Eq_times_timeWindow]
    simp only [h]
  · intro d dp fn cat
    have : timeWindow env la lo [a, b] = timeWindow env la lo [a', b'] := funext h
    unfold ExtractEq collect
    simp only [this]

/-- **C47** An event without arrivals, without an origin or without a magnitude raises
`IndexError`, one without a depth `TypeError`. -/
theorem c47_no_arrival (env : Obspy) (ev : Event) (la lo a b : ℝ) :
    (ev.origins = [] ∨ ev.magnitudes = [] →
      Eq_times env ⟨ev, la, lo, a, b⟩ = .error .indexError) ∧
    (∀ o, ev.origins.head? = some o → ev.magnitudes ≠ [] →
      (o.depth = none → Eq_times env ⟨ev, la, lo, a, b⟩ = .error .typeError) ∧
      ∀ depth dist, o.depth = some depth →
        env.gps2dist la lo o.latitude o.longitude = .ok () →
        env.degrees la lo o.latitude o.longitude = .ok dist →
        env.travelTimes (depth / 1000) dist = .ok [] →
        Eq_times env ⟨ev, la, lo, a, b⟩ = .error .indexError) := by
  have hmag : ev.magnitudes ≠ [] → ∃ m, item ev.magnitudes 0 = .ok m := by
    intro hm
    cases hmm : ev.magnitudes with
    | nil => exact absurd hmm hm
    | cons m _ => exact ⟨m, rfl⟩
  constructor
  · intro h
    unfold Eq_times
    rcases h with h | h
    · simp [h, item]
    · cases ho : ev.origins with
      | nil => simp [item]
      | cons o _ => simp [h, item]
  · intro o ho hm
    obtain ⟨m, hm⟩ := hmag hm
    have ho' := item_zero_ok.2 ho
    constructor
    · intro hd
      unfold Eq_times
      simp [ho', hm, hd, inKm]
    · intro dp dist hd hg hdist ht
      unfold Eq_times
      simp only [ho', hm, hd, inKm, hg, hdist, ht, except_ok_bind]
      simp [item]

/-! ## C49 -/

/-- **C49** `ExtractEq` succeeds exactly if the data path matches files, all of them hold traces,
the catalogue can be read, every event has an onset, every covered window yields data and there is
something to write; then the output file holds, file by file in the order of the paths and event
by event in catalogue order, the traces of the events whose window lies inside the span of the
first trace of the file, each with the onset of its event. -/
theorem c49_writes {env : Obspy} {d : Disk} (hd : d.WF) (datapath filename catalog : String)
    (la lo a b : ℝ) (r : List ℝ) :
    (ExtractEq env d datapath filename catalog la lo (a :: b :: r)).2 = .ok () ↔
      ∃ paths files evs onsets kept, DataFiles d datapath paths ∧ paths ≠ [] ∧
        Contents d paths files ∧ (∀ f ∈ files, f ≠ []) ∧
        d.lookup catalog = some (.catalog evs) ∧
        List.Forall₂ (Onset env la lo) evs onsets ∧
        (∀ f ∈ files, ∀ t ∈ onsets, Covers env f (around env a b t) →
          env.cut f (around env a b t).eqstart (around env a b t).eqend ≠ []) ∧
        coveredEvents env files (onsets.map (around env a b)) ≠ [] ∧
        env.encode filename (coveredEvents env files (onsets.map (around env a b))) = .ok kept ∧
        (ExtractEq env d datapath filename catalog la lo (a :: b :: r)).1.lookup filename =
          some (.stream kept) := by
  unfold ExtractEq
  cases h : collect env d datapath catalog la lo (a :: b :: r) with
  | error e =>
    simp only [reduceCtorEq, false_iff]
    rintro ⟨paths, files, evs, os, kept, h1, h2, h3, h4, h5, h6, h7, -⟩
    have := (collect_ok hd (r := r)).2 ⟨paths, files, evs, os, h1, h2, h3, h4, h5, h6, h7, rfl⟩
    rw [h] at this; cases this
  | ok S =>
    obtain ⟨paths, files, evs, os, h1, h2, h3, h4, h5, h6, h7, rfl⟩ := (collect_ok hd).1 h
    constructor
    · intro hw
      simp only [write] at hw ⊢
      by_cases he : (coveredEvents env files (os.map (around env a b))).isEmpty
      · rw [if_pos he] at hw; cases hw
      · rw [if_neg he] at hw
        cases hx : env.encode filename (coveredEvents env files (os.map (around env a b))) with
        | error e => rw [hx] at hw; cases hw
        | ok kept =>
          refine ⟨paths, files, evs, os, kept, h1, h2, h3, h4, h5, h6, h7, by simpa using he, hx, ?_⟩
          simp [he, lookup_put]
    · rintro ⟨paths', files', evs', os', kept, h1', h2', h3', h4', h5', h6', h7', h8, h9, -⟩
      obtain rfl := dataFiles_unique h1 h1'
      obtain rfl := contents_unique h3 h3'
      rw [h5] at h5'
      cases h5'
      obtain rfl := onsets_unique h6 h6'
      simp [write, h8, h9]

/-- **C49** The output file is the only one that changes; a run that raises changes nothing, unless
it was the writing of a non-empty stream that raised and left something at that path. -/
theorem c49_nothing_else (env : Obspy) (d : Disk) (datapath filename catalog : String) (la lo : ℝ)
    (w : List ℝ) :
    let res := ExtractEq env d datapath filename catalog la lo w
    (∀ p, p ≠ filename → res.1.lookup p = d.lookup p) ∧
    (∀ e, res.2 = .error e → res.1 = d ∨ ∃ S f, S ≠ [] ∧ env.encode filename S = .error e ∧
      env.leftover filename S = some f ∧ res.1 = d.put filename f) := by
  intro res
  have hw : ∀ S, (∀ p, p ≠ filename → (write env d filename S).1.lookup p = d.lookup p) ∧
      (∀ e, (write env d filename S).2 = .error e → (write env d filename S).1 = d ∨
        ∃ T f, T ≠ [] ∧ env.encode filename T = .error e ∧
        env.leftover filename T = some f ∧ (write env d filename S).1 = d.put filename f) := by
    intro S
    unfold write
    by_cases hS : S.isEmpty
    · rw [if_pos hS]; exact ⟨fun _ _ => rfl, fun _ _ => .inl rfl⟩
    · rw [if_neg hS]
      cases hx : env.encode filename S with
      | error x =>
        cases hl : env.leftover filename S with
        | none => exact ⟨fun _ _ => rfl, fun _ _ => .inl rfl⟩
        | some f =>
          refine ⟨fun p hp => by simp [lookup_put, hp], fun e he => .inr ?_⟩
          cases he
          exact ⟨S, f, by simpa using hS, hx, hl, by simp [hx, hl, hS]⟩
      | ok k =>
        refine ⟨fun p hp => ?_, fun e he => by cases he⟩
        simp [lookup_put, hp]
  have : res = ExtractEq env d datapath filename catalog la lo w := rfl
  rw [this]
  unfold ExtractEq
  cases collect env d datapath catalog la lo w with
  | error e => exact ⟨fun _ _ => rfl, fun _ _ => .inl rfl⟩
  | ok S =>
    refine ⟨(hw S).1, fun e he => ?_⟩
    exact (hw S).2 e he

/-- **C49** A data path that matches nothing raises `IndexError`; a selection without data raises
instead of writing an empty file. -/
theorem c49_empty {env : Obspy} {d : Disk} (hd : d.WF) (datapath filename catalog : String)
    (la lo a b : ℝ) :
    ((∀ p, d.lookup p ≠ none → ¬ Matches datapath p) → ∀ w,
      ExtractEq env d datapath filename catalog la lo w = (d, .error .indexError)) ∧
    (∀ paths files evs onsets, DataFiles d datapath paths → paths ≠ [] →
      Contents d paths files → (∀ f ∈ files, f ≠ []) → d.lookup catalog = some (.catalog evs) →
      List.Forall₂ (Onset env la lo) evs onsets →
      (∀ f ∈ files, ∀ t ∈ onsets, ¬ Covers env f (around env a b t)) →
      ExtractEq env d datapath filename catalog la lo [a, b] = (d, .error emptyStream)) := by
  constructor
  · intro h w
    have hD := sorted_glob hd datapath
    have : sorted (glob d datapath) = [] := by
      rw [List.eq_nil_iff_forall_not_mem]
      intro p hp
      obtain ⟨h1, h2⟩ := (hD.2 p).1 hp
      exact h p h1 h2
    unfold ExtractEq collect
    simp [this, item]
  · intro paths files evs os h1 h2 h3 h4 h5 h6 h7
    have := (collect_ok hd (r := [])).2 ⟨paths, files, evs, os, h1, h2, h3, h4, h5, h6,
      fun f hf t ht hc => absurd hc (h7 f hf t ht), rfl⟩
    have hS : coveredEvents env files (os.map (around env a b)) = [] := by
      classical
      unfold coveredEvents
      rw [List.flatMap_eq_nil_iff]
      intro f hf
      rw [List.flatMap_eq_nil_iff]
      intro w hw
      rw [List.mem_filter] at hw
      obtain ⟨t, ht, rfl⟩ := List.mem_map.1 hw.1
      exact absurd (by simpa using hw.2) (h7 f hf t ht)
    unfold ExtractEq
    rw [this, hS]
    rfl

/-- **C49** Every trace that is to be written was cut from a covering file with the window of a
catalogued event and carries its onset; and all such traces are written. -/
theorem c49_members (env : Obspy) (files : List (List Wave)) (ws : List Window) (t : Wave) :
    t ∈ coveredEvents env files ws ↔ ∃ f ∈ files, ∃ w ∈ ws, Covers env f w ∧
      ∃ s ∈ env.cut f w.eqstart w.eqend, t = { s with onset := some w.onset } := by
  classical
  unfold coveredEvents eventTraces
  simp only [List.mem_flatMap, List.mem_filter, List.mem_map, decide_eq_true_eq]
  constructor
  · rintro ⟨f, hf, w, ⟨hw, hc⟩, s, hs, rfl⟩; exact ⟨f, hf, w, hw, hc, s, hs, rfl⟩
  · rintro ⟨f, hf, w, hw, hc, s, hs, rfl⟩; exact ⟨f, hf, w, ⟨hw, hc⟩, s, hs, rfl⟩

/-! ## C48 -/

/-- **C48** What the parallel code computes from the catalogue is, for every number of processes
and every schedule, event by event in catalogue order, the window and onset the serial code uses;
it raises exactly if some event has no onset. -/
theorem c48_windows {env : Obspy} {d : Disk} {catalog : String} {la lo a b : ℝ} {r : List ℝ}
    {evs : List Event} (hc : d.lookup catalog = some (.catalog evs)) {nproc : Nat} (hn : 0 < nproc) :
    ∃ evs', Add_sta_time_2cat d catalog la lo (a :: b :: r) = .ok evs' ∧
    ∀ out, Get_Eqtimes_multiproc env evs' nproc out →
      (∀ onsets, List.Forall₂ (Onset env la lo) evs onsets →
        out = .ok (onsets.map (fun t => some [around env a b t]))) ∧
      ((∃ ev ∈ evs, ∀ t, ¬ Onset env la lo ev t) → ∃ e, out = .error e) := by
  refine ⟨evs.map (fun i => ⟨i, la, lo, a, b⟩), ?_, ?_⟩
  · unfold Add_sta_time_2cat
    rw [read_events_ok.2 hc, except_ok_bind, mapM_ok_iff]
    rw [List.forall₂_map_right_iff]
    exact List.forall₂_same.2 (fun _ _ => rfl)
  · rintro out ⟨log, hout⟩
    constructor
    · intro os hos
      have hmap : ∃ g : StaEvent → List Window, (∀ x ∈ evs.map (fun i => (⟨i, la, lo, a, b⟩ : StaEvent)),
          Eq_times env x = .ok (g x)) ∧
          (evs.map (fun i => (⟨i, la, lo, a, b⟩ : StaEvent))).map g =
            os.map (fun t => [around env a b t]) := by
        classical
        refine ⟨fun x => if h : ∃ t, Onset env x.stalat x.stalon x.event t then
          [around env x.Request_start x.Request_end h.choose] else [], ?_, ?_⟩
        · intro x hx
          obtain ⟨ev, hev, rfl⟩ := List.mem_map.1 hx
          obtain ⟨t, ht⟩ : ∃ t, Onset env la lo ev t := by
            obtain ⟨i, hi, rfl⟩ := List.getElem_of_mem hev
            have hl := hos.length_eq
            exact ⟨_, List.forall₂_iff_get.1 hos |>.2 i hi (by omega)⟩
          have hex : ∃ t, Onset env la lo ev t := ⟨t, ht⟩
          simp only [hex, dif_pos]
          exact Eq_times_ok.2 ⟨_, hex.choose_spec, rfl⟩
        · clear hout hc
          induction hos with
          | nil => rfl
          | @cons ev t evs os h _ ih =>
            have hex : ∃ t, Onset env la lo ev t := ⟨t, h⟩
            have : hex.choose = t := onset_unique hex.choose_spec h
            simp only [List.map_cons, ih, hex, dif_pos, this]
      obtain ⟨g, hg, hg2⟩ := hmap
      have := (c46_results_in_order hn hout hg).1
      rw [this]
      have e : (evs.map (fun i => (⟨i, la, lo, a, b⟩ : StaEvent))).map (fun x => some (g x)) =
          ((evs.map (fun i => (⟨i, la, lo, a, b⟩ : StaEvent))).map g).map some := by
        rw [List.map_map (g := some)]; rfl
      rw [e, hg2, List.map_map]
      rfl
    · rintro ⟨ev, hev, hno⟩
      obtain ⟨⟨e, he, -⟩, -⟩ := c46_raises hn hout
        ⟨⟨ev, la, lo, a, b⟩, List.mem_map_of_mem hev, by
          cases h : Eq_times env ⟨ev, la, lo, a, b⟩ with
          | error e => exact ⟨e, rfl⟩
          | ok r =>
            obtain ⟨t, ht, -⟩ := Eq_times_ok.1 h
            exact absurd ht (hno t)⟩
      exact ⟨e, he⟩

/-- **C48** If some event has no onset the serial code raises too (and writes nothing). -/
theorem c48_serial_raises {env : Obspy} {d : Disk} (hd : d.WF) {datapath filename catalog : String}
    {la lo a b : ℝ} {evs : List Event} (hc : d.lookup catalog = some (.catalog evs))
    (hno : ∃ ev ∈ evs, ∀ t, ¬ Onset env la lo ev t) :
    ∃ e, ExtractEq env d datapath filename catalog la lo [a, b] = (d, .error e) := by
  cases h : collect env d datapath catalog la lo [a, b] with
  | error e => exact ⟨e, by unfold ExtractEq; rw [h]⟩
  | ok S =>
    obtain ⟨paths, files, evs', os, h1, h2, h3, h4, h5, h6, -⟩ := (collect_ok hd).1 h
    rw [hc] at h5
    cases h5
    obtain ⟨ev, hev, hno⟩ := hno
    obtain ⟨i, hi, rfl⟩ := List.getElem_of_mem hev
    have hl := h6.length_eq
    exact absurd (List.forall₂_iff_get.1 h6 |>.2 i hi (by omega)) (hno _)

/-! ## C50 -/

/-- **C50** For every number of processes and every schedule, `ExtractEq_Multiproc` writes, file by
file in the given order and event by event, whatever each file has of each window, with the onset
of the event. -/
theorem c50_parallel_stream {env : Obspy} {d : Disk} {paths : List String}
    {files : List (List Wave)} (hf : Contents d paths files) (ws : List Window) {nproc : Nat}
    (hn : 0 < nproc) (filename : String) {res : Disk × Except PyErr Unit}
    (h : ExtractEq_Multiproc env d paths (ws.map (fun w => [w])) nproc filename res) :
    (allEvents env files ws = [] → res = (d, .error emptyStream)) ∧
    (allEvents env files ws ≠ [] → ∀ kept, env.encode filename (allEvents env files ws) = .ok kept →
      res.2 = .ok () ∧ ∀ p, res.1.lookup p =
        if p = filename then some (.stream kept) else d.lookup p) ∧
    (allEvents env files ws ≠ [] → ∀ e, env.encode filename (allEvents env files ws) = .error e →
      res.2 = .error e ∧ ∀ p, res.1.lookup p =
        if p = filename then (env.leftover filename (allEvents env files ws)).or (d.lookup p)
        else d.lookup p) := by
  obtain ⟨out, log, hm, rfl⟩ := h
  have hg : ∃ g : List String × List (List Window) → List Wave,
      (∀ x ∈ paths.map (fun f => ([f], ws.map (fun w => [w]))),
        Get_EqStream_multiproc env d x = .ok (g x)) ∧
      (paths.map (fun f => ([f], ws.map (fun w => [w])))).map g =
        files.map (fun f => ws.flatMap (fun w => eventTraces env w f)) := by
    refine ⟨fun x => match d.lookup (x.1.headD "") with
      | some (.stream ts) => ws.flatMap (fun w => eventTraces env w ts)
      | _ => [], ?_, ?_⟩
    · intro x hx
      obtain ⟨p, hp, rfl⟩ := List.mem_map.1 hx
      obtain ⟨i, hi, rfl⟩ := List.getElem_of_mem hp
      have hl := List.Forall₂.length_eq hf
      have hc := List.forall₂_iff_get.1 hf |>.2 i hi (by omega)
      simp only [List.get_eq_getElem] at hc
      rw [getEqStream_of hc]
      simp [hc]
    · clear hm
      induction hf with
      | nil => rfl
      | cons h _ ih =>
        simp only [List.map_cons, ih]
        simp [h]
  obtain ⟨g, hg1, hg2⟩ := hg
  have ho := (c46_results_in_order hn hm hg1).1
  have e : (paths.map (fun f => ([f], ws.map (fun w => [w])))).map (fun x => some (g x)) =
      (files.map (fun f => ws.flatMap (fun w => eventTraces env w f))).map some := by
    rw [← hg2, List.map_map (g := some)]; rfl
  rw [ho, e]
  simp only [concat_some, List.nil_append]
  have e2 : (files.map (fun f => ws.flatMap (fun w => eventTraces env w f))).flatten =
      allEvents env files ws := by
    rw [allEvents, List.flatMap_def]
  rw [e2]
  refine ⟨?_, ?_, ?_⟩
  · intro h0; rw [h0]; rfl
  · intro h0 kept hk
    simp [write, h0, hk, lookup_put]
  · intro h0 x hx
    cases hl : env.leftover filename (allEvents env files ws) with
    | none => simp [write, h0, hx, hl]
    | some f =>
      simp only [write, List.isEmpty_iff, h0, hx, hl, if_false, true_and, Option.some_or]
      intro p
      rw [lookup_put]

theorem filter_flatMap_sublist {α β : Type} (p : α → Bool) (f : α → List β) (l : List α) :
    ((l.filter p).flatMap f).Sublist (l.flatMap f) := by
  induction l with
  | nil => simp
  | cons x l ih =>
    by_cases hp : p x
    · simp only [List.filter_cons_of_pos hp, List.flatMap_cons]
      exact (List.Sublist.refl _).append ih
    · simp only [List.filter_cons_of_neg hp, List.flatMap_cons]
      exact ih.trans (List.sublist_append_right _ _)

/-- **C50** Whatever is extracted serially is extracted in parallel, in the same order and with the
same onsets. -/
theorem c50_serial_within_parallel (env : Obspy) (files : List (List Wave)) (ws : List Window) :
    (coveredEvents env files ws).Sublist (allEvents env files ws) := by
  classical
  unfold coveredEvents allEvents
  induction files with
  | nil => simp
  | cons f fs ih =>
    simp only [List.flatMap_cons]
    refine List.Sublist.append ?_ ih
    exact filter_flatMap_sublist _ _ _

/-- **C50** The two agree exactly if windows that a file does not cover yield nothing from it;
otherwise the parallel output has additional (partial) traces. -/
theorem c50_equal_iff (env : Obspy) (files : List (List Wave)) (ws : List Window) :
    coveredEvents env files ws = allEvents env files ws ↔
      ∀ f ∈ files, ∀ w ∈ ws, ¬ Covers env f w → env.cut f w.eqstart w.eqend = [] := by
  classical
  have one : ∀ (f : List Wave) (ws : List Window),
      ((ws.filter (fun w => Covers env f w)).flatMap (fun w => eventTraces env w f) =
        ws.flatMap (fun w => eventTraces env w f)) ↔
      ∀ w ∈ ws, ¬ Covers env f w → env.cut f w.eqstart w.eqend = [] := by
    intro f ws
    induction ws with
    | nil => simp
    | cons w ws ih =>
      have hsub : ((ws.filter (fun w => Covers env f w)).flatMap (fun w => eventTraces env w f)).Sublist
          (ws.flatMap (fun w => eventTraces env w f)) :=
        filter_flatMap_sublist _ _ _
      by_cases hc : Covers env f w
      · simp only [List.mem_cons, forall_eq_or_imp, hc, not_true_eq_false, false_imp_iff, true_and,
          ← ih]
        simp [hc]
      · simp only [List.mem_cons, forall_eq_or_imp, hc, not_false_eq_true, true_imp_iff, ← ih]
        simp only [hc, decide_false, Bool.false_eq_true, not_false_eq_true, List.filter_cons_of_neg,
          List.flatMap_cons]
        constructor
        · intro h
          have hl := congrArg List.length h
          rw [List.length_append] at hl
          have h1 := hsub.length_le
          have h2 : (eventTraces env w f).length = 0 := by omega
          have h3 : eventTraces env w f = [] := List.length_eq_zero_iff.1 h2
          refine ⟨by simpa [eventTraces] using h3, ?_⟩
          rw [h3] at h; simpa using h
        · rintro ⟨h1, h2⟩
          rw [h2]
          simp [eventTraces, h1]
  unfold coveredEvents allEvents
  induction files with
  | nil => simp
  | cons f fs ih =>
    simp only [List.flatMap_cons, List.mem_cons, forall_eq_or_imp, ← ih, ← one f ws]
    constructor
    · intro h
      have s1 : ((ws.filter (fun w => Covers env f w)).flatMap (fun w => eventTraces env w f)).Sublist
          (ws.flatMap (fun w => eventTraces env w f)) :=
        filter_flatMap_sublist _ _ _
      have s2 := c50_serial_within_parallel env fs ws
      unfold coveredEvents allEvents at s2
      have hl := congrArg List.length h
      rw [List.length_append, List.length_append] at hl
      have l1 := s1.length_le
      have l2 := s2.length_le
      exact ⟨s1.eq_of_length (by omega), s2.eq_of_length (by omega)⟩
    · rintro ⟨h1, h2⟩
      rw [h1, h2]

/-- **C50** A file that cannot be read makes the parallel extraction raise, and nothing is
written. -/
theorem c50_unreadable {env : Obspy} {d : Disk} {paths : List String} {ws : List Window}
    (hw : ws ≠ []) {nproc : Nat} (hn : 0 < nproc) {filename : String}
    {res : Disk × Except PyErr Unit}
    (h : ExtractEq_Multiproc env d paths (ws.map (fun w => [w])) nproc filename res)
    (hbad : ∃ p ∈ paths, ∀ ts, d.lookup p ≠ some (.stream ts)) :
    ∃ e, res = (d, .error e) := by
  obtain ⟨out, log, hm, rfl⟩ := h
  obtain ⟨p, hp, hbad⟩ := hbad
  have hp' : ([p], ws.map (fun w => [w])) ∈ paths.map (fun f => ([f], ws.map (fun w => [w]))) :=
    List.mem_map.2 ⟨p, hp, rfl⟩
  obtain ⟨⟨e, he, -⟩, -⟩ := c46_raises hn hm ⟨_, hp', by
    obtain ⟨w, l, rfl⟩ : ∃ w l, ws = w :: l := by
      cases ws with
      | nil => exact absurd rfl hw
      | cons w l => exact ⟨w, l, rfl⟩
    have hr : ∃ e, readWindow env d p w.eqstart w.eqend = .error e := by
      unfold readWindow
      cases hl : d.lookup p with
      | none => exact ⟨_, rfl⟩
      | some f =>
        cases f with
        | stream ts => exact absurd hl (hbad ts)
        | catalog => exact ⟨_, rfl⟩
        | unreadable => exact ⟨_, rfl⟩
    obtain ⟨e, he⟩ := hr
    refine ⟨e, ?_⟩
    unfold Get_EqStream_multiproc
    simp [item, he]⟩
  rw [he]
  exact ⟨e, rfl⟩

end Rfsed.Props
