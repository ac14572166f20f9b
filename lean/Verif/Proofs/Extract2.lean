import Verif.Proofs.Extract
import Verif.Props.Pool

/-! What ExtractEq and ExtractEq_Multiproc collect. -/

namespace Rfsed.Extract
open Spec

/-- the triple of ExtractEq.py:116 -/
def triple (w : Window) : Time × Time × Time := (w.eqstart, w.eqend, w.onset)

theorem read_ok {d : Disk} {p : String} {ts : List Wave} :
    read d p = .ok ts ↔ d.lookup p = some (.stream ts) ∧ ts ≠ [] := by
  unfold read
  cases h : d.lookup p with
  | none => simp
  | some f =>
    cases f with
    | catalog => simp
    | unreadable => simp
    | stream l =>
      cases l with
      | nil => simp
      | cons a l => simp; rintro rfl; simp

theorem readWindow_of {env : Obspy} {d : Disk} {p : String} {ts : List Wave}
    (h : d.lookup p = some (.stream ts)) (a b : Time) :
    readWindow env d p a b = .ok (env.cut ts a b) := by
  unfold readWindow; rw [h]

theorem read_events_ok {d : Disk} {p : String} {evs : List Event} :
    read_events d p = .ok evs ↔ d.lookup p = some (.catalog evs) := by
  unfold read_events
  cases h : d.lookup p with
  | none => simp
  | some f => cases f <;> simp

open Classical in
theorem extractWindow_eq {env : Obspy} {d : Disk} {p : String} {ts : List Wave} {t0 : Wave}
    (h : d.lookup p = some (.stream ts)) (h0 : ts.head? = some t0) (acc : List Wave) (w : Window) :
    extractWindow env d p t0 acc (triple w) =
      if Covers env ts w then
        (if env.cut ts w.eqstart w.eqend = [] then .error .indexError
         else .ok (acc ++ eventTraces env w ts))
      else .ok acc := by
  have hc : Covers env ts w ↔ (env.tick w.eqstart ≥ env.tick t0.starttime ∧
      env.tick w.eqend ≤ env.tick t0.endtime) := by
    unfold Covers; rw [h0]; simp
  show extractWindow env d p t0 acc (w.eqstart, w.eqend, w.onset) = _
  unfold extractWindow
  by_cases hh : env.tick w.eqstart ≥ env.tick t0.starttime ∧ env.tick w.eqend ≤ env.tick t0.endtime
  · simp only [if_pos hh, if_pos (hc.2 hh)]
    rw [readWindow_of h, except_ok_bind]
    cases hh : env.cut ts w.eqstart w.eqend with
    | nil => simp [item]
    | cons a l => simp [item, eventTraces, hh, stamp]
  · simp only [if_neg hh, if_neg (fun x => hh (hc.1 x))]
    rfl

open Classical in
theorem extractFile_fold {env : Obspy} {d : Disk} {p : String} {ts : List Wave} {t0 : Wave}
    (h : d.lookup p = some (.stream ts)) (h0 : ts.head? = some t0) : ∀ (ws : List Window)
    (acc S : List Wave), (ws.map triple).foldlM (extractWindow env d p t0) acc = .ok S ↔
      (∀ w ∈ ws, Covers env ts w → env.cut ts w.eqstart w.eqend ≠ []) ∧
      S = acc ++ (ws.filter (fun w => Covers env ts w)).flatMap (fun w => eventTraces env w ts)
  | [], acc, S => by simp; exact eq_comm
  | w :: ws, acc, S => by
    rw [List.map_cons, List.foldlM_cons, extractWindow_eq h h0]
    by_cases hc : Covers env ts w
    · rw [if_pos hc]
      by_cases hn : env.cut ts w.eqstart w.eqend = []
      · rw [if_pos hn]
        simp only [except_error_bind, reduceCtorEq, false_iff, List.mem_cons, forall_eq_or_imp]
        intro hx
        exact hx.1.1 hc hn
      · rw [if_neg hn, except_ok_bind, extractFile_fold h h0]
        simp [hc, hn]
    · rw [if_neg hc, except_ok_bind, extractFile_fold h h0]
      simp [hc]

open Classical in
theorem extractFiles_fold {env : Obspy} {d : Disk} (ws : List Window) :
    ∀ (paths : List String) (acc S : List Wave),
    paths.foldlM (extractFile env d (ws.map triple)) acc = .ok S ↔
      ∃ files, Contents d paths files ∧ (∀ f ∈ files, f ≠ []) ∧
      (∀ f ∈ files, ∀ w ∈ ws, Covers env f w → env.cut f w.eqstart w.eqend ≠ []) ∧
      S = acc ++ coveredEvents env files ws
  | [], acc, S => by
    rw [List.foldlM_nil]
    simp only [except_pure, Except.ok.injEq, Contents, List.forall₂_nil_left_iff, exists_eq_left]
    simp [coveredEvents]; exact eq_comm
  | p :: ps, acc, S => by
    rw [List.foldlM_cons]
    unfold extractFile
    rw [bind_eq_ok]
    constructor
    · rintro ⟨s1, h1, h2⟩
      obtain ⟨ts, hr, h1⟩ := bind_eq_ok.1 h1
      obtain ⟨t0, ht, h1⟩ := bind_eq_ok.1 h1
      rw [read_ok] at hr
      rw [item_zero_ok] at ht
      obtain ⟨g1, rfl⟩ := (extractFile_fold hr.1 ht ws acc s1).1 h1
      obtain ⟨files, c1, c2, c3, rfl⟩ := (extractFiles_fold ws ps _ S).1 h2
      refine ⟨ts :: files, .cons hr.1 c1, ?_, ?_, ?_⟩
      · simp only [List.mem_cons, forall_eq_or_imp]; exact ⟨hr.2, c2⟩
      · simp only [List.mem_cons, forall_eq_or_imp]; exact ⟨g1, c3⟩
      · simp [coveredEvents]
    · rintro ⟨files, c1, c2, c3, rfl⟩
      cases c1 with
      | @cons _ ts _ files h c =>
        simp only [List.mem_cons, forall_eq_or_imp] at c2 c3
        obtain ⟨t0, l, rfl⟩ : ∃ t0 l, ts = t0 :: l := by
          cases ts with
          | nil => exact absurd rfl c2.1
          | cons a l => exact ⟨a, l, rfl⟩
        refine ⟨acc ++ (ws.filter (fun w => Covers env (t0 :: l) w)).flatMap
          (fun w => eventTraces env w (t0 :: l)), ?_, ?_⟩
        · rw [read_ok.2 ⟨h, c2.1⟩, except_ok_bind]
          show Except.bind (.ok t0) _ = _
          exact (extractFile_fold h rfl ws acc _).2 ⟨c3.1, rfl⟩
        · refine (extractFiles_fold ws ps _ _).2 ⟨files, c, c2.2, c3.2, ?_⟩
          simp [coveredEvents]

theorem timeWindows_ok {env : Obspy} {la lo w0 w1 : ℝ} {r : List ℝ} {evs : List Event}
    {tw : List (Time × Time × Time)} :
    evs.mapM (timeWindow env la lo (w0 :: w1 :: r)) = .ok tw ↔
      ∃ onsets, List.Forall₂ (Onset env la lo) evs onsets ∧
        tw = (onsets.map (around env w0 w1)).map triple := by
  rw [mapM_ok_iff]
  constructor
  · intro h
    induction h with
    | nil => exact ⟨[], .nil, rfl⟩
    | cons h _ ih =>
      obtain ⟨t, ht, rfl⟩ := timeWindow_ok.1 h
      obtain ⟨os, h1, rfl⟩ := ih
      exact ⟨t :: os, .cons ht h1, rfl⟩
  · rintro ⟨os, h, rfl⟩
    induction h with
    | nil => exact .nil
    | cons h _ ih => exact .cons (timeWindow_ok.2 ⟨_, h, rfl⟩) ih

theorem contents_unique {d : Disk} : ∀ {ps : List String} {f g : List (List Wave)},
    Contents d ps f → Contents d ps g → f = g
  | _, _, _, .nil, .nil => rfl
  | _, _, _, .cons h1 t1, .cons h2 t2 => by
    rw [h1] at h2
    cases h2
    rw [contents_unique t1 t2]

theorem onsets_unique {env : Obspy} {la lo : ℝ} : ∀ {evs : List Event} {f g : List Time},
    List.Forall₂ (Onset env la lo) evs f → List.Forall₂ (Onset env la lo) evs g → f = g
  | _, _, _, .nil, .nil => rfl
  | _, _, _, .cons h1 t1, .cons h2 t2 => by
    rw [onset_unique h1 h2, onsets_unique t1 t2]

/-- the whole of ExtractEq before writing -/
theorem collect_ok {env : Obspy} {d : Disk} (hd : d.WF) {datapath catalog : String}
    {la lo w0 w1 : ℝ} {r : List ℝ} {S : List Wave} :
    collect env d datapath catalog la lo (w0 :: w1 :: r) = .ok S ↔
      ∃ paths files evs onsets, DataFiles d datapath paths ∧ paths ≠ [] ∧
        Contents d paths files ∧ (∀ f ∈ files, f ≠ []) ∧
        d.lookup catalog = some (.catalog evs) ∧
        List.Forall₂ (Onset env la lo) evs onsets ∧
        (∀ f ∈ files, ∀ t ∈ onsets, Covers env f (around env w0 w1 t) →
          env.cut f (around env w0 w1 t).eqstart (around env w0 w1 t).eqend ≠ []) ∧
        S = coveredEvents env files (onsets.map (around env w0 w1)) := by
  unfold collect
  have hD := sorted_glob hd datapath
  constructor
  · intro h
    obtain ⟨first, h1, h⟩ := bind_eq_ok.1 h
    obtain ⟨ff, h2, h⟩ := bind_eq_ok.1 h
    obtain ⟨last, h3, h⟩ := bind_eq_ok.1 h
    obtain ⟨lf, h4, h⟩ := bind_eq_ok.1 h
    obtain ⟨_, h5, h⟩ := bind_eq_ok.1 h
    obtain ⟨_, h6, h⟩ := bind_eq_ok.1 h
    obtain ⟨evs, h7, h⟩ := bind_eq_ok.1 h
    obtain ⟨tw, h8, h⟩ := bind_eq_ok.1 h
    obtain ⟨os, h9, rfl⟩ := timeWindows_ok.1 h8
    obtain ⟨files, c1, c2, c3, rfl⟩ := (extractFiles_fold _ _ _ _).1 h
    refine ⟨_, files, evs, os, hD, ?_, c1, c2, read_events_ok.1 h7, h9, ?_, by simp⟩
    · intro h0
      simp only [h0] at h1
      simp [item] at h1
    · intro f hf t ht
      exact c3 f hf _ (List.mem_map_of_mem ht)
  · rintro ⟨paths, files, evs, os, h1, h2, h3, h4, h5, h6, h7, rfl⟩
    obtain rfl := dataFiles_unique h1 hD
    generalize sorted (glob d datapath) = paths at *
    have hr : ∀ i (hi : i < paths.length), ∃ x l, item paths i = .ok x ∧ read d x = .ok l ∧
        ∃ y, item l 0 = .ok y := by
      intro i hi
      have hl := h3.length_eq
      have hi2 : i < files.length := by omega
      have hc := List.forall₂_iff_get.1 h3 |>.2 i hi hi2
      have hne := h4 _ (List.get_mem files ⟨i, hi2⟩)
      refine ⟨paths.get ⟨i, hi⟩, files.get ⟨i, hi2⟩, ?_, read_ok.2 ⟨hc, hne⟩, ?_⟩
      · simp [item, hi]
      · cases hfi : files.get ⟨i, hi2⟩ with
        | nil => exact absurd hfi hne
        | cons a l => exact ⟨a, rfl⟩
    have hlen := List.length_pos_iff.2 h2
    obtain ⟨x, l, e1, e2, y, e3⟩ := hr 0 hlen
    obtain ⟨x', l', e1', e2', y', e3'⟩ := hr (paths.length - 1) (by omega)
    simp only [e1, e2, e1', e2', e3, e3', except_ok_bind, read_events_ok.2 h5,
      timeWindows_ok.2 ⟨os, h6, rfl⟩]
    refine (extractFiles_fold _ _ _ _).2 ⟨files, h3, h4, ?_, by simp⟩
    intro f hf w hw
    obtain ⟨t, ht, rfl⟩ := List.mem_map.1 hw
    exact h7 f hf t ht

/-! ### in parallel -/

theorem getEqStream_of {env : Obspy} {d : Disk} {p : String} {ts : List Wave}
    (h : d.lookup p = some (.stream ts)) (ws : List Window) :
    Get_EqStream_multiproc env d ([p], ws.map (fun w => [w])) =
      .ok (ws.flatMap (fun w => eventTraces env w ts)) := by
  unfold Get_EqStream_multiproc
  show List.foldlM _ _ _ = _
  have : ∀ acc : List Wave, (ws.map (fun w => [w])).foldlM (fun Datast (i : List Window) => do
      let w ← item i 0
      let Eqdata ← readWindow env d p w.eqstart w.eqend
      pure (Datast ++ Eqdata.map (stamp w.onset))) acc =
      (.ok (acc ++ ws.flatMap (fun w => eventTraces env w ts)) : Except PyErr _) := by
    induction ws with
    | nil => intro acc; simp
    | cons w ws ih =>
      intro acc
      rw [List.map_cons, List.foldlM_cons]
      have : (do
          let w ← item [w] 0
          let Eqdata ← readWindow env d p w.eqstart w.eqend
          pure (acc ++ Eqdata.map (stamp w.onset)) : Except PyErr (List Wave)) =
          .ok (acc ++ eventTraces env w ts) := by
        simp [item, readWindow_of h, eventTraces, stamp]
      rw [this, except_ok_bind, ih]
      simp
  simpa using this []

theorem concat_some (ls : List (List Wave)) : ∀ acc : List Wave,
    (ls.map some).foldlM concat acc = .ok (acc ++ ls.flatten) := by
  induction ls with
  | nil => intro acc; simp
  | cons l ls ih =>
    intro acc
    rw [List.map_cons, List.foldlM_cons]
    simp only [concat, except_ok_bind]
    rw [ih]; simp

end Rfsed.Extract
