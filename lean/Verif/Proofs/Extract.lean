import Verif.Spec.Extract
import Verif.Proofs.ExceptList
import Mathlib.Data.List.Sort

/-! Lemmas about the model of ExtractEq. -/

namespace Rfsed.Extract
open Spec

theorem item_zero_ok {α : Type} {l : List α} {x : α} : item l 0 = .ok x ↔ l.head? = some x := by
  cases l <;> simp [item]

theorem item_zero_err {α : Type} {l : List α} {e : PyErr} :
    item l 0 = .error e ↔ l = [] ∧ e = .indexError := by
  cases l with
  | nil => simp [item]; exact eq_comm
  | cons => simp [item]

theorem timeWindow_ok {env : Obspy} {la lo w0 w1 : ℝ} {ws : List ℝ} {ev : Event}
    {r : Time × Time × Time} : timeWindow env la lo (w0 :: w1 :: ws) ev = .ok r ↔
      ∃ t, Onset env la lo ev t ∧ r = (t - env.toNs |w0|, t + env.toNs |w1|, t) := by
  unfold timeWindow Onset
  constructor
  · intro h
    obtain ⟨o, ho, h⟩ := bind_eq_ok.1 h
    obtain ⟨m, hm, h⟩ := bind_eq_ok.1 h
    obtain ⟨dp, hd, h⟩ := bind_eq_ok.1 h
    obtain ⟨u, hg, h⟩ := bind_eq_ok.1 h
    obtain ⟨dist, hdist, h⟩ := bind_eq_ok.1 h
    obtain ⟨tt, htt, h⟩ := bind_eq_ok.1 h
    obtain ⟨P, hP, h⟩ := bind_eq_ok.1 h
    rw [item_zero_ok] at ho hP
    have hm' : ev.magnitudes ≠ [] := by
      intro h0; rw [h0] at hm; simp [item] at hm
    obtain ⟨dm, hd', rfl⟩ : ∃ dm, o.depth = some dm ∧ dm / 1000 = dp := by
      cases hdd : o.depth with
      | none => rw [hdd] at hd; cases hd
      | some x => rw [hdd] at hd; cases hd; exact ⟨x, rfl, rfl⟩
    cases tt with
    | nil => simp at hP
    | cons P' later =>
      simp at hP
      subst hP
      simp [item] at h
      exact ⟨_, ⟨o, dm, dist, _, later, ho, hm', hd', hg, hdist, htt, rfl⟩, h.symm⟩
  · rintro ⟨t, ⟨o, dp, dist, P, later, ho, hm, hd, hg, hdist, htt, rfl⟩, rfl⟩
    have h1 : item ev.origins 0 = .ok o := item_zero_ok.2 ho
    obtain ⟨m, hm⟩ : ∃ m, item ev.magnitudes 0 = .ok m := by
      cases hmm : ev.magnitudes with
      | nil => exact absurd hmm hm
      | cons m _ => exact ⟨m, rfl⟩
    rw [h1, except_ok_bind, hm, except_ok_bind, hd]
    simp only [inKm, except_ok_bind, hg, hdist, htt]
    rfl

theorem Eq_times_timeWindow (env : Obspy) (e : StaEvent) :
    Eq_times env e = (timeWindow env e.stalat e.stalon [e.Request_start, e.Request_end] e.event).map
      (fun r => [⟨r.1, r.2.1, r.2.2⟩]) := by
  unfold Eq_times timeWindow
  simp only [except_pure]
  cases h1 : item e.event.origins 0 with
  | error x => rfl
  | ok o =>
    cases h2 : item e.event.magnitudes 0 with
    | error x => rfl
    | ok m =>
      simp only [except_ok_bind]
      cases h3 : inKm o.depth with
      | error x => rfl
      | ok dp =>
        simp only [except_ok_bind]
        cases h4 : env.gps2dist e.stalat e.stalon o.latitude o.longitude with
        | error x => rfl
        | ok u =>
          simp only [except_ok_bind]
          cases h5 : env.degrees e.stalat e.stalon o.latitude o.longitude with
          | error x => rfl
          | ok dist =>
            simp only [except_ok_bind]
            cases h6 : env.travelTimes dp dist with
            | error x => rfl
            | ok tt =>
              simp only [except_ok_bind]
              cases h7 : item tt 0 with
              | error x => rfl
              | ok P => rfl

theorem Eq_times_ok {env : Obspy} {e : StaEvent} {r : List Window} : Eq_times env e = .ok r ↔
    ∃ t, Onset env e.stalat e.stalon e.event t ∧
      r = [around env e.Request_start e.Request_end t] := by
  rw [Eq_times_timeWindow]
  cases h : timeWindow env e.stalat e.stalon [e.Request_start, e.Request_end] e.event with
  | error x =>
    simp only [Except.map, reduceCtorEq, false_iff]
    rintro ⟨t, ht, -⟩
    have := timeWindow_ok (w0 := e.Request_start) (w1 := e.Request_end) (ws := []).2 ⟨t, ht, rfl⟩
    rw [h] at this; cases this
  | ok q =>
    obtain ⟨t, ht, rfl⟩ := timeWindow_ok.1 h
    simp only [Except.map, Except.ok.injEq]
    constructor
    · rintro rfl; exact ⟨t, ht, rfl⟩
    · rintro ⟨t', ht', rfl⟩
      have := timeWindow_ok (w0 := e.Request_start) (w1 := e.Request_end) (ws := []).2
        ⟨t', ht', rfl⟩
      rw [h] at this
      simp only [Except.ok.injEq, Prod.mk.injEq] at this
      rw [this.2.2]; rfl

theorem onset_unique {env : Obspy} {la lo : ℝ} {ev : Event} {s t : Time}
    (hs : Onset env la lo ev s) (ht : Onset env la lo ev t) : s = t := by
  have h1 := timeWindow_ok (w0 := 0) (w1 := 0) (ws := []).2 ⟨s, hs, rfl⟩
  have h2 := timeWindow_ok (w0 := 0) (w1 := 0) (ws := []).2 ⟨t, ht, rfl⟩
  rw [h1] at h2
  simp only [Except.ok.injEq, Prod.mk.injEq] at h2
  exact h2.2.2

/-! ### the file system -/

theorem lookup_put (d : Disk) (path : String) (f : File) (p : String) :
    (d.put path f).lookup p = if p = path then some f else d.lookup p := by
  unfold Disk.put Disk.lookup
  by_cases h : p = path
  · subst h; simp
  · simp only [h, if_false]
    rw [List.find?_cons_of_neg (by simpa using Ne.symm h), List.find?_filter]
    congr 1
    have : (fun a : String × File => (!(a.1 == path)) && (a.1 == p)) = fun f => f.1 == p := by
      funext a
      by_cases ha : a.1 = p
      · simp [ha, h]
      · simp [ha]
    rw [← this]
    congr 1
    funext a
    by_cases ha : a.1 = path <;> by_cases hb : a.1 = p <;> simp [ha, hb, h]

theorem put_wf {d : Disk} (h : d.WF) (path : String) (f : File) : (d.put path f).WF := by
  unfold Disk.WF Disk.put at *
  simp only [List.map_cons, List.nodup_cons]
  constructor
  · simp
  · exact h.sublist ((List.filter_sublist (l := d.files)).map _)

theorem lookup_ne_none {d : Disk} {p : String} : d.lookup p ≠ none ↔ p ∈ d.files.map Prod.fst := by
  unfold Disk.lookup
  simp [List.find?_eq_none]

theorem globMatch_iff {pre path : String} : globMatch pre path = true ↔ Matches pre path := by
  unfold globMatch Matches
  simp only [Bool.and_eq_true, List.isPrefixOf_iff_prefix]
  constructor
  · rintro ⟨⟨r, hr⟩, h2, h3⟩
    have hd : path.toList.drop pre.toList.length = r := by rw [← hr]; simp
    rw [hd] at h2 h3
    refine ⟨String.ofList r, ?_, ?_, ?_⟩
    · apply String.toList_injective
      rw [String.toList_append, String.toList_ofList, hr]
    · simpa using h2
    · rintro hpre x hx
      have hx' : r = '.' :: x.toList := by
        have := congrArg String.toList hx
        simpa [String.toList_append] using this
      rcases hpre with rfl | ⟨dir, rfl⟩
      · simp [hx'] at h3
      · simp [hx', String.toList_append] at h3
  · rintro ⟨r, rfl, h2, h3⟩
    have hd : (pre ++ r).toList.drop pre.toList.length = r.toList := by
      rw [String.toList_append]; simp
    rw [hd]
    refine ⟨⟨r.toList, by rw [String.toList_append]⟩, by simpa using h2, ?_⟩
    simp only [Bool.not_eq_true', Bool.and_eq_false_iff]
    by_cases hc : pre.toList.getLast? = none ∨ pre.toList.getLast? = some '/'
    · right
      have hp : pre = "" ∨ ∃ dir, pre = dir ++ "/" := by
        rcases hc with hc | hc
        · left
          apply String.toList_injective
          simpa using hc
        · right
          obtain ⟨ys, hys⟩ := List.getLast?_eq_some_iff.1 hc
          refine ⟨String.ofList ys, ?_⟩
          apply String.toList_injective
          rw [String.toList_append, String.toList_ofList, hys]
          rfl
      have := h3 hp
      cases hr : r.toList with
      | nil => simp
      | cons c cs =>
        simp only [List.head?_cons, beq_eq_false_iff_ne, ne_eq, Option.some.injEq]
        rintro rfl
        refine this (String.ofList cs) ?_
        apply String.toList_injective
        rw [String.toList_append, hr]
        simp
    · left
      push Not at hc
      simp only [Bool.or_eq_false_iff, beq_eq_false_iff_ne]
      exact hc

theorem sorted_glob {d : Disk} (h : d.WF) (datapath : String) :
    DataFiles d datapath (sorted (glob d datapath)) := by
  have hperm : (sorted (glob d datapath)).Perm (glob d datapath) := List.mergeSort_perm _ _
  constructor
  · have hs : (sorted (glob d datapath)).Pairwise (fun a b => decide (a ≤ b) = true) :=
      List.pairwise_mergeSort (fun a b c => by simpa using le_trans)
        (fun a b => by simpa using le_total a b) _
    have hn : (sorted (glob d datapath)).Nodup := hperm.nodup_iff.2 (List.Nodup.filter _ h)
    refine (hs.and hn).imp ?_
    rintro a b ⟨h1, h2⟩
    exact lt_of_le_of_ne (by simpa using h1) h2
  · intro p
    rw [hperm.mem_iff, glob, List.mem_filter, lookup_ne_none, globMatch_iff]

theorem dataFiles_unique {d : Disk} {datapath : String} {ps qs : List String}
    (hp : DataFiles d datapath ps) (hq : DataFiles d datapath qs) : ps = qs := by
  apply List.Perm.eq_of_pairwise (le := (· < ·)) _ hp.1 hq.1
  · rw [List.perm_ext_iff_of_nodup (hp.1.imp ne_of_lt) (hq.1.imp ne_of_lt)]
    intro a
    rw [hp.2, hq.2]
  · intro a b _ _ h1 h2
    exact absurd h1 (not_lt_of_gt h2)

end Rfsed.Extract
