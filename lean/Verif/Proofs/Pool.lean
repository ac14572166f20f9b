import Verif.Py.Pool
import Mathlib.Data.List.Perm.Basic
import Mathlib.Tactic.Ring
import Mathlib.Tactic.Linarith

namespace Rfsed.Pool
variable {α β : Type}

theorem chunksOf_nil (c : Nat) : chunksOf c ([] : List α) = [] := by
  rw [chunksOf]; simp

theorem chunksOf_cons {c : Nat} (hc : 0 < c) {xs : List α} (h : xs ≠ []) :
    chunksOf c xs = xs.take c :: chunksOf c (xs.drop c) := by
  rw [chunksOf, dif_neg]
  rintro (h' | h')
  · exact h h'
  · omega

theorem chunksOf_flatten {c : Nat} (hc : 0 < c) (xs : List α) : (chunksOf c xs).flatten = xs := by
  induction h : xs.length using Nat.strong_induction_on generalizing xs with
  | _ n ih =>
    by_cases hx : xs = []
    · simp [hx, chunksOf_nil]
    · rw [chunksOf_cons hc hx, List.flatten_cons]
      have hl := List.length_pos_of_ne_nil hx
      rw [ih (xs.drop c).length (by rw [List.length_drop]; omega) _ rfl, List.take_append_drop]

theorem chunksOf_get {c : Nat} (hc : 0 < c) (xs : List α) (i : Nat) (y : List α)
    (h : (chunksOf c xs)[i]? = some y) :
    y = (xs.drop (i * c)).take c ∧ i * c < xs.length := by
  induction i generalizing xs with
  | zero =>
    by_cases hx : xs = []
    · rw [hx, chunksOf_nil] at h; simp at h
    · rw [chunksOf_cons hc hx] at h
      simp at h
      have := List.length_pos_of_ne_nil hx
      exact ⟨by simp [← h], by omega⟩
  | succ i ih =>
    by_cases hx : xs = []
    · rw [hx, chunksOf_nil] at h; simp at h
    · rw [chunksOf_cons hc hx, List.getElem?_cons_succ] at h
      obtain ⟨h1, h2⟩ := ih _ h
      rw [List.drop_drop] at h1
      rw [List.length_drop] at h2
      have e : (i + 1) * c = c + i * c := by ring
      exact ⟨by rw [h1, e], by rw [e]; omega⟩

theorem chunksOf_length {c : Nat} (hc : 0 < c) (xs : List α) :
    (chunksOf c xs).length = xs.length / c + (if xs.length % c = 0 then 0 else 1) := by
  induction h : xs.length using Nat.strong_induction_on generalizing xs with
  | _ n ih =>
    by_cases hx : xs = []
    · rw [hx] at h; simp at h; subst h; rw [hx, chunksOf_nil]; simp
    · rw [chunksOf_cons hc hx, List.length_cons]
      have hl := List.length_pos_of_ne_nil hx
      rw [ih (xs.drop c).length (by rw [List.length_drop]; omega) _ rfl, List.length_drop, h]
      rcases Nat.lt_or_ge n c with hlt | hge
      · have h0 : n - c = 0 := by omega
        have hn : n ≠ 0 := by omega
        rw [h0, Nat.div_eq_of_lt hlt, Nat.mod_eq_of_lt hlt, Nat.zero_div, Nat.zero_mod, if_pos rfl,
          if_neg hn]
      · obtain ⟨k, rfl⟩ := Nat.exists_eq_add_of_le hge
        rw [Nat.add_sub_cancel_left, Nat.add_div_left k hc, Nat.add_mod_left]
        omega

theorem tasks_length (c : Nat) (xs : List α) : (tasks c xs).length = (chunksOf c xs).length := by
  simp [tasks]

theorem mem_tasks {c : Nat} (hc : 0 < c) {xs : List α} {t : Nat × List α} (h : t ∈ tasks c xs) :
    t.2 = (xs.drop (t.1 * c)).take c ∧ t.1 * c < xs.length := by
  unfold tasks at h
  rw [List.mem_map] at h
  obtain ⟨⟨y, i⟩, hp, rfl⟩ := h
  rw [List.mem_zipIdx_iff_getElem?] at hp
  exact chunksOf_get hc xs i y hp

theorem tasks_index {c : Nat} (xs : List α) (i : Nat) (h : i < (chunksOf c xs).length) :
    ∃ t ∈ tasks c xs, t.1 = i := by
  refine ⟨(i, (chunksOf c xs)[i]), ?_, rfl⟩
  unfold tasks
  rw [List.mem_map]
  refine ⟨((chunksOf c xs)[i], i), ?_, rfl⟩
  rw [List.mem_zipIdx_iff_getElem?]
  exact List.getElem?_eq_getElem h

theorem tasks_snd (c : Nat) (xs : List α) : (tasks c xs).map Prod.snd = chunksOf c xs := by
  unfold tasks
  rw [List.map_map]
  have : (Prod.snd ∘ fun p : List α × Nat => (p.2, p.1)) = Prod.fst := rfl
  rw [this]
  simp

theorem tasks_nodup (c : Nat) (xs : List α) : ((tasks c xs).map Prod.fst).Nodup := by
  unfold tasks
  rw [List.map_map]
  have : (Prod.fst ∘ fun p : List α × Nat => (p.2, p.1)) = Prod.snd := rfl
  rw [this, List.zipIdx_map_snd]
  exact List.nodup_range'

/-! ## runChunk -/

theorem runChunk_ok {f : α → Except PyErr β} {xs : List α} {ys : List β}
    (h : runChunk f xs = .ok ys) : ∀ i : Nat, (xs[i]?).map f = (ys[i]?).map Except.ok := by
  unfold runChunk at h
  induction xs generalizing ys with
  | nil =>
    simp [List.mapM_nil, pure, Except.pure] at h
    subst h; simp
  | cons x xs ih =>
    rw [List.mapM_cons] at h
    cases hx : f x with
    | error e => rw [hx] at h; simp [bind, Except.bind] at h
    | ok y =>
      rw [hx] at h
      cases hxs : xs.mapM f with
      | error e => rw [hxs] at h; simp [bind, Except.bind] at h
      | ok zs =>
        rw [hxs] at h
        simp [bind, Except.bind, pure, Except.pure] at h
        subst h
        intro i
        cases i with
        | zero => simp [hx]
        | succ i => simpa using ih hxs i

theorem runChunk_length {f : α → Except PyErr β} {xs : List α} {ys : List β}
    (h : runChunk f xs = .ok ys) : ys.length = xs.length := by
  have := runChunk_ok h
  apply le_antisymm
  · by_contra hc
    have := this xs.length
    rw [List.getElem?_eq_none (le_refl _), List.getElem?_eq_getElem (by omega)] at this
    simp at this
  · by_contra hc
    have := this ys.length
    rw [List.getElem?_eq_none (le_refl ys.length), List.getElem?_eq_getElem (by omega)] at this
    simp at this

theorem runChunk_of_ok {f : α → Except PyErr β} {g : α → β} {xs : List α}
    (h : ∀ x ∈ xs, f x = .ok (g x)) : runChunk f xs = .ok (xs.map g) := by
  unfold runChunk
  induction xs with
  | nil => rfl
  | cons x xs ih =>
    rw [List.mapM_cons, h x (by simp), ih (fun y hy => h y (by simp [hy]))]
    rfl

/-- an error comes from the first input that raises -/
theorem runChunk_error {f : α → Except PyErr β} {xs : List α} {e : PyErr}
    (h : runChunk f xs = .error e) :
    ∃ (i : Nat) (x : α), xs[i]? = some x ∧ f x = .error e ∧
      ∀ (j : Nat) (y : α), j < i → xs[j]? = some y → ∃ b, f y = .ok b := by
  unfold runChunk at h
  induction xs with
  | nil => simp [List.mapM_nil, pure, Except.pure] at h
  | cons x xs ih =>
    rw [List.mapM_cons] at h
    cases hx : f x with
    | error e' =>
      rw [hx] at h; simp [bind, Except.bind] at h
      subst h
      exact ⟨0, x, rfl, hx, fun j y hj => by omega⟩
    | ok y =>
      rw [hx] at h
      cases hxs : xs.mapM f with
      | ok zs => rw [hxs] at h; simp [bind, Except.bind, pure, Except.pure] at h
      | error e' =>
        rw [hxs] at h; simp [bind, Except.bind] at h
        subst h
        obtain ⟨i, x', h1, h2, h3⟩ := ih hxs
        refine ⟨i + 1, x', by simpa using h1, h2, ?_⟩
        intro j y' hj hy'
        cases j with
        | zero => simp at hy'; subst hy'; exact ⟨y, hx⟩
        | succ j => exact h3 j y' (by omega) (by simpa using hy')

theorem evaluated_of_ok {f : α → Except PyErr β} {xs : List α}
    (h : ∀ x ∈ xs, ∃ y, f x = .ok y) : evaluated f xs = xs := by
  induction xs with
  | nil => rfl
  | cons x xs ih =>
    obtain ⟨y, hy⟩ := h x (by simp)
    rw [evaluated, hy]
    simp [ih (fun z hz => h z (by simp [hz]))]

theorem evaluated_sublist {f : α → Except PyErr β} (xs : List α) :
    (evaluated f xs).Sublist xs := by
  induction xs with
  | nil => simp [evaluated]
  | cons x xs ih =>
    rw [evaluated]
    cases f x with
    | ok y => simpa using ih
    | error e => simp

/-! ## invariant -/

/-- invariant of all reachable states -/
structure Inv (c : Nat) (f : α → Except PyErr β) (inputs : List α) (s : State α β)
    (outT handled : List (Nat × List α)) : Prop where
  perm : (s.lost ++ (s.pending ++ s.running ++ outT ++ handled)).Perm (tasks c inputs)
  outq : s.outq = outT.map (fun t => (t.1, runChunk f t.2))
  left : s.left + handled.length = (tasks c inputs).length
  len : s.value.length = inputs.length
  ok : s.failure = none → ∀ t ∈ handled, ∃ ys, runChunk f t.2 = .ok ys
  val : s.failure = none → ∀ t ∈ handled, ∀ p, p / c = t.1 → p < inputs.length →
    ∃ y, s.value[p]? = some (some y) ∧ (inputs[p]?).map f = some (.ok y)
  fail : ∀ e, s.failure = some e → ∃ t ∈ handled, runChunk f t.2 = .error e
  log : s.lost = [] → s.log.Perm ((outT ++ handled).flatMap (fun t => evaluated f t.2))

theorem chunksize_pos {n nproc : Nat} (hn : 0 < nproc) (hl : 0 < n) : 0 < chunksize n nproc := by
  unfold chunksize
  by_cases h : n % (nproc * 4) = 0
  · rw [if_pos h]
    have := Nat.div_pos (Nat.le_of_dvd hl (Nat.dvd_of_mod_eq_zero h)) (by omega : 0 < nproc * 4)
    omega
  · rw [if_neg h]; exact Nat.succ_pos _

theorem inv_init {nproc : Nat} (hn : 0 < nproc) (f : α → Except PyErr β) (inputs : List α) :
    Inv (chunksize inputs.length nproc) f inputs (init nproc inputs) [] [] := by
  refine ⟨by simp [init], by simp [init], ?_, by simp [init], by simp, by simp, by simp [init],
    by simp [init]⟩
  simp only [init, List.length_nil, Nat.add_zero, tasks_length]
  by_cases hi : inputs = []
  · subst hi; simp [chunksize, chunksOf_nil]
  · have hl := List.length_pos_of_ne_nil hi
    have hc := chunksize_pos hn hl
    rw [if_neg hc.ne', chunksOf_length hc]

/-- slice assignment of one chunk -/
theorem slice_get {c i : Nat} {v : List (Option β)} {ys : List β} {n : Nat}
    (hv : v.length = n) (hi : i * c < n) (hy : ys.length = min c (n - i * c)) :
    (v.take (i * c) ++ ys.map some ++ v.drop ((i + 1) * c)).length = n ∧
    (∀ p, i * c ≤ p → p < (i + 1) * c → p < n →
      (v.take (i * c) ++ ys.map some ++ v.drop ((i + 1) * c))[p]? = (ys[p - i * c]?).map some) ∧
    (∀ p, (p < i * c ∨ (i + 1) * c ≤ p) →
      (v.take (i * c) ++ ys.map some ++ v.drop ((i + 1) * c))[p]? = v[p]?) := by
  have e : (i + 1) * c = i * c + c := by ring
  have lt : (v.take (i * c)).length = i * c := by rw [List.length_take]; omega
  have ly : (ys.map some).length = min c (n - i * c) := by simp [hy]
  refine ⟨?_, ?_, ?_⟩
  · rw [List.length_append, List.length_append, lt, ly, List.length_drop, e]; omega
  · intro p h1 h2 h3
    rw [List.append_assoc, List.getElem?_append_right (by omega), lt,
      List.getElem?_append_left (by rw [ly]; omega), List.getElem?_map]
  · intro p h
    rcases h with h | h
    · rw [List.append_assoc, List.getElem?_append_left (by omega), List.getElem?_take_of_lt h]
    · by_cases hp : p < n
      · rw [List.getElem?_append_right (by rw [List.length_append, lt, ly]; omega),
          List.length_append, lt, ly, List.getElem?_drop]
        congr 1; omega
      · rw [List.getElem?_eq_none (by
          rw [List.length_append, List.length_append, lt, ly, List.length_drop]; omega),
          List.getElem?_eq_none (by omega)]

theorem inv_step {nproc c : Nat} (hc : 0 < c) {f : α → Except PyErr β} {inputs : List α}
    {s s' : State α β} {outT handled : List (Nat × List α)} (h : Inv c f inputs s outT handled)
    (hs : Step nproc c f s s') : ∃ outT' handled', Inv c f inputs s' outT' handled' := by
  cases hs with
  | take t ts hp hr =>
    refine ⟨outT, handled, ⟨?_, h.outq, h.left, h.len, h.ok, h.val, h.fail, h.log⟩⟩
    refine List.Perm.trans ?_ h.perm
    simp only [hp]
    apply List.Perm.append_left
    have : (ts ++ (s.running ++ [t])).Perm (t :: ts ++ s.running) := by
      rw [← List.append_assoc]
      exact (List.perm_append_singleton t (ts ++ s.running)).trans (by simp)
    exact (this.append_right _).append_right _
  | finish a b t hr =>
    refine ⟨outT ++ [t], handled, ⟨?_, ?_, h.left, h.len, h.ok, h.val, h.fail, ?_⟩⟩
    · refine List.Perm.trans ?_ h.perm
      simp only [hr]
      apply List.Perm.append_left
      apply List.Perm.append_right
      simp only [List.append_assoc]
      apply List.Perm.append_left
      apply List.Perm.append_left
      have : (b ++ (outT ++ [t])).Perm (t :: (b ++ outT)) := by
        rw [← List.append_assoc]; exact List.perm_append_singleton _ _
      simpa using this
    · simp [h.outq]
    · intro h0
      simp only [List.append_assoc, List.flatMap_append]
      refine ((h.log h0).append_right _).trans ?_
      simp only [List.flatMap_append, List.append_assoc, List.flatMap_cons, List.flatMap_nil,
        List.append_nil]
      exact List.Perm.append_left _ List.perm_append_comm
  | die a b t k hr =>
    refine ⟨outT, handled, ⟨?_, h.outq, h.left, h.len, h.ok, h.val, h.fail, fun h0 => by simp at h0⟩⟩
    refine List.Perm.trans ?_ h.perm
    simp only [hr, List.append_assoc]
    apply List.Perm.append_left
    simp only [List.cons_append, List.nil_append]
    rw [← List.append_assoc, ← List.append_assoc s.pending a (t :: _)]
    exact (List.perm_middle).symm
  | handle i r q ho =>
    -- the queue entry belongs to the first task of `outT`
    have hq := h.outq
    rw [ho] at hq
    obtain ⟨t, outT', rfl⟩ : ∃ t ts, outT = t :: ts := by
      cases outT with
      | nil => simp at hq
      | cons t ts => exact ⟨t, ts, rfl⟩
    simp only [List.map_cons, List.cons.injEq, Prod.mk.injEq] at hq
    obtain ⟨⟨hi, hr⟩, hq'⟩ := hq
    have hmem : t ∈ tasks c inputs := h.perm.mem_iff.1 (by simp)
    obtain ⟨ht2, hti⟩ := mem_tasks hc hmem
    have hlt : 0 < s.left := by
      have hl := h.perm.length_eq
      have h2 := h.left
      simp only [List.length_append, List.length_cons] at hl
      omega
    have hperm : (s.lost ++ (s.pending ++ s.running ++ outT' ++ (t :: handled))).Perm
        (tasks c inputs) := by
      refine List.Perm.trans ?_ h.perm
      apply List.Perm.append_left
      simp only [List.append_assoc, List.cons_append]
      apply List.Perm.append_left
      apply List.Perm.append_left
      exact List.perm_middle
    have hlog : s.lost = [] →
        s.log.Perm ((outT' ++ t :: handled).flatMap (fun t => evaluated f t.2)) := by
      intro h0
      refine (h.log h0).trans ?_
      exact (List.Perm.flatMap_right _ (by
        rw [List.cons_append]; exact (List.perm_middle).symm))
    refine ⟨outT', t :: handled, ?_⟩
    cases hf : s.failure with
    | some e =>
      unfold setResult
      simp only
      refine ⟨hperm, hq', ?_, h.len, by simp, by simp, ?_, hlog⟩
      · simp only [List.length_cons]
        have := h.left; omega
      · intro e' he'
        obtain ⟨t', h1, h2⟩ := h.fail e' (hf.trans he')
        exact ⟨t', by simp [h1], h2⟩
    | none =>
      cases r with
      | error e =>
        unfold setResult
        simp only
        refine ⟨hperm, hq', ?_, h.len, by simp, by simp, ?_, hlog⟩
        · simp only [List.length_cons]
          have := h.left; omega
        · intro e' he'
          simp at he'
          subst he'
          exact ⟨t, by simp, hr.symm⟩
      | ok ys =>
        unfold setResult
        simp only
        have hly := runChunk_length hr.symm
        have hly' : ys.length = min c (inputs.length - i * c) := by
          rw [hly, ht2, List.length_take, List.length_drop, hi]
        obtain ⟨s1, s2, s3⟩ := slice_get h.len (by rw [hi]; exact hti) hly'
        refine ⟨hperm, hq', ?_, s1, ?_, ?_, by simp, hlog⟩
        · simp only [List.length_cons]
          have := h.left; omega
        · intro _ t' ht'
          rcases List.mem_cons.1 ht' with rfl | ht'
          · exact ⟨ys, hr.symm⟩
          · exact h.ok hf t' ht'
        · intro _ t' ht' p hp hpn
          by_cases hpi : p / c = i
          · have hb1 : i * c ≤ p := by rw [← hpi]; exact Nat.div_mul_le_self p c
            have hb2 : p < (i + 1) * c := by
              rw [← hpi]
              have := Nat.lt_div_mul_add hc (a := p)
              have e : (p / c + 1) * c = p / c * c + c := by ring
              omega
            have e : (i + 1) * c = i * c + c := by ring
            simp only
            rw [s2 p hb1 hb2 hpn]
            have hk : p - i * c < ys.length := by rw [hly']; omega
            refine ⟨ys[p - i * c], by rw [List.getElem?_eq_getElem hk]; rfl, ?_⟩
            have := runChunk_ok hr.symm (p - i * c)
            rw [ht2, List.getElem?_take_of_lt (by omega), List.getElem?_drop, ← hi,
              show i * c + (p - i * c) = p by omega, List.getElem?_eq_getElem hk] at this
            simpa using this
          · rcases List.mem_cons.1 ht' with rfl | ht'
            · exact absurd (hp.trans hi.symm) hpi
            · have hout : p < i * c ∨ (i + 1) * c ≤ p := by
                by_contra hcon
                push Not at hcon
                apply hpi
                have e : (i + 1) * c = c * i + c := by ring
                rw [Nat.div_eq_iff hc]
                constructor
                · have := hcon.1; rw [Nat.mul_comm] at this; rw [Nat.mul_comm]; exact this
                · have := hcon.2; rw [e] at this
                  have e2 : i * c = c * i := Nat.mul_comm _ _
                  omega
              simp only
              rw [s3 p hout]
              exact h.val hf t' ht' p hp hpn

theorem inv_reach {nproc : Nat} (hn : 0 < nproc) {f : α → Except PyErr β} {inputs : List α}
    (hi : inputs ≠ []) {s : State α β}
    (hr : Reach nproc (chunksize inputs.length nproc) f (init nproc inputs) s) :
    ∃ outT handled, Inv (chunksize inputs.length nproc) f inputs s outT handled := by
  induction hr with
  | refl => exact ⟨[], [], inv_init hn f inputs⟩
  | step _ hs ih =>
    obtain ⟨o, h, hI⟩ := ih
    exact inv_step (chunksize_pos hn (List.length_pos_of_ne_nil hi)) hI hs

end Rfsed.Pool
