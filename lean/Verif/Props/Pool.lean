import Verif.Proofs.Pool

/-!
# C46: parallel maps (`multiprocessing.Pool.map`)
-/

namespace Rfsed.Props
open Rfsed Rfsed.Pool
variable {α β : Type}

/-- what is known when all chunks have been handled -/
theorem pool_done {nproc : Nat} (hn : 0 < nproc) {f : α → Except PyErr β} {inputs : List α}
    {s : State α β} (hr : Reach nproc (chunksize inputs.length nproc) f (init nproc inputs) s)
    (hl : s.left = 0) :
    (s.failure = none → s.value.length = inputs.length ∧
      ∀ p < inputs.length, ∃ y, s.value[p]? = some (some y) ∧ (inputs[p]?).map f = some (.ok y)) ∧
    (∀ e, s.failure = some e → ∃ t ∈ tasks (chunksize inputs.length nproc) inputs,
      runChunk f t.2 = .error e) ∧
    (s.failure = none → ∀ t ∈ tasks (chunksize inputs.length nproc) inputs,
      ∃ ys, runChunk f t.2 = .ok ys) ∧
    s.log.Perm ((chunksOf (chunksize inputs.length nproc) inputs).flatMap (evaluated f)) := by
  by_cases hi : inputs = []
  · subst hi
    have hc : chunksize ([] : List α).length nproc = 0 := by simp [chunksize]
    rw [hc] at hr
    -- no tasks, so no step is possible
    have hs : s = init nproc [] := by
      clear hl
      induction hr with
      | refl => rfl
      | step _ hs ih =>
        subst ih
        cases hs with
        | take t ts hp => simp [init, tasks, chunksOf_nil] at hp
        | finish a b t hr => simp [init] at hr
        | die a b t k hr => simp [init] at hr
        | handle i r q ho => simp [init] at ho
    subst hs
    simp [init, tasks, chunksOf_nil]
  · set c := chunksize inputs.length nproc with hc
    have hcp : 0 < c := chunksize_pos hn (List.length_pos_of_ne_nil hi)
    obtain ⟨outT, handled, hI⟩ := inv_reach hn hi hr
    have hlen := hI.perm.length_eq
    have hleft := hI.left
    rw [hl, Nat.zero_add] at hleft
    simp only [List.length_append] at hlen
    have hout : outT = [] := List.length_eq_zero_iff.1 (by omega)
    have hpen : s.pending = [] := List.length_eq_zero_iff.1 (by omega)
    have hrun : s.running = [] := List.length_eq_zero_iff.1 (by omega)
    have hlost : s.lost = [] := List.length_eq_zero_iff.1 (by omega)
    have hperm : handled.Perm (tasks c inputs) := by
      have := hI.perm
      rw [hout, hpen, hrun, hlost] at this
      simpa using this
    refine ⟨fun hf => ⟨hI.len, fun p hp => ?_⟩, fun e he => ?_, fun hf t ht => ?_, ?_⟩
    · have : p / c < (chunksOf c inputs).length := by
        rw [chunksOf_length hcp]
        have h1 : p / c ≤ inputs.length / c := Nat.div_le_div_right hp.le
        by_cases hm : inputs.length % c = 0
        · rw [if_pos hm, Nat.add_zero]
          rw [Nat.div_lt_iff_lt_mul hcp, Nat.div_mul_cancel (Nat.dvd_of_mod_eq_zero hm)]
          exact hp
        · rw [if_neg hm]; omega
      obtain ⟨t, ht, hti⟩ := tasks_index inputs (p / c) this
      exact hI.val hf t (hperm.mem_iff.2 ht) p hti.symm hp
    · obtain ⟨t, ht, h⟩ := hI.fail e he
      exact ⟨t, hperm.mem_iff.1 ht, h⟩
    · exact hI.ok hf t (hperm.mem_iff.2 ht)
    · have := hI.log hlost
      rw [hout, List.nil_append] at this
      refine this.trans ((hperm.flatMap_right _).trans ?_)
      rw [← tasks_snd c inputs, List.flatMap_map]

/-- **C46**: for every number of worker processes and every schedule, if no evaluation raises the
parallel map returns exactly `[f(x) for x in inputs]`, in input order and without gaps, and has
evaluated every input exactly once. -/
theorem c46_results_in_order {nproc : Nat} {f : α → Except PyErr β} {g : α → β} {inputs : List α}
    {out : Except PyErr (List (Option β))} {log : List α} (hn : 0 < nproc)
    (h : MapsTo nproc f inputs out log) (hf : ∀ x ∈ inputs, f x = .ok (g x)) :
    out = .ok (inputs.map (fun x => some (g x))) ∧ log.Perm inputs := by
  rcases h with ⟨h0, _⟩ | ⟨_, s, hr, hl, rfl, rfl⟩
  · omega
  obtain ⟨h1, h2, h3, h4⟩ := pool_done hn hr hl
  have hi0 : ∀ t ∈ tasks (chunksize inputs.length nproc) inputs, ∀ x ∈ t.2, x ∈ inputs := by
    intro t ht x hx
    by_cases hi : inputs = []
    · subst hi; simp [tasks, chunksOf_nil] at ht
    · have := (mem_tasks (chunksize_pos hn (List.length_pos_of_ne_nil hi)) ht).1
      rw [this] at hx
      exact List.mem_of_mem_drop (List.mem_of_mem_take hx)
  have hfail : s.failure = none := by
    cases hF : s.failure with
    | none => rfl
    | some e =>
      obtain ⟨t, ht, he⟩ := h2 e hF
      rw [runChunk_of_ok (fun x hx => hf x (hi0 t ht x hx))] at he
      cases he
  refine ⟨?_, ?_⟩
  · obtain ⟨hlen, hval⟩ := h1 hfail
    unfold outcome
    rw [hfail]
    simp only [Except.ok.injEq]
    apply List.ext_getElem?
    intro p
    by_cases hp : p < inputs.length
    · obtain ⟨y, hy1, hy2⟩ := hval p hp
      rw [hy1, List.getElem?_map]
      rw [List.getElem?_eq_getElem hp] at hy2 ⊢
      simp only [Option.map_some, Option.some.injEq] at hy2 ⊢
      rw [hf _ (List.getElem_mem hp)] at hy2
      exact (Except.ok.inj hy2).symm
    · rw [List.getElem?_eq_none (by omega), List.getElem?_eq_none (by simpa using hp)]
  · refine h4.trans ?_
    by_cases hi : inputs = []
    · subst hi; simp [chunksOf_nil]
    · have hcp := chunksize_pos hn (List.length_pos_of_ne_nil hi)
      have : (chunksOf (chunksize inputs.length nproc) inputs).flatMap (evaluated f) =
          (chunksOf (chunksize inputs.length nproc) inputs).flatten := by
        rw [List.flatten_eq_flatMap]
        apply List.flatMap_congr
        intro xs hxs
        apply evaluated_of_ok
        intro x hx
        refine ⟨g x, hf x ?_⟩
        have hmem : x ∈ (chunksOf (chunksize inputs.length nproc) inputs).flatten :=
          List.mem_flatten.2 ⟨xs, hxs, hx⟩
        rwa [chunksOf_flatten hcp] at hmem
      rw [this, chunksOf_flatten hcp]

/-- **C46**: if some evaluation raises, the parallel map raises an exception that one of the
evaluations raised (which one may depend on the schedule), never returns a partial list, and
still evaluates no input more often than it occurs. -/
theorem c46_raises {nproc : Nat} {f : α → Except PyErr β} {inputs : List α}
    {out : Except PyErr (List (Option β))} {log : List α} (hn : 0 < nproc)
    (h : MapsTo nproc f inputs out log) (hf : ∃ x ∈ inputs, ∃ e, f x = .error e) :
    (∃ e, out = .error e ∧ ∃ x ∈ inputs, f x = .error e) ∧ log.Subperm inputs := by
  rcases h with ⟨h0, _⟩ | ⟨_, s, hr, hl, rfl, rfl⟩
  · omega
  obtain ⟨h1, h2, h3, h4⟩ := pool_done hn hr hl
  obtain ⟨x, hx, e, he⟩ := hf
  have hi : inputs ≠ [] := by rintro rfl; simp at hx
  have hcp := chunksize_pos hn (List.length_pos_of_ne_nil hi)
  refine ⟨?_, ?_⟩
  · cases hF : s.failure with
    | none =>
      exfalso
      obtain ⟨_, hval⟩ := h1 hF
      obtain ⟨p, hp, hpx⟩ := List.getElem_of_mem hx
      obtain ⟨y, _, hy⟩ := hval p hp
      rw [List.getElem?_eq_getElem hp, hpx] at hy
      simp [he] at hy
    | some e' =>
      refine ⟨e', by simp [outcome, hF], ?_⟩
      obtain ⟨t, ht, hte⟩ := h2 e' hF
      obtain ⟨i, x', hx', hfx, _⟩ := runChunk_error hte
      refine ⟨x', ?_, hfx⟩
      have := (mem_tasks hcp ht).1
      have hm := List.mem_of_getElem? hx'
      rw [this] at hm
      exact List.mem_of_mem_drop (List.mem_of_mem_take hm)
  · have hsub : ∀ L : List (List α), (L.flatMap (evaluated f)).Sublist L.flatten := by
      intro L
      induction L with
      | nil => simp
      | cons a L ih =>
        rw [List.flatMap_cons, List.flatten_cons]
        exact (evaluated_sublist a).append ih
    have := hsub (chunksOf (chunksize inputs.length nproc) inputs)
    rw [chunksOf_flatten hcp] at this
    exact h4.subperm.trans this.subperm

/-- **C46**: zero worker processes are rejected. -/
theorem c46_no_workers {f : α → Except PyErr β} {inputs : List α}
    {out : Except PyErr (List (Option β))} {log : List α} (h : MapsTo 0 f inputs out log) :
    out = .error .valueError ∧ log = [] := by
  rcases h with ⟨_, h1, h2⟩ | ⟨h0, _⟩
  · exact ⟨h1, h2⟩
  · omega

/-- `k` steps of the pool -/
inductive Run (nproc c : Nat) (f : α → Except PyErr β) (s0 : State α β) :
    Nat → State α β → Prop where
  | zero : Run nproc c f s0 0 s0
  | succ {k : Nat} {s s' : State α β} : Run nproc c f s0 k s → Step nproc c f s s' →
      Run nproc c f s0 (k + 1) s'

theorem run_reach {nproc c : Nat} {f : α → Except PyErr β} {s0 s : State α β} {k : Nat}
    (h : Run nproc c f s0 k s) : Reach nproc c f s0 s := by
  induction h with
  | zero => exact .refl
  | succ _ hs ih => exact .step ih hs

/-- remaining work -/
def work (s : State α β) : Nat :=
  3 * s.pending.length + 2 * s.running.length + s.outq.length

theorem step_work {nproc c : Nat} {f : α → Except PyErr β} {s s' : State α β}
    (h : Step nproc c f s s') : work s' + 1 ≤ work s := by
  cases h with
  | take t ts hp hr => simp only [work, hp, List.length_append, List.length_cons]; simp; omega
  | finish a b t hr => simp only [work, hr, List.length_append, List.length_cons]; simp; omega
  | die a b t k hr => simp only [work, hr, List.length_append, List.length_cons]; omega
  | handle i r q ho =>
    have : work (setResult c { s with outq := q } i r) = work { s with outq := q } := by
      unfold setResult
      split <;> rfl
    rw [this]
    simp only [work, ho, List.length_cons]; omega

theorem setResult_lost (c : Nat) (s : State α β) (i : Nat) (r : Except PyErr (List β)) :
    (setResult c s i r).lost = s.lost := by
  unfold setResult
  split <;> rfl

/-- **C46**: every schedule ends: it has at most three steps per chunk, and as long as the map
has not finished and no worker that held a chunk was killed, some process can make a step (other than
being killed). -/
theorem c46_terminates {nproc : Nat} {f : α → Except PyErr β} {inputs : List α} (hn : 0 < nproc)
    {k : Nat} {s : State α β}
    (h : Run nproc (chunksize inputs.length nproc) f (init nproc inputs) k s) :
    k ≤ 3 * (tasks (chunksize inputs.length nproc) inputs).length ∧
    (s.lost = [] → s.left = 0 ∨ ∃ s', Step nproc (chunksize inputs.length nproc) f s s' ∧ s'.lost = []) := by
  refine ⟨?_, ?_⟩
  · have : work s + k ≤ work (init nproc inputs : State α β) := by
      induction h with
      | zero => exact le_refl _
      | succ _ hs ih => have := step_work hs; omega
    have e : work (init nproc inputs : State α β) =
        3 * (tasks (chunksize inputs.length nproc) inputs).length := by simp [work, init]
    omega
  · intro hlost
    by_cases hi : inputs = []
    · left
      have hr := run_reach h
      subst hi
      have hs : s = init nproc [] := by
        clear h hlost
        induction hr with
        | refl => rfl
        | step _ hs ih =>
          subst ih
          cases hs with
          | take t ts hp => simp [init, tasks, chunksOf_nil] at hp
          | finish a b t hr => simp [init] at hr
          | die a b t k hr => simp [init] at hr
          | handle i r q ho => simp [init] at ho
      subst hs
      simp [init, chunksize]
    · obtain ⟨outT, handled, hI⟩ := inv_reach hn hi (run_reach h)
      by_cases ho : s.outq = []
      · cases hru : s.running with
        | cons t b => exact Or.inr ⟨_, Step.finish s [] b t (by simpa using hru), hlost⟩
        | nil =>
          cases hp : s.pending with
          | cons t ts => exact Or.inr ⟨_, Step.take s t ts hp (by rw [hru]; simpa using hn), hlost⟩
          | nil =>
            left
            have hl := hI.perm.length_eq
            have h2 := hI.left
            have : outT = [] := by
              have := hI.outq; rw [ho] at this; simpa using this.symm
            rw [hp, hru, this, hlost] at hl
            simp at hl
            omega
      · cases hq : s.outq with
        | nil => exact absurd hq ho
        | cons x q => exact Or.inr ⟨_, Step.handle s x.1 x.2 q hq, by rw [setResult_lost]; exact hlost⟩

/-- **C46**: so the map always has an outcome. -/
theorem c46_has_outcome (nproc : Nat) (f : α → Except PyErr β) (inputs : List α) :
    ∃ out log, MapsTo nproc f inputs out log := by
  by_cases hn : nproc = 0
  · exact ⟨_, _, Or.inl ⟨hn, rfl, rfl⟩⟩
  have hn : 0 < nproc := Nat.pos_of_ne_zero hn
  suffices h : ∀ w : Nat, ∀ (k : Nat) (s : State α β),
      Run nproc (chunksize inputs.length nproc) f (init nproc inputs) k s → s.lost = [] → work s = w →
      ∃ s', Reach nproc (chunksize inputs.length nproc) f (init nproc inputs) s' ∧ s'.left = 0 by
    obtain ⟨s', h1, h2⟩ := h _ 0 _ Run.zero rfl rfl
    exact ⟨_, _, Or.inr ⟨hn, s', h1, h2, rfl, rfl⟩⟩
  intro w
  induction w using Nat.strong_induction_on with
  | _ w ih =>
    intro k s hr h0 hw
    rcases (c46_terminates hn hr).2 h0 with h | ⟨s', hs, h0'⟩
    · exact ⟨s, run_reach hr, h⟩
    · have := step_work hs
      exact ih (work s') (by omega) (k + 1) s' (.succ hr hs) h0' rfl

/-! ## C109: workers that are killed -/

/-- the chunks that are still somewhere, and those that are not, are all accounted for -/
theorem pool_count {nproc : Nat} (hn : 0 < nproc) {f : α → Except PyErr β} {inputs : List α}
    {s : State α β} (hr : Reach nproc (chunksize inputs.length nproc) f (init nproc inputs) s) :
    s.left = s.lost.length + s.pending.length + s.running.length + s.outq.length := by
  by_cases hi : inputs = []
  · subst hi
    have hs : s = init nproc [] := by
      induction hr with
      | refl => rfl
      | step _ hs ih =>
        subst ih
        cases hs with
        | take t ts hp => simp [init, tasks, chunksOf_nil] at hp
        | finish a b t hr => simp [init] at hr
        | die a b t k hr => simp [init] at hr
        | handle i r q ho => simp [init] at ho
    subst hs
    simp [init, chunksize, tasks, chunksOf_nil]
  · obtain ⟨outT, handled, hI⟩ := inv_reach hn hi hr
    have h1 := hI.perm.length_eq
    have h2 := hI.left
    have h3 := congrArg List.length hI.outq
    simp only [List.length_append, List.length_map] at h1 h3
    omega

theorem lost_grows {nproc c : Nat} {f : α → Except PyErr β} {s s' : State α β}
    (h : Reach nproc c f s s') : s.lost.length ≤ s'.lost.length := by
  induction h with
  | refl => exact le_refl _
  | step _ hs ih =>
    refine ih.trans ?_
    cases hs with
    | take t ts hp hr => exact le_refl _
    | finish a b t hr => exact le_refl _
    | die a b t k hr => simp
    | handle i r q ho => rw [setResult_lost]

theorem reach_trans {nproc c : Nat} {f : α → Except PyErr β} {s0 s s' : State α β}
    (h : Reach nproc c f s0 s) (h' : Reach nproc c f s s') : Reach nproc c f s0 s' := by
  induction h' with
  | refl => exact h
  | step _ hs ih => exact .step ih hs

/-- **C109**: a map during which a worker was killed while it held a chunk never returns, whatever the
other processes do: nobody gets a result with a hole. -/
theorem c109_never_returns {nproc : Nat} (hn : 0 < nproc) {f : α → Except PyErr β} {inputs : List α}
    {s s' : State α β} (hr : Reach nproc (chunksize inputs.length nproc) f (init nproc inputs) s)
    (hk : s.lost ≠ []) (h : Reach nproc (chunksize inputs.length nproc) f s s') : s'.left ≠ 0 := by
  have h1 := pool_count hn (reach_trans hr h)
  have h2 := lost_grows h
  have h3 := List.length_pos_of_ne_nil hk
  omega

/-- **C109**: and it stops for ever: after at most three steps per chunk nothing more can happen,
although the map is waiting. -/
theorem c109_waits {nproc : Nat} (hn : 0 < nproc) {f : α → Except PyErr β} {inputs : List α}
    {s : State α β} (hr : Reach nproc (chunksize inputs.length nproc) f (init nproc inputs) s)
    (hk : s.lost ≠ []) :
    ∃ s', Reach nproc (chunksize inputs.length nproc) f s s' ∧ s'.left ≠ 0 ∧
      ∀ s'', ¬ Step nproc (chunksize inputs.length nproc) f s' s'' := by
  suffices h : ∀ w : Nat, ∀ s' : State α β, Reach nproc (chunksize inputs.length nproc) f s s' →
      work s' = w → ∃ s'', Reach nproc (chunksize inputs.length nproc) f s s'' ∧
        ∀ x, ¬ Step nproc (chunksize inputs.length nproc) f s'' x by
    obtain ⟨s', h1, h2⟩ := h _ s .refl rfl
    exact ⟨s', h1, c109_never_returns hn hr hk h1, h2⟩
  intro w
  induction w using Nat.strong_induction_on with
  | _ w ih =>
    intro s' h hw
    by_cases hx : ∃ x, Step nproc (chunksize inputs.length nproc) f s' x
    · obtain ⟨x, hx⟩ := hx
      have := step_work hx
      exact ih (work x) (by omega) x (.step h hx) rfl
    · exact ⟨s', h, fun x hs => hx ⟨x, hs⟩⟩

/-- **C109**: conversely, a map that has returned has lost nothing, and every chunk was stored. -/
theorem c109_returned {nproc : Nat} (hn : 0 < nproc) {f : α → Except PyErr β} {inputs : List α}
    {s : State α β} (hr : Reach nproc (chunksize inputs.length nproc) f (init nproc inputs) s) :
    s.left = 0 ↔ s.lost = [] ∧ s.pending = [] ∧ s.running = [] ∧ s.outq = [] := by
  have h1 := pool_count hn hr
  simp only [← List.length_eq_zero_iff]
  omega

/-- a worker can be killed -/
example : ∃ s : State Nat Nat,
    Reach 2 (chunksize ([10, 20] : List Nat).length 2) (fun x => .ok (x + 1)) (init 2 [10, 20]) s ∧
    s.lost = [(0, [10])] ∧ s.pending = [(1, [20])] := by
  have h : chunksize ([10, 20] : List Nat).length 2 = 1 := by decide
  have h' : chunksize 2 2 = 1 := by decide
  rw [h]
  have ht : tasks 1 [10, 20] = [(0, [10]), (1, [20])] := by simp [tasks, chunksOf]
  refine ⟨_, .step (.step .refl (.take _ (0, [10]) [(1, [20])] ?_ ?_)) (.die _ [] [] (0, [10]) 0 ?_),
    ?_, ?_⟩
  · simp [init, h', ht]
  · simp [init]
  · simp [init]
  · simp [init]
  · rfl

/-- chunks of five inputs for one worker: 2, 2, 1 -/
example : tasks (chunksize 5 1) [10, 20, 30, 40, 50] = [(0, [10, 20]), (1, [30, 40]), (2, [50])] := by
  have h : chunksize 5 1 = 2 := by decide
  rw [h]
  simp [tasks, chunksOf]

/-- with two workers the chunks can finish out of order (hypotheses of the theorems above are
met by schedules that are not sequential) -/
example : ∃ s : State Nat Nat,
    Reach 2 (chunksize 2 2) (fun x => .ok (x + 1)) (init 2 [10, 20]) s ∧
    s.outq.map Prod.fst = [1, 0] := by
  have hc : chunksize ([10, 20] : List Nat).length 2 = 1 := by decide
  have h : chunksize 2 2 = 1 := by decide
  rw [h]
  have ht : tasks 1 [10, 20] = [(0, [10]), (1, [20])] := by simp [tasks, chunksOf]
  refine ⟨_, .step (.step (.step (.step .refl (.take _ (0, [10]) [(1, [20])] ?_ ?_))
    (.take _ (1, [20]) [] ?_ ?_)) (.finish _ [(0, [10])] [] (1, [20]) ?_))
    (.finish _ [] [] (0, [10]) ?_), ?_⟩
  · simp [init, h, ht]
  · simp [init]
  · rfl
  · simp [init]
  · simp [init]
  · simp
  · simp [init]

end Rfsed.Props
