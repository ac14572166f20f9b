import Verif.Spec.Util
import Mathlib.Data.List.Infix
import Mathlib.Tactic.Common

/-! Lemmas about the model of util.py. -/

namespace Rfsed.Util
open Spec
variable {β : Type}

theorem skipped_iff {n : String} : ".nfs".toList.isPrefixOf n.toList = true ↔ Skipped n := by
  rw [List.isPrefixOf_iff_prefix]
  constructor
  · rintro ⟨r, hr⟩
    refine ⟨String.ofList r, ?_⟩
    apply String.toList_injective
    rw [String.toList_append, ← hr]
    simp
  · rintro ⟨r, rfl⟩
    exact ⟨r.toList, by rw [String.toList_append]⟩

theorem treeAt_nil (g : SrcList β) : treeAt (.dir g) [] = some .dir := by rw [treeAt]
theorem treeAt_cons (g : SrcList β) (n : String) (r : Path) : treeAt (.dir g) (n :: r) = entryAt g n r := by
  rw [treeAt]
theorem treeAt_file (c : β) : treeAt (.file c) [] = some (.file c) := by rw [treeAt]
theorem treeAt_file_cons (c : β) (n : String) (r : Path) : treeAt (.file c) (n :: r) = none := by
  rw [treeAt]
theorem entryAt_nil (n : String) (r : Path) : entryAt (.nil : SrcList β) n r = none := by rw [entryAt]
open Classical in
theorem entryAt_cons (m : String) (t : SrcTree β) (rest : SrcList β) (n : String) (r : Path) :
    entryAt (.cons m t rest) n r = if m = n ∧ ¬ Skipped m then treeAt t r else entryAt rest n r := by
  rw [entryAt]

theorem proper_prefix {fs : FS β} (h : Proper fs) : ∀ (s p : Path), fs (p ++ s) ≠ none → s ≠ [] →
    fs p = some .dir := by
  intro s
  induction s using List.reverseRecOn with
  | nil => intro p _ h; exact absurd rfl h
  | append_singleton s n ih =>
    intro p hp _
    rw [← List.append_assoc] at hp
    have := h.2 _ _ hp
    by_cases hs : s = []
    · subst hs; simpa using this
    · exact ih p (by rw [this]; simp) hs

theorem proper_prefix' {fs : FS β} (h : Proper fs) {p q : Path} (hp : p <+: q) (hq : fs q ≠ none)
    (hne : p ≠ q) : fs p = some .dir := by
  obtain ⟨s, rfl⟩ := hp
  exact proper_prefix h s p hq (by rintro rfl; simp at hne)

/-! ### mkpath -/

theorem climb_le (fs : FS β) (p : Path) : ∀ k, climb fs p k ≤ k
  | 0 => le_rfl
  | k + 1 => by
    unfold climb
    split
    · exact le_rfl
    · exact (climb_le fs p k).trans (Nat.le_succ k)

theorem climb_isdir {fs : FS β} (h : Proper fs) (p : Path) : ∀ k, isdir fs (p.take (climb fs p k))
  | 0 => h.1
  | k + 1 => by
    unfold climb
    split
    · assumption
    · exact climb_isdir h p k

theorem climb_max (fs : FS β) (p : Path) : ∀ k j, climb fs p k < j → j ≤ k → ¬ isdir fs (p.take j)
  | 0, j => by unfold climb; omega
  | k + 1, j => by
    unfold climb
    split
    · omega
    · intro h1 h2
      rcases Nat.lt_or_ge k j with h | h
      · obtain rfl : j = k + 1 := by omega
        assumption
      · exact climb_max fs p k j h1 h

theorem take_inj {p : Path} {i j : Nat} (hi : i ≤ p.length) (hj : j ≤ p.length)
    (h : p.take i = p.take j) : i = j := by
  have := congrArg List.length h
  simp at this
  omega

theorem take_succ_dropLast {p : Path} {k : Nat} (hk : k < p.length) :
    (p.take (k + 1)).dropLast = p.take k := by
  rw [List.dropLast_eq_take, List.length_take, List.take_take]
  congr 1
  omega

theorem mkdirs_ok {p : Path} : ∀ (m k : Nat) (s : Proc β), k + m = p.length → Fresh s →
    isdir s.fs (p.take k) → (∀ j, k < j → j ≤ p.length → s.fs (p.take j) = none) →
    ∃ s', mkdirs s ((List.range m).map (fun i : Nat => p.take (k + i + 1))) = (s', .ok ()) ∧
      (∀ q, (∃ j, k < j ∧ j ≤ p.length ∧ q = p.take j) → s'.fs q = some .dir) ∧
      (∀ q, (¬ ∃ j, k < j ∧ j ≤ p.length ∧ q = p.take j) → s'.fs q = s.fs q) ∧
      (∀ q, s'.created q ↔ s.created q ∨ ∃ j, k < j ∧ j ≤ p.length ∧ q = p.take j)
  | 0, k, s, hk, _, _, _ => by
    refine ⟨s, rfl, ?_, fun _ _ => rfl, ?_⟩
    · rintro q ⟨j, h1, h2, _⟩; omega
    · intro q
      constructor
      · exact Or.inl
      · rintro (h | ⟨j, h1, h2, _⟩)
        · exact h
        · omega
  | m + 1, k, s, hk, hf, hd, hn => by
    have e : (List.range (m + 1)).map (fun i : Nat => p.take (k + i + 1)) =
        p.take (k + 1) :: (List.range m).map (fun i : Nat => p.take (k + 1 + i + 1)) := by
      rw [List.range_succ_eq_map, List.map_cons, List.map_map]
      congr 1
      apply List.map_congr_left
      intro i _
      simp only [Function.comp]
      congr 1
      omega
    rw [e]
    have hnone := hn (k + 1) (by omega) (by omega)
    have hc : ¬ s.created (p.take (k + 1)) := by
      intro h; rw [hf _ h] at hnone; cases hnone
    have hmk : mkdir s.fs (p.take (k + 1)) = .ok (s.fs.set (p.take (k + 1)) .dir) := by
      unfold mkdir
      rw [hnone]
      simp only
      rw [take_succ_dropLast (by omega), if_pos hd]
    have hset : ∀ q, q ≠ p.take (k + 1) → (s.fs.set (p.take (k + 1)) .dir) q = s.fs q := by
      intro q hq; simp [FS.set, hq]
    obtain ⟨s', h1, h2, h3, h4⟩ := mkdirs_ok (p := p) m (k + 1)
      ⟨s.fs.set (p.take (k + 1)) .dir, fun q => s.created q ∨ q = p.take (k + 1)⟩ (by omega)
      (by
        rintro q (hq | rfl)
        · simp only
          by_cases hqe : q = p.take (k + 1)
          · simp [FS.set, hqe]
          · rw [hset q hqe]; exact hf q hq
        · simp [FS.set])
      (by simp [isdir, FS.set])
      (by
        intro j j1 j2
        simp only
        rw [hset]
        · exact hn j (by omega) j2
        · intro h
          have := take_inj j2 (by omega) h
          omega)
    refine ⟨s', ?_, ?_, ?_, ?_⟩
    · rw [mkdirs, if_neg hc, hmk]
      exact h1
    · rintro q ⟨j, j1, j2, rfl⟩
      by_cases hj : j = k + 1
      · subst hj
        rw [h3]
        · simp [FS.set]
        · rintro ⟨i, i1, i2, h⟩
          have := take_inj j2 i2 h
          omega
      · exact h2 _ ⟨j, by omega, j2, rfl⟩
    · intro q hq
      rw [h3]
      · apply hset
        rintro rfl
        exact hq ⟨k + 1, by omega, by omega, rfl⟩
      · rintro ⟨j, j1, j2, rfl⟩
        exact hq ⟨j, by omega, j2, rfl⟩
    · intro q
      rw [h4]
      simp only
      constructor
      · rintro ((h | rfl) | ⟨j, j1, j2, rfl⟩)
        · exact Or.inl h
        · exact Or.inr ⟨k + 1, by omega, by omega, rfl⟩
        · exact Or.inr ⟨j, by omega, j2, rfl⟩
      · rintro (h | ⟨j, j1, j2, rfl⟩)
        · exact Or.inl (Or.inl h)
        · by_cases hj : j = k + 1
          · subst hj; exact Or.inl (Or.inr rfl)
          · exact Or.inr ⟨j, by omega, j2, rfl⟩

theorem mkpath_ok {s : Proc β} (hp : Proper s.fs) (hf : Fresh s) {p : Path}
    (hn : ∀ q c, q <+: p → s.fs q ≠ some (.file c)) :
    ∃ s', mkpath s p = (s', .ok ()) ∧
      (∀ q, q <+: p → s'.fs q = some .dir) ∧
      (∀ q, ¬ q <+: p → s'.fs q = s.fs q) ∧
      (∀ q, s'.created q ↔ s.created q ∨ (s'.fs q = some .dir ∧ s.fs q ≠ some .dir)) ∧
      Proper s'.fs ∧ Fresh s' := by
  unfold mkpath
  by_cases hd : isdir s.fs p ∨ p = []
  · rw [if_pos hd]
    have hdir : s.fs p = some .dir := by
      rcases hd with h | rfl
      · exact h
      · exact hp.1
    refine ⟨s, rfl, ?_, fun _ _ => rfl, ?_, hp, hf⟩
    · intro q hq
      by_cases h : q = p
      · rw [h]; exact hdir
      · exact proper_prefix' hp hq (by rw [hdir]; simp) h
    · intro q
      constructor
      · exact Or.inl
      · rintro (h | ⟨h1, h2⟩)
        · exact h
        · exact absurd h1 h2
  · rw [if_neg hd]
    push Not at hd
    have hc : ¬ s.created p := fun h => hd.1 (hf p h)
    rw [if_neg hc]
    set k := climb s.fs p (p.length - 1) with hk
    have hlen : 0 < p.length := List.length_pos_iff.2 hd.2
    have hkle : k ≤ p.length - 1 := climb_le _ _ _
    have hkd : isdir s.fs (p.take k) := climb_isdir hp p _
    have hnone : ∀ j, k < j → j ≤ p.length → s.fs (p.take j) = none := by
      intro j j1 j2
      have hnd : ¬ isdir s.fs (p.take j) := by
        rcases Nat.lt_or_ge (p.length - 1) j with h | h
        · obtain rfl : j = p.length := by omega
          rw [List.take_length]; exact hd.1
        · exact climb_max s.fs p _ j j1 h
      cases h : s.fs (p.take j) with
      | none => rfl
      | some x =>
        cases x with
        | dir => exact absurd h hnd
        | file c => exact absurd h (hn _ c (List.take_prefix j p))
    obtain ⟨s', h1, h2, h3, h4⟩ := mkdirs_ok (p.length - k) k s (by omega) hf hkd hnone
    have hpre : ∀ q, q <+: p ↔ (∃ j, k < j ∧ j ≤ p.length ∧ q = p.take j) ∨
        (∃ j, j ≤ k ∧ q = p.take j) := by
      intro q
      constructor
      · intro hq
        have := List.prefix_iff_eq_take.1 hq
        have hl := hq.length_le
        rcases Nat.lt_or_ge k q.length with h | h
        · exact Or.inl ⟨q.length, h, hl, this⟩
        · exact Or.inr ⟨q.length, h, this⟩
      · rintro (⟨j, -, -, rfl⟩ | ⟨j, -, rfl⟩) <;> exact List.take_prefix j p
    have hlow : ∀ j, j ≤ k → s.fs (p.take j) = some .dir := by
      intro j hj
      by_cases he : j = k
      · rw [he]; exact hkd
      · refine proper_prefix' hp (q := p.take k) ?_ (by rw [hkd]; simp) ?_
        · rw [show p.take j = (p.take k).take j by rw [List.take_take]; congr 1; omega]
          exact List.take_prefix _ _
        · intro h
          exact he (take_inj (by omega) (by omega) h)
    have hnj : ∀ j, j ≤ k → ¬ ∃ i, k < i ∧ i ≤ p.length ∧ p.take j = p.take i := by
      rintro j hj ⟨i, i1, i2, h⟩
      have := take_inj (by omega) i2 h
      omega
    have hall : ∀ q, q <+: p → s'.fs q = some .dir := by
      intro q hq
      rcases (hpre q).1 hq with h | ⟨j, hj, rfl⟩
      · exact h2 q h
      · rw [h3 _ (hnj j hj)]; exact hlow j hj
    have hoth : ∀ q, ¬ q <+: p → s'.fs q = s.fs q := by
      intro q hq
      exact h3 q (fun h => hq ((hpre q).2 (Or.inl h)))
    have hcr : ∀ q, s'.created q ↔ s.created q ∨ (s'.fs q = some .dir ∧ s.fs q ≠ some .dir) := by
      intro q
      rw [h4]
      constructor
      · rintro (h | ⟨j, j1, j2, rfl⟩)
        · exact Or.inl h
        · exact Or.inr ⟨hall _ (List.take_prefix _ _), by rw [hnone j j1 j2]; simp⟩
      · rintro (h | ⟨a, b⟩)
        · exact Or.inl h
        · right
          by_contra hno
          rw [h3 q hno] at a
          exact b a
    refine ⟨s', h1, hall, hoth, hcr, ?_, ?_⟩
    · constructor
      · exact hall [] List.nil_prefix
      · intro q n hq
        by_cases hqp : q <+: p
        · exact hall q hqp
        · have : ¬ q ++ [n] <+: p := fun h => hqp ((List.prefix_append q [n]).trans h)
          rw [hoth _ this] at hq
          rw [hoth _ hqp]
          exact hp.2 q n hq
    · intro q hq
      rcases (hcr q).1 hq with h | h
      · by_cases hqp : q <+: p
        · exact hall q hqp
        · rw [hoth q hqp]; exact hf q h
      · exact h.1

/-! ### copying -/

mutual
theorem entryAt_names {g : SrcList β} : ∀ {n : String} {r : Path}, entryAt g n r ≠ none → n ∈ names g := by
  intro n r h
  cases g with
  | nil => simp [entryAt] at h
  | cons m t rest =>
    simp only [entryAt] at h
    simp only [names, List.mem_cons]
    split at h
    · rename_i hm; exact Or.inl hm.1.symm
    · exact Or.inr (entryAt_names h)
end

/-- what copying one entry or all entries does: `at' q` is what the source has for the path `q` -/
structure Copied (s s' : Proc β) (at' : Path → Option (Node β)) : Prop where
  new : ∀ p n, at' p = some n → s'.fs p = some n
  old : ∀ p, at' p = none → s'.fs p = s.fs p
  dirs : ∀ p, s.fs p = some .dir → s'.fs p = some .dir
  created : ∀ q, s'.created q ↔ s.created q ∨ (s'.fs q = some .dir ∧ s.fs q ≠ some .dir)
  proper : Proper s'.fs
  fresh : Fresh s'

open Classical in
/-- the source below a destination -/
noncomputable def below (dst : Path) (f : Path → Option (Node β)) (p : Path) : Option (Node β) :=
  if dst <+: p then f (p.drop dst.length) else none

theorem below_append (dst r : Path) (f : Path → Option (Node β)) : below dst f (dst ++ r) = f r := by
  unfold below
  rw [if_pos (List.prefix_append dst r)]
  simp

theorem below_some {dst p : Path} {f : Path → Option (Node β)} {n : Node β}
    (h : below dst f p = some n) : ∃ r, p = dst ++ r ∧ f r = some n := by
  unfold below at h
  split at h
  · rename_i hp
    obtain ⟨r, rfl⟩ := hp
    refine ⟨r, rfl, ?_⟩
    simpa using h
  · cases h

/-- the entries as a function of the path below their directory -/
noncomputable def entriesAt (g : SrcList β) : Path → Option (Node β)
  | [] => none
  | n :: r => entryAt g n r

theorem below_entries (dst : Path) (g : SrcList β) (p : Path) :
    below dst (treeAt (.dir g)) p = if p = dst then some .dir else below dst (entriesAt g) p := by
  classical
  by_cases h : dst <+: p
  · obtain ⟨r, rfl⟩ := h
    rw [below_append, below_append]
    cases r with
    | nil => simp [treeAt]
    | cons n r => simp [treeAt, entriesAt]
  · have hne : p ≠ dst := by rintro rfl; exact h (List.prefix_refl _)
    simp [below, h, hne]

mutual
theorem copyEntry_ok (t : SrcTree β) (s : Proc β) (n : String) (d : Path) (hp : Proper s.fs) (hf : Fresh s)
    (hd : s.fs d = some .dir) (ht : Distinct t)
    (h1 : ∀ r c, treeAt t r = some (.file c) → s.fs (d ++ [n] ++ r) ≠ some .dir)
    (h2 : ∀ r, treeAt t r = some .dir → ∀ c, s.fs (d ++ [n] ++ r) ≠ some (.file c)) :
    ∃ s', copyEntry s n (d ++ [n]) t = (s', .ok ()) ∧ Copied s s' (below (d ++ [n]) (treeAt t)) := by
  classical
  cases t with
  | file c =>
    have hnd : s.fs (d ++ [n]) ≠ some .dir := by simpa using h1 [] c (by simp [treeAt])
    refine ⟨{ s with fs := s.fs.set (d ++ [n]) (.file c) }, ?_, ?_⟩
    · have e : (d ++ [n]).dropLast = d := by simp
      simp only [copyEntry, copy_file, isdir, hnd, if_false, e, hd, if_true]
    · have hset : ∀ q, q ≠ d ++ [n] → (s.fs.set (d ++ [n]) (.file c)) q = s.fs q := by
        intro q hq; simp [FS.set, hq]
      have hdirs : ∀ p, s.fs p = some .dir → (s.fs.set (d ++ [n]) (.file c)) p = some .dir := by
        intro p hpd
        rw [hset]; · exact hpd
        · rintro rfl; exact hnd hpd
      refine ⟨?_, ?_, hdirs, ?_, ?_, ?_⟩
      · intro p x hx
        obtain ⟨r, rfl, hr⟩ := below_some hx
        cases r with
        | nil => simp only [treeAt, Option.some.injEq] at hr; subst hr; simp [FS.set]
        | cons a r => simp [treeAt] at hr
      · intro p hx
        apply hset
        rintro rfl
        have := below_append (d ++ [n]) [] (treeAt (.file c : SrcTree β))
        rw [List.append_nil] at this
        rw [this] at hx
        simp [treeAt] at hx
      · intro q
        constructor
        · exact Or.inl
        · rintro (h | ⟨a, b⟩)
          · exact h
          · exfalso
            by_cases hq : q = d ++ [n]
            · subst hq; simp [FS.set] at a
            · exact b ((hset q hq) ▸ a)
      · refine ⟨hdirs [] hp.1, fun p m hpm => ?_⟩
        by_cases hq : p ++ [m] = d ++ [n]
        · have : p = d := (List.append_inj' hq rfl).1
          subst this
          exact hdirs p hd
        · simp only at hpm
          rw [hset _ hq] at hpm
          exact hdirs p (hp.2 p m hpm)
      · intro p hpc
        exact hdirs p (hf p hpc)
  | dir g =>
    have hpre : ∀ q c, q <+: d ++ [n] → s.fs q ≠ some (.file c) := by
      intro q c hq
      rw [List.prefix_concat_iff] at hq
      rcases hq with rfl | hq
      · simpa using h2 [] (by simp [treeAt]) c
      · by_cases he : q = d
        · rw [he, hd]; simp
        · rw [proper_prefix' hp hq (by rw [hd]; simp) he]; simp
    obtain ⟨s1, m1, m2, m3, m4, m5, m6⟩ := mkpath_ok hp hf hpre
    have hpre_dir : ∀ q, q <+: d ++ [n] → q ≠ d ++ [n] → s.fs q = some .dir := by
      intro q hq hne
      rw [List.prefix_concat_iff] at hq
      rcases hq with rfl | hq
      · exact absurd rfl hne
      · by_cases he : q = d
        · rw [he, hd]
        · exact proper_prefix' hp hq (by rw [hd]; simp) he
    have hdirs : ∀ p, s.fs p = some .dir → s1.fs p = some .dir := by
      intro p hpd
      by_cases hq : p <+: d ++ [n]
      · exact m2 p hq
      · rw [m3 p hq]; exact hpd
    have hsame : ∀ p, p ≠ d ++ [n] → s1.fs p = s.fs p := by
      intro p hpn
      by_cases hq : p <+: d ++ [n]
      · rw [m2 p hq, hpre_dir p hq hpn]
      · exact m3 p hq
    have hne : ∀ a r, d ++ [n] ++ a :: r ≠ d ++ [n] := by intro a r; simp
    obtain ⟨s', c1, c2⟩ := copyEntries_ok g s1 (d ++ [n]) m5 m6 (m2 _ (List.prefix_refl _)) ht
      (fun a r c hc => by
        rw [hsame _ (hne a r)]
        exact h1 (a :: r) c (by simpa [treeAt] using hc))
      (fun a r hc c => by
        rw [hsame _ (hne a r)]
        exact h2 (a :: r) (by simpa [treeAt] using hc) c)
    refine ⟨s', ?_, ?_, ?_, ?_, ?_, c2.proper, c2.fresh⟩
    · simp only [copyEntry, m1, andThen, c1]
    · intro p x hx
      rw [below_entries] at hx
      split at hx
      · rename_i he
        cases hx
        rw [he]
        exact c2.dirs _ (m2 _ (List.prefix_refl _))
      · exact c2.new p x hx
    · intro p hx
      rw [below_entries] at hx
      split at hx
      · cases hx
      · rename_i he
        rw [c2.old p hx, hsame p he]
    · intro p hpd
      exact c2.dirs p (hdirs p hpd)
    · intro q
      rw [c2.created, m4]
      constructor
      · rintro ((h | ⟨a, b⟩) | ⟨a, b⟩)
        · exact Or.inl h
        · exact Or.inr ⟨c2.dirs q a, b⟩
        · exact Or.inr ⟨a, fun h => b (hdirs q h)⟩
      · rintro (h | ⟨a, b⟩)
        · exact Or.inl (Or.inl h)
        · by_cases h : s1.fs q = some .dir
          · exact Or.inl (Or.inr ⟨h, b⟩)
          · exact Or.inr ⟨a, h⟩
theorem copyEntries_ok (g : SrcList β) (s : Proc β) (dst : Path) (hp : Proper s.fs) (hf : Fresh s)
    (hd : s.fs dst = some .dir) (ht : DistinctEntries g)
    (h1 : ∀ n r c, entryAt g n r = some (.file c) → s.fs (dst ++ n :: r) ≠ some .dir)
    (h2 : ∀ n r, entryAt g n r = some .dir → ∀ c, s.fs (dst ++ n :: r) ≠ some (.file c)) :
    ∃ s', copyEntries s dst g = (s', .ok ()) ∧ Copied s s' (below dst (entriesAt g)) := by
  classical
  cases g with
  | nil =>
    refine ⟨s, by simp [copyEntries], ?_, fun _ _ => rfl, fun _ h => h, ?_, hp, hf⟩
    · intro p n h
      obtain ⟨r, rfl, hr⟩ := below_some h
      cases r <;> simp [entriesAt, entryAt] at hr
    · intro q
      constructor
      · exact Or.inl
      · rintro (h | ⟨a, b⟩)
        · exact h
        · exact absurd a b
  | cons m t rest =>
    simp only [DistinctEntries] at ht
    obtain ⟨hm, ht1, ht2⟩ := ht
    by_cases hs : Skipped m
    · have e : ∀ n r, entryAt (.cons m t rest) n r = entryAt rest n r := by
        intro n r; simp [entryAt, hs]
      obtain ⟨s', c1, c2⟩ := copyEntries_ok rest s dst hp hf hd ht2
        (fun n r c h => h1 n r c (by rw [e]; exact h))
        (fun n r h => h2 n r (by rw [e]; exact h))
      refine ⟨s', ?_, ?_⟩
      · rw [copyEntries, if_pos (skipped_iff.2 hs), c1]
      · have : entriesAt (.cons m t rest) = entriesAt rest := by
          funext p
          cases p with
          | nil => rfl
          | cons n r => exact e n r
        rw [this]
        exact c2
    · have e1 : ∀ r, entryAt (.cons m t rest) m r = treeAt t r := by
        intro r; simp [entryAt, hs]
      have e2 : ∀ n r, n ≠ m → entryAt (.cons m t rest) n r = entryAt rest n r := by
        intro n r hn; simp [entryAt, hn.symm]
      have e3 : ∀ r, entryAt rest m r = none := by
        intro r
        by_contra h
        exact hm (entryAt_names h)
      obtain ⟨s1, c1, c2⟩ := copyEntry_ok t s m dst hp hf hd ht1
        (fun r c h => by
          rw [List.append_assoc]
          exact h1 m r c (by rw [e1]; exact h))
        (fun r h => by
          rw [List.append_assoc]
          exact h2 m r (by rw [e1]; exact h))
      have hsame : ∀ n r, n ≠ m → s1.fs (dst ++ n :: r) = s.fs (dst ++ n :: r) := by
        intro n r hn
        apply c2.old
        unfold below
        rw [if_neg]
        rintro ⟨q, hq⟩
        rw [List.append_assoc] at hq
        have := List.append_cancel_left hq
        simp at this
        exact hn this.1.symm
      obtain ⟨s', c3, c4⟩ := copyEntries_ok rest s1 dst c2.proper c2.fresh (c2.dirs _ hd) ht2
        (fun n r c h => by
          have hn : n ≠ m := by rintro rfl; rw [e3] at h; cases h
          rw [hsame n r hn]
          exact h1 n r c (by rw [e2 n r hn]; exact h))
        (fun n r h c => by
          have hn : n ≠ m := by rintro rfl; rw [e3] at h; cases h
          rw [hsame n r hn]
          exact h2 n r (by rw [e2 n r hn]; exact h) c)
      refine ⟨s', ?_, ?_, ?_, ?_, ?_, c4.proper, c4.fresh⟩
      · rw [copyEntries, if_neg (fun h => hs (skipped_iff.1 h)), c1]
        exact c3
      · intro p x hx
        obtain ⟨q, rfl, hq⟩ := below_some hx
        cases q with
        | nil => simp [entriesAt] at hq
        | cons n r =>
          simp only [entriesAt] at hq
          by_cases hn : n = m
          · subst hn
            rw [e1] at hq
            rw [c4.old]
            · have := c2.new (dst ++ [n] ++ r) x (by rw [below_append]; exact hq)
              simpa using this
            · rw [below_append]; exact e3 r
          · rw [e2 n r hn] at hq
            exact c4.new _ _ (by rw [below_append]; exact hq)
      · intro p hx
        by_cases hpp : dst <+: p
        · obtain ⟨q, rfl⟩ := hpp
          rw [below_append] at hx
          cases q with
          | nil =>
            rw [c4.old _ (by rw [below_append]; rfl), c2.old]
            unfold below
            rw [if_neg]
            rintro ⟨r, hr⟩
            simp at hr
          | cons n r =>
            simp only [entriesAt] at hx
            by_cases hn : n = m
            · subst hn
              rw [e1] at hx
              rw [c4.old _ (by rw [below_append]; exact e3 r)]
              apply c2.old
              have := below_append (dst ++ [n]) r (treeAt t)
              rw [show dst ++ n :: r = dst ++ [n] ++ r by simp, this]
              exact hx
            · rw [e2 n r hn] at hx
              rw [c4.old _ (by rw [below_append]; exact hx), hsame n r hn]
        · rw [c4.old, c2.old]
          · unfold below
            rw [if_neg]
            intro h
            exact hpp ((List.prefix_append dst [m]).trans h)
          · unfold below
            rw [if_neg hpp]
      · intro p hpd
        exact c4.dirs p (c2.dirs p hpd)
      · intro q
        rw [c4.created, c2.created]
        constructor
        · rintro ((h | ⟨a, b⟩) | ⟨a, b⟩)
          · exact Or.inl h
          · exact Or.inr ⟨c4.dirs q a, b⟩
          · exact Or.inr ⟨a, fun h => b (c2.dirs q h)⟩
        · rintro (h | ⟨a, b⟩)
          · exact Or.inl (Or.inl h)
          · by_cases h : s1.fs q = some .dir
            · exact Or.inl (Or.inr ⟨h, b⟩)
            · exact Or.inr ⟨a, h⟩
end

/-! ### copying where the remembered directories are gone -/

/-- some entry has a file below it -/
def EntriesHaveFile (g : SrcList β) : Prop := ∃ n r c, entryAt g n r = some (.file c)

theorem hasFile_dir {g : SrcList β} : HasFile (.dir g) ↔ EntriesHaveFile g := by
  constructor
  · rintro ⟨r, c, h⟩
    cases r with
    | nil => rw [treeAt_nil] at h; cases h
    | cons n r => exact ⟨n, r, c, by rw [← treeAt_cons]; exact h⟩
  · rintro ⟨n, r, c, h⟩
    exact ⟨n :: r, c, by rw [treeAt_cons]; exact h⟩

theorem mkpath_stale {s : Proc β} {d : Path} (h : s.created d) : mkpath s d = (s, .ok ()) := by
  unfold mkpath
  rw [if_pos h]
  split <;> rfl

mutual
theorem copyEntry_stale (t : SrcTree β) (s : Proc β) (n : String) (d : Path) (ht : Distinct t)
    (hpar : s.fs d.dropLast ≠ some .dir)
    (hnone : ∀ r, s.fs (d ++ r) = none) (hc : ∀ r, treeAt t r = some .dir → s.created (d ++ r)) :
    (¬ HasFile t ∧ copyEntry s n d t = (s, .ok ())) ∨
    (HasFile t ∧ copyEntry s n d t = (s, .error distutilsFileError)) := by
  classical
  cases t with
  | file c =>
    right
    refine ⟨⟨[], c, treeAt_file c⟩, ?_⟩
    have hd : s.fs d ≠ some .dir := by
      have := hnone []; rw [List.append_nil] at this; rw [this]; simp
    simp only [copyEntry, copy_file, isdir, hd, if_false, hpar]
  | dir g =>
    have hcd : s.created d := by
      have := hc [] (treeAt_nil g); rwa [List.append_nil] at this
    have := copyEntries_stale g s d ht hnone (fun m r h => hc (m :: r) (by rw [treeAt_cons]; exact h))
    simp only [copyEntry, mkpath_stale hcd, andThen, hasFile_dir]
    exact this
theorem copyEntries_stale (g : SrcList β) (s : Proc β) (dst : Path) (ht : DistinctEntries g)
    (hnone : ∀ r, s.fs (dst ++ r) = none)
    (hc : ∀ n r, entryAt g n r = some .dir → s.created (dst ++ n :: r)) :
    (¬ EntriesHaveFile g ∧ copyEntries s dst g = (s, .ok ())) ∨
    (EntriesHaveFile g ∧ copyEntries s dst g = (s, .error distutilsFileError)) := by
  classical
  cases g with
  | nil =>
    left
    refine ⟨?_, by rw [copyEntries]⟩
    rintro ⟨n, r, c, h⟩
    rw [entryAt_nil] at h; cases h
  | cons m t rest =>
    simp only [DistinctEntries] at ht
    obtain ⟨hm, ht1, ht2⟩ := ht
    have e3 : ∀ r, entryAt rest m r = none := by
      intro r
      by_contra h
      exact hm (entryAt_names h)
    by_cases hs : Skipped m
    · have e : ∀ n r, entryAt (.cons m t rest) n r = entryAt rest n r := by
        intro n r; rw [entryAt_cons, if_neg (fun h => h.2 hs)]
      have := copyEntries_stale rest s dst ht2 hnone (fun n r h => hc n r (by rw [e]; exact h))
      rw [copyEntries, if_pos (skipped_iff.2 hs)]
      have e' : EntriesHaveFile (.cons m t rest) ↔ EntriesHaveFile rest := by
        unfold EntriesHaveFile; simp only [e]
      rw [e']
      exact this
    · have e1 : ∀ r, entryAt (.cons m t rest) m r = treeAt t r := by
        intro r; rw [entryAt_cons, if_pos ⟨rfl, hs⟩]
      have e2 : ∀ n r, n ≠ m → entryAt (.cons m t rest) n r = entryAt rest n r := by
        intro n r hn; rw [entryAt_cons, if_neg (fun h => hn h.1.symm)]
      have e' : EntriesHaveFile (.cons m t rest) ↔ HasFile t ∨ EntriesHaveFile rest := by
        constructor
        · rintro ⟨n, r, c, h⟩
          by_cases hn : n = m
          · subst hn; exact Or.inl ⟨r, c, by rw [← e1]; exact h⟩
          · exact Or.inr ⟨n, r, c, by rw [← e2 n r hn]; exact h⟩
        · rintro (⟨r, c, h⟩ | ⟨n, r, c, h⟩)
          · exact ⟨m, r, c, by rw [e1]; exact h⟩
          · have hn : n ≠ m := by rintro rfl; rw [e3] at h; cases h
            exact ⟨n, r, c, by rw [e2 n r hn]; exact h⟩
      have h1 := copyEntry_stale t s m (dst ++ [m]) ht1
        (by
          have := hnone []
          rw [List.append_nil] at this
          rw [List.dropLast_concat, this]; simp)
        (fun r => by rw [List.append_assoc]; exact hnone _)
        (fun r h => by
          rw [List.append_assoc]
          exact hc m r (by rw [e1]; exact h))
      have h2 := copyEntries_stale rest s dst ht2 hnone (fun n r h => by
        have hn : n ≠ m := by rintro rfl; rw [e3] at h; cases h
        exact hc n r (by rw [e2 n r hn]; exact h))
      rw [copyEntries, if_neg (fun h => hs (skipped_iff.1 h)), e']
      rcases h1 with ⟨a, b⟩ | ⟨a, b⟩
      · rw [b]
        rcases h2 with ⟨c, d⟩ | ⟨c, d⟩
        · exact Or.inl ⟨fun h => h.elim a c, d⟩
        · exact Or.inr ⟨Or.inr c, d⟩
      · rw [b]
        exact Or.inr ⟨Or.inl a, rfl⟩
end

end Rfsed.Util
