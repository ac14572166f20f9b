import Verif.Proofs.Util

/-! What copying does whatever stands in the way. -/

namespace Rfsed.Util
open Spec
variable {β : Type}

/-- `mkpath` where a file is on the way -/
theorem mkpath_file {s : Proc β} (hp : Proper s.fs) (hf : Fresh s) {p q : Path} {c : β}
    (hq : q <+: p) (hc : s.fs q = some (.file c)) : mkpath s p = (s, .error distutilsFileError) := by
  have hlater : ∀ r, q <+: r → r ≠ q → s.fs r = none := by
    intro r hr hne
    by_contra h
    have := proper_prefix' hp hr h hne.symm
    rw [hc] at this; cases this
  have hpnd : s.fs p ≠ some .dir := by
    by_cases h : p = q
    · rw [h, hc]; simp
    · rw [hlater p hq h]; simp
  have hp0 : p ≠ [] := by
    rintro rfl; exact hpnd hp.1
  have hcr : ∀ r, s.fs r ≠ some .dir → ¬ s.created r := fun r h h' => h (hf r h')
  unfold mkpath
  rw [if_neg (by rintro (h | h); exacts [hpnd h, hp0 h]), if_neg (hcr p hpnd)]
  simp only
  set k := climb s.fs p (p.length - 1) with hk
  have hlen : 0 < p.length := List.length_pos_iff.2 hp0
  have hkle : k ≤ p.length - 1 := climb_le _ _ _
  have hkd : s.fs (p.take k) = some .dir := climb_isdir hp p _
  have hqe := List.prefix_iff_eq_take.1 hq
  have hql := hq.length_le
  have hkq : k < q.length := by
    by_contra h
    push Not at h
    by_cases he : q.length = k
    · rw [← he, ← hqe, hc] at hkd; cases hkd
    · have : s.fs (p.take k) = none := by
        apply hlater
        · rw [hqe]
          rw [show p.take q.length = (p.take k).take q.length by rw [List.take_take]; congr 1; omega]
          exact List.take_prefix _ _
        · intro h'
          have := congrArg List.length h'
          simp at this; omega
      rw [this] at hkd; cases hkd
  have hnd : s.fs (p.take (k + 1)) ≠ some .dir := by
    rcases Nat.lt_or_ge (p.length - 1) (k + 1) with h | h
    · rw [List.take_of_length_le (by omega)]; exact hpnd
    · exact climb_max s.fs p _ (k + 1) (by omega) h
  have hq1 : q = p.take (k + 1) := by
    by_contra hne
    apply hnd
    refine proper_prefix' hp (q := q) ?_ (by rw [hc]; simp) (fun h => hne h.symm)
    rw [hqe, show p.take (k + 1) = (p.take q.length).take (k + 1) by
      rw [List.take_take]; congr 1; omega]
    exact List.take_prefix _ _
  obtain ⟨m, hm⟩ : ∃ m, p.length - k = m + 1 := ⟨p.length - k - 1, by omega⟩
  rw [hm, List.range_succ_eq_map, List.map_cons, mkdirs]
  simp only [Nat.add_zero]
  rw [← hq1, if_neg (hcr q (by rw [hc]; simp))]
  have : mkdir s.fs q = .error fileExistsError := by
    unfold mkdir; rw [hc]
  rw [this]
  simp only
  rw [if_neg (by unfold isdir; rw [hc]; simp)]

/-- what copying may do to the file system; `at' q` is what the source has for the path `q` -/
structure Effect (s s' : Proc β) (at' : Path → Option (Node β)) : Prop where
  frame : ∀ p, s'.fs p = s.fs p ∨ (at' p = some .dir ∧ s.fs p = none ∧ s'.fs p = some .dir) ∨
    (∃ q c, at' q = some (.file c) ∧ p = place s.fs q ∧ s.fs p ≠ some .dir ∧ s'.fs p = some (.file c))
  proper : Proper s'.fs
  fresh : Fresh s'

/-- something is in the way -/
def Blocked (fs : FS β) (at' : Path → Option (Node β)) : Prop :=
  ∃ p, (at' p = some .dir ∧ ∃ c, fs p = some (.file c)) ∨
    (∃ c, at' p = some (.file c) ∧ fs (place fs p) = some .dir)

/-- all has arrived -/
def Here (fs fs' : FS β) (at' : Path → Option (Node β)) : Prop :=
  (∀ p, at' p = some .dir → fs' p = some .dir) ∧
  ∀ p c, at' p = some (.file c) → fs' (place fs p) = some (.file c)

/-- the outcome of copying -/
def Outcome (s : Proc β) (r : Proc β × Except PyErr Unit) (at' : Path → Option (Node β)) : Prop :=
  Effect s r.1 at' ∧
  ((r.2 = .ok () ∧ ¬ Blocked s.fs at' ∧ Here s.fs r.1.fs at') ∨
   (r.2 = .error distutilsFileError ∧ Blocked s.fs at'))

theorem place_prefix (fs : FS β) (p : Path) : p <+: place fs p := by
  unfold place
  split
  · exact List.prefix_append _ _
  · exact List.prefix_refl _

theorem place_congr {fs fs' : FS β} {p : Path} (h : fs p = fs' p) : place fs p = place fs' p := by
  unfold place; rw [h]

theorem Effect.dirs {s s' : Proc β} {at' : Path → Option (Node β)} (h : Effect s s' at') {p : Path}
    (hp : s.fs p = some .dir) : s'.fs p = some .dir := by
  rcases h.frame p with h | ⟨-, h, -⟩ | ⟨q, c, -, -, h, -⟩
  · rw [h, hp]
  · rw [hp] at h; cases h
  · exact absurd hp h

theorem Effect.same {s s' : Proc β} {at' : Path → Option (Node β)} (h : Effect s s' at') {b p : Path}
    (hs : ∀ q n, at' q = some n → b <+: q) (hp : ¬ b <+: p) : s'.fs p = s.fs p := by
  rcases h.frame p with h | ⟨h, -⟩ | ⟨q, c, h, rfl, -⟩
  · exact h
  · exact absurd (hs _ _ h) hp
  · exact absurd ((hs _ _ h).trans (place_prefix _ _)) hp

theorem blocked_congr {fs fs' : FS β} {at' : Path → Option (Node β)}
    (h : ∀ p, at' p ≠ none → ∀ r, fs (p ++ r) = fs' (p ++ r)) : Blocked fs at' → Blocked fs' at' := by
  rintro ⟨p, ⟨h1, c, h2⟩ | ⟨c, h1, h2⟩⟩
  · have := h p (by rw [h1]; simp) []
    rw [List.append_nil] at this
    exact ⟨p, Or.inl ⟨h1, c, by rw [← this]; exact h2⟩⟩
  · have e := h p (by rw [h1]; simp)
    have e0 := e []
    rw [List.append_nil] at e0
    obtain ⟨r, hr⟩ := place_prefix fs p
    refine ⟨p, Or.inr ⟨c, h1, ?_⟩⟩
    rw [← place_congr e0, ← hr, ← e, hr]
    exact h2

/-- nothing to copy -/
theorem outcome_none {s : Proc β} (hp : Proper s.fs) (hf : Fresh s) {at' : Path → Option (Node β)}
    (h : ∀ p, at' p = none) : Outcome s (s, .ok ()) at' := by
  refine ⟨⟨fun p => Or.inl rfl, hp, hf⟩, Or.inl ⟨rfl, ?_, ?_, ?_⟩⟩
  · rintro ⟨p, ⟨h1, -⟩ | ⟨c, h1, -⟩⟩ <;> rw [h] at h1 <;> cases h1
  · intro p h1; rw [h] at h1; cases h1
  · intro p c h1; rw [h] at h1; cases h1

/-- one thing after the other, in different places -/
theorem outcome_seq {s : Proc β} {r : Proc β × Except PyErr Unit}
    {f : Proc β → Proc β × Except PyErr Unit} {a1 a2 at' : Path → Option (Node β)} {b : Path}
    (h1 : Outcome s r a1) (h2 : Outcome r.1 (f r.1) a2)
    (hs1 : ∀ q n, a1 q = some n → b <+: q) (hs2 : ∀ q n, a2 q = some n → ∀ x, ¬ b <+: q ++ x)
    (hat : ∀ q n, at' q = some n ↔ a1 q = some n ∨ a2 q = some n) : Outcome s (andThen r f) at' := by
  obtain ⟨e1, o1⟩ := h1
  obtain ⟨e2, o2⟩ := h2
  have hne : ∀ p, a2 p ≠ none → ∀ x, r.1.fs (p ++ x) = s.fs (p ++ x) := by
    intro p hp x
    obtain ⟨n, hn⟩ := Option.ne_none_iff_exists'.1 hp
    exact e1.same hs1 (hs2 p n hn x)
  have hne0 : ∀ p, a2 p ≠ none → r.1.fs p = s.fs p := by
    intro p hp
    have := hne p hp []
    rwa [List.append_nil] at this
  have hb1 : Blocked s.fs a1 → Blocked s.fs at' := by
    rintro ⟨p, ⟨h, c⟩ | ⟨c, h, hc⟩⟩
    · exact ⟨p, Or.inl ⟨(hat _ _).2 (Or.inl h), c⟩⟩
    · exact ⟨p, Or.inr ⟨c, (hat _ _).2 (Or.inl h), hc⟩⟩
  have lift1 : ∀ p, r.1.fs p = s.fs p ∨ (at' p = some .dir ∧ s.fs p = none ∧ r.1.fs p = some .dir) ∨
      (∃ q c, at' q = some (.file c) ∧ p = place s.fs q ∧ s.fs p ≠ some .dir ∧
        r.1.fs p = some (.file c)) := by
    intro p
    rcases e1.frame p with h | ⟨h, h'⟩ | ⟨q, c, h, h'⟩
    · exact Or.inl h
    · exact Or.inr (Or.inl ⟨(hat _ _).2 (Or.inl h), h'⟩)
    · exact Or.inr (Or.inr ⟨q, c, (hat _ _).2 (Or.inl h), h'⟩)
  have frame2 : ∀ p, (f r.1).1.fs p = r.1.fs p ∨
      (r.1.fs p = s.fs p ∧ ((at' p = some .dir ∧ s.fs p = none ∧ (f r.1).1.fs p = some .dir) ∨
      (∃ q c, at' q = some (.file c) ∧ p = place s.fs q ∧ s.fs p ≠ some .dir ∧
        (f r.1).1.fs p = some (.file c)))) := by
    intro p
    rcases e2.frame p with h | ⟨h, h1, h2⟩ | ⟨q, c, h, h1, h2, h3⟩
    · exact Or.inl h
    · right
      have e := hne0 p (by rw [h]; simp)
      exact ⟨e, Or.inl ⟨(hat _ _).2 (Or.inr h), by rw [← e]; exact h1, h2⟩⟩
    · right
      have e0 := hne0 q (by rw [h]; simp)
      obtain ⟨x, hx⟩ := place_prefix r.1.fs q
      have e : r.1.fs p = s.fs p := by
        rw [h1, ← hx]
        exact hne q (by rw [h]; simp) x
      exact ⟨e, Or.inr ⟨q, c, (hat _ _).2 (Or.inr h), by rw [h1, place_congr e0], by rw [← e]; exact h2, h3⟩⟩
  have eff2 : Effect s (f r.1).1 at' := by
    refine ⟨fun p => ?_, e2.proper, e2.fresh⟩
    rcases frame2 p with h | ⟨-, h⟩
    · rw [h]; exact lift1 p
    · exact Or.inr h
  rcases o1 with ⟨ok1, nb1, d1, f1⟩ | ⟨er1, b1⟩
  · have ea : andThen r f = f r.1 := by unfold andThen; rw [ok1]
    rw [ea]
    refine ⟨eff2, ?_⟩
    have hb2 : Blocked r.1.fs a2 ↔ Blocked s.fs a2 :=
      ⟨blocked_congr (fun p hp x => hne p hp x), blocked_congr (fun p hp x => (hne p hp x).symm)⟩
    rcases o2 with ⟨ok2, nb2, d2, f2⟩ | ⟨er2, b2⟩
    · refine Or.inl ⟨ok2, ?_, ?_, ?_⟩
      · rintro ⟨p, ⟨h, c⟩ | ⟨c, h, hc⟩⟩
        · rcases (hat _ _).1 h with h | h
          · exact nb1 ⟨p, Or.inl ⟨h, c⟩⟩
          · exact nb2 (hb2.2 ⟨p, Or.inl ⟨h, c⟩⟩)
        · rcases (hat _ _).1 h with h | h
          · exact nb1 ⟨p, Or.inr ⟨c, h, hc⟩⟩
          · exact nb2 (hb2.2 ⟨p, Or.inr ⟨c, h, hc⟩⟩)
      · intro p h
        rcases (hat _ _).1 h with h | h
        · exact e2.dirs (d1 p h)
        · exact d2 p h
      · intro p c h
        rcases (hat _ _).1 h with h | h
        · have := f1 p c h
          have hb : b <+: place s.fs p := (hs1 _ _ h).trans (place_prefix _ _)
          rcases e2.frame (place s.fs p) with h' | ⟨h', -⟩ | ⟨q, c', h', h'', -⟩
          · rw [h']; exact this
          · exact absurd hb (by have := hs2 _ _ h' []; rwa [List.append_nil] at this)
          · obtain ⟨x, hx⟩ := place_prefix r.1.fs q
            rw [h'', ← hx] at hb
            exact absurd hb (hs2 _ _ h' x)
        · rw [← place_congr (hne0 p (by rw [h]; simp))]
          exact f2 p c h
    · refine Or.inr ⟨er2, ?_⟩
      obtain ⟨p, ⟨h, c⟩ | ⟨c, h, hc⟩⟩ := hb2.1 b2
      · exact ⟨p, Or.inl ⟨(hat _ _).2 (Or.inr h), c⟩⟩
      · exact ⟨p, Or.inr ⟨c, (hat _ _).2 (Or.inr h), hc⟩⟩
  · have ea : andThen r f = (r.1, .error distutilsFileError) := by unfold andThen; rw [er1]
    rw [ea]
    exact ⟨⟨lift1, e1.proper, e1.fresh⟩, Or.inr ⟨rfl, hb1 b1⟩⟩

theorem below_supp {dst : Path} {f : Path → Option (Node β)} {q : Path} {n : Node β}
    (h : below dst f q = some n) : dst <+: q := by
  obtain ⟨r, rfl, -⟩ := below_some h
  exact List.prefix_append _ _

/-- a single file -/
theorem copy_file_outcome {s : Proc β} (hp : Proper s.fs) (hf : Fresh s) {d : Path} {n : String} (c : β)
    (hd : s.fs d = some .dir) :
    Outcome s (copy_file s c n (d ++ [n])) (below (d ++ [n]) (treeAt (.file c))) := by
  classical
  have hat : ∀ q x, below (d ++ [n]) (treeAt (.file c)) q = some x ↔ q = d ++ [n] ∧ x = .file c := by
    intro q x
    constructor
    · intro h
      obtain ⟨r, rfl, hr⟩ := below_some h
      cases r with
      | nil =>
        rw [treeAt_file, Option.some.injEq] at hr
        exact ⟨by simp, hr.symm⟩
      | cons a r => rw [treeAt_file_cons] at hr; cases hr
    · rintro ⟨rfl, rfl⟩
      have := below_append (d ++ [n]) [] (treeAt (.file c))
      rw [List.append_nil] at this
      rw [this, treeAt_file]
  set a := below (d ++ [n]) (treeAt (.file c)) with ha
  have hpl : place s.fs (d ++ [n]) = if s.fs (d ++ [n]) = some .dir then d ++ [n] ++ [n] else d ++ [n] := by
    unfold place
    simp
  have hpar : s.fs (place s.fs (d ++ [n])).dropLast = some .dir := by
    rw [hpl]
    split
    · rename_i h
      rw [List.dropLast_concat]; exact h
    · rw [List.dropLast_concat]; exact hd
  have hcopy : copy_file s c n (d ++ [n]) =
      if s.fs (place s.fs (d ++ [n])) = some .dir then (s, .error distutilsFileError)
      else ({ s with fs := s.fs.set (place s.fs (d ++ [n])) (.file c) }, .ok ()) := by
    unfold copy_file
    have e : (if isdir s.fs (d ++ [n]) then d ++ [n] ++ [n] else d ++ [n]) = place s.fs (d ++ [n]) := by
      rw [hpl]
      by_cases h : s.fs (d ++ [n]) = some .dir
      · rw [if_pos (show isdir s.fs (d ++ [n]) from h), if_pos h]
      · rw [if_neg (show ¬ isdir s.fs (d ++ [n]) from h), if_neg h]
    simp only [e]
    by_cases h : s.fs (place s.fs (d ++ [n])) = some .dir
    · rw [if_pos (show isdir s.fs (place s.fs (d ++ [n])) from h), if_pos h]
    · rw [if_neg (show ¬ isdir s.fs (place s.fs (d ++ [n])) from h), if_neg h,
        if_pos (show isdir s.fs _ from hpar)]
  rw [hcopy]
  set P := place s.fs (d ++ [n]) with hP
  split
  · rename_i hdir
    exact ⟨⟨fun p => Or.inl rfl, hp, hf⟩, Or.inr ⟨rfl, d ++ [n], Or.inr ⟨c, (hat _ _).2 ⟨rfl, rfl⟩, hdir⟩⟩⟩
  · rename_i hnd
    have hset : ∀ q, q ≠ P → (s.fs.set P (.file c)) q = s.fs q := by
      intro q hq; simp [FS.set, hq]
    have hself : (s.fs.set P (.file c)) P = some (.file c) := by simp [FS.set]
    have hdirs : ∀ p, s.fs p = some .dir → (s.fs.set P (.file c)) p = some .dir := by
      intro p hpd
      rw [hset]; · exact hpd
      · rintro rfl; exact hnd hpd
    refine ⟨⟨fun p => ?_, ⟨hdirs [] hp.1, fun p m hpm => ?_⟩, fun p hpc => hdirs p (hf p hpc)⟩,
      Or.inl ⟨rfl, ?_, ?_, ?_⟩⟩
    · by_cases h : p = P
      · exact Or.inr (Or.inr ⟨d ++ [n], c, (hat _ _).2 ⟨rfl, rfl⟩, h, by rw [h]; exact hnd,
          by rw [h]; exact hself⟩)
      · exact Or.inl (hset p h)
    · by_cases hq : p ++ [m] = P
      · have : p = P.dropLast := by rw [← hq, List.dropLast_concat]
        rw [this]
        exact hdirs _ hpar
      · simp only at hpm
        rw [hset _ hq] at hpm
        exact hdirs p (hp.2 p m hpm)
    · rintro ⟨p, ⟨h, -⟩ | ⟨c', h, h'⟩⟩
      · have := ((hat _ _).1 h).2; cases this
      · rw [((hat _ _).1 h).1] at h'
        exact hnd h'
    · intro p h
      have := ((hat _ _).1 h).2; cases this
    · intro p c' h
      obtain ⟨rfl, h2⟩ := (hat _ _).1 h
      cases h2
      exact hself

theorem entries_supp {dst : Path} {g : SrcList β} {q : Path} {x : Node β}
    (h : below dst (entriesAt g) q = some x) : ∃ n r, q = dst ++ n :: r ∧ entryAt g n r = some x := by
  obtain ⟨r, rfl, hr⟩ := below_some h
  cases r with
  | nil => cases hr
  | cons n r => exact ⟨n, r, rfl, hr⟩

theorem below_entries_at (dst : Path) (g : SrcList β) (n : String) (r : Path) :
    below dst (entriesAt g) (dst ++ n :: r) = entryAt g n r := by
  rw [below_append]; rfl

/-- a directory with its entries, given what happens to the entries -/
theorem dir_outcome {s : Proc β} (hp : Proper s.fs) (hf : Fresh s) {d : Path} {g : SrcList β}
    (hd : s.fs d.dropLast = some .dir) (hd0 : d ≠ [])
    (ih : ∀ s : Proc β, Proper s.fs → Fresh s → s.fs d = some .dir →
      Outcome s (copyEntries s d g) (below d (entriesAt g))) :
    Outcome s (andThen (mkpath s d) (fun s => copyEntries s d g)) (below d (treeAt (.dir g))) := by
  classical
  have hatd : below d (treeAt (.dir g)) d = some .dir := by
    have := below_append d [] (treeAt (.dir g))
    rw [List.append_nil, treeAt_nil] at this
    exact this
  have hpre : ∀ q, q <+: d → q ≠ d → s.fs q = some .dir := by
    intro q hq hne
    rw [← List.dropLast_append_getLast hd0, List.prefix_concat_iff] at hq
    rcases hq with rfl | hq
    · exact absurd (List.dropLast_append_getLast hd0) hne
    · by_cases he : q = d.dropLast
      · rw [he, hd]
      · exact proper_prefix' hp hq (by rw [hd]; simp) he
  by_cases hfile : ∃ c, s.fs d = some (.file c)
  · obtain ⟨c, hc⟩ := hfile
    rw [mkpath_file hp hf (List.prefix_refl d) hc]
    exact ⟨⟨fun p => Or.inl rfl, hp, hf⟩, Or.inr ⟨rfl, d, Or.inl ⟨hatd, c, hc⟩⟩⟩
  · push Not at hfile
    obtain ⟨s1, m1, m2, m3, m4, m5, m6⟩ := mkpath_ok hp hf (p := d) (by
      intro q c hq
      by_cases he : q = d
      · rw [he]; exact hfile c
      · rw [hpre q hq he]; simp)
    rw [m1]
    have hsame : ∀ p, p ≠ d → s1.fs p = s.fs p := by
      intro p hpn
      by_cases hq : p <+: d
      · rw [m2 p hq, hpre p hq hpn]
      · exact m3 p hq
    have hd1 : s1.fs d = some .dir := m2 d (List.prefix_refl _)
    obtain ⟨e, o⟩ := ih s1 m5 m6 hd1
    have ea : andThen (s1, (.ok () : Except PyErr Unit)) (fun s => copyEntries s d g) = copyEntries s1 d g := rfl
    rw [ea]
    have hne : ∀ p x, below d (entriesAt g) p = some x → ∀ y, p ++ y ≠ d := by
      intro p x h y
      obtain ⟨n, r, rfl, -⟩ := entries_supp h
      intro h
      have := congrArg List.length h
      simp at this
    have hs1 : ∀ p, below d (entriesAt g) p ≠ none → ∀ y, s1.fs (p ++ y) = s.fs (p ++ y) := by
      intro p h y
      obtain ⟨x, hx⟩ := Option.ne_none_iff_exists'.1 h
      exact hsame _ (hne p x hx y)
    have hs10 : ∀ p, below d (entriesAt g) p ≠ none → s1.fs p = s.fs p := by
      intro p h
      have := hs1 p h []
      rwa [List.append_nil] at this
    have hat : ∀ p x, below d (treeAt (.dir g)) p = some x ↔
        (p = d ∧ x = .dir) ∨ below d (entriesAt g) p = some x := by
      intro p x
      rw [below_entries]
      by_cases h : p = d
      · subst h
        rw [if_pos rfl]
        constructor
        · intro h; cases h; exact Or.inl ⟨rfl, rfl⟩
        · rintro (⟨-, rfl⟩ | h)
          · rfl
          · have := hne _ _ h []; simp at this
      · rw [if_neg h]
        simp [h]
    have hdnone : s.fs d ≠ some .dir → s.fs d = none := by
      intro h
      cases h' : s.fs d with
      | none => rfl
      | some x =>
        cases x with
        | dir => exact absurd h' h
        | file c => exact absurd h' (hfile c)
    refine ⟨⟨fun p => ?_, e.proper, e.fresh⟩, ?_⟩
    · by_cases hpd : p = d
      · subst hpd
        by_cases h : s.fs p = some .dir
        · left; rw [e.dirs hd1, h]
        · exact Or.inr (Or.inl ⟨hatd, hdnone h, e.dirs hd1⟩)
      · rcases e.frame p with h | ⟨h1, h2, h3⟩ | ⟨q, c, h1, h2, h3, h4⟩
        · left; rw [h, hsame p hpd]
        · exact Or.inr (Or.inl ⟨(hat _ _).2 (Or.inr h1), by rw [← hsame p hpd]; exact h2, h3⟩)
        · exact Or.inr (Or.inr ⟨q, c, (hat _ _).2 (Or.inr h1),
            by rw [h2, place_congr (hs10 q (by rw [h1]; simp))], by rw [← hsame p hpd]; exact h3, h4⟩)
    · rcases o with ⟨o1, o2, o3, o4⟩ | ⟨o1, o2⟩
      · refine Or.inl ⟨o1, ?_, ?_, ?_⟩
        · rintro ⟨p, ⟨h, c, hc⟩ | ⟨c, h, hc⟩⟩
          · rcases (hat _ _).1 h with ⟨rfl, -⟩ | h
            · exact hfile c hc
            · exact o2 (blocked_congr (fun p hp x => (hs1 p hp x).symm) ⟨p, Or.inl ⟨h, c, hc⟩⟩)
          · rcases (hat _ _).1 h with ⟨-, h⟩ | h
            · cases h
            · exact o2 (blocked_congr (fun p hp x => (hs1 p hp x).symm) ⟨p, Or.inr ⟨c, h, hc⟩⟩)
        · intro p h
          rcases (hat _ _).1 h with ⟨rfl, -⟩ | h
          · exact e.dirs hd1
          · exact o3 p h
        · intro p c h
          rcases (hat _ _).1 h with ⟨-, h⟩ | h
          · cases h
          · rw [← place_congr (hs10 p (by rw [h]; simp))]
            exact o4 p c h
      · refine Or.inr ⟨o1, ?_⟩
        obtain ⟨p, ⟨h, c⟩ | ⟨c, h, hc⟩⟩ := blocked_congr (fun p hp x => hs1 p hp x) o2
        · exact ⟨p, Or.inl ⟨(hat _ _).2 (Or.inr h), c⟩⟩
        · exact ⟨p, Or.inr ⟨c, (hat _ _).2 (Or.inr h), hc⟩⟩

mutual
theorem copyEntry_outcome (t : SrcTree β) (s : Proc β) (n : String) (d : Path) (hp : Proper s.fs)
    (hf : Fresh s) (hd : s.fs d = some .dir) (ht : Distinct t) :
    Outcome s (copyEntry s n (d ++ [n]) t) (below (d ++ [n]) (treeAt t)) := by
  cases t with
  | file c =>
    rw [copyEntry]
    exact copy_file_outcome hp hf c hd
  | dir g =>
    rw [copyEntry]
    exact dir_outcome hp hf (by rw [List.dropLast_concat]; exact hd) (by simp)
      (fun s hp hf hd => copyEntries_outcome g s (d ++ [n]) hp hf hd ht)
theorem copyEntries_outcome (g : SrcList β) (s : Proc β) (dst : Path) (hp : Proper s.fs) (hf : Fresh s)
    (hd : s.fs dst = some .dir) (ht : DistinctEntries g) :
    Outcome s (copyEntries s dst g) (below dst (entriesAt g)) := by
  classical
  cases g with
  | nil =>
    rw [copyEntries]
    apply outcome_none hp hf
    intro p
    by_contra h
    obtain ⟨x, hx⟩ := Option.ne_none_iff_exists'.1 h
    obtain ⟨n, r, -, hr⟩ := entries_supp hx
    rw [entryAt_nil] at hr; cases hr
  | cons m t rest =>
    simp only [DistinctEntries] at ht
    obtain ⟨hm, ht1, ht2⟩ := ht
    by_cases hs : Skipped m
    · have e : ∀ n r, entryAt (.cons m t rest) n r = entryAt rest n r := by
        intro n r; rw [entryAt_cons, if_neg (fun h => h.2 hs)]
      have : entriesAt (.cons m t rest) = entriesAt rest := by
        funext p
        cases p with
        | nil => rfl
        | cons n r => exact e n r
      rw [copyEntries, if_pos (skipped_iff.2 hs), this]
      exact copyEntries_outcome rest s dst hp hf hd ht2
    · rw [copyEntries, if_neg (fun h => hs (skipped_iff.1 h))]
      have h1 := copyEntry_outcome t s m dst hp hf hd ht1
      have h2 := copyEntries_outcome rest _ dst h1.1.proper h1.1.fresh (h1.1.dirs hd) ht2
      have e3 : ∀ r, entryAt rest m r = none := by
        intro r
        by_contra h
        exact hm (entryAt_names h)
      refine outcome_seq (b := dst ++ [m]) h1 h2 (fun q n h => below_supp h) ?_ ?_
      · intro q x h y hpre
        obtain ⟨n, r, rfl, hr⟩ := entries_supp h
        obtain ⟨z, hz⟩ := hpre
        rw [List.append_assoc, List.append_assoc] at hz
        have := List.append_cancel_left hz
        simp at this
        rw [← this.1, e3] at hr; cases hr
      · intro q x
        constructor
        · intro h
          obtain ⟨n, r, rfl, hr⟩ := entries_supp h
          rw [entryAt_cons] at hr
          split at hr
          · rename_i hn
            left
            rw [← hn.1, show dst ++ m :: r = dst ++ [m] ++ r by simp, below_append]
            exact hr
          · right
            rw [below_entries_at]; exact hr
        · rintro (h | h)
          · obtain ⟨r, rfl, hr⟩ := below_some h
            rw [List.append_assoc, List.singleton_append, below_entries_at, entryAt_cons, if_pos ⟨rfl, hs⟩]
            exact hr
          · obtain ⟨n, r, rfl, hr⟩ := entries_supp h
            rw [below_entries_at, entryAt_cons, if_neg]
            · exact hr
            · rintro ⟨rfl, -⟩
              rw [e3] at hr; cases hr
end

end Rfsed.Util
