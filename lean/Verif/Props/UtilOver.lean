import Verif.Proofs.Util2
import Verif.Props.Util

/-!
# Property C111: installing over whatever is there
-/

namespace Rfsed.Props
open Spec Util
variable {β : Type}

/-- copying to `dst`, whatever is there -/
theorem copy_tree_outcome {s : Proc β} (hp : Proper s.fs) (hf : Fresh s) {g : SrcList β} {dst : Path}
    (ht : Distinct (.dir g : SrcTree β)) :
    Proper (copy_tree s (.dir g) dst).1.fs ∧ Fresh (copy_tree s (.dir g) dst).1 ∧
    OnlyFrom s.fs (copy_tree s (.dir g) dst).1.fs (.dir g) dst ∧
    (((copy_tree s (.dir g) dst).2 = .ok () ∧ ¬ InTheWay s.fs (.dir g) dst ∧
      Arrived s.fs (copy_tree s (.dir g) dst).1.fs (.dir g) dst) ∨
    ((copy_tree s (.dir g) dst).2 = .error distutilsFileError ∧ InTheWay s.fs (.dir g) dst)) := by
  classical
  by_cases hfile : ∃ p c, p <+: dst ∧ s.fs p = some (.file c)
  · obtain ⟨p, c, h1, h2⟩ := hfile
    have : copy_tree s (.dir g) dst = (s, .error distutilsFileError) := by
      unfold copy_tree
      simp only [mkpath_file hp hf h1 h2, andThen]
    rw [this]
    exact ⟨hp, hf, fun p h => absurd rfl h, Or.inr ⟨rfl, Or.inl ⟨p, c, h1, h2⟩⟩⟩
  · push Not at hfile
    obtain ⟨s1, m1, m2, m3, m4, m5, m6⟩ := mkpath_ok hp hf (p := dst) (fun q c hq => hfile q c hq)
    have hd1 : s1.fs dst = some .dir := m2 dst (List.prefix_refl _)
    obtain ⟨e, o⟩ := copyEntries_outcome g s1 dst m5 m6 hd1 ht
    have ec : copy_tree s (.dir g) dst = copyEntries s1 dst g := by
      unfold copy_tree
      simp only [m1, andThen]
    rw [ec]
    have hnp : ∀ n r, ¬ dst ++ n :: r <+: dst := by
      intro n r h
      have := h.length_le
      simp at this
    have hs1 : ∀ n r, s1.fs (dst ++ n :: r) = s.fs (dst ++ n :: r) := fun n r => m3 _ (hnp n r)
    have hpl : ∀ n r, place s1.fs (dst ++ n :: r) = place s.fs (dst ++ n :: r) :=
      fun n r => place_congr (hs1 n r)
    have hspl : ∀ n r, s1.fs (place s.fs (dst ++ n :: r)) = s.fs (place s.fs (dst ++ n :: r)) := by
      intro n r
      obtain ⟨x, hx⟩ := place_prefix s.fs (dst ++ n :: r)
      rw [← hx, List.append_assoc, List.cons_append]
      exact hs1 n _
    have hnone : ∀ p, p <+: dst → s.fs p ≠ some .dir → s.fs p = none := by
      intro p hpd h
      cases h' : s.fs p with
      | none => rfl
      | some x =>
        cases x with
        | dir => exact absurd h' h
        | file c => exact absurd h' (hfile p c hpd)
    refine ⟨e.proper, e.fresh, ?_, ?_⟩
    · intro p hne
      by_cases hpd : p <+: dst
      · have hdir := e.dirs (m2 p hpd)
        refine Or.inl ⟨hnone p hpd (fun h => hne (by rw [hdir, h])), hdir, Or.inl hpd⟩
      · rcases e.frame p with h | ⟨h1, h2, h3⟩ | ⟨q, c, h1, h2, h3, h4⟩
        · rw [h, m3 p hpd] at hne; exact absurd rfl hne
        · obtain ⟨n, r, rfl, hr⟩ := entries_supp h1
          exact Or.inl ⟨by rw [← hs1]; exact h2, h3, Or.inr ⟨n :: r, rfl, by rw [treeAt_cons]; exact hr⟩⟩
        · obtain ⟨n, r, rfl, hr⟩ := entries_supp h1
          exact Or.inr ⟨by rw [← m3 p hpd]; exact h3, n :: r, c, by rw [h2, hpl],
            by rw [treeAt_cons]; exact hr, h4⟩
    · rcases o with ⟨o1, o2, o3, o4⟩ | ⟨o1, o2⟩
      · refine Or.inl ⟨o1, ?_, ?_, ?_, ?_⟩
        · rintro (⟨p, c, h1, h2⟩ | ⟨r, c, h1, h2⟩ | ⟨r, c, h1, h2⟩)
          · exact hfile p c h1 h2
          · cases r with
            | nil =>
              rw [List.append_nil] at h2
              exact hfile dst c (List.prefix_refl _) h2
            | cons n r =>
              rw [treeAt_cons] at h1
              exact o2 ⟨dst ++ n :: r, Or.inl ⟨by rw [below_entries_at]; exact h1, c,
                by rw [hs1]; exact h2⟩⟩
          · cases r with
            | nil => rw [treeAt_nil] at h1; cases h1
            | cons n r =>
              rw [treeAt_cons] at h1
              exact o2 ⟨dst ++ n :: r, Or.inr ⟨c, by rw [below_entries_at]; exact h1,
                by rw [hpl, hspl]; exact h2⟩⟩
        · intro p hpd
          exact e.dirs (m2 p hpd)
        · intro r hr
          cases r with
          | nil => rw [List.append_nil]; exact e.dirs hd1
          | cons n r =>
            rw [treeAt_cons] at hr
            exact o3 _ (by rw [below_entries_at]; exact hr)
        · intro r c hr
          cases r with
          | nil => rw [treeAt_nil] at hr; cases hr
          | cons n r =>
            rw [treeAt_cons] at hr
            rw [← hpl]
            exact o4 _ c (by rw [below_entries_at]; exact hr)
      · refine Or.inr ⟨o1, ?_⟩
        obtain ⟨p, ⟨h, c, hc⟩ | ⟨c, h, hc⟩⟩ := o2
        · obtain ⟨n, r, rfl, hr⟩ := entries_supp h
          exact Or.inr (Or.inl ⟨n :: r, c, by rw [treeAt_cons]; exact hr, by rw [← hs1]; exact hc⟩)
        · obtain ⟨n, r, rfl, hr⟩ := entries_supp h
          exact Or.inr (Or.inr ⟨n :: r, c, by rw [treeAt_cons]; exact hr, by rw [← hspl, ← hpl]; exact hc⟩)

/-- **C111** `install_rfsed_tests` succeeds exactly when nothing is in the way, and raises
`DistutilsFileError` otherwise; in both cases it only adds directories and files of the tree, and
after a success the whole tree is there. -/
theorem c111_tests {s : Proc β} (hp : Proper s.fs) (hf : Fresh s) {g : SrcList β} {path : Path}
    (ht : Distinct (.dir g : SrcTree β)) :
    let out := install_rfsed_tests (.dir g) s path
    OnlyFrom s.fs out.1.fs (.dir g) path ∧
    (¬ InTheWay s.fs (.dir g) path → out.2 = .ok () ∧ Arrived s.fs out.1.fs (.dir g) path) ∧
    (InTheWay s.fs (.dir g) path → out.2 = .error distutilsFileError) := by
  obtain ⟨-, -, h1, h2⟩ := copy_tree_outcome hp hf (dst := path) ht
  refine ⟨h1, fun h => ?_, fun h => ?_⟩
  · rcases h2 with ⟨a, -, b⟩ | ⟨-, b⟩
    · exact ⟨a, b⟩
    · exact absurd b h
  · rcases h2 with ⟨-, b, -⟩ | ⟨a, -⟩
    · exact absurd h b
    · exact a

/-- **C111** Where the package has a file instead of the directory to copy, `DistutilsFileError` is
raised and nothing changes. -/
theorem c111_not_directory (c : β) (t : SrcTree β) (s : Proc β) (path : Path) :
    install_rfsed_tests (.file c) s path = (s, .error distutilsFileError) ∧
    install_examples (.file c) t s path = (s, .error distutilsFileError) ∧
    ∀ g, (install_examples (.dir g) (.file c) s path).2 = .error distutilsFileError ∨
      (install_examples (.dir g) (.file c) s path).2 = (install_rfsed_tests (.dir g) s (path ++ ["examples"])).2 := by
  refine ⟨rfl, rfl, fun g => ?_⟩
  unfold install_examples install_rfsed_tests andThen
  split
  · rename_i h; right; rw [h]
  · left; rfl

/-- **C111** A directory in the place of a file of the tree: the file is put into it under its own
name; if there is a directory of that name, too, the installation fails. -/
theorem c111_directory_for_file {s : Proc β} (hp : Proper s.fs) (hf : Fresh s) {g : SrcList β}
    {path r : Path} {n : String} {c : β} (ht : Distinct (.dir g : SrcTree β))
    (hr : treeAt (.dir g) (r ++ [n]) = some (.file c)) (hd : s.fs (path ++ r ++ [n]) = some .dir) :
    let out := install_rfsed_tests (.dir g) s path
    (s.fs (path ++ r ++ [n, n]) = some .dir → out.2 = .error distutilsFileError) ∧
    (out.2 = .ok () → out.1.fs (path ++ r ++ [n, n]) = some (.file c) ∧
      out.1.fs (path ++ r ++ [n]) = some .dir) := by
  have hpl : place s.fs (path ++ (r ++ [n])) = path ++ r ++ [n, n] := by
    rw [← List.append_assoc]
    unfold place
    rw [if_pos hd]
    simp
  obtain ⟨h0, h1, h2⟩ := c111_tests hp hf (path := path) ht
  refine ⟨fun h => h2 (Or.inr (Or.inr ⟨_, c, hr, by rw [hpl]; exact h⟩)), fun h => ⟨?_, ?_⟩⟩
  · by_cases hw : InTheWay s.fs (.dir g) path
    · rw [h2 hw] at h; cases h
    · have := (h1 hw).2.2.2 _ c hr
      rwa [hpl] at this
  · by_contra hne
    rcases h0 (path ++ r ++ [n]) (by rw [hd]; exact hne) with ⟨h', -⟩ | ⟨h', -⟩
    · rw [hd] at h'; cases h'
    · exact h' hd

/-- **C111** Whatever happens, no directory disappears, and no file changes unless the tree has a file
for its place. -/
theorem c111_keeps {s : Proc β} (hp : Proper s.fs) (hf : Fresh s) {g : SrcList β} {path : Path}
    (ht : Distinct (.dir g : SrcTree β)) (p : Path) :
    let out := install_rfsed_tests (.dir g) s path
    (s.fs p = some .dir → out.1.fs p = some .dir) ∧
    (∀ c, s.fs p = some (.file c) → (∀ r c', treeAt (.dir g) r = some (.file c') →
      p ≠ path ++ r ∧ ∀ n, p ≠ path ++ r ++ [n]) → out.1.fs p = some (.file c)) := by
  obtain ⟨h0, -, -⟩ := c111_tests hp hf (path := path) ht
  refine ⟨fun h => ?_, fun c h hno => ?_⟩
  · by_contra hne
    rcases h0 p (by rw [h]; exact hne) with ⟨h', -⟩ | ⟨h', -⟩
    · rw [h] at h'; cases h'
    · exact h' h
  · by_contra hne
    rcases h0 p (by rw [h]; exact hne) with ⟨h', -⟩ | ⟨-, r, c', h1, h2, -⟩
    · rw [h] at h'; cases h'
    · obtain ⟨a, b⟩ := hno r c' h2
      unfold place at h1
      split at h1
      · exact b _ h1
      · exact a h1

/-- the two directories of `install_examples` as one tree -/
theorem both_at (g h : SrcList β) (n : String) (r : Path) :
    treeAt (.dir (.cons "examples" (.dir g) (.cons "data" (.dir h) .nil))) (n :: r) =
      if n = "examples" then treeAt (.dir g) r else if n = "data" then treeAt (.dir h) r else none := by
  have hse : ¬ Skipped "examples" := by
    rw [← skipped_iff]; decide
  have hsd : ¬ Skipped "data" := by
    rw [← skipped_iff]; decide
  simp only [treeAt_cons, entryAt_cons, entryAt_nil, hse, hsd, not_false_eq_true, and_true]
  simp only [eq_comm (a := "examples"), eq_comm (a := "data")]

/-- **C111** `install_examples`: both directories arrive if nothing is in the way of either;
otherwise `DistutilsFileError` is raised, and if `examples` meets an obstacle nothing of `data` is
touched.  Only directories and files of the two trees are added or replaced. -/
theorem c111_examples {s : Proc β} (hp : Proper s.fs) (hf : Fresh s) {g h : SrcList β} {path : Path}
    (hg : Distinct (.dir g : SrcTree β)) (hh : Distinct (.dir h : SrcTree β)) :
    let out := install_examples (.dir g) (.dir h) s path
    let W1 := InTheWay s.fs (.dir g) (path ++ ["examples"])
    let W2 := InTheWay s.fs (.dir h) (path ++ ["data"])
    (¬ W1 ∧ ¬ W2 → out.2 = .ok () ∧ Arrived s.fs out.1.fs (.dir g) (path ++ ["examples"]) ∧
      Arrived s.fs out.1.fs (.dir h) (path ++ ["data"])) ∧
    (W1 ∨ W2 → out.2 = .error distutilsFileError) ∧
    (W1 → ∀ r, out.1.fs (path ++ "data" :: r) = s.fs (path ++ "data" :: r)) ∧
    OnlyFrom s.fs out.1.fs (.dir (.cons "examples" (.dir g) (.cons "data" (.dir h) .nil))) path := by
  classical
  intro out W1 W2
  obtain ⟨p1, f1, o1, r1⟩ := copy_tree_outcome hp hf (dst := path ++ ["examples"]) hg
  set c1 := copy_tree s (.dir g) (path ++ ["examples"]) with hc1
  obtain ⟨p2, f2, o2, r2⟩ := copy_tree_outcome p1 f1 (dst := path ++ ["data"]) hh
  set c2 := copy_tree c1.1 (.dir h) (path ++ ["data"]) with hc2
  have hnp : ∀ (a b : String), a ≠ b → ∀ x y : Path, path ++ a :: x ≠ path ++ [b] ++ y := by
    intro a b hab x y he
    rw [List.append_assoc] at he
    have := List.append_cancel_left he
    simp at this
    exact hab this.1
  have hpre : ∀ (a b : String), a ≠ b → ∀ x : Path, ¬ path ++ a :: x <+: path ++ [b] := by
    intro a b hab x he
    obtain ⟨y, hy⟩ := he
    rw [List.append_assoc] at hy
    have := List.append_cancel_left hy
    simp at this
    exact hab this.1
  have below_place : ∀ (fs : FS β) (b : String) (r : Path), ∃ y, place fs (path ++ [b] ++ r) = path ++ [b] ++ y := by
    intro fs b r
    obtain ⟨x, hx⟩ := place_prefix fs (path ++ [b] ++ r)
    exact ⟨r ++ x, by rw [← hx, List.append_assoc (path ++ [b])]⟩
  -- the first copy leaves `data` alone
  have keep1 : ∀ r, c1.1.fs (path ++ "data" :: r) = s.fs (path ++ "data" :: r) := by
    intro r
    by_contra hne
    rcases o1 _ hne with ⟨-, -, h' | ⟨y, h', -⟩⟩ | ⟨-, y, c, h', -⟩
    · exact hpre "data" "examples" (by decide) r h'
    · exact hnp "data" "examples" (by decide) r y h'
    · obtain ⟨z, hz⟩ := below_place s.fs "examples" y
      exact hnp "data" "examples" (by decide) r z (by rw [h', hz])
  have keep2 : ∀ r, c2.1.fs (path ++ "examples" :: r) = c1.1.fs (path ++ "examples" :: r) := by
    intro r
    by_contra hne
    rcases o2 _ hne with ⟨-, -, h' | ⟨y, h', -⟩⟩ | ⟨-, y, c, h', -⟩
    · exact hpre "examples" "data" (by decide) r h'
    · exact hnp "examples" "data" (by decide) r y h'
    · obtain ⟨z, hz⟩ := below_place c1.1.fs "data" y
      exact hnp "examples" "data" (by decide) r z (by rw [h', hz])
  have kd : ∀ r, c1.1.fs (path ++ ["data"] ++ r) = s.fs (path ++ ["data"] ++ r) := by
    intro r
    rw [List.append_assoc, List.singleton_append]
    exact keep1 r
  have kpl : ∀ r, place c1.1.fs (path ++ ["data"] ++ r) = place s.fs (path ++ ["data"] ++ r) :=
    fun r => place_congr (kd r)
  have kspl : ∀ r, c1.1.fs (place s.fs (path ++ ["data"] ++ r)) = s.fs (place s.fs (path ++ ["data"] ++ r)) := by
    intro r
    obtain ⟨y, hy⟩ := below_place s.fs "data" r
    rw [hy]; exact kd y
  have hsub : ∀ p, p <+: path → ∀ b : String, p <+: path ++ [b] := fun p h b => h.trans (List.prefix_append _ _)
  -- obstacles of the second copy
  have way : ¬ W1 → (InTheWay c1.1.fs (.dir h) (path ++ ["data"]) ↔ W2) := by
    intro hw1
    have hno : ∀ p c, p <+: path → s.fs p ≠ some (.file c) := fun p c h1 h2 =>
      hw1 (Or.inl ⟨p, c, hsub p h1 _, h2⟩)
    have hno' : ∀ p c, p <+: path → c1.1.fs p ≠ some (.file c) := by
      intro p c h1
      rcases r1 with ⟨-, -, a, -⟩ | ⟨-, b⟩
      · rw [a p (hsub p h1 _)]; simp
      · exact absurd b hw1
    constructor
    · rintro (⟨p, c, h1, h2⟩ | ⟨r, c, h1, h2⟩ | ⟨r, c, h1, h2⟩)
      · have h1' := h1
        rw [List.prefix_concat_iff] at h1
        rcases h1 with rfl | h1
        · refine Or.inl ⟨_, c, h1', ?_⟩
          have := kd []
          rw [List.append_nil] at this
          rw [← this]; exact h2
        · exact absurd h2 (hno' p c h1)
      · exact Or.inr (Or.inl ⟨r, c, h1, by rw [← kd]; exact h2⟩)
      · exact Or.inr (Or.inr ⟨r, c, h1, by rw [← kspl, ← kpl]; exact h2⟩)
    · rintro (⟨p, c, h1, h2⟩ | ⟨r, c, h1, h2⟩ | ⟨r, c, h1, h2⟩)
      · have h1' := h1
        rw [List.prefix_concat_iff] at h1
        rcases h1 with rfl | h1
        · refine Or.inl ⟨_, c, h1', ?_⟩
          have := kd []
          rw [List.append_nil] at this
          rw [this]; exact h2
        · exact absurd h2 (hno p c h1)
      · exact Or.inr (Or.inl ⟨r, c, h1, by rw [kd]; exact h2⟩)
      · exact Or.inr (Or.inr ⟨r, c, h1, by rw [kpl, kspl]; exact h2⟩)
  have only1 : OnlyFrom s.fs c1.1.fs (.dir (.cons "examples" (.dir g) (.cons "data" (.dir h) .nil))) path := by
    intro p hne
    rcases o1 p hne with ⟨a, b, h' | ⟨y, rfl, hy⟩⟩ | ⟨a, y, c, h1, h2, h3⟩
    · refine Or.inl ⟨a, b, ?_⟩
      rw [List.prefix_concat_iff] at h'
      rcases h' with rfl | h'
      · exact Or.inr ⟨["examples"], rfl, by rw [both_at, if_pos rfl, treeAt_nil]⟩
      · exact Or.inl h'
    · exact Or.inl ⟨a, b, Or.inr ⟨"examples" :: y, by simp, by rw [both_at, if_pos rfl]; exact hy⟩⟩
    · exact Or.inr ⟨a, "examples" :: y, c, by simpa using h1, by rw [both_at, if_pos rfl]; exact h2, h3⟩
  rcases r1 with ⟨ok1, nw1, a1, a2, a3⟩ | ⟨er1, w1⟩
  · have eo : out = c2 := by
      show andThen c1 _ = c2
      unfold andThen
      rw [ok1]
    rw [eo]
    have hway := way nw1
    have hdirs2 : ∀ p, c1.1.fs p = some .dir → c2.1.fs p = some .dir := by
      intro p hpd
      by_contra hne
      rcases o2 p (by rw [hpd]; exact hne) with ⟨h', -⟩ | ⟨h', -⟩
      · rw [hpd] at h'; cases h'
      · exact h' hpd
    have ke2 : ∀ r, c2.1.fs (path ++ ["examples"] ++ r) = c1.1.fs (path ++ ["examples"] ++ r) := by
      intro r
      rw [List.append_assoc, List.singleton_append]
      exact keep2 r
    refine ⟨?_, ?_, fun w => absurd w nw1, ?_⟩
    · rintro ⟨-, nw2⟩
      rcases r2 with ⟨ok2, -, b1, b2, b3⟩ | ⟨-, w2⟩
      · refine ⟨ok2, ⟨fun p hpd => hdirs2 p (a1 p hpd), fun r hr => hdirs2 _ (a2 r hr), fun r c hr => ?_⟩,
          b1, b2, fun r c hr => ?_⟩
        · obtain ⟨y, hy⟩ := below_place s.fs "examples" r
          rw [hy, ke2, ← hy]
          exact a3 r c hr
        · rw [← kpl]; exact b3 r c hr
      · exact absurd (hway.1 w2) nw2
    · rintro (w | w)
      · exact absurd w nw1
      · rcases r2 with ⟨-, nw, -⟩ | ⟨er2, -⟩
        · exact absurd (hway.2 w) nw
        · exact er2
    · intro p hne
      by_cases h1 : c1.1.fs p = s.fs p
      · rcases o2 p (by rw [h1]; exact hne) with ⟨a, b, h' | ⟨y, rfl, hy⟩⟩ | ⟨a, y, c, h1', h2, h3⟩
        · refine Or.inl ⟨by rw [← h1]; exact a, b, ?_⟩
          rw [List.prefix_concat_iff] at h'
          rcases h' with rfl | h'
          · exact Or.inr ⟨["data"], rfl, by rw [both_at, if_neg (by decide), if_pos rfl, treeAt_nil]⟩
          · exact Or.inl h'
        · exact Or.inl ⟨by rw [← h1]; exact a, b, Or.inr ⟨"data" :: y, by simp,
            by rw [both_at, if_neg (by decide), if_pos rfl]; exact hy⟩⟩
        · exact Or.inr ⟨by rw [← h1]; exact a, "data" :: y, c, by rw [h1', kpl]; simp,
            by rw [both_at, if_neg (by decide), if_pos rfl]; exact h2, h3⟩
      · have h2 : c2.1.fs p = c1.1.fs p := by
          rcases o1 p h1 with ⟨a, b, -⟩ | ⟨a, y, c, hy, -⟩
          · rw [b]; exact hdirs2 p b
          · obtain ⟨z, hz⟩ := below_place s.fs "examples" y
            rw [hy, hz]; exact ke2 z
        rw [h2]
        exact only1 p h1
  · have eo : out = (c1.1, .error distutilsFileError) := by
      show andThen c1 _ = _
      unfold andThen
      rw [er1]
    rw [eo]
    refine ⟨fun hn => absurd w1 hn.1, fun _ => rfl, fun _ r => keep1 r, only1⟩

/-- a directory `a.py` in `/home/rf` -/
def overFs : FS Nat := fun p =>
  if p = [] ∨ p = ["home"] ∨ p = ["home", "rf"] ∨ p = ["home", "rf", "a.py"] then some .dir else none

/-- the hypotheses of `c111_directory_for_file` and a success: the file ends up in the directory -/
example : ∃ (s : Proc Nat) (g : SrcList Nat), Proper s.fs ∧ Fresh s ∧ Distinct (.dir g : SrcTree Nat) ∧
    treeAt (.dir g) (["a.py"]) = some (.file 7) ∧ s.fs ["home", "rf", "a.py"] = some .dir ∧
    ¬ InTheWay s.fs (.dir g) ["home", "rf"] ∧
    (install_rfsed_tests (.dir g) s ["home", "rf"]).1.fs ["home", "rf", "a.py", "a.py"] = some (.file 7) := by
  have hprop : Proper overFs := by
    refine ⟨by simp [overFs], fun p n h => ?_⟩
    have : p ++ [n] = [] ∨ p ++ [n] = ["home"] ∨ p ++ [n] = ["home", "rf"] ∨ p ++ [n] = ["home", "rf", "a.py"] := by
      by_contra h'
      exact h (by simp only [overFs]; rw [if_neg h'])
    rcases this with h | h | h | h
    · simp at h
    · have : p = [] := by simpa using congrArg List.dropLast h
      subst this; simp [overFs]
    · have : p = ["home"] := by simpa using congrArg List.dropLast h
      subst this; simp [overFs]
    · have : p = ["home", "rf"] := by simpa using congrArg List.dropLast h
      subst this; simp [overFs]
  have hfresh : Fresh (⟨overFs, fun _ => False⟩ : Proc Nat) := fun _ h => h.elim
  have hs : ¬ Skipped "a.py" := by
    rw [← skipped_iff]; decide
  have hdist : Distinct (.dir (.cons "a.py" (.file 7) .nil) : SrcTree Nat) := by
    simp [Distinct, DistinctEntries, names]
  have hat : treeAt (.dir (.cons "a.py" (.file 7) .nil)) ["a.py"] = some (.file 7) := by
    rw [treeAt_cons, entryAt_cons, if_pos ⟨rfl, hs⟩, treeAt_file]
  have hall : ∀ p c, overFs p ≠ some (.file c) := by
    intro p c h
    simp only [overFs] at h
    split at h <;> cases h
  have hway : ¬ InTheWay overFs (.dir (.cons "a.py" (.file 7) .nil)) ["home", "rf"] := by
    rintro (⟨p, c, -, h⟩ | ⟨r, c, -, h⟩ | ⟨r, c, h1, h2⟩)
    · exact hall _ _ h
    · exact hall _ _ h
    · cases r with
      | nil => rw [treeAt_nil] at h1; cases h1
      | cons n r =>
        rw [treeAt_cons, entryAt_cons] at h1
        split at h1
        · rename_i hn
          obtain ⟨rfl, -⟩ := hn
          cases r with
          | nil => simp [place, overFs] at h2
          | cons m r => rw [treeAt_file_cons] at h1; cases h1
        · rw [entryAt_nil] at h1; cases h1
  refine ⟨⟨overFs, fun _ => False⟩, .cons "a.py" (.file 7) .nil, hprop, hfresh, hdist, hat, by simp [overFs], hway, ?_⟩
  obtain ⟨-, h1, -⟩ := c111_tests (s := ⟨overFs, fun _ => False⟩) hprop hfresh (path := ["home", "rf"]) hdist
  have := (c111_directory_for_file (s := ⟨overFs, fun _ => False⟩) hprop hfresh (path := ["home", "rf"])
    (r := []) (n := "a.py") hdist hat (by simp [overFs])).2 (h1 hway).1
  exact this.1

end Rfsed.Props
