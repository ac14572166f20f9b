import Verif.Proofs.Util

/-!
# Property C63: output directories and installation of the examples
-/

namespace Rfsed.Props
open Spec Util
variable {β : Type}

/-! ## The `save_…` functions -/

/-- **C63** `save_…` returns its path if the directory exists (leaving everything as it is) or if
nothing stands there and the parent directory exists (creating it and nothing else); otherwise it
raises and changes nothing. -/
theorem c63_save_dir (fs : FS β) (p : Path) :
    (fs p = some .dir → saveDir fs p = (fs, .ok p)) ∧
    (fs p = none → fs p.dropLast = some .dir → (saveDir fs p).2 = .ok p ∧
      (saveDir fs p).1 p = some .dir ∧ ∀ q, q ≠ p → (saveDir fs p).1 q = fs q) ∧
    (fs p = none → fs p.dropLast ≠ some .dir → saveDir fs p = (fs, .error fileNotFoundError)) ∧
    (∀ c, fs p = some (.file c) → saveDir fs p = (fs, .error fileExistsError)) := by
  refine ⟨?_, ?_, ?_, ?_⟩
  · intro h
    simp [saveDir, isdir, h]
  · intro h hd
    have : saveDir fs p = (fs.set p .dir, .ok p) := by
      simp [saveDir, mkdir, h, isdir, hd]
    rw [this]
    refine ⟨rfl, by simp [FS.set], fun q hq => by simp [FS.set, hq]⟩
  · intro h hd
    simp [saveDir, mkdir, h, isdir, hd]
  · intro c h
    simp [saveDir, mkdir, h, isdir]

/-- **C63** Calling a `save_…` function again returns the same path and changes nothing. -/
theorem c63_save_twice (fs : FS β) (p : Path) (h : (saveDir fs p).2 = .ok p) :
    saveDir (saveDir fs p).1 p = ((saveDir fs p).1, .ok p) := by
  obtain ⟨h1, h2, h3, h4⟩ := c63_save_dir fs p
  cases hp : fs p with
  | none =>
    by_cases hd : fs p.dropLast = some .dir
    · obtain ⟨-, h5, -⟩ := h2 hp hd
      exact (c63_save_dir (saveDir fs p).1 p).1 h5
    · rw [h3 hp hd] at h; cases h
  | some x =>
    cases x with
    | dir => rw [h1 hp]; exact h1 hp
    | file c => rw [h4 c hp] at h; cases h

/-- **C63** The six functions use six different directories, siblings within `examples`, and
succeed if that exists and no file stands in the way. -/
theorem c63_six_directories (pkg : Path) (fs : FS β) (he : fs (pkg ++ ["examples"]) = some .dir)
    (hno : ∀ n c, fs (pkg ++ ["examples", n]) ≠ some (.file c)) :
    let names := ["earthquake_data", "IRIS_Downloaded_Waveform", "Calculated_Receiver_Functions", "catalog",
      "plots", "test_output"]
    names.Nodup ∧
      [(save_Eq_data pkg fs).2, (save_IRIS_waveform pkg fs).2, (save_calculated_RF pkg fs).2,
        (save_catalog pkg fs).2, (save_plot pkg fs).2, (save_tests pkg fs).2] =
      names.map (fun n => .ok (pkg ++ ["examples", n])) := by
  refine ⟨by decide, ?_⟩
  have key : ∀ n : String, (saveDir fs (pkg ++ ["examples", n])).2 = .ok (pkg ++ ["examples", n]) := by
    intro n
    by_cases hp : fs (pkg ++ ["examples", n]) = none
    · refine ((c63_save_dir fs _).2.1 hp ?_).1
      have : (pkg ++ ["examples", n]).dropLast = pkg ++ ["examples"] := by
        rw [List.dropLast_append_of_ne_nil (by simp)]; rfl
      rw [this]; exact he
    · cases hx : fs (pkg ++ ["examples", n]) with
      | none => exact absurd hx hp
      | some x =>
        cases x with
        | dir => rw [(c63_save_dir fs _).1 hx]
        | file c => exact absurd hx (hno n c)
  simp only [save_Eq_data, save_IRIS_waveform, save_calculated_RF, save_catalog, save_plot, save_tests,
    key, List.map_cons, List.map_nil]

/-! ## Several callers at once -/

theorem mkdir_none {fs : FS β} {p : Path} (h : fs p = none) (hd : fs p.dropLast = some .dir) :
    mkdir fs p = .ok (fs.set p .dir) := by simp [mkdir, h, isdir, hd]

theorem mkdir_some {fs : FS β} {p : Path} (h : fs p ≠ none) : mkdir fs p = .error fileExistsError := by
  unfold mkdir
  cases hp : fs p with
  | none => exact absurd hp h
  | some x => rfl

/-- the invariant of concurrent `save_…` calls -/
theorem accesses_inv {p : Path} (hp0 : p ≠ []) {fs0 : FS β} (h0 : fs0 p = none)
    (hd : fs0 p.dropLast = some .dir) {k : Nat} {s : FS β × List Caller}
    (h : Accesses p (fs0, List.replicate k .start) s) :
    s.2.length = k ∧ (∀ q, q ≠ p → s.1 q = fs0 q) ∧
    ((s.1 p = none ∧ ∀ c ∈ s.2, c = .start ∨ c = .missing) ∨
     (s.1 p = some .dir ∧ (∀ c ∈ s.2, c = .start ∨ c = .missing ∨ c = .returned ∨
        c = .raised fileExistsError) ∧ Caller.returned ∈ s.2)) := by
  induction h with
  | refl =>
    refine ⟨by simp, fun _ _ => rfl, Or.inl ⟨h0, ?_⟩⟩
    intro c hc
    exact Or.inl (List.eq_of_mem_replicate hc)
  | @step s s' _ hs ih =>
    obtain ⟨hl, ho, hi⟩ := ih
    have hparent : p.dropLast ≠ p := by
      intro h
      have := congrArg List.length h
      rw [List.length_dropLast] at this
      have := List.length_pos_iff.2 hp0
      omega
    cases hs with
    | exists_yes fs a b hne =>
      refine ⟨by simpa using hl, ho, ?_⟩
      rcases hi with ⟨hi, _⟩ | ⟨hi, hc, hr⟩
      · exact absurd (hi.symm.trans hne) (by simp)
      · refine Or.inr ⟨hi, ?_, by simp⟩
        intro c hcm
        simp only [List.mem_append, List.mem_cons] at hcm hc
        rcases hcm with h | rfl | h
        · exact hc c (Or.inl h)
        · simp
        · exact hc c (Or.inr (Or.inr h))
    | exists_no fs a b hn =>
      refine ⟨by simpa using hl, ho, ?_⟩
      rcases hi with ⟨hi, hc⟩ | ⟨hi, hc, hr⟩
      · refine Or.inl ⟨hi, ?_⟩
        intro c hcm
        simp only [List.mem_append, List.mem_cons] at hcm hc
        rcases hcm with h | rfl | h
        · exact hc c (Or.inl h)
        · simp
        · exact hc c (Or.inr (Or.inr h))
      · exact absurd hi hn
    | mkdir_ok fs fs' a b hm =>
      rcases hi with ⟨hi, hc⟩ | ⟨hi, hc, hr⟩
      · have : fs' = fs.set p .dir := by
          rw [mkdir_none hi (by rw [ho _ hparent]; exact hd)] at hm
          exact (Except.ok.inj hm).symm
        subst this
        refine ⟨by simpa using hl, fun q hq => by simp only [FS.set, hq, if_false]; exact ho q hq,
          Or.inr ⟨by simp [FS.set], ?_, by simp⟩⟩
        intro c hcm
        simp only [List.mem_append, List.mem_cons] at hcm hc
        rcases hcm with h | rfl | h
        · rcases hc c (Or.inl h) with h | h <;> simp [h]
        · simp
        · rcases hc c (Or.inr (Or.inr h)) with h | h <;> simp [h]
      · rw [mkdir_some (show fs p ≠ none by rw [show fs p = some .dir from hi]; simp)] at hm; cases hm
    | mkdir_err fs a b e hm =>
      rcases hi with ⟨hi, hc⟩ | ⟨hi, hc, hr⟩
      · rw [mkdir_none hi (by rw [ho _ hparent]; exact hd)] at hm; cases hm
      · rw [mkdir_some (show fs p ≠ none by rw [show fs p = some .dir from hi]; simp)] at hm
        cases hm
        refine ⟨by simpa using hl, ho, Or.inr ⟨hi, ?_, ?_⟩⟩
        · intro c hcm
          simp only [List.mem_append, List.mem_cons] at hcm hc
          rcases hcm with h | rfl | h
          · exact hc c (Or.inl h)
          · simp
          · exact hc c (Or.inr (Or.inr h))
        · simp only [List.mem_append, List.mem_cons, reduceCtorEq, false_or] at hr ⊢
          exact hr

/-- **C63** If several processes call the same `save_…` function at once, under every interleaving,
once all have finished the directory exists, nothing else has changed, at least one of them has
returned and the others have returned or raised `FileExistsError`. -/
theorem c63_concurrent {p : Path} (hp0 : p ≠ []) {fs0 : FS β} (h0 : fs0 p = none)
    (hd : fs0 p.dropLast = some .dir) {k : Nat} (hk : 0 < k) {fs : FS β} {callers : List Caller}
    (h : Accesses p (fs0, List.replicate k .start) (fs, callers))
    (hend : ∀ c ∈ callers, c ≠ .start ∧ c ≠ .missing) :
    callers.length = k ∧ fs p = some .dir ∧ (∀ q, q ≠ p → fs q = fs0 q) ∧
    Caller.returned ∈ callers ∧ ∀ c ∈ callers, c = .returned ∨ c = .raised fileExistsError := by
  obtain ⟨hl, ho, hi⟩ := accesses_inv hp0 h0 hd h
  rcases hi with ⟨hi, hc⟩ | ⟨hi, hc, hr⟩
  · exfalso
    obtain ⟨c, hcm⟩ : ∃ c, c ∈ callers := by
      cases callers with
      | nil => simp at hl; omega
      | cons c l => exact ⟨c, by simp⟩
    rcases hc c hcm with h | h
    · exact (hend c hcm).1 h
    · exact (hend c hcm).2 h
  · refine ⟨hl, hi, ho, hr, fun c hcm => ?_⟩
    rcases hc c hcm with h | h | h | h
    · exact absurd h (hend c hcm).1
    · exact absurd h (hend c hcm).2
    · exact Or.inl h
    · exact Or.inr h

/-- **C63** And one of two concurrent callers can indeed raise: both find the directory missing,
then both try to create it. -/
theorem c63_race {p : Path} {fs0 : FS β} (h0 : fs0 p = none) (hd : fs0 p.dropLast = some .dir) :
    ∃ fs, Accesses p (fs0, List.replicate 2 .start) (fs, [.returned, .raised fileExistsError]) := by
  refine ⟨fs0.set p .dir, ?_⟩
  have s1 : Access p (fs0, [] ++ Caller.start :: [.start]) (fs0, [] ++ .missing :: [.start]) :=
    .exists_no fs0 [] [.start] (by simp [isdir, h0])
  have s2 : Access p (fs0, [.missing] ++ Caller.start :: []) (fs0, [.missing] ++ .missing :: []) :=
    .exists_no fs0 [.missing] [] (by simp [isdir, h0])
  have s3 : Access p (fs0, [] ++ Caller.missing :: [.missing])
      (fs0.set p .dir, [] ++ .returned :: [.missing]) :=
    .mkdir_ok fs0 _ [] [.missing] (mkdir_none h0 hd)
  have s4 : Access p (fs0.set p .dir, [.returned] ++ Caller.missing :: [])
      (fs0.set p .dir, [.returned] ++ .raised fileExistsError :: []) :=
    .mkdir_err _ [.returned] [] _ (mkdir_some (by simp [FS.set]))
  exact .step (.step (.step (.step .refl s1) s2) s3) s4

/-! ## Installing -/

theorem copy_tree_ok {s : Proc β} (hp : Proper s.fs) (hf : Fresh s) {g : SrcList β} {dst : Path}
    (ht : Distinct (.dir g : SrcTree β)) (hfit : Fits s.fs (.dir g) dst) :
    ∃ s', copy_tree s (.dir g) dst = (s', .ok ()) ∧ Written s.fs s'.fs (.dir g) dst ∧
      Proper s'.fs ∧ Fresh s' ∧ (∀ p, s.fs p = some .dir → s'.fs p = some .dir) ∧
      (∀ q, s'.created q ↔ s.created q ∨ (s'.fs q = some .dir ∧ s.fs q ≠ some .dir)) := by
  classical
  obtain ⟨f1, f2, f3⟩ := hfit
  obtain ⟨s1, m1, m2, m3, m4, m5, m6⟩ := mkpath_ok hp hf (p := dst) (fun q c hq => f3 q c hq)
  have hnp : ∀ a r, ¬ dst ++ a :: r <+: dst := by
    intro a r h
    have := h.length_le
    simp at this
  obtain ⟨s', c1, c2⟩ := copyEntries_ok g s1 dst m5 m6 (m2 _ (List.prefix_refl _)) ht
    (fun a r c hc => by
      rw [m3 _ (hnp a r)]
      exact f1 (a :: r) c (by simpa [treeAt] using hc))
    (fun a r hc c => by
      rw [m3 _ (hnp a r)]
      exact f2 (a :: r) (by simpa [treeAt] using hc) c)
  have hdirs : ∀ p, s.fs p = some .dir → s1.fs p = some .dir := by
    intro p hpd
    by_cases hq : p <+: dst
    · exact m2 p hq
    · rw [m3 p hq]; exact hpd
  refine ⟨s', ?_, ⟨?_, ?_, ?_⟩, c2.proper, c2.fresh, fun p h => c2.dirs p (hdirs p h), ?_⟩
  · simp only [copy_tree, m1, andThen, c1]
  · intro r n hr
    cases r with
    | nil =>
      simp only [treeAt, Option.some.injEq] at hr
      subst hr
      rw [List.append_nil]
      exact c2.dirs _ (m2 _ (List.prefix_refl _))
    | cons a r => exact c2.new _ _ (by rw [below_append]; simpa [treeAt, entriesAt] using hr)
  · intro p hpd
    exact c2.dirs p (m2 p hpd)
  · intro p hpd hno
    rw [c2.old, m3 p hpd]
    unfold below
    split
    · rename_i h
      obtain ⟨r, rfl⟩ := h
      have := hno r rfl
      cases r with
      | nil => simp [treeAt] at this
      | cons a r => simpa [treeAt, entriesAt] using this
    · rfl
  · intro q
    rw [c2.created, m4]
    constructor
    · rintro ((h | ⟨a, b⟩) | ⟨a, b⟩)
      · exact Or.inl h
      · exact Or.inr ⟨c2.dirs q a, b⟩
      · exact Or.inr ⟨a, fun h => b (hdirs q h)⟩
    · rintro (h | ⟨a, b⟩)
      · exact Or.inl (Or.inl h)
      · by_cases h : s1.fs q = some .dir
        · exact Or.inl (Or.inr ⟨h, b⟩)
        · exact Or.inr ⟨a, h⟩

theorem not_prefix_of_ne {path r : Path} {a b : String} (h : a ≠ b) :
    ¬ path ++ [a] <+: path ++ b :: r := by
  rintro ⟨q, hq⟩
  rw [List.append_assoc] at hq
  have := List.append_cancel_left hq
  simp at this
  exact h this.1

theorem fits_other {s s' : Proc β} {g h : SrcList β} {path : Path} {a b : String} (hab : a ≠ b)
    (hw : Written s.fs s'.fs (.dir g) (path ++ [a])) (hfit : Fits s.fs (.dir h) (path ++ [b])) :
    Fits s'.fs (.dir h) (path ++ [b]) := by
  obtain ⟨w1, w2, w3⟩ := hw
  obtain ⟨f1, f2, f3⟩ := hfit
  have same : ∀ r, s'.fs (path ++ [b] ++ r) = s.fs (path ++ [b] ++ r) := by
    intro r
    apply w3
    · intro hpre
      have hl := hpre.length_le
      simp only [List.length_append, List.length_singleton] at hl
      have : r = [] := List.length_eq_zero_iff.1 (by omega)
      subst this
      rw [List.append_nil] at hpre
      have he := hpre.eq_of_length (by simp)
      simp at he
      exact hab he.symm
    · intro q hq
      exfalso
      rw [List.append_assoc, List.append_assoc] at hq
      have := List.append_cancel_left hq
      simp at this
      exact hab this.1.symm
  refine ⟨fun r c hr => by rw [same]; exact f1 r c hr, fun r hr c => by rw [same]; exact f2 r hr c, ?_⟩
  intro p c hp
  rw [List.prefix_concat_iff] at hp
  rcases hp with rfl | hp
  · have := same []
    rw [List.append_nil] at this
    rw [this]
    exact f3 _ c (List.prefix_refl _)
  · rw [w2 p (hp.trans (List.prefix_append _ _))]
    simp

/-- what `install_examples` leaves at a path -/
theorem install_ok {s : Proc β} (hp : Proper s.fs) (hf : Fresh s) {g h : SrcList β} {path : Path}
    (hg : Distinct (.dir g : SrcTree β)) (hh : Distinct (.dir h : SrcTree β))
    (fg : Fits s.fs (.dir g) (path ++ ["examples"])) (fh : Fits s.fs (.dir h) (path ++ ["data"])) :
    ∃ s', install_examples (.dir g) (.dir h) s path = (s', .ok ()) ∧
      Written s.fs s'.fs (.dir (.cons "examples" (.dir g) (.cons "data" (.dir h) .nil))) path ∧
      Proper s'.fs ∧ Fresh s' ∧
      (∀ q, s'.created q ↔ s.created q ∨ (s'.fs q = some .dir ∧ s.fs q ≠ some .dir)) := by
  classical
  obtain ⟨s1, a1, ⟨w1, w2, w3⟩, a3, a4, a5, a6⟩ := copy_tree_ok hp hf hg fg
  obtain ⟨s2, b1, ⟨v1, v2, v3⟩, b3, b4, b5, b6⟩ := copy_tree_ok a3 a4 hh
    (fits_other (by decide) ⟨w1, w2, w3⟩ fh)
  have hse : ¬ Skipped "examples" := by
    rw [← skipped_iff]; decide
  have hsd : ¬ Skipped "data" := by
    rw [← skipped_iff]; decide
  have hroot : ∀ r, treeAt (.dir (.cons "examples" (.dir g) (.cons "data" (.dir h) .nil))) r =
      match r with
      | [] => some .dir
      | n :: r => if n = "examples" then treeAt (.dir g) r
        else if n = "data" then treeAt (.dir h) r else none := by
    intro r
    cases r with
    | nil => exact treeAt_nil _
    | cons n r =>
      simp only [treeAt_cons, entryAt_cons, entryAt_nil, hse, hsd, not_false_eq_true, and_true]
      simp only [eq_comm (a := "examples"), eq_comm (a := "data")]
  have keepE : ∀ r, s2.fs (path ++ "examples" :: r) = s1.fs (path ++ "examples" :: r) := by
    intro r
    apply v3
    · intro hpre
      have hl := hpre.length_le
      simp only [List.length_append, List.length_cons, List.length_nil] at hl
      have : r = [] := List.length_eq_zero_iff.1 (by omega)
      subst this
      have he := hpre.eq_of_length (by simp)
      simp at he
    · intro q hq
      exfalso
      rw [List.append_assoc] at hq
      have := List.append_cancel_left hq
      simp at this
  refine ⟨s2, ?_, ⟨?_, ?_, ?_⟩, b3, b4, ?_⟩
  · simp only [install_examples, a1, andThen, b1]
  · intro r n hr
    rw [hroot] at hr
    cases r with
    | nil =>
      simp only [Option.some.injEq] at hr
      subst hr
      rw [List.append_nil]
      exact v2 _ (List.prefix_append _ _)
    | cons m r =>
      simp only at hr
      split at hr
      · rename_i hm; subst hm
        rw [keepE]
        have := w1 r n hr
        simpa using this
      · split at hr
        · rename_i hm; subst hm
          have := v1 r n hr
          simpa using this
        · cases hr
  · intro p hpp
    exact v2 p (hpp.trans (List.prefix_append _ _))
  · intro p hpp hno
    have hne : ∀ x : String, treeAt (.dir (.cons "examples" (.dir g) (.cons "data" (.dir h) .nil))) [x] = some .dir →
        ¬ p <+: path ++ [x] := by
      intro x hx hpre
      rw [List.prefix_concat_iff] at hpre
      rcases hpre with rfl | hpre
      · have := hno [x] rfl
        rw [hx] at this; cases this
      · exact hpp hpre
    rw [v3, w3]
    · exact hne "examples" (by rw [hroot]; simp [treeAt_nil])
    · intro r hr
      have := hno ("examples" :: r) (by rw [hr]; simp)
      rw [hroot] at this
      simpa using this
    · exact hne "data" (by rw [hroot]; simp [treeAt_nil])
    · intro r hr
      have := hno ("data" :: r) (by rw [hr]; simp)
      rw [hroot] at this
      simpa using this
  · intro q
    rw [b6, a6]
    constructor
    · rintro ((h | ⟨a, b⟩) | ⟨a, b⟩)
      · exact Or.inl h
      · exact Or.inr ⟨b5 q a, b⟩
      · exact Or.inr ⟨a, fun h => b (a5 q h)⟩
    · rintro (h | ⟨a, b⟩)
      · exact Or.inl (Or.inl h)
      · by_cases h : s1.fs q = some .dir
        · exact Or.inl (Or.inr ⟨h, b⟩)
        · exact Or.inr ⟨a, h⟩

/-- **C63** `install_examples(path)` succeeds unless a directory stands in the place of a file to be
installed or a file in the place of a directory; then `path/examples` and `path/data` hold the two
trees, colliding files are overwritten, missing parents are created and everything else is left
alone. -/
theorem c63_install {s : Proc β} (hp : Proper s.fs) (hf : Fresh s) {g h : SrcList β} {path : Path}
    (hg : Distinct (.dir g : SrcTree β)) (hh : Distinct (.dir h : SrcTree β))
    (fg : Fits s.fs (.dir g) (path ++ ["examples"])) (fh : Fits s.fs (.dir h) (path ++ ["data"])) :
    ∃ s', install_examples (.dir g) (.dir h) s path = (s', .ok ()) ∧
      Written s.fs s'.fs (.dir (.cons "examples" (.dir g) (.cons "data" (.dir h) .nil))) path :=
  let ⟨s', h1, h2, _⟩ := install_ok hp hf hg hh fg fh
  ⟨s', h1, h2⟩

/-- **C63** Installing twice is installing once. -/
theorem c63_install_twice {s : Proc β} (hp : Proper s.fs) (hf : Fresh s) {g h : SrcList β} {path : Path}
    (hg : Distinct (.dir g : SrcTree β)) (hh : Distinct (.dir h : SrcTree β))
    (fg : Fits s.fs (.dir g) (path ++ ["examples"])) (fh : Fits s.fs (.dir h) (path ++ ["data"])) :
    let s1 := (install_examples (.dir g) (.dir h) s path).1
    let r := install_examples (.dir g) (.dir h) s1 path
    r.2 = .ok () ∧ ∀ p, r.1.fs p = s1.fs p := by
  classical
  obtain ⟨s', h1, ⟨w1, w2, w3⟩, h3, h4, -⟩ := install_ok hp hf hg hh fg fh
  intro s1 r
  have e1 : s1 = s' := by
    show (install_examples (.dir g) (.dir h) s path).1 = s'
    rw [h1]
  have fit : ∀ (x : String) (k : SrcList β),
      (∀ r, treeAt (.dir (.cons "examples" (.dir g) (.cons "data" (.dir h) .nil))) (x :: r) =
        treeAt (.dir k) r) → Fits s'.fs (.dir k) (path ++ [x]) := by
    intro x k hk
    have key : ∀ r n, treeAt (.dir k) r = some n → s'.fs (path ++ [x] ++ r) = some n := by
      intro r n hr
      have := w1 (x :: r) n (by rw [hk]; exact hr)
      simpa using this
    refine ⟨fun r c hr => by rw [key r _ hr]; simp, fun r hr c => by rw [key r _ hr]; simp, ?_⟩
    intro p c hpp
    rw [List.prefix_concat_iff] at hpp
    rcases hpp with rfl | hpp
    · have := key [] .dir (treeAt_nil _)
      rw [List.append_nil] at this
      rw [this]; simp
    · rw [w2 p hpp]; simp
  have hse : ¬ Skipped "examples" := by
    rw [← skipped_iff]; decide
  have hsd : ¬ Skipped "data" := by
    rw [← skipped_iff]; decide
  obtain ⟨s'', k1, ⟨v1, v2, v3⟩, -⟩ := install_ok h3 h4 hg hh
    (fit "examples" g (fun r => by simp only [treeAt_cons, entryAt_cons, hse, not_false_eq_true, and_self, if_true]))
    (fit "data" h (fun r => by simp [treeAt_cons, entryAt_cons, hsd]))
  have er : r = (s'', .ok ()) := by
    show install_examples (.dir g) (.dir h) s1 path = _
    rw [e1, k1]
  rw [er, e1]
  refine ⟨rfl, fun p => ?_⟩
  by_cases hpp : p <+: path
  · simp only; rw [v2 p hpp, w2 p hpp]
  · by_cases hex : ∃ r n, p = path ++ r ∧
        treeAt (.dir (.cons "examples" (.dir g) (.cons "data" (.dir h) .nil))) r = some n
    · obtain ⟨r, n, rfl, hr⟩ := hex
      simp only
      rw [v1 r n hr, w1 r n hr]
    · push Not at hex
      exact v3 p hpp (fun r hr => by
        cases hx : treeAt (.dir (.cons "examples" (.dir g) (.cons "data" (.dir h) .nil))) r with
        | none => rfl
        | some n => exact absurd hx (hex r n hr))

/-- **C63** `install_rfsed_tests(path)` puts the tests into `path` itself. -/
theorem c63_install_tests {s : Proc β} (hp : Proper s.fs) (hf : Fresh s) {g : SrcList β} {path : Path}
    (hg : Distinct (.dir g : SrcTree β)) (fg : Fits s.fs (.dir g) path) :
    ∃ s', install_rfsed_tests (.dir g) s path = (s', .ok ()) ∧ Written s.fs s'.fs (.dir g) path :=
  let ⟨s', h1, h2, _⟩ := copy_tree_ok hp hf hg fg
  ⟨s', h1, h2⟩

theorem copy_tree_stale {s : Proc β} {g : SrcList β} {dst : Path} (ht : Distinct (.dir g : SrcTree β))
    (hnone : ∀ r, s.fs (dst ++ r) = none)
    (hc : ∀ r, treeAt (.dir g) r = some .dir → s.created (dst ++ r)) :
    (¬ HasFile (.dir g) ∧ copy_tree s (.dir g) dst = (s, .ok ())) ∨
    (HasFile (.dir g) ∧ copy_tree s (.dir g) dst = (s, .error distutilsFileError)) := by
  have hcd : s.created dst := by
    have := hc [] (treeAt_nil g); rwa [List.append_nil] at this
  have := copyEntries_stale g s dst ht hnone (fun m r h => hc (m :: r) (by rw [treeAt_cons]; exact h))
  simp only [copy_tree, mkpath_stale hcd, andThen, hasFile_dir]
  exact this

/-- **C63** Install into a path that does not exist, remove it, and install again.  In the same
process nothing is installed: if there is a file to copy `DistutilsFileError` is raised, and either
way the file system is left as it is.  In another process the installation works again. -/
theorem c63_removed {s : Proc β} (hp : Proper s.fs) (hf : Fresh s) {g h : SrcList β} {path : Path}
    (hg : Distinct (.dir g : SrcTree β)) (hh : Distinct (.dir h : SrcTree β))
    (hmiss : ∀ r, s.fs (path ++ r) = none) (hpar : ∀ p c, p <+: path → s.fs p ≠ some (.file c)) :
    let s1 := (install_examples (.dir g) (.dir h) s path).1
    (∃ e, install_examples (.dir g) (.dir h) ⟨removed s1.fs path, s1.created⟩ path =
        (⟨removed s1.fs path, s1.created⟩, e) ∧
      (HasFile (.dir g) ∨ HasFile (.dir h) → e = .error distutilsFileError)) ∧
    ∃ s3, install_examples (.dir g) (.dir h) ⟨removed s1.fs path, fun _ => False⟩ path = (s3, .ok ()) ∧
      ∀ p, s3.fs p = s1.fs p := by
  classical
  have hpath : path ≠ [] := by
    rintro rfl
    have := hmiss []
    rw [List.append_nil, hp.1] at this; cases this
  have fits : ∀ (fs : FS β) (k : SrcList β) (x : String), (∀ r, fs (path ++ r) = none) →
      (∀ p c, p <+: path → fs p ≠ some (.file c)) → Fits fs (.dir k) (path ++ [x]) := by
    intro fs k x hm hpar
    refine ⟨fun r c _ => by rw [List.append_assoc, hm]; simp,
      fun r _ c => by rw [List.append_assoc, hm]; simp, fun p c hpp => ?_⟩
    rw [List.prefix_concat_iff] at hpp
    rcases hpp with rfl | hpp
    · rw [hm]; simp
    · exact hpar p c hpp
  obtain ⟨s', h1, ⟨w1, w2, w3⟩, h3, h4, h5⟩ := install_ok hp hf hg hh (fits s.fs g "examples" hmiss hpar)
    (fits s.fs h "data" hmiss hpar)
  intro s1
  have e1 : s1 = s' := by
    show (install_examples (.dir g) (.dir h) s path).1 = s'
    rw [h1]
  rw [e1]
  have hrem : ∀ r, removed s'.fs path (path ++ r) = none := by
    intro r; unfold removed; rw [if_pos (List.prefix_append _ _)]
  have hkeep : ∀ p, ¬ path <+: p → removed s'.fs path p = s'.fs p := by
    intro p hpp; unfold removed; rw [if_neg hpp]
  have hse : ¬ Skipped "examples" := by
    rw [← skipped_iff]; decide
  have hsd : ¬ Skipped "data" := by
    rw [← skipped_iff]; decide
  have cr : ∀ (x : String) (k : SrcList β),
      (∀ r, treeAt (.dir (.cons "examples" (.dir g) (.cons "data" (.dir h) .nil))) (x :: r) =
        treeAt (.dir k) r) → ∀ r, treeAt (.dir k) r = some .dir → s'.created (path ++ [x] ++ r) := by
    intro x k hk r hr
    rw [h5]
    right
    have := w1 (x :: r) .dir (by rw [hk]; exact hr)
    rw [List.append_assoc]
    refine ⟨this, ?_⟩
    rw [hmiss]; simp
  have kE : ∀ r, treeAt (.dir (.cons "examples" (.dir g) (.cons "data" (.dir h) .nil))) ("examples" :: r) =
      treeAt (.dir g) r := fun r => by
    simp only [treeAt_cons, entryAt_cons, hse, not_false_eq_true, and_self, if_true]
  have kD : ∀ r, treeAt (.dir (.cons "examples" (.dir g) (.cons "data" (.dir h) .nil))) ("data" :: r) =
      treeAt (.dir h) r := fun r => by simp [treeAt_cons, entryAt_cons, hsd]
  constructor
  · have c1 := copy_tree_stale (s := ⟨removed s'.fs path, s'.created⟩) (dst := path ++ ["examples"]) hg
      (fun r => by rw [List.append_assoc]; exact hrem _) (cr "examples" g kE)
    have c2 := copy_tree_stale (s := ⟨removed s'.fs path, s'.created⟩) (dst := path ++ ["data"]) hh
      (fun r => by rw [List.append_assoc]; exact hrem _) (cr "data" h kD)
    unfold install_examples
    rcases c1 with ⟨a, b⟩ | ⟨a, b⟩
    · rw [b]
      rcases c2 with ⟨c, d⟩ | ⟨c, d⟩
      · exact ⟨.ok (), d, fun hx => absurd hx (not_or.2 ⟨a, c⟩)⟩
      · exact ⟨_, d, fun _ => rfl⟩
    · rw [b]
      exact ⟨_, rfl, fun _ => rfl⟩
  · have hpro : Proper (removed s'.fs path) := by
      constructor
      · rw [hkeep]; · exact h3.1
        · intro hx; exact hpath (List.prefix_nil.1 hx)
      · intro p n hn
        have h6 : ¬ path <+: p ++ [n] := by
          rintro ⟨q, hq⟩
          rw [← hq, hrem] at hn
          exact hn rfl
        rw [hkeep _ h6] at hn
        rw [hkeep]
        · exact h3.2 p n hn
        · exact fun hx => h6 (hx.trans (List.prefix_append _ _))
    have hpar' : ∀ p c, p <+: path → removed s'.fs path p ≠ some (.file c) := by
      intro p c hpp
      by_cases he : p = path
      · have := hrem []; rw [List.append_nil] at this; rw [he, this]; simp
      · rw [hkeep _ (fun hx => he (hpp.eq_of_length (le_antisymm hpp.length_le hx.length_le))), w2 p hpp]
        simp
    obtain ⟨s3, k1, ⟨v1, v2, v3⟩, -⟩ := install_ok (s := ⟨removed s'.fs path, fun _ => False⟩) hpro
      (fun _ hx => hx.elim) hg hh (fits _ g "examples" hrem hpar') (fits _ h "data" hrem hpar')
    refine ⟨s3, k1, fun p => ?_⟩
    by_cases hpp : p <+: path
    · rw [v2 p hpp, w2 p hpp]
    · by_cases hex : ∃ r n, p = path ++ r ∧
          treeAt (.dir (.cons "examples" (.dir g) (.cons "data" (.dir h) .nil))) r = some n
      · obtain ⟨r, n, rfl, hr⟩ := hex
        rw [v1 r n hr, w1 r n hr]
      · push Not at hex
        have hno : ∀ r, p = path ++ r →
            treeAt (.dir (.cons "examples" (.dir g) (.cons "data" (.dir h) .nil))) r = none := by
          intro r hr
          cases hx : treeAt (.dir (.cons "examples" (.dir g) (.cons "data" (.dir h) .nil))) r with
          | none => rfl
          | some n => exact absurd hx (hex r n hr)
        rw [v3 p hpp hno]
        by_cases hx : path <+: p
        · obtain ⟨r, rfl⟩ := hx
          simp only
          rw [hrem, w3 _ hpp hno, hmiss]
        · exact hkeep p hx

/-! ## A case that meets the hypotheses: a home directory, two trees with files in them -/

def exTree : SrcList Nat := .cons "ex.py" (.file 1) (.cons "sub" (.dir (.cons "b.py" (.file 2) .nil)) .nil)
def exData : SrcList Nat := .cons "syn.qhd" (.file 3) .nil
def exFs : FS Nat := fun p => if p = [] ∨ p = ["home"] then some .dir
  else if p = ["home", "notes"] then some (.file 7) else none

theorem exFs_proper : Proper exFs := by
  refine ⟨rfl, fun p n h => ?_⟩
  have : p ++ [n] = ["home"] ∨ p ++ [n] = ["home", "notes"] := by
    by_contra hx
    push Not at hx
    simp [exFs, hx.1, hx.2] at h
  rcases this with hx | hx
  · have : p ++ [n] = [] ++ ["home"] := hx
    obtain ⟨rfl, -⟩ := List.append_inj' this rfl
    rfl
  · have : p ++ [n] = ["home"] ++ ["notes"] := hx
    obtain ⟨rfl, -⟩ := List.append_inj' this rfl
    simp [exFs]

example : ∃ s', install_examples (.dir exTree) (.dir exData) ⟨exFs, fun _ => False⟩ ["home", "rf"] =
      (s', .ok ()) ∧ s'.fs ["home", "rf", "examples", "sub", "b.py"] = some (.file 2) ∧
      s'.fs ["home", "notes"] = some (.file 7) := by
  have hs : ∀ n ∈ ["examples", "data", "ex.py", "sub", "b.py"], ¬ Skipped n := by
    intro n hn
    rw [← skipped_iff]
    revert n
    decide
  have hd : Distinct (.dir exTree : SrcTree Nat) := by simp [Distinct, DistinctEntries, exTree, names]
  have hd' : Distinct (.dir exData : SrcTree Nat) := by simp [Distinct, DistinctEntries, exData, names]
  have hno : ∀ (x : String) (r : Path), exFs (["home", "rf"] ++ [x] ++ r) = none := by
    intro x r; simp [exFs]
  have hpar : ∀ (x : String) (p : Path) (c : Nat), p <+: ["home", "rf"] ++ [x] → exFs p ≠ some (.file c) := by
    intro x p c hp hx
    simp only [exFs] at hx
    split at hx
    · cases hx
    · split at hx
      · rename_i h; subst h
        obtain ⟨q, hq⟩ := hp
        simp at hq
      · cases hx
  obtain ⟨s', h1, w1, w2, w3⟩ := c63_install (s := ⟨exFs, fun _ => False⟩) exFs_proper
    (fun _ h => h.elim) hd hd' (path := ["home", "rf"])
    ⟨fun r c _ => by simp only; rw [hno]; simp, fun r _ c => by simp only; rw [hno]; simp, hpar _⟩
    ⟨fun r c _ => by simp only; rw [hno]; simp, fun r _ c => by simp only; rw [hno]; simp, hpar _⟩
  refine ⟨s', h1, ?_, ?_⟩
  · refine w1 ["examples", "sub", "b.py"] (.file 2) ?_
    simp [treeAt_cons, entryAt_cons, exTree, treeAt_file, hs]
  · rw [w3]
    · simp [exFs]
    · simp
    · intro r hr; simp at hr

/-- the hypotheses of `c63_six_directories` -/
example : ∃ (fs : FS Nat) (pkg : Path), fs (pkg ++ ["examples"]) = some .dir ∧
    ∀ n c, fs (pkg ++ ["examples", n]) ≠ some (.file c) :=
  ⟨fun p => if p = [] ∨ p = ["rfsed"] ∨ p = ["rfsed", "examples"] then some .dir else none, ["rfsed"],
    by simp, fun n c => by simp⟩

/-- the hypotheses of `c63_concurrent` and `c63_race` -/
example : ∃ (fs : FS Nat) (p : Path), p ≠ [] ∧ fs p = none ∧ fs p.dropLast = some .dir :=
  ⟨exFs, ["home", "plots"], by simp, by simp [exFs], by simp [exFs]⟩

end Rfsed.Props
