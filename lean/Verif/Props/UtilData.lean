import Verif.Props.Util

/-!
# Property C88: the example data and the output directories
-/

namespace Rfsed.Props
open Util Spec
variable {β γ : Type}

/-- the six functions that prepare an output directory -/
inductive SaveCall where
  | eq | iris | rf | catalog | plot | tests

/-- what a call does to the file system -/
noncomputable def SaveCall.run (pkg : Path) : SaveCall → FS β → FS β × Except PyErr Path
  | .eq => save_Eq_data pkg
  | .iris => save_IRIS_waveform pkg
  | .rf => save_calculated_RF pkg
  | .catalog => save_catalog pkg
  | .plot => save_plot pkg
  | .tests => save_tests pkg

/-- one call after the other, whether or not they raise -/
noncomputable def runCalls (pkg : Path) : List SaveCall → FS β → FS β
  | [], fs => fs
  | c :: cs, fs => runCalls pkg cs (c.run pkg fs).1

theorem saveDir_keeps (fs : FS β) (p q : Path) (h : fs q ≠ none) : (saveDir fs p).1 q = fs q := by
  obtain ⟨h1, h2, h3, h4⟩ := c63_save_dir fs p
  cases hp : fs p with
  | none =>
    by_cases hd : fs p.dropLast = some .dir
    · exact (h2 hp hd).2.2 q (by rintro rfl; exact h hp)
    · rw [h3 hp hd]
  | some x =>
    cases x with
    | dir => rw [h1 hp]
    | file c => rw [h4 c hp]

theorem saveDir_other (fs : FS β) (p q : Path) (h : q ≠ p) : (saveDir fs p).1 q = fs q := by
  by_cases hq : fs q = none
  · unfold saveDir
    split_ifs
    · rfl
    · split
      · rfl
      · rename_i fs' hm
        unfold mkdir at hm
        split at hm
        · cases hm
        · split_ifs at hm
          cases Except.ok.inj hm
          simp [FS.set, h]
  · exact saveDir_keeps fs p q hq

theorem run_other (pkg : Path) (c : SaveCall) (fs : FS β) (q : Path) (h : ∀ n, q ≠ pkg ++ ["examples", n]) :
    (c.run pkg fs).1 q = fs q := by
  cases c <;> exact saveDir_other fs _ q (h _)

/-- **C88** Whatever the order, number and outcome of calls of the `save_…` functions, no file or
directory that exists is changed, and the three functions that read example data return (or raise)
the same as before. -/
theorem c88_saves_harmless (pkg : Path) (parse : β → Except PyErr γ) (calls : List SaveCall) (fs : FS β) :
    (∀ q, fs q ≠ none → runCalls pkg calls fs q = fs q) ∧
    rfMoho_example pkg parse (runCalls pkg calls fs) = rfMoho_example pkg parse fs ∧
    rfSed_example pkg parse (runCalls pkg calls fs) = rfSed_example pkg parse fs ∧
    read_raw_waveform_data pkg parse (runCalls pkg calls fs) = read_raw_waveform_data pkg parse fs := by
  have hk : ∀ (calls : List SaveCall) (fs : FS β) (q : Path), fs q ≠ none → runCalls pkg calls fs q = fs q := by
    intro calls
    induction calls with
    | nil => intro fs q _; rfl
    | cons c cs ih =>
      intro fs q hq
      have h1 : (c.run pkg fs).1 q = fs q := by
        cases c <;> exact saveDir_keeps fs _ q hq
      show runCalls pkg cs (c.run pkg fs).1 q = fs q
      rw [ih _ q (by rw [h1]; exact hq), h1]
  have ho : ∀ (q : Path), (∀ n, q ≠ pkg ++ ["examples", n]) → ∀ (calls : List SaveCall) (fs : FS β),
      runCalls pkg calls fs q = fs q := by
    intro q hq calls
    induction calls with
    | nil => intro fs; rfl
    | cons c cs ih =>
      intro fs
      show runCalls pkg cs (c.run pkg fs).1 q = fs q
      rw [ih, run_other pkg c fs q hq]
  refine ⟨hk calls fs, ?_, ?_, ?_⟩
  · simp only [rfMoho_example, read_rf, openFile]
    rw [ho _ (fun n => by simp)]
  · simp only [rfSed_example, read_rf, openFile]
    rw [ho _ (fun n => by simp)]
  · simp only [read_raw_waveform_data, read_rf, openFile]
    rw [ho _ (fun n => by simp)]

/-- **C88** A stream written as `00_eq_data.h5` to the directory `save_IRIS_waveform` returns is what
`read_raw_waveform_data` reads; what is written to the other five directories is not read by
any of the functions, and the catalogue of `catalog_example` is not the one in the directory of
`save_catalog`. -/
theorem c88_round_trip (pkg : Path) (parse : β → Except PyErr γ) (fs : FS β) {dir : Path} {name : String} {c : β} :
    ((save_IRIS_waveform pkg fs).2 = .ok dir →
      read_raw_waveform_data pkg parse ((save_IRIS_waveform pkg fs).1.set (dir ++ ["00_eq_data.h5"]) (.file c)) =
        parse c) ∧
    (∀ s : SaveCall, (s.run pkg fs).2 = .ok dir → (s = .iris → name ≠ "00_eq_data.h5") →
      let fs' := (s.run pkg fs).1.set (dir ++ [name]) (.file c)
      rfMoho_example pkg parse fs' = rfMoho_example pkg parse fs ∧
      rfSed_example pkg parse fs' = rfSed_example pkg parse fs ∧
      read_raw_waveform_data pkg parse fs' = read_raw_waveform_data pkg parse fs ∧
      dir ++ [name] ≠ catalog_example pkg) := by
  have hret : ∀ (fs : FS β) (p d : Path), (saveDir fs p).2 = .ok d → d = p := by
    intro fs p d h
    unfold saveDir at h
    split_ifs at h
    · exact (Except.ok.inj h).symm
    · split at h
      · cases h
      · exact (Except.ok.inj h).symm
  constructor
  · intro h
    have := hret _ _ _ h
    subst this
    simp [read_raw_waveform_data, read_rf, openFile, FS.set]
    rfl
  · intro s hs hn fs'
    have hfs : ∀ q : Path, (∀ n, q ≠ pkg ++ ["examples", n]) → q ≠ dir ++ [name] → fs' q = fs q := by
      intro q h1 h2
      show (s.run pkg fs).1.set (dir ++ [name]) (.file c) q = fs q
      rw [FS.set, if_neg h2, run_other pkg s fs q h1]
    obtain ⟨n, hd, hnn⟩ : ∃ n, dir = pkg ++ ["examples", n] ∧ (n = "IRIS_Downloaded_Waveform" → s = .iris) := by
      cases s <;> exact ⟨_, hret _ _ _ hs, by simp⟩
    subst hd
    refine ⟨?_, ?_, ?_, by simp [catalog_example]⟩
    · simp only [rfMoho_example, read_rf, openFile]
      rw [hfs _ (fun n => by simp) (by simp)]
    · simp only [rfSed_example, read_rf, openFile]
      rw [hfs _ (fun n => by simp) (by simp)]
    · simp only [read_raw_waveform_data, read_rf, openFile]
      rw [hfs _ (fun n => by simp) ?_]
      intro he
      simp only [List.append_assoc, List.cons_append, List.nil_append, List.append_cancel_left_eq,
        List.cons.injEq, and_true, true_and] at he
      exact hn (hnn he.1.symm) he.2.symm

/-- a package directory without `IRIS_Downloaded_Waveform`: it is created, and the file in it read back -/
example : ∃ (fs : FS Nat) (dir : Path), (save_IRIS_waveform ["p"] fs).2 = .ok dir ∧ fs dir = none ∧
    read_raw_waveform_data ["p"] (fun c => .ok c)
      ((save_IRIS_waveform ["p"] fs).1.set (dir ++ ["00_eq_data.h5"]) (.file 7)) = .ok 7 := by
  let fs : FS Nat := fun q => if q = ["p", "examples"] then some .dir else none
  have h := (c63_save_dir fs ["p", "examples", "IRIS_Downloaded_Waveform"]).2.1 (by simp [fs]) (by simp [fs])
  exact ⟨fs, _, h.1, by simp [fs], (c88_round_trip (name := "") ["p"] (fun c => .ok c) fs).1 h.1⟩

/-- **C88** Which file each example function reads: its stream is what `read_rf` makes of that file, a missing file is
reported, and nothing else matters. `raw_data_example` and `catalog_example` return paths of the package's data. -/
theorem c88_reads (pkg : Path) (parse : β → Except PyErr γ) (fs : FS β) :
    (∀ c, fs (pkg ++ ["data", "rfstreams_Moho", "rfstreams.h5"]) = some (.file c) → rfMoho_example pkg parse fs = parse c) ∧
    (fs (pkg ++ ["data", "rfstreams_Moho", "rfstreams.h5"]) = none → rfMoho_example pkg parse fs = .error fileNotFoundError) ∧
    (∀ c, fs (pkg ++ ["data", "rfstreams_Sed", "rfstreams.h5"]) = some (.file c) → rfSed_example pkg parse fs = parse c) ∧
    (fs (pkg ++ ["data", "rfstreams_Sed", "rfstreams.h5"]) = none → rfSed_example pkg parse fs = .error fileNotFoundError) ∧
    (∀ c, fs (pkg ++ ["examples", "IRIS_Downloaded_Waveform", "00_eq_data.h5"]) = some (.file c) →
      read_raw_waveform_data pkg parse fs = parse c) ∧
    (fs (pkg ++ ["examples", "IRIS_Downloaded_Waveform", "00_eq_data.h5"]) = none →
      read_raw_waveform_data pkg parse fs = .error fileNotFoundError) ∧
    raw_data_example pkg = pkg ++ ["data", "Raw_Data"] ∧
    catalog_example pkg = pkg ++ ["data", "Earthquake_Catalog", "eq_events.quakeml"] := by
  refine ⟨?_, ?_, ?_, ?_, ?_, ?_, rfl, rfl⟩ <;> intros <;>
    simp_all [rfMoho_example, rfSed_example, read_raw_waveform_data, read_rf, openFile, bind, Except.bind]

/-- a package with two different streams -/
example (a b : β) (parse : β → Except PyErr γ) :
    let fs : FS β := fun q => if q = ["p", "data", "rfstreams_Moho", "rfstreams.h5"] then some (.file a)
      else if q = ["p", "data", "rfstreams_Sed", "rfstreams.h5"] then some (.file b) else none
    rfMoho_example ["p"] parse fs = parse a ∧ rfSed_example ["p"] parse fs = parse b ∧
      read_raw_waveform_data ["p"] parse fs = .error fileNotFoundError := by
  intro fs
  have h := c88_reads ["p"] parse fs
  exact ⟨h.1 a (by simp [fs]), h.2.2.1 b (by simp [fs]), h.2.2.2.2.2.1 (by simp [fs])⟩

end Rfsed.Props
