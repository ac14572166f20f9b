import Verif.Props.WaveformIgnores

/-!
# Property C100: exactly when the waveform fit succeeds
-/

namespace Rfsed.Props
open Rfsed PyFloat Spec Waveform

section
variable {env : WEnv ℝ} {rfs : List (Trace ℝ)} {tr0 : Trace ℝ}
  {preonset HSed VpSed VpCrust rayp gaussian : ℝ} {KMoho HMoho : List ℝ} {S : List (List ℝ)} {sd : List ℝ}

/-- The model `(H, K)` can be judged: its synthetic exists, has as many samples in the fitted window as the
data, at least one, and the phase criterion can be computed. -/
def Judgeable (env : WEnv ℝ) (HSed VpSed VpCrust rayp delta preonset gaussian : ℝ) (sd : List ℝ)
    (H K : ℝ) : Prop :=
  ∃ syn, env.synthRF (modelOf HSed VpSed VpCrust rayp delta preonset gaussian sd.length H K) = .ok syn ∧
    (window delta preonset sd).length = (window delta preonset syn).length ∧
    window delta preonset sd ≠ [] ∧
    ∃ pg, env.pg (signOf (window delta preonset sd)) (signOf (window delta preonset syn)) delta = .ok pg

/-- one grid point is computed exactly when its model can be judged -/
theorem gridPoint_total {P : Para ℝ} (h0 : rfs[0]? = some tr0) (hd : 0 < tr0.delta)
    (hS : env.stackR rfs = .ok S) (hsd : S[0]? = some sd)
    (hP : prepare env rfs preonset HSed VpSed VpCrust rayp KMoho HMoho gaussian = .ok P) (H K : ℝ) :
    (∃ c, gridPoint env P H K = .ok c) ↔
      Judgeable env HSed VpSed VpCrust rayp tr0.delta preonset gaussian sd H K := by
  constructor
  · rintro ⟨c, hc⟩
    obtain ⟨S', sd', hS', hsd', -, -, -, syn, h1, h2, h3, -, -, -, -, h4⟩ := gridPoint_criteria h0 hd hP hc
    rw [hS] at hS'; cases Except.ok.inj hS'
    rw [hsd] at hsd'; cases hsd'
    exact ⟨syn, h1, h2, h3, _, h4⟩
  · rintro ⟨syn, h1, h2, h3, p, h4⟩
    obtain ⟨tr0', S', sd', z, e, h0', hS', hsd', hl, hz, hd0, he, rfl⟩ := prepare_ok hP
    rw [h0] at h0'; cases h0'
    rw [hS] at hS'; cases Except.ok.inj hS'
    rw [hsd] at hsd'; cases hsd'
    obtain ⟨hzl, hzt⟩ := whereEq_first hz
    have he : e = truncR (25 / tr0.delta) := by
      have := Except.ok.inj he
      rw [← this, real_ofNat]; norm_num
    have hm : modelOf HSed VpSed VpCrust rayp tr0.delta preonset gaussian sd.length H K =
        synthArgs HSed VpSed (vsOf VpSed) (rhoOf VpSed) VpCrust (rhoOf VpCrust) rayp tr0.delta
          (PyFloat.abs (tr0.delta * ofNat 0 - preonset)) gaussian sd.length H K := by
      rw [modelOf, synthArgs]
      simp only [vsOf_real, rhoOf_real, real_dec, real_abs, real_ofNat]
      congr 1 <;> norm_num
    unfold gridPoint
    simp only
    rw [← hm, h1, except_ok_bind]
    refine criteria_total (p := p) ?_ ?_ ?_ <;> rw [he, slice_window hd hzt]
    · rw [slice_window hd hzt]; exact h2
    · exact h3
    · rw [slice_window hd hzt]; exact h4

/-- **C100** For data whose stack exists, `WaveformFitting` returns a table exactly when some sample of the
first trace is at time zero, the grid is not empty, and every model of the grid can be judged.  The
weights and how well the models fit have no influence on that. -/
theorem c100_succeeds_iff (wc wr wp : ℝ) (h0 : rfs[0]? = some tr0) (hd : 0 < tr0.delta)
    (hS : env.stackR rfs = .ok S) (hsd : S[0]? = some sd) :
    (∃ R, WaveformFitting env rfs preonset HSed VpSed VpCrust rayp KMoho HMoho gaussian wc wr wp = .ok R) ↔
      (∃ i < tr0.data.length, tr0.delta * (i : ℝ) = preonset) ∧ KMoho ≠ [] ∧ HMoho ≠ [] ∧
      ∀ H ∈ HMoho, ∀ K ∈ KMoho,
        Judgeable env HSed VpSed VpCrust rayp tr0.delta preonset gaussian sd H K := by
  constructor
  · rintro ⟨R, h⟩
    obtain ⟨P, all, sols, best, hP, ha, hs, hb, rfl⟩ := WaveformFitting_ok h
    have hne : all ≠ [] := by
      rintro rfl
      rw [normalise_nil] at hs
      cases hs
    have hgr : KMoho ≠ [] ∧ HMoho ≠ [] := by
      constructor
      · rintro rfl
        have := mapM_length ha
        simp at this
        exact hne this
      · rintro rfl
        have := mapM_length ha
        rw [length_flatMap_map] at this
        simp at this
        exact hne this
    refine ⟨?_, hgr.1, hgr.2, ?_⟩
    · obtain ⟨tr0', _, _, z, e, h0', _, _, _, hz, _⟩ := prepare_ok hP
      rw [h0] at h0'; cases h0'
      exact ⟨z, whereEq_first hz⟩
    · intro H hH K hK
      obtain ⟨i, hi⟩ := List.getElem?_of_mem hK
      obtain ⟨j, hj⟩ := List.getElem?_of_mem hH
      have hg := getElem?_flatMap_map KMoho HMoho (fun k h => (h, k)) i j K H hi hj
      obtain ⟨c, -, hc⟩ := mapM_getElem ha hg
      exact (gridPoint_total h0 hd hS hsd hP H K).1 ⟨c, hc⟩
  · rintro ⟨hz, hK, hH, hj⟩
    have hl : tr0.data ≠ [] := by
      obtain ⟨i, hi, -⟩ := hz
      intro hc; rw [hc] at hi; simp at hi
    obtain ⟨P, hP⟩ := (c36_index_error preonset HSed VpSed VpCrust rayp gaussian wc wr wp KMoho HMoho
      h0 hd hl hS hsd).1 hz
    rw [WaveformPara_eq] at hP
    obtain ⟨all, hall⟩ := mapM_ok_of_forall
      (xs := KMoho.flatMap (fun k => HMoho.map (fun h => (h, k))))
      (f := fun p : ℝ × ℝ => gridPoint env P p.1 p.2) (by
        intro p hp
        obtain ⟨k, hk, hp⟩ := List.mem_flatMap.1 hp
        obtain ⟨h, hh, rfl⟩ := List.mem_map.1 hp
        exact (gridPoint_total h0 hd hS hsd hP h k).2 (hj h hh k hk))
    have hne : all ≠ [] := by
      rintro rfl
      have := mapM_length hall
      rw [length_flatMap_map] at this
      have h1 := List.length_pos_of_ne_nil hK
      have h2 := List.length_pos_of_ne_nil hH
      have := Nat.mul_pos h1 h2
      simp_all
    obtain ⟨sols, hs⟩ := normalise_total wc wr wp hne
    have hsne : sols ≠ [] := by
      obtain ⟨_, _, _, _, _, _, rfl⟩ := normalise_ok hs
      simpa using hne
    obtain ⟨best, hb⟩ := bestModels_total hsne
    exact ⟨_, WaveformFitting_of hP hall hs hb⟩
end

/-! ## concrete runs -/

/-- three samples at 0, 1, 2 s after the start of the record -/
noncomputable def wTraceOf (a b c : ℝ) : Trace ℝ := { wTrace with data := [a, b, c] }

/-- with the sample at index 1 at time zero, the fitted window is the last two samples -/
theorem wWindow1 (a b c : ℝ) : window 1 1 [a, b, c] = [b, c] := by
  unfold window
  rw [List.zipIdx_cons, List.zipIdx_cons, List.zipIdx_cons, List.zipIdx_nil]
  rw [List.filter_cons_of_neg, List.filter_cons_of_pos, List.filter_cons_of_pos]
  · rfl
  · refine (@decide_eq_true_iff _ (Classical.propDecidable _)).2 ?_
    constructor <;> norm_num
  · refine (@decide_eq_true_iff _ (Classical.propDecidable _)).2 ?_
    constructor <;> norm_num
  · intro hc
    have := @of_decide_eq_true _ (Classical.propDecidable _) hc
    norm_num at this

/-- such a run succeeds when every synthetic has three samples -/
theorem wRunOf {env : WEnv ℝ} (a b c wc wr wp : ℝ) {K H : List ℝ} (hK : K ≠ []) (hH : H ≠ [])
    (hst : ∀ rfs, env.stackR rfs = .ok (rfs.map Trace.data))
    (hsyn : ∀ m, ∃ x y z, env.synthRF m = .ok [x, y, z]) (hpg : ∀ x y d, ∃ p, env.pg x y d = .ok p) :
    (∃ R, WaveformFitting env [wTraceOf a b c] 0 1 2 6 (6/100) K H 1 wc wr wp = .ok R) ∧
    ∃ R, WaveformFitting env [wTraceOf a b c] 1 1 2 6 (6/100) K H 1 wc wr wp = .ok R := by
  constructor
  · refine (c100_succeeds_iff wc wr wp (tr0 := wTraceOf a b c) rfl (show (0 : ℝ) < 1 by norm_num) (hst _) rfl).2
      ⟨⟨0, by simp [wTraceOf], by simp⟩, hK, hH, fun h _ k _ => ?_⟩
    obtain ⟨x, y, z, e⟩ := hsyn (modelOf 1 2 6 (6/100) (wTraceOf a b c).delta 0 1 (wTraceOf a b c).data.length h k)
    refine ⟨_, e, ?_, ?_, hpg _ _ _⟩
    · show (window 1 0 [a, b, c]).length = (window 1 0 [x, y, z]).length
      rw [wWindow, wWindow]; rfl
    · show window 1 0 [a, b, c] ≠ []
      rw [wWindow]; simp
  · refine (c100_succeeds_iff wc wr wp (tr0 := wTraceOf a b c) rfl (show (0 : ℝ) < 1 by norm_num) (hst _) rfl).2
      ⟨⟨1, by simp [wTraceOf], by simp [wTraceOf, wTrace]⟩, hK, hH, fun h _ k _ => ?_⟩
    obtain ⟨x, y, z, e⟩ := hsyn (modelOf 1 2 6 (6/100) (wTraceOf a b c).delta 1 1 (wTraceOf a b c).data.length h k)
    refine ⟨_, e, ?_, ?_, hpg _ _ _⟩
    · show (window 1 1 [a, b, c]).length = (window 1 1 [x, y, z]).length
      rw [wWindow1, wWindow1]; rfl
    · show window 1 1 [a, b, c] ≠ []
      rw [wWindow1]; simp

theorem wEnv_three (m : SynthArgs ℝ) : ∃ x y z, wEnv.synthRF m = .ok [x, y, z] := by
  by_cases h : m.depth[1]? = some 30
  · exact ⟨0, 2, 4, by simp [wEnv, h]⟩
  · exact ⟨0, 1, 1, by simp [wEnv, h]⟩

/-- The hypotheses of `c99_gain`, `c99_gain_best` and `c99_phase_best` are met by the data `0, 1, 2` and
`1, 3, 5`, and, for the phase criterion, by `0, 1, 2` and `0, 3, 2`. -/
example : ∃ R R' R'' : WResult ℝ,
    WaveformFitting wEnv [wTraceOf 0 1 2] 0 1 2 6 (6/100) [2] [30, 40] 1 1 1 1 = .ok R ∧
    WaveformFitting wEnv [wTraceOf 1 3 5] 0 1 2 6 (6/100) [2] [30, 40] 1 1 1 1 = .ok R' ∧
    WaveformFitting wEnv [wTraceOf 0 3 2] 0 1 2 6 (6/100) [2] [30, 40] 1 1 1 1 = .ok R'' ∧
    R'.WaveformSolutions.map (fun s => (s.h, s.k, s.corr)) =
      R.WaveformSolutions.map (fun s => (s.h, s.k, (SignType.sign (2 : ℝ) : ℝ) * s.corr)) ∧
    R'.printed.corr.h = R.printed.corr.h ∧ R''.printed.pg.h = R.printed.pg.h := by
  have ok := fun a b c => (wRunOf (env := wEnv) (K := [2]) (H := [30, 40]) a b c 1 1 1 (by simp) (by simp)
    (fun _ => rfl) wEnv_three (fun _ _ _ => ⟨1, rfl⟩)).1
  obtain ⟨R, h⟩ := ok 0 1 2
  obtain ⟨R', h'⟩ := ok 1 3 5
  obtain ⟨R'', h''⟩ := ok 0 3 2
  have hx : window (wTraceOf 0 1 2).delta 0 [0, 1, 2] = [0, 1, 2] := wWindow _ _ _
  have hv : ¬ Constant (window (wTraceOf 0 1 2).delta 0 [0, 1, 2]) := by
    rw [hx]
    exact fun h => by have := h 0 (by simp) 1 (by simp); norm_num at this
  have hw : Wiggles wEnv 1 2 6 (6/100) (wTraceOf 0 1 2).delta 0 1 ([0, 1, 2] : List ℝ).length [2] [30, 40] := by
    intro H _ K _ syn hs
    rw [wEnv_synth] at hs
    cases Except.ok.inj hs
    split
    · have : window (wTraceOf 0 1 2).delta 0 [0, 2, 4] = [0, 2, 4] := wWindow _ _ _
      rw [this]
      exact fun h => by have := h 0 (by simp) 2 (by simp); norm_num at this
    · have : window (wTraceOf 0 1 2).delta 0 [0, 1, 1] = [0, 1, 1] := wWindow _ _ _
      rw [this]
      exact fun h => by have := h 0 (by simp) 1 (by simp); norm_num at this
  have hS' : ([wTraceOf 1 3 5].map Trace.data)[0]? = some (([0, 1, 2] : List ℝ).map (fun t => 2 * t + 1)) := by
    simp only [wTraceOf, List.map_cons, List.map_nil, List.getElem?_cons_zero]
    norm_num
  have hp : PosRescaled [0, 1, 2] [0, 3, 2] :=
    .cons ⟨1, by norm_num, by norm_num⟩ (.cons ⟨3, by norm_num, by norm_num⟩
      (.cons ⟨1, by norm_num, by norm_num⟩ .nil))
  refine ⟨R, R', R'', h, h', h'', ?_, ?_, ?_⟩
  · exact c99_gain (by norm_num) (b := 1) (tr0 := wTraceOf 0 1 2) (tr0' := wTraceOf 1 3 5) rfl rfl
      (show (0 : ℝ) < 1 by norm_num) rfl rfl rfl rfl hS' hv hw h h'
  · exact (c99_gain_best (a := 2) (by norm_num) (b := 1) (tr0 := wTraceOf 0 1 2) (tr0' := wTraceOf 1 3 5) rfl rfl
      (show (0 : ℝ) < 1 by norm_num) rfl rfl rfl rfl hS' hv hw h h').1
  · exact (c99_phase_best (tr0 := wTraceOf 0 1 2) (tr0' := wTraceOf 0 3 2) rfl rfl
      (show (0 : ℝ) < 1 by norm_num) rfl rfl rfl rfl rfl hp h h'').1

/-- The hypothesis of `c99_window` is met by two traces that differ before the onset, and their fits
succeed. -/
example : SameForFit wEnv 1 [wTraceOf 0 1 2] [wTraceOf 9 1 2] ∧
    (∃ R, WaveformFitting wEnv [wTraceOf 0 1 2] 1 1 2 6 (6/100) [2] [30, 40] 1 1 1 1 = .ok R) ∧
    (WaveformFitting wEnv [wTraceOf 0 1 2] 1 1 2 6 (6/100) [2] [30, 40] 1 1 1 1).map
        (fun R => (R.WaveformSolutions, R.printed)) =
      (WaveformFitting wEnv [wTraceOf 9 1 2] 1 1 2 6 (6/100) [2] [30, 40] 1 1 1 1).map
        (fun R => (R.WaveformSolutions, R.printed)) := by
  have hs : SameForFit wEnv 1 [wTraceOf 0 1 2] [wTraceOf 9 1 2] := by
    refine ⟨_, _, _, _, _, _, rfl, rfl, show (0 : ℝ) < 1 by norm_num, rfl, rfl, rfl, rfl, rfl, rfl, rfl, rfl, ?_⟩
    intro i hi _
    cases i with
    | zero => simp [wTraceOf, wTrace] at hi; norm_num at hi
    | succ i => rfl
  exact ⟨hs, (wRunOf (env := wEnv) 0 1 2 1 1 1 (by simp) (by simp) (fun _ => rfl) wEnv_three
    (fun _ _ _ => ⟨1, rfl⟩)).2, c99_window 1 1 1 hs⟩

/-- The other side of `c100_succeeds_iff`: an empty grid. -/
example : ¬ ∃ R, WaveformFitting wEnv [wTraceOf 0 1 2] 1 1 2 6 (6/100) [2] [] 1 1 1 1 = .ok R := by
  intro h
  have := (c100_succeeds_iff 1 1 1 (tr0 := wTraceOf 0 1 2) rfl (show (0 : ℝ) < 1 by norm_num) rfl rfl).1 h
  exact this.2.2.1 rfl

end Rfsed.Props
