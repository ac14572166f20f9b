import Verif.Props.ExperimentHk
import Verif.Props.ExperimentHkSeq
import Verif.Props.ExperimentHkSeqStack
import Verif.Props.RoundingStack

/-!
# C140: streams that meet the hypotheses of `c140_hk`, `c140_hk_stacked`, `c140_hkSeq` and
`c140_hkSeq_stacked`

Sixteen samples, one a second, with 3 at 4 s, 2 at 10 s and 1 elsewhere; ray parameter 0.1 s/km. A crust with
Vp = 6 km/s and κ = 1.85 sends its three waves after 0.158, 0.425 and 0.583 s for every kilometre of depth, so 24 km
scores 3 + 2 - 1 and 12 km scores 1 + 1 - 1.
-/

namespace Rfsed.Props
open Rfsed HkZhu Spec

/-- the trace of the cases -/
noncomputable def caseTrace : Trace ℝ := exactTrace dblTrace

theorem case_data : caseTrace.data =
    (List.range 16).map (fun i : Nat => if i = 4 then (3 : ℝ) else if i = 10 then 2 else 1) := dbl_data

theorem case_length : caseTrace.data.length = 16 := by rw [case_data]; simp

theorem case_axis : exactAxis caseTrace.delta 0 caseTrace.data.length = axis16 := by
  rw [case_length]; exact dbl_axis

theorem case_timeAxis : timeAxis caseTrace.delta 0 caseTrace.data.length = axis16 := by
  rw [← case_axis]
  unfold timeAxis exactAxis
  simp only [real_ofNat]

theorem value16 {t1 t2 t3 s : ℝ} (i j k : Nat) (hi : i < 16) (hj : j < 16) (hk : k < 16) (h1 : |(i : ℝ) - t1| ≤ 0.2)
    (h2 : |(j : ℝ) - t2| ≤ 0.2) (h3 : |(k : ℝ) - t3| ≤ 0.2) (h : StackValue 1 1 1 caseTrace.data axis16 t1 t2 t3 s) :
    s = (if i = 4 then (3 : ℝ) else if i = 10 then 2 else 1) + (if j = 4 then (3 : ℝ) else if j = 10 then 2 else 1)
      - (if k = 4 then (3 : ℝ) else if k = 10 then 2 else 1) := by
  obtain ⟨a1, a2, a3, r1, r2, r3, rfl⟩ := h
  have g : ∀ (n : Nat) (a : ℝ), n < 16 → caseTrace.data[n]? = some a →
      a = if n = 4 then (3 : ℝ) else if n = 10 then 2 else 1 := by
    intro n a hn ha
    rw [case_data, List.getElem?_map, List.getElem?_range hn] at ha
    exact (Option.some.inj ha).symm
  rw [g i a1 hi (read16 i hi h1 r1), g j a2 hj (read16 j hj h2 r2), g k a3 hk (read16 k hk h3 r3)]
  ring

theorem crust24 {s : ℝ} (h : StackValue 1 1 1 caseTrace.data axis16 (tPs 0.1 6 24 1.85) (tPpPs 0.1 6 24 1.85)
    (tPsPs 0.1 6 24 1.85) s) : s = 4 := by
  obtain ⟨e1, e2, e3⟩ := dbl_times (x := 24)
  rw [e1, e2, e3] at h
  rw [value16 4 10 14 (by norm_num) (by norm_num) (by norm_num) (by rw [abs_le]; norm_num) (by rw [abs_le]; norm_num)
    (by rw [abs_le]; norm_num) h]
  norm_num

theorem crust12 {s : ℝ} (h : StackValue 1 1 1 caseTrace.data axis16 (tPs 0.1 6 12 1.85) (tPpPs 0.1 6 12 1.85)
    (tPsPs 0.1 6 12 1.85) s) : s = 1 := by
  obtain ⟨e1, e2, e3⟩ := dbl_times (x := 12)
  rw [e1, e2, e3] at h
  rw [value16 2 5 7 (by norm_num) (by norm_num) (by norm_num) (by rw [abs_le]; norm_num) (by rw [abs_le]; norm_num)
    (by rw [abs_le]; norm_num) h]
  norm_num

/-- a table of two rows, the first one higher -/
theorem margin_pair {h1 h2 k a b m : ℝ} (hm : 0 ≤ m) (hlt : b + m < a) {i : Nat}
    (hi : argmax ([(⟨h1, k, a⟩ : Row ℝ), ⟨h2, k, b⟩].map Row.s) = .ok i) : i = 0 ∧ Margin m [⟨h1, k, a⟩, ⟨h2, k, b⟩] i := by
  have hab : b < a := by linarith
  have e : argmax (List.map Row.s [(⟨h1, k, a⟩ : Row ℝ), ⟨h2, k, b⟩]) = .ok 0 := by
    simp [argmax, argmaxGo, real_lt, real_le, not_lt.2 hab.le, hab.le]
  rw [e] at hi
  have hi := (Except.ok.inj hi).symm
  subst hi
  refine ⟨rfl, ?_⟩
  intro best hb j row hj hrow
  have hb := Option.some.inj hb
  have : j = 1 := by
    have := (List.getElem?_eq_some_iff.1 hrow).1
    simp at this
    omega
  subst this
  have hrow := Option.some.inj hrow
  rw [← hb, ← hrow]
  show b + m < a
  linarith

/-- the same with the second one higher -/
theorem margin_pair2 {h1 h2 k a b : ℝ} (hab : a < b) {i : Nat}
    (hi : argmax ([(⟨h1, k, a⟩ : Row ℝ), ⟨h2, k, b⟩].map Row.s) = .ok i) : i = 1 ∧ Margin 0 [⟨h1, k, a⟩, ⟨h2, k, b⟩] i := by
  have e : argmax (List.map Row.s [(⟨h1, k, a⟩ : Row ℝ), ⟨h2, k, b⟩]) = .ok 1 := by
    simp [argmax, argmaxGo, real_lt, real_le, hab, not_le.2 hab]
  rw [e] at hi
  have hi := (Except.ok.inj hi).symm
  subst hi
  refine ⟨rfl, ?_⟩
  intro best hb j row hj hrow
  have hb := Option.some.inj hb
  have : j = 0 := by
    have := (List.getElem?_eq_some_iff.1 hrow).1
    simp at this
    omega
  subst this
  have hrow := Option.some.inj hrow
  rw [← hb, ← hrow]
  show a + 0 < b
  linarith

theorem case_slow : slownessOf caseTrace = 10 := rfl

theorem case_runs {st : List (Trace ℝ)} (hst : st ≠ []) (h : ∀ tr ∈ st, tr = caseTrace) (stack : Option Bool) :
    ∃ r, hk (dblEnv ℝ 0.01) st 0 [24, 12] [1.85] (some ⟨.py, 6⟩) (some 1) (some 1) (some 1) none stack = .ok r := by
  refine (c104_hk ?_ ?_ (fun _ _ => rfl)).2 ⟨hst, ?_, ?_, divisor_real (by norm_num), by simp, by simp⟩
  · intro a ha b hb
    rw [h a ha, h b hb]
  · intro sd more e a ha
    have : ∀ d ∈ st.map Trace.data, d = caseTrace.data := by
      intro d hd
      obtain ⟨c, hc, rfl⟩ := List.mem_map.1 hd
      rw [h c hc]
    have e' : st.map Trace.data = sd :: more := Except.ok.inj e
    rw [h a ha, this sd (by rw [e']; simp)]
  · cases st with
    | nil => exact absurd rfl hst
    | cons a b => exact ⟨_, _, rfl⟩
  · intro tr htr
    rw [h tr htr]
    refine ⟨?_, rfl, rfl⟩
    rw [← List.length_pos_iff, case_length]; norm_num

theorem case_cell {stack : Bool} {x s : ℝ} (h : cell (dblEnv ℝ 0.01) [caseTrace, caseTrace] axis16 caseTrace.data 10
    ⟨.py, 6⟩ 1 1 1 stack 1.85 x = .ok s) : (x = 24 → s = 8) ∧ (x = 12 → s = 2) := by
  obtain ⟨xs, hxs, rfl⟩ := cell_real_ok.1 h
  have er : rpOf (dblEnv ℝ 0.01) 10 stack 10 = 0.1 := by
    unfold rpOf
    show (if stack then (0.01 : ℝ) * 10 else 0.01 * 10) = 0.1
    split <;> norm_num
  have one : ∀ v, traceTerm (dblEnv ℝ 0.01) axis16 caseTrace.data 10 ⟨.py, 6⟩ 1 1 1 stack 1.85 x caseTrace = .ok v →
      (x = 24 → v = 4) ∧ (x = 12 → v = 1) := by
    intro v hv
    rw [traceTerm_real_ok (o := 0) (sl := ⟨.np, 10⟩) (by norm_num) rfl rfl (by
      show rpOf (dblEnv ℝ 0.01) 10 stack 10 ^ 2 ≤ _
      rw [er]; norm_num)] at hv
    have e : (if stack then caseTrace.data else caseTrace.data) = caseTrace.data := by split <;> rfl
    rw [e] at hv
    simp only [er] at hv
    constructor
    · rintro rfl; exact crust24 hv
    · rintro rfl; exact crust12 hv
  rw [mapM_ok_iff] at hxs
  cases hxs with
  | cons hv hxs =>
    cases hxs with
    | cons hw hxs =>
      cases hxs
      constructor
      · intro hx
        rw [(one _ hv).1 hx, (one _ hw).1 hx]; norm_num
      · intro hx
        rw [(one _ hv).2 hx, (one _ hw).2 hx]; norm_num

theorem case_best {stack : Option Bool} {r : HKResult ℝ} (h : hk (dblEnv ℝ 0.01) [caseTrace, caseTrace] 0 [24, 12] [1.85]
    (some ⟨.py, 6⟩) (some 1) (some 1) (some 1) none stack = .ok r) : r.bestIdx = 0 ∧ Margin 5 r.stackvalues r.bestIdx := by
  obtain ⟨tr0, rest, slows, f⟩ := hk_inv h
  have g := f.hgrid
  have e1 := f.hst
  injection e1 with e1 e2
  obtain ⟨more, hm⟩ := f.hstack
  have e3 : caseTrace.data = r.RFStack := by
    have := Except.ok.inj hm
    injection this
  have e4 : r.AvgSlow = 10 := by
    have h1 := f.hslow
    have : [caseTrace, caseTrace].mapM Trace.getSlowness = .ok [(⟨.np, 10⟩ : Scalar ℝ), ⟨.np, 10⟩] := rfl
    rw [this] at h1
    rw [f.havg, ← Except.ok.inj h1]
    unfold npMean
    simp [real_ofNat]
  rw [f.hVp, ← e3, e4, f.htime, ← e1, case_timeAxis] at g
  obtain ⟨v, hv, htb⟩ := gridLoop_fun.1 g
  have v1 := (case_cell (hv 1.85 (by simp) 24 (by simp))).1 rfl
  have v2 := (case_cell (hv 1.85 (by simp) 12 (by simp))).2 rfl
  have htab : r.stackvalues = [⟨24, 1.85, 8⟩, ⟨12, 1.85, 2⟩] := by
    rw [htb]
    simp [gridTab, gridPoints, v1, v2]
  have hb := f.hbest
  rw [htab] at hb ⊢
  exact margin_pair (by norm_num) (by norm_num) hb

/-- two receiver functions meet every hypothesis of `c140_hk` -/
example : ∃ r, hk (dblEnv ℝ 0.01) [caseTrace, caseTrace] 0 [24, 12] [1.85] (some ⟨.py, 6⟩) (some 1) (some 1) (some 1)
      none none = .ok r ∧
    ∃ C' > 0, ∃ δ > 0, ∀ ε, 0 < ε → ε ≤ δ → ∀ R : Rounding, R.u ≤ ε →
      ∀ (env' : Env (FL R)) (st' : List (Trace (FL R))) (H' K' : List (FL R)) (pre' v1 v2 v3 : FL R)
        (Vp' : Scalar (FL R)) (layer' : Option String) (stack' : Option Bool),
        NearStream (3 * ε) [caseTrace, caseTrace] st' → env'.km2deg1.val = 0.01 → pre'.val = 0 →
        H'.map FL.val = [24, 12] → K'.map FL.val = [1.85] → Vp'.val.val = 6 → v1.val = 1 → v2.val = 1 → v3.val = 1 →
        stack' ≠ some true → (∃ sd more, env'.stack st' = .ok (sd :: more)) →
        (∀ tb, tb ≠ [] → env'.draw tb = .ok ()) →
        ∃ r', hk env' st' pre' H' K' (some Vp') (some v1) (some v2) (some v3) layer' stack' = .ok r' ∧
          NearTable (C' * ε) r.stackvalues (r'.stackvalues.map exactRow) ∧ r'.bestIdx = 0 := by
  obtain ⟨r, hr⟩ := case_runs (st := [caseTrace, caseTrace]) (by simp) (by simp) none
  obtain ⟨hb, hm⟩ := case_best hr
  have hall : ∀ tr ∈ [caseTrace, caseTrace], (dblEnv ℝ 0.01).km2deg1 * slownessOf tr = 0.1 := by
    intro tr htr
    have : tr = caseTrace := by simpa using htr
    rw [this]
    show (0.01 : ℝ) * 10 = 0.1
    norm_num
  refine ⟨r, hr, ?_⟩
  rw [← hb]
  refine c140_hk (C := 3) (by simp) hr (by simp) ?_ ?_ ?_ (margin_mono (by norm_num) hm) (by norm_num)
  · intro k hk tr htr
    rw [hall tr htr, List.mem_singleton.1 hk]; norm_num
  · intro tr htr
    rw [hall tr htr]; norm_num
  · intro k hk y hy tr htr
    rw [hall tr htr, List.mem_singleton.1 hk, case_axis]
    exact dbl_clear (by simpa using hy) (by norm_num)

/-- and, stacked, every hypothesis of `c140_hk_stacked` -/
example : ∃ r, hk (dblEnv ℝ 0.01) [caseTrace, caseTrace] 0 [24, 12] [1.85] (some ⟨.py, 6⟩) (some 1) (some 1) (some 1)
      none (some true) = .ok r ∧
    ∃ C' > 0, ∃ δ > 0, ∀ ε, 0 < ε → ε ≤ δ → ∀ R : Rounding, R.u ≤ ε →
      ∀ (env' : Env (FL R)) (st' : List (Trace (FL R))) (H' K' sd' : List (FL R)) (more' : List (List (FL R)))
        (pre' v1 v2 v3 : FL R) (Vp' : Scalar (FL R)) (layer' : Option String),
        NearStream (3 * ε) [caseTrace, caseTrace] st' → env'.stack st' = .ok (sd' :: more') →
        Near (3 * ε) caseTrace.data (sd'.map FL.val) →
        env'.km2deg1.val = 0.01 → pre'.val = 0 →
        H'.map FL.val = [24, 12] → K'.map FL.val = [1.85] → Vp'.val.val = 6 → v1.val = 1 → v2.val = 1 → v3.val = 1 →
        (∀ tb, tb ≠ [] → env'.draw tb = .ok ()) →
        ∃ r', hk env' st' pre' H' K' (some Vp') (some v1) (some v2) (some v3) layer' (some true) = .ok r' ∧
          NearTable (C' * ε) r.stackvalues (r'.stackvalues.map exactRow) ∧ r'.bestIdx = 0 := by
  obtain ⟨r, hr⟩ := case_runs (st := [caseTrace, caseTrace]) (by simp) (by simp) (some true)
  obtain ⟨hb, hm⟩ := case_best hr
  refine ⟨r, hr, ?_⟩
  rw [← hb]
  refine c140_hk_stacked (C := 3) (p := 0.1) (sd := caseTrace.data) (more := [caseTrace.data]) hr rfl le_rfl ?_ ?_ (by simp)
    ?_ ?_ ?_ (margin_mono (by norm_num) hm) (by norm_num)
  · show (0.1 : ℝ) = 0.01 * ((10 + (10 + 0)) / ((2 : ℕ) : ℝ))
    norm_num
  · intro tr htr
    have : tr = caseTrace := by simpa using htr
    rw [this, case_slow]; norm_num
  · intro k hk
    rw [List.mem_singleton.1 hk]; norm_num
  · norm_num
  · intro k hk y hy
    rw [List.mem_singleton.1 hk, case_axis]
    exact dbl_clear (by simpa using hy) (by norm_num)

theorem sed4 {s : ℝ} (h : StackValue 1 1 1 caseTrace.data axis16 (tPs 0.1 (50 / 13) 4 (101 / 52))
    (tPpPs 0.1 (50 / 13) 4 (101 / 52)) (tPsPs 0.1 (50 / 13) 4 (101 / 52)) s) : s = -1 := by
  obtain ⟨e1, e2, e3⟩ := sed_times (x := 4)
  rw [e1, e2, e3] at h
  rw [value16 1 3 4 (by norm_num) (by norm_num) (by norm_num) (by rw [abs_le]; norm_num) (by rw [abs_le]; norm_num)
    (by rw [abs_le]; norm_num) h]
  norm_num

theorem sed0 {s : ℝ} (h : StackValue 1 1 1 caseTrace.data axis16 (tPs 0.1 (50 / 13) 0 (101 / 52))
    (tPpPs 0.1 (50 / 13) 0 (101 / 52)) (tPsPs 0.1 (50 / 13) 0 (101 / 52)) s) : s = 1 := by
  obtain ⟨e1, e2, e3⟩ := sed_times (x := 0)
  rw [e1, e2, e3] at h
  rw [value16 0 0 0 (by norm_num) (by norm_num) (by norm_num) (by rw [abs_le]; norm_num) (by rw [abs_le]; norm_num)
    (by rw [abs_le]; norm_num) h]
  norm_num

theorem no_sediment : tPs 0.1 (50 / 13) 0 (101 / 52) = 0 ∧ tPpPs 0.1 (50 / 13) 0 (101 / 52) = 0 ∧
    tPsPs 0.1 (50 / 13) 0 (101 / 52) = 0 := by
  obtain ⟨e1, e2, e3⟩ := sed_times (x := 0)
  rw [e1, e2, e3]
  norm_num

theorem case_seq_runs (stack : Option Bool) : ∃ r, HkSeqYeck.hkSeq (dblEnv ℝ 0.01) [caseTrace] [caseTrace, caseTrace] 0 [4, 0] [101 / 52]
    (some ⟨.py, 50 / 13⟩) (some 1) (some 1) (some 1) [24, 12] [1.85] (some ⟨.py, 6⟩) (some 1) (some 1) (some 1) stack
      = .ok r := by
  refine (c104_hkSeq (tr0 := caseTrace) (restS := []) ?_ ?_ (fun _ _ => rfl)).2 ⟨⟨_, _, rfl⟩, ⟨_, _, rfl⟩, ?_, ?_,
    ⟨_, _, rfl, rfl⟩, ?_, divisor_real (by norm_num), ⟨_, rfl, divisor_real (by norm_num)⟩, rfl, rfl, rfl, by simp,
    by simp, by simp, by simp⟩
  · intro tr htr
    have : tr = caseTrace := by simpa using htr
    rw [this]
  · intro st hst sd more hsd
    simp only [List.mem_cons, List.not_mem_nil, or_false] at hst
    rcases hst with hst | hst <;> rw [hst] at hsd <;> have := Except.ok.inj hsd <;> injection this with h1 h2 <;>
      rw [← h1]
  · rw [← List.length_pos_iff, case_length]; norm_num
  · intro tr htr
    rw [List.mem_singleton.1 htr]
    exact ⟨rfl, rfl⟩
  · intro tr htr
    have : tr = caseTrace := by simpa using htr
    rw [this]
    rfl

theorem case_seq_best {stack : Option Bool} {r : HkSeqYeck.SeqResult ℝ} (h : HkSeqYeck.hkSeq (dblEnv ℝ 0.01) [caseTrace]
    [caseTrace, caseTrace] 0 [4, 0] [101 / 52] (some ⟨.py, 50 / 13⟩) (some 1) (some 1) (some 1) [24, 12] [1.85]
    (some ⟨.py, 6⟩) (some 1) (some 1) (some 1) stack = .ok r) :
    (r.bestIdxSed = 1 ∧ Margin 0 r.stackvalueSed r.bestIdxSed) ∧ (r.bestIdxMoho = 0 ∧ Margin 0 r.stackvalueMoho r.bestIdxMoho)
      ∧ r.bestmodelSed = some ⟨0, 101 / 52, 1⟩ := by
  obtain ⟨tr0, rest, slows, bm, raw, f⟩ := hkSeq_inv h
  have e1 := f.hst
  injection e1 with e1 e2
  have ht : r.time = axis16 := by rw [f.htime, ← e1, case_timeAxis]
  have g := f.hgridS
  rw [f.hVpSed, f.hstk, ht] at g
  obtain ⟨v, hv, htb⟩ := gridLoop_fun.1 g
  have hp : (0.1 : ℝ) = if stack.getD false then (dblEnv ℝ 0.01).km2deg1 * r.AvgSlow
      else (dblEnv ℝ 0.01).km2deg1 * (⟨.np, 10⟩ : Scalar ℝ).val := by
    have e4 : r.AvgSlow = 10 := by
      have h1 := f.hslow
      have : [caseTrace, caseTrace].mapM Trace.getSlowness = .ok [(⟨.np, 10⟩ : Scalar ℝ), ⟨.np, 10⟩] := rfl
      rw [this] at h1
      rw [f.havg, ← Except.ok.inj h1]
      unfold npMean
      simp [real_ofNat]
    rw [e4]
    show (0.1 : ℝ) = if stack.getD false then 0.01 * 10 else 0.01 * 10
    split <;> norm_num
  have hd : (if stack.getD false then r.RFSedStack else caseTrace.data) = caseTrace.data := by
    obtain ⟨more, hm⟩ := f.hstackS
    have e3 : caseTrace.data = r.RFSedStack := by
      have := Except.ok.inj hm
      injection this
    rw [← e3]
    split <;> rfl
  have hd2 : (if stack.getD false then r.RFMohoStack else caseTrace.data) = caseTrace.data := by
    obtain ⟨more, hm⟩ := f.hstackM
    have e3 : caseTrace.data = r.RFMohoStack := by
      have := Except.ok.inj hm
      injection this
    rw [← e3]
    split <;> rfl
  have sv : ∀ x ∈ [(4 : ℝ), 0], StackValue 1 1 1 caseTrace.data axis16 (tPs 0.1 (50 / 13) x (101 / 52))
      (tPpPs 0.1 (50 / 13) x (101 / 52)) (tPsPs 0.1 (50 / 13) x (101 / 52)) (v (101 / 52) x) := by
    intro x hx
    have h0 := hv (101 / 52) (by simp) x hx
    have := lastTrace_getLast (last := caseTrace) rfl h0
    clear h0 hv htb g
    simp only [Option.getD_some] at this
    rw [sedTerm_real (o := 0) (sl := ⟨.np, 10⟩) (p := 0.1) rfl rfl (by norm_num) hp (by norm_num), hd] at this
    exact this
  have v1 := sed4 (sv 4 (by simp))
  have v2 := sed0 (sv 0 (by simp))
  have htab : r.stackvalueSed = [⟨4, 101 / 52, -1⟩, ⟨0, 101 / 52, 1⟩] := by
    rw [htb]
    simp [gridTab, gridPoints, v1, v2]
  have hbS := f.hbestS
  have hrow := f.hrowS
  have hmS : r.bestIdxSed = 1 ∧ Margin 0 r.stackvalueSed r.bestIdxSed := by
    rw [htab] at hbS ⊢
    exact margin_pair2 (by norm_num) hbS
  rw [hmS.1, htab] at hrow
  have hbm : bm = ⟨0, 101 / 52, 1⟩ := (Option.some.inj hrow).symm
  have g := f.hgridM
  rw [f.hVpSed, f.hstk, ht, hbm] at g
  obtain ⟨w, hw, hraw⟩ := gridLoop_fun.1 g
  have mv : ∀ x ∈ [(24 : ℝ), 12], StackValue 1 1 1 caseTrace.data axis16 (tPs 0.1 6 x 1.85) (tPpPs 0.1 6 x 1.85)
      (tPsPs 0.1 6 x 1.85) (w 1.85 x) := by
    intro x hx
    have h0 := hw 1.85 (by simp) x hx
    have := lastTrace_getLast (last := caseTrace) rfl h0
    clear h0 hw hraw g
    simp only [Option.getD_some] at this
    rw [mohoTerm_real (o := 0) (sl := ⟨.np, 10⟩) (p := 0.1) (tr0 := caseTrace) rfl rfl rfl (by norm_num) (by norm_num)
      hp (by norm_num) (by norm_num), hd2] at this
    obtain ⟨z1, z2, z3⟩ := no_sediment
    simp only [z1, z2, z3, zero_add] at this
    exact this
  have w1 := crust24 (mv 24 (by simp))
  have w2 := crust12 (mv 12 (by simp))
  have hraw' : raw = [⟨24, 1.85, 4⟩, ⟨12, 1.85, 1⟩] := by
    rw [hraw]
    simp [gridTab, gridPoints, w1, w2]
  have hclip : clipLoop raw = raw := by
    rw [hraw']
    rw [clipLoop_eq]
    norm_num [clipRow, real_le, real_lt]
  refine ⟨hmS, ?_, ?_⟩
  · rw [f.hclip, hclip]
    have := f.hbestM
    rw [hraw'] at this ⊢
    exact margin_pair le_rfl (by norm_num) this
  · unfold HkSeqYeck.SeqResult.bestmodelSed
    rw [hmS.1, htab]
    rfl

/-- the two streams meet every hypothesis of `c140_hkSeq` -/
example : ∃ r, HkSeqYeck.hkSeq (dblEnv ℝ 0.01) [caseTrace] [caseTrace, caseTrace] 0 [4, 0] [101 / 52]
      (some ⟨.py, 50 / 13⟩) (some 1) (some 1) (some 1) [24, 12] [1.85] (some ⟨.py, 6⟩) (some 1) (some 1) (some 1) none
      = .ok r ∧
    ∃ C' > 0, ∃ δ > 0, ∀ ε, 0 < ε → ε ≤ δ → ∀ R : Rounding, R.u ≤ ε →
      ∀ (env' : Env (FL R)) (stS' stM' : List (Trace (FL R))) (HS' KS' HM' KM' : List (FL R)) (pre' : FL R)
        (VpS' VpM' : Scalar (FL R)) (v1S v2S v3S v1M v2M v3M : FL R) (stack' : Option Bool),
        NearStream (3 * ε) [caseTrace] stS' → NearStream (3 * ε) [caseTrace, caseTrace] stM' →
        env'.km2deg1.val = 0.01 → pre'.val = 0 →
        HS'.map FL.val = [4, 0] → KS'.map FL.val = [101 / 52] → HM'.map FL.val = [24, 12] → KM'.map FL.val = [1.85] →
        VpS'.val.val = 50 / 13 → VpM'.val.val = 6 → v1S.val = 1 → v2S.val = 1 →
        v3S.val = 1 → v1M.val = 1 → v2M.val = 1 → v3M.val = 1 → stack' ≠ some true →
        (∃ d more, env'.stack stS' = .ok (d :: more) ∧ caseTrace.data.length ≤ d.length) →
        (∃ d more, env'.stack stM' = .ok (d :: more) ∧ caseTrace.data.length ≤ d.length) →
        (∀ tb, tb ≠ [] → env'.draw tb = .ok ()) →
        ∃ r', HkSeqYeck.hkSeq env' stS' stM' pre' HS' KS' (some VpS') (some v1S) (some v2S) (some v3S) HM' KM'
            (some VpM') (some v1M) (some v2M) (some v3M) stack' = .ok r' ∧
          NearTable (C' * ε) r.stackvalueSed (r'.stackvalueSed.map exactRow) ∧ r'.bestIdxSed = 1 ∧
          NearTable (C' * ε) r.stackvalueMoho (r'.stackvalueMoho.map exactRow) ∧ r'.bestIdxMoho = 0 := by
  obtain ⟨r, hr⟩ := case_seq_runs none
  obtain ⟨⟨bS, mS⟩, ⟨bM, mM⟩, hb⟩ := case_seq_best hr
  refine ⟨r, hr, ?_⟩
  have e : (0.1 : ℝ) = (dblEnv ℝ 0.01).km2deg1 * slownessOf caseTrace := by
    show (0.1 : ℝ) = 0.01 * 10
    norm_num
  have k1 : ∀ tr ∈ [caseTrace, caseTrace], tr.onset.isSome := by
    intro tr htr
    have : tr = caseTrace := by simpa using htr
    rw [this]; rfl
  have k2 : ∀ tr ∈ [caseTrace] ++ [caseTrace, caseTrace], caseTrace.data.length ≤ tr.data.length := by
    intro tr htr
    have : tr = caseTrace := by simpa using htr
    rw [this]
  have k3 : ∀ k ∈ [(101 / 52 : ℝ)], (0.1 : ℝ) ^ 2 < (k / (50 / 13)) ^ 2 := by
    intro k hk
    rw [List.mem_singleton.1 hk]; norm_num
  have k4 : ∀ k ∈ [(1.85 : ℝ)], (0.1 : ℝ) ^ 2 < (k / 6) ^ 2 := by
    intro k hk
    rw [List.mem_singleton.1 hk]; norm_num
  have k5 : ∀ k ∈ [(101 / 52 : ℝ)], ∀ y ∈ [(4 : ℝ), 0], ClearTimes (exactAxis caseTrace.delta 0 caseTrace.data.length)
      (tPs 0.1 (50 / 13) y k) (tPpPs 0.1 (50 / 13) y k) (tPsPs 0.1 (50 / 13) y k) 0 := by
    intro k hk y hy
    rw [List.mem_singleton.1 hk, case_axis]
    exact sed_clear (by simpa using hy) (by norm_num)
  have k6 : ∀ k ∈ [(1.85 : ℝ)], ∀ y ∈ [(24 : ℝ), 12], ClearTimes (exactAxis caseTrace.delta 0 caseTrace.data.length)
      (mohoPs 0.1 (50 / 13) 0 (101 / 52) 6 y k) (mohoPpPs 0.1 (50 / 13) 0 (101 / 52) 6 y k)
      (mohoPsPs 0.1 (50 / 13) 0 (101 / 52) 6 y k) 0 := by
    intro k hk y hy
    rw [List.mem_singleton.1 hk, case_axis]
    obtain ⟨z1, z2, z3⟩ := no_sediment
    unfold mohoPs mohoPpPs mohoPsPs
    simp only [z1, z2, z3, zero_add]
    exact dbl_clear (E := 0) (by simpa using hy) (by norm_num)
  have key := c140_hkSeq (C := 3) (pS := 0.1) (pM := 0.1) (by simp) hr hb rfl rfl rfl k1 k2 e e k3 (by norm_num) k3 (by norm_num)
    k4 (by norm_num) k5 k6 mS mM (by norm_num)
  rw [bS, bM] at key
  exact key

/-- the two streams meet every hypothesis of `c140_hkSeq_stacked` -/
example : ∃ r, HkSeqYeck.hkSeq (dblEnv ℝ 0.01) [caseTrace] [caseTrace, caseTrace] 0 [4, 0] [101 / 52]
      (some ⟨.py, 50 / 13⟩) (some 1) (some 1) (some 1) [24, 12] [1.85] (some ⟨.py, 6⟩) (some 1) (some 1) (some 1) (some true)
      = .ok r ∧
    ∃ C' > 0, ∃ δ > 0, ∀ ε, 0 < ε → ε ≤ δ → ∀ R : Rounding, R.u ≤ ε →
      ∀ (env' : Env (FL R)) (stS' stM' : List (Trace (FL R))) (HS' KS' HM' KM' : List (FL R)) (pre' : FL R)
        (VpS' VpM' : Scalar (FL R)) (v1S v2S v3S v1M v2M v3M : FL R) (sdS' sdM' : List (FL R))
        (moreS' moreM' : List (List (FL R))),
        NearStream (3 * ε) [caseTrace] stS' → NearStream (3 * ε) [caseTrace, caseTrace] stM' →
        env'.stack stS' = .ok (sdS' :: moreS') → env'.stack stM' = .ok (sdM' :: moreM') →
        Near (3 * ε) caseTrace.data (sdS'.map FL.val) → Near (3 * ε) caseTrace.data (sdM'.map FL.val) →
        env'.km2deg1.val = 0.01 → pre'.val = 0 →
        HS'.map FL.val = [4, 0] → KS'.map FL.val = [101 / 52] → HM'.map FL.val = [24, 12] → KM'.map FL.val = [1.85] →
        VpS'.val.val = 50 / 13 → VpM'.val.val = 6 → v1S.val = 1 → v2S.val = 1 →
        v3S.val = 1 → v1M.val = 1 → v2M.val = 1 → v3M.val = 1 →
        (∀ tb, tb ≠ [] → env'.draw tb = .ok ()) →
        ∃ r', HkSeqYeck.hkSeq env' stS' stM' pre' HS' KS' (some VpS') (some v1S) (some v2S) (some v3S) HM' KM'
            (some VpM') (some v1M) (some v2M) (some v3M) (some true) = .ok r' ∧
          NearTable (C' * ε) r.stackvalueSed (r'.stackvalueSed.map exactRow) ∧ r'.bestIdxSed = 1 ∧
          NearTable (C' * ε) r.stackvalueMoho (r'.stackvalueMoho.map exactRow) ∧ r'.bestIdxMoho = 0 := by
  obtain ⟨r, hr⟩ := case_seq_runs (some true)
  obtain ⟨⟨bS, mS⟩, ⟨bM, mM⟩, hb⟩ := case_seq_best hr
  refine ⟨r, hr, ?_⟩
  have e : (0.1 : ℝ) = (dblEnv ℝ 0.01).km2deg1 * (([caseTrace, caseTrace].map slownessOf).sum / [caseTrace, caseTrace].length) := by
    show (0.1 : ℝ) = 0.01 * ((10 + (10 + 0)) / ((2 : ℕ) : ℝ))
    norm_num
  have k0 : ∀ tr ∈ [caseTrace, caseTrace], 0 ≤ slownessOf tr := by
    intro tr htr
    have : tr = caseTrace := by simpa using htr
    rw [this, case_slow]; norm_num
  have k1 : ∀ tr ∈ [caseTrace, caseTrace], tr.onset.isSome := by
    intro tr htr
    have : tr = caseTrace := by simpa using htr
    rw [this]; rfl
  have k2 : ∀ tr ∈ [caseTrace] ++ [caseTrace, caseTrace], caseTrace.data.length ≤ tr.data.length := by
    intro tr htr
    have : tr = caseTrace := by simpa using htr
    rw [this]
  have k3 : ∀ k ∈ [(101 / 52 : ℝ)], (0.1 : ℝ) ^ 2 < (k / (50 / 13)) ^ 2 := by
    intro k hk
    rw [List.mem_singleton.1 hk]; norm_num
  have k4 : ∀ k ∈ [(1.85 : ℝ)], (0.1 : ℝ) ^ 2 < (k / 6) ^ 2 := by
    intro k hk
    rw [List.mem_singleton.1 hk]; norm_num
  have k5 : ∀ k ∈ [(101 / 52 : ℝ)], ∀ y ∈ [(4 : ℝ), 0], ClearTimes (exactAxis caseTrace.delta 0 caseTrace.data.length)
      (tPs 0.1 (50 / 13) y k) (tPpPs 0.1 (50 / 13) y k) (tPsPs 0.1 (50 / 13) y k) 0 := by
    intro k hk y hy
    rw [List.mem_singleton.1 hk, case_axis]
    exact sed_clear (by simpa using hy) (by norm_num)
  have k6 : ∀ k ∈ [(1.85 : ℝ)], ∀ y ∈ [(24 : ℝ), 12], ClearTimes (exactAxis caseTrace.delta 0 caseTrace.data.length)
      (mohoPs 0.1 (50 / 13) 0 (101 / 52) 6 y k) (mohoPpPs 0.1 (50 / 13) 0 (101 / 52) 6 y k)
      (mohoPsPs 0.1 (50 / 13) 0 (101 / 52) 6 y k) 0 := by
    intro k hk y hy
    rw [List.mem_singleton.1 hk, case_axis]
    obtain ⟨z1, z2, z3⟩ := no_sediment
    unfold mohoPs mohoPpPs mohoPsPs
    simp only [z1, z2, z3, zero_add]
    exact dbl_clear (E := 0) (by simpa using hy) (by norm_num)
  have key := c140_hkSeq_stacked (C := 3) (p := 0.1) (sdS := caseTrace.data) (sdM := caseTrace.data) (moreS := [])
    (moreM := [caseTrace.data]) hr hb rfl rfl rfl le_rfl le_rfl k1 k2 e k0 k3 (by norm_num) k4 (by norm_num) k5 k6 mS mM
    (by norm_num)
  rw [bS, bM] at key
  exact key

/-- the hypotheses of `c95_hk_stacked` and `c95_hkSeq_stacked`: the stack of the first run and any other one -/
example (d : List ℝ) (hd : Near 0.1 caseTrace.data d) (more : List (List ℝ)) :
    let env' : Env ℝ := { dblEnv ℝ 0.01 with stack := fun _ => .ok (d :: more) }
    ∃ r r', hk (dblEnv ℝ 0.01) [caseTrace, caseTrace] 0 [24, 12] [1.85] (some ⟨.py, 6⟩) (some 1) (some 1) (some 1)
        none (some true) = .ok r ∧
      hk env' [caseTrace, caseTrace] 0 [24, 12] [1.85] (some ⟨.py, 6⟩) (some 1) (some 1) (some 1) none (some true)
        = .ok r' ∧ NearTable 0.6 r.stackvalues r'.stackvalues ∧ r'.bestIdx = 0 := by
  intro env'
  obtain ⟨r, hr⟩ := case_runs (st := [caseTrace, caseTrace]) (by simp) (by simp) (some true)
  have hlen : caseTrace.data.length = d.length := hd.length_eq
  obtain ⟨r', hr'⟩ : ∃ r, hk env' [caseTrace, caseTrace] 0 [24, 12] [1.85] (some ⟨.py, 6⟩) (some 1) (some 1) (some 1) none
      (some true) = .ok r := by
    refine (c104_hk ?_ ?_ (fun _ _ => rfl)).2 ⟨by simp, ⟨_, _, rfl⟩, ?_, divisor_real (by norm_num), by simp, by simp⟩
    · intro a ha b hb
      have e1 : a = caseTrace := by simpa using ha
      have e2 : b = caseTrace := by simpa using hb
      rw [e1, e2]
    · intro sd more' e a ha
      have e1 : a = caseTrace := by simpa using ha
      injection Except.ok.inj e with e2 _
      rw [e1, ← e2, hlen]
    · intro tr htr
      have e1 : tr = caseTrace := by simpa using htr
      rw [e1]
      refine ⟨?_, rfl, rfl⟩
      rw [← List.length_pos_iff, case_length]; norm_num
  obtain ⟨hb, hm⟩ := case_best hr
  have nt : NearTrace 0 caseTrace caseTrace := ⟨rfl, rfl, rfl, List.forall₂_same.2 (fun x _ => by simp)⟩
  obtain ⟨k1, k2⟩ := c95_hk_stacked (env := dblEnv ℝ 0.01) (env' := env') (e' := 0) rfl
    (List.Forall₂.cons nt (List.Forall₂.cons nt .nil)) (sd := caseTrace.data) (more := [caseTrace.data]) rfl rfl hd hr hr'
  refine ⟨r, r', hr, hr', ?_, ?_⟩
  · refine nearTable_mono ?_ k1
    norm_num
  · rw [← hb]
    refine k2 ?_
    refine margin_mono ?_ hm
    norm_num

end Rfsed.Props
