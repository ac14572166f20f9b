import Verif.Props.Deconv
import Verif.Props.Deconv2
import Verif.Props.ResonancePlot

/-!
# C112: exactly when deconvolution and resonance filtering succeed
-/

namespace Rfsed.Props
open Rfsed Synrf Spec Finset

section
variable {uin win : List ℝ} {dt : ℝ} {nt : Option Nat} {preonset a : ℝ} {itmax : Nat}
  {minderr : ℝ} {phase : String} {R : IterResult}

/-- **C112** numpy broadcasts one-sample traces: with `nt=k` they are deconvolved like constant
traces of `k` samples. -/
theorem c112_one_sample (x y : ℝ) (k : Nat) :
    deconv_iterative [x] [y] dt (some k) preonset a itmax minderr phase =
      deconv_iterative (List.replicate k x) (List.replicate k y) dt none preonset a itmax minderr
        phase := by
  have hb : ∀ v : ℝ, setSlice (List.replicate (nextPow2 k) (0 : ℝ)) 0 k [v] =
      setSlice (List.replicate (nextPow2 k) (0 : ℝ)) 0 k (List.replicate k v) := by
    intro v
    have hle := le_nextPow2 k
    rw [setSlice_eq (v := List.replicate k v) _ (by omega) (by simpa using hle) (by simp)]
    unfold setSlice
    simp only [List.length_replicate, Nat.min_eq_left hle, Nat.zero_min, Nat.sub_zero]
    split
    · rename_i h
      have : k = 1 := h.symm
      subst this
      rfl
    · rfl
  unfold deconv_iterative iterInit
  rw [if_neg (by simp), if_neg (by simp)]
  simp only [Option.getD_some, Option.getD_none, List.length_replicate, hb]

/-- two samples: the FFT length is 2 and there is no admissible causal lag -/
theorem deconv_two (h : uin.length = win.length) (h2 : uin.length = 2) (hdt : dt ≠ 0)
    (hm : 0 ≤ minderr) :
    (∃ R, deconv_iterative uin win dt none preonset a itmax minderr phase = .ok R) ↔
      (phase ≠ "P" ∨ itmax = 0 ∨ ∀ x ∈ uin, x = 0) := by
  have hp2 : nextPow2 2 = 2 := by
    rw [nextPow2_pos (by norm_num)]
    have := Nat.clog_pow 2 1 (by norm_num)
    rw [pow_one] at this
    rw [this, pow_one]
  have hinit : ∃ c s0, iterInit uin win dt uin.length a itmax minderr phase = .ok (c, s0) := by
    have hle := le_nextPow2 uin.length
    obtain ⟨k, hk, hk2⟩ := nextPow2_even (n := uin.length) (by omega)
    unfold iterInit
    simp only
    rw [setSlice_eq _ (by omega) (by simpa using hle) (by omega),
      setSlice_eq _ (by omega) (by simpa using hle) (by omega), hk2,
      gaussFilter_even a hdt hk]
    exact ⟨_, _, rfl⟩
  obtain ⟨c, s0, hi⟩ := hinit
  obtain ⟨hco, hh, hz, _, e2, e3, e4, e5, _, e7, _⟩ := iterInit_ok hi
  have hn : c.nfft = 2 := by rw [e2, h2, hp2]
  have hpow : c.powerU = 0 ↔ ∀ x ∈ uin, x = 0 := by
    rw [hco.power, ← cconv_smp_inj hco.pos (dt := dt) (a := a) (by omega : uin.length ≤ c.nfft)]
    unfold energy
    rw [Finset.sum_congr rfl (fun m hm' => by rw [e7 rfl m (Finset.mem_range.1 hm')])]
  have hrun : deconv_iterative uin win dt none preonset a itmax minderr phase =
      (iterLoop c s0).bind (fun s => .ok
        { rf := if s.nanRF then none else some ((phaseshift (gfilter s.p0 c.nfft (toC c.gaussF) dt)
            c.nfft dt preonset).take uin.length),
          rms := sliceTo s.rms ((s.it : ℤ) - 1), it := s.it }) := by
    unfold deconv_iterative
    rw [if_neg (by simpa using h)]
    simp only [Option.getD_none, hi]
    rfl
  have hok : (∃ R, deconv_iterative uin win dt none preonset a itmax minderr phase = .ok R) ↔
      ∃ s, iterLoop c s0 = .ok s := by
    rw [hrun]
    cases hl : iterLoop c s0 with
    | error e =>
      constructor
      · rintro ⟨R, hR⟩; cases hR
      · rintro ⟨s, hs⟩; cases hs
    | ok s => exact ⟨fun _ => ⟨s, rfl⟩, fun _ => ⟨_, rfl⟩⟩
  rw [hok]
  constructor
  · rintro ⟨s, hs⟩
    by_contra hcon
    push Not at hcon
    obtain ⟨hP, hit, hne⟩ := hcon
    have hpw : c.powerU ≠ 0 := fun h0 => by
      obtain ⟨x, hx, hx0⟩ := hne
      exact hx0 (hpow.1 h0 x hx)
    have hpos : 0 < c.powerU := lt_of_le_of_ne (by
      rw [hco.power]; exact Finset.sum_nonneg (fun _ _ => sq_nonneg _)) hpw.symm
    have hcond : loopCond c s0 = true := by
      refine loopCond_of hh.nan ?_ (by rw [hz, e3]; omega)
      rw [hh.err0 hz, e4, abs_of_pos (by linarith)]
      linarith
    rw [iterLoop_eq c s0 (fun _ => iterBody_it), if_pos hcond] at hs
    have hbody : iterBody c s0 = .error .valueError := by
      unfold iterBody
      simp only [e5, hP, if_true, hn]
      rfl
    rw [hbody] at hs
    cases hs
  · intro hc
    by_cases hP : phase = "P"
    · have hcond : ¬ loopCond c s0 = true := by
        intro hl
        obtain ⟨_, h2', h3'⟩ := loopCond_true hl
        rcases hc with hc | hc | hc
        · exact hc hP
        · rw [hz, e3] at h3'; omega
        · rw [hh.err0 hz, hpow.2 hc, e4, mul_zero, zero_add, abs_of_nonneg hm] at h2'
          exact lt_irrefl _ h2'
      exact ⟨s0, by rw [iterLoop_eq c s0 (fun _ => iterBody_it), if_neg hcond]⟩
    · exact iterLoop_total hco (fun h' => absurd (e5 ▸ h') hP) _ _ _ rfl hh

/-- **C112** iterative deconvolution returns a result exactly when the two traces have the same
length, the sampling interval is not zero, the sample count `nt` (if given) is that length or the
traces have one sample, and at least three samples are deconvolved — or two, provided no causal lag
is asked for, no iteration is allowed or the numerator is zero. -/
theorem c112_iterative (hm : 0 ≤ minderr) :
    (∃ R, deconv_iterative uin win dt nt preonset a itmax minderr phase = .ok R) ↔
      uin.length = win.length ∧ dt ≠ 0 ∧
      (nt = none ∨ nt = some uin.length ∨ uin.length = 1) ∧
      (3 ≤ nt.getD uin.length ∨ nt.getD uin.length = 2 ∧
        (phase ≠ "P" ∨ itmax = 0 ∨ ∀ x ∈ uin, x = 0)) := by
  -- without `nt`
  have main : ∀ u w : List ℝ,
      (∃ R, deconv_iterative u w dt none preonset a itmax minderr phase = .ok R) ↔
      u.length = w.length ∧ dt ≠ 0 ∧ (3 ≤ u.length ∨ u.length = 2 ∧
        (phase ≠ "P" ∨ itmax = 0 ∨ ∀ x ∈ u, x = 0)) := by
    intro u w
    by_cases hl : u.length = w.length
    · by_cases hdt : dt = 0
      · rw [(c53_degenerate hl).1 (.inl hdt)]
        exact ⟨fun ⟨_, h⟩ => (by cases h), fun h => absurd hdt h.2.1⟩
      · rcases Nat.lt_or_ge u.length 3 with h3 | h3
        · rcases (by omega : u.length = 0 ∨ u.length = 1 ∨ u.length = 2) with h0 | h1 | h2
          · rw [(c53_degenerate hl).1 (.inr (List.length_eq_zero_iff.1 h0))]
            exact ⟨fun ⟨_, h⟩ => (by cases h), fun h => by omega⟩
          · rw [(c53_degenerate hl).2 hdt h1]
            exact ⟨fun ⟨_, h⟩ => (by cases h), fun h => by omega⟩
          · rw [deconv_two hl h2 hdt hm]
            exact ⟨fun h => ⟨hl, hdt, .inr ⟨h2, h⟩⟩, fun h => (h.2.2.resolve_left (by omega)).2⟩
        · exact ⟨fun _ => ⟨hl, hdt, .inl h3⟩, fun _ => c53_total hl h3 hdt⟩
    · rw [c53_length_mismatch hl]
      exact ⟨fun ⟨_, h⟩ => (by cases h), fun h => absurd h.1 hl⟩
  cases nt with
  | none =>
    rw [main]
    simp
  | some k =>
    by_cases hl : uin.length = win.length
    · by_cases h1 : uin.length = 1
      · obtain ⟨x, rfl⟩ := List.length_eq_one_iff.1 h1
        obtain ⟨y, rfl⟩ := List.length_eq_one_iff.1 (hl ▸ h1)
        rw [c112_one_sample, main]
        simp only [List.length_replicate, List.length_singleton, Option.getD_some, true_and, or_true,
          List.mem_replicate, List.mem_singleton, forall_eq]
        refine and_congr_right fun _ => or_congr_right (and_congr_right fun hk => ?_)
        subst hk
        simp
      · by_cases hk : k = uin.length
        · subst hk
          have : deconv_iterative uin win dt (some uin.length) preonset a itmax minderr phase =
              deconv_iterative uin win dt none preonset a itmax minderr phase := by
            unfold deconv_iterative; rfl
          rw [this, main]
          simp
        · rw [c53_wrong_nt hl hk h1]
          constructor
          · rintro ⟨_, h⟩; cases h
          · rintro ⟨_, _, h | h | h, _⟩
            · cases h
            · exact absurd (Option.some.inj h) hk
            · exact absurd h h1
    · rw [c53_length_mismatch hl]
      exact ⟨fun ⟨_, h⟩ => (by cases h), fun h => absurd h.1 hl⟩

/-- **C112** water-level deconvolution returns a result exactly for two traces of the same length of
at least two samples and a non-zero sampling interval. -/
theorem c112_waterlevel {wlevel : ℝ} {normalize : Bool} :
    (∃ r, deconv_waterlevel uin win dt preonset wlevel a normalize = .ok r) ↔
      uin.length = win.length ∧ 2 ≤ uin.length ∧ dt ≠ 0 := by
  obtain ⟨e1, e2, e3⟩ := c58_errors (uin := uin) (win := win) (dt := dt) (preonset := preonset)
    (wlevel := wlevel) (a := a) (normalize := normalize)
  constructor
  · rintro ⟨r, hr⟩
    by_cases hl : uin.length = win.length
    · by_cases hdt : dt = 0
      · rw [e2 hl (.inl hdt)] at hr; cases hr
      · refine ⟨hl, ?_, hdt⟩
        by_contra hlt
        rcases (by omega : uin.length = 0 ∨ uin.length = 1) with h0 | h1
        · rw [e2 hl (.inr (List.length_eq_zero_iff.1 h0))] at hr; cases hr
        · rw [e3 hl hdt h1] at hr; cases hr
    · rw [e1 hl] at hr; cases hr
  · rintro ⟨hl, h2, hdt⟩
    exact c58_total hl h2 hdt

end

/-- **C112** `ReverbFilter.ResonanceFilt` returns a result exactly when the stream is not empty, the
first trace's sampling interval is not zero and stacking gives a first trace with samples; otherwise
it raises IndexError (no trace), what stacking raises, or ZeroDivisionError. -/
theorem c112_resonance (env : Env ℝ) (st : List (Trace ℝ)) (pre : ℝ) :
    ((∃ R, ReverbFilter.ResonanceFilt env st pre = .ok R) ↔
      ∃ tr0 rest data more, st = tr0 :: rest ∧ tr0.delta ≠ 0 ∧ env.stack st = .ok (data :: more) ∧
        data ≠ []) ∧
    (st = [] → ReverbFilter.ResonanceFilt env st pre = .error .indexError) ∧
    (∀ e, st ≠ [] → env.stack st = .error e → ReverbFilter.ResonanceFilt env st pre = .error e) ∧
    (∀ tr0 rest data more, st = tr0 :: rest → env.stack st = .ok (data :: more) →
      tr0.delta = 0 ∨ data = [] → ReverbFilter.ResonanceFilt env st pre = .error .zeroDivisionError) := by
  have he : st = [] → ReverbFilter.ResonanceFilt env st pre = .error .indexError := by
    rintro rfl; rfl
  have hs : ∀ e, st ≠ [] → env.stack st = .error e →
      ReverbFilter.ResonanceFilt env st pre = .error e := by
    intro e hne hst
    cases st with
    | nil => exact absurd rfl hne
    | cons tr0 rest =>
      unfold ReverbFilter.ResonanceFilt
      rw [hst]; rfl
  have hz : ∀ tr0 rest data more, st = tr0 :: rest → env.stack st = .ok (data :: more) →
      tr0.delta = 0 ∨ data = [] →
      ReverbFilter.ResonanceFilt env st pre = .error .zeroDivisionError := by
    rintro tr0 rest data more rfl hst h
    unfold ReverbFilter.ResonanceFilt
    rw [hst]
    by_cases hd : tr0.delta = 0
    · have : scalarDiv (⟨.py, 1⟩ : Scalar ℝ) ⟨.py, 2 * tr0.delta⟩ = .error .zeroDivisionError := by
        unfold scalarDiv; simp [hd, Kind.join]
      show (scalarDiv (⟨.py, 1⟩ : Scalar ℝ) ⟨.py, 2 * tr0.delta⟩ >>= _) = _
      rw [this]; rfl
    · have hdat := h.resolve_left hd
      subst hdat
      obtain ⟨v, hv⟩ : ∃ v, scalarDiv (⟨.py, 1⟩ : Scalar ℝ) ⟨.py, 2 * tr0.delta⟩ = .ok ⟨.py, v⟩ := by
        unfold scalarDiv; simp [hd]; exact ⟨_, rfl⟩
      have h2 : scalarDiv (⟨.py, v⟩ : Scalar ℝ) ⟨.py, ((([] : List ℝ).length : ℝ)) / 2⟩ =
          .error .zeroDivisionError := by
        unfold scalarDiv; simp [Kind.join]
      show (scalarDiv (⟨.py, 1⟩ : Scalar ℝ) ⟨.py, 2 * tr0.delta⟩ >>= _) = _
      rw [hv]
      show (scalarDiv (⟨.py, v⟩ : Scalar ℝ) ⟨.py, ((([] : List ℝ).length : ℝ)) / 2⟩ >>= _) = _
      rw [h2]; rfl
  refine ⟨⟨?_, ?_⟩, he, hs, hz⟩
  · rintro ⟨R, hR⟩
    cases st with
    | nil => rw [he rfl] at hR; cases hR
    | cons tr0 rest =>
      cases hst : env.stack (tr0 :: rest) with
      | error e => rw [hs e (by simp) hst] at hR; cases hR
      | ok S =>
        cases S with
        | nil =>
          unfold ReverbFilter.ResonanceFilt at hR
          rw [hst] at hR
          cases hR
        | cons data more =>
          refine ⟨tr0, rest, data, more, rfl, fun h0 => ?_, rfl, fun h0 => ?_⟩
          · rw [hz _ _ _ _ rfl hst (.inl h0)] at hR; cases hR
          · rw [hz _ _ _ _ rfl hst (.inr h0)] at hR; cases hR
  · rintro ⟨tr0, rest, data, more, h0, hd, hst, hne⟩
    obtain ⟨R, hR, _⟩ := c28_succeeds env st pre tr0 rest data more h0 hst hd hne
    exact ⟨R, hR⟩

/-- **C112** the synthetic version returns a result exactly when the time axis has two samples and
there are data. -/
theorem c112_resonance_synth (rf time : List ℝ) :
    (∃ R, SynthAnalysis.ResonanceFilt rf time = .ok R) ↔ 2 ≤ time.length ∧ rf ≠ [] := by
  constructor
  · rintro ⟨R, hR⟩
    by_cases ht : time.length < 2
    · rw [c34_short_time_axis rf time ht] at hR; cases hR
    · refine ⟨by omega, ?_⟩
      rintro rfl
      match time, ht with
      | t0 :: t1 :: ts, _ => cases hR
  · rintro ⟨ht, hn⟩
    obtain ⟨R, hR, _⟩ := c28_succeeds_synth rf time hn ht
    exact ⟨R, hR⟩

/-- Figures saved one after the other until saving one fails. -/
def savedInTurn (savefig : String → Except PyErr Unit) :
    List LineFig → List LineFig × Except PyErr Unit
  | [] => ([], .ok ())
  | f :: fs => match savefig f.filename with
    | .error e => ([], .error e)
    | .ok () => (f :: (savedInTurn savefig fs).1, (savedInTurn savefig fs).2)

/-- **C112** the plotting functions of the resonance filter, on any result of the filter: nothing is
saved and `ValueError` raised when the time axis does not fit; otherwise the three figures are saved
in turn, and those before the first that cannot be saved remain. -/
theorem c112_figures (env : Env ℝ) {R : FltResults} (h : Returned R) (savepath format : String) :
    (R.time.length ≠ R.rf.length →
      ReverbFilter.plotfiltrf env R savepath format = ([], .error .valueError) ∧
      SynthAnalysis.plotfiltSynthrf env R savepath format = ([], .error .valueError)) ∧
    (R.time.length = R.rf.length →
      ReverbFilter.plotfiltrf env R savepath format =
        savedInTurn env.savefig (resonanceFigures R R.staname savepath format) ∧
      SynthAnalysis.plotfiltSynthrf env R savepath format =
        savedInTurn env.savefig (resonanceFigures R "SyntheticRF" savepath format)) := by
  obtain ⟨l1, l2, l3, _⟩ := c28_one_coefficient_per_sample h
  refine ⟨fun ht => ⟨c67_length_mismatch h ht savepath format, ?_⟩, fun ht => ?_⟩
  · have : saveBlock env s!"Autocorrelation of {"SyntheticRF"}" [(R.time, R.autoc)]
        s!"{savepath}/Autocorrelation.{format}" [] = ([], .error .valueError) := by
      unfold saveBlock
      simp [List.mapM_cons, pltPlot, l3, ht, bind, Except.bind]
    unfold SynthAnalysis.plotfiltSynthrf plotfilt
    rw [this]
  · have bad : ∀ {title : String} {xy : List (List ℝ × List ℝ)} {fn : String} {saved : List LineFig}
        {e : PyErr}, (∀ p ∈ xy, p.1.length = p.2.length) → env.savefig fn = .error e →
        saveBlock env title xy fn saved = (saved, .error e) := by
      intro title xy fn saved e hxy he
      have hm : (xy.mapM (fun p => pltPlot p.1 p.2) : Except PyErr _) = .ok xy := by
        induction xy with
        | nil => rfl
        | cons p ps ih =>
          rw [List.mapM_cons, ih (fun q hq => hxy q (List.mem_cons_of_mem _ hq))]
          simp [pltPlot, hxy p List.mem_cons_self, bind, Except.bind, pure, Except.pure]
      unfold saveBlock
      rw [hm]
      simp only [he]
    have main : ∀ name, plotfilt env R name savepath format =
        savedInTurn env.savefig (resonanceFigures R name savepath format) := by
      intro name
      unfold plotfilt resonanceFigures
      have c1 : ∀ p ∈ [(R.time, R.autoc)], p.1.length = p.2.length := by simp [ht, l3]
      have c2 : ∀ p ∈ [(R.time, toRe R.resonancefilter)], p.1.length = p.2.length := by
        simp [ht, l1, toRe]
      have c3 : ∀ p ∈ [(R.time, R.rf), (R.time, R.filteredrf)], p.1.length = p.2.length := by
        simp [ht, l2]
      simp only [savedInTurn]
      cases h1 : env.savefig s!"{savepath}/Autocorrelation.{format}" with
      | error e => rw [bad c1 h1]
      | ok u =>
        rw [saveBlock_ok c1 h1]
        simp only
        cases h2 : env.savefig s!"{savepath}/Resonance_Filter.{format}" with
        | error e => rw [bad c2 h2]; rfl
        | ok u =>
          rw [saveBlock_ok c2 h2]
          simp only
          cases h3 : env.savefig s!"{savepath}/RF_FilteredRF.{format}" with
          | error e => rw [bad c3 h3]; rfl
          | ok u => rw [saveBlock_ok c3 h3]; rfl
    exact ⟨main _, main _⟩

/-! ## The theorems are not vacuous -/

/-- two samples: a causal lag cannot be found, an acausal one can -/
example : (¬ ∃ R, deconv_iterative [1, 2] [1, 0] 0.1 none 0 2 10 0.001 "P" = .ok R) ∧
    (∃ R, deconv_iterative [1, 2] [1, 0] 0.1 none 0 2 10 0.001 "S" = .ok R) ∧
    (∃ R, deconv_iterative [1] [3] 0.1 (some 4) 0 2 10 0.001 "P" = .ok R) := by
  refine ⟨?_, ?_, ?_⟩
  · rw [c112_iterative (by norm_num)]
    simp
  · rw [c112_iterative (by norm_num)]
    simp; norm_num
  · rw [c112_iterative (by norm_num)]
    simp; norm_num

/-- a disk that is full after the first figure -/
example : ∃ (R : FltResults) (env : Env ℝ), Returned R ∧ R.time.length = R.rf.length ∧
    (SynthAnalysis.plotfiltSynthrf env R "out" "pdf").1.map LineFig.filename =
      ["out/Autocorrelation.pdf"] ∧
    (SynthAnalysis.plotfiltSynthrf env R "out" "pdf").2 = .error .valueError := by
  obtain ⟨R, hR, e1, e2, e3⟩ := c28_succeeds_synth [1, -1, -1, 1] [0, 1/2, 1, 3/2] (by simp) (by simp)
  have hret : Returned R := Or.inr ⟨_, _, hR, by rw [e3]; norm_num⟩
  have hl : R.time.length = R.rf.length := by rw [e1, e2]; rfl
  let env : Env ℝ := { km2deg1 := 1, stack := fun s => .ok (s.map Trace.data),
                       draw := fun _ => .ok (),
                       savefig := fun f => if f = "out/Autocorrelation.pdf" then .ok ()
                         else .error .valueError }
  refine ⟨R, env, hret, hl, ?_⟩
  rw [((c112_figures env hret "out" "pdf").2 hl).2]
  have f1 : s!"{"out"}/Autocorrelation.{"pdf"}" = "out/Autocorrelation.pdf" := by decide
  have f2 : s!"{"out"}/Resonance_Filter.{"pdf"}" ≠ "out/Autocorrelation.pdf" := by decide
  have a1 : env.savefig s!"{"out"}/Autocorrelation.{"pdf"}" = .ok () :=
    if_pos (e := Except.error PyErr.valueError) f1
  have a2 : env.savefig s!"{"out"}/Resonance_Filter.{"pdf"}" = .error .valueError :=
    if_neg (t := Except.ok ()) f2
  simp only [savedInTurn, resonanceFigures, a1, a2]
  exact ⟨congrArg (fun x => [x]) f1, trivial⟩

end Rfsed.Props
