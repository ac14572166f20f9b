import Verif.Proofs.Resonance

namespace Rfsed
open Finset Spec

/-- the record both functions build from data and sampling interval -/
noncomputable def resRec (data : List ℝ) (dt : ℝ) (time : List ℝ) (sta : String) : FltResults :=
  let d := detrend (data.map (fun x => x - npMean data))
  let ac := acOf d
  let pick : ℝ × Scalar ℝ := match findPeaks (ac.map (fun x => -x)) with
    | [] => (0, ⟨.py, 0⟩)
    | loc :: _ => (|(ac.map (fun x => -x)).getD loc 0|, ⟨.np, (loc : ℝ) * dt⟩)
  let flt : List ℂ := (List.range data.length).map (fun k : Nat =>
    1 + (pick.1 : ℂ) * Complex.exp (-1 * Complex.I *
      ((2 * Real.pi * (1 / (2 * dt) / ((data.length : ℝ) / 2)) * (fftIdx data.length k : ℝ) : ℝ) : ℂ)
      * (pick.2.val : ℂ)))
  { rf := data, filteredrf := toRe (ifft (vmul (fft (toC d) data.length) flt) data.length),
    resonancefilter := flt, time := time, autoc := ac, r := pick.1, tlag := pick.2,
    staname := sta, delta := dt }

theorem detrended_length (data : List ℝ) :
    (detrend (data.map (fun x => x - npMean data))).length = data.length := by
  simp [detrend_length]

theorem resRev_eq {env : Env ℝ} {st : List (Trace ℝ)} {pre : ℝ} {tr0 : Trace ℝ} {S : List (List ℝ)}
    {data : List ℝ} (h0 : st[0]? = some tr0) (hS : env.stack st = .ok S) (hd : S[0]? = some data)
    (hdt : tr0.delta ≠ 0) (hn : 0 < data.length) :
    ReverbFilter.ResonanceFilt env st pre =
      .ok (resRec data tr0.delta (timeAxis tr0.delta pre tr0.data.length) tr0.station) := by
  have hn' : (data.length : ℝ) / 2 ≠ 0 := by
    have : (data.length : ℝ) ≠ 0 := by exact_mod_cast hn.ne'
    intro h; apply this; linarith
  have h2 : (2 * tr0.delta : ℝ) ≠ 0 := mul_ne_zero two_ne_zero hdt
  have e1 : PyFloat.eq (2 * tr0.delta : ℝ) PyFloat.zero = false := by
    rw [← Bool.not_eq_true, real_eq, real_zero]; exact h2
  have e2 : PyFloat.eq ((data.length : ℝ) / 2) PyFloat.zero = false := by
    rw [← Bool.not_eq_true, real_eq, real_zero]; exact hn'
  unfold ReverbFilter.ResonanceFilt
  simp only [item, h0, hS, hd, scalarDiv, Kind.join, e1, e2, bind, Except.bind, pure, Except.pure,
    Bool.false_eq_true, if_false, freqIdx_eq hn]
  simp only [resRec, acOf, detrended_length]
  generalize findPeaks _ = locs
  cases locs <;> simp [Function.comp_def]

theorem resRev_of {env : Env ℝ} {st : List (Trace ℝ)} {pre : ℝ} {R : FltResults}
    (h : ReverbFilter.ResonanceFilt env st pre = .ok R) :
    ∃ tr0 S data, st[0]? = some tr0 ∧ env.stack st = .ok S ∧ S[0]? = some data ∧
      tr0.delta ≠ 0 ∧ 0 < data.length ∧
      R = resRec data tr0.delta (timeAxis tr0.delta pre tr0.data.length) tr0.station := by
  have hh := h
  unfold ReverbFilter.ResonanceFilt at h
  rcases h0 : st[0]? with _ | tr0
  · simp [item, h0, bind, Except.bind] at h
  rcases hS : env.stack st with _ | S
  · simp [item, h0, hS, bind, Except.bind] at h
  rcases hd : S[0]? with _ | data
  · simp [item, h0, hS, hd, bind, Except.bind] at h
  have hdt : tr0.delta ≠ 0 := by
    intro hz
    simp [item, h0, hS, hd, bind, Except.bind, scalarDiv, Kind.join, hz, PyFloat.eq] at h
  have hn : 0 < data.length := by
    rcases Nat.eq_zero_or_pos data.length with hz | hp
    · exfalso
      have e1 : PyFloat.eq (2 * tr0.delta : ℝ) PyFloat.zero = false := by
        rw [← Bool.not_eq_true, real_eq, real_zero]; exact mul_ne_zero two_ne_zero hdt
      have e2 : PyFloat.eq (((0 : ℕ) : ℝ) / 2) PyFloat.zero = true := by simp
      simp only [item, h0, hS, hd, bind, Except.bind, scalarDiv, Kind.join, hz, e1, e2,
        if_true, Bool.false_eq_true, if_false] at h
      exact absurd h (by simp)
    · exact hp
  refine ⟨tr0, S, data, rfl, rfl, hd, hdt, hn, ?_⟩
  rw [resRev_eq h0 hS hd hdt hn] at hh
  exact (Except.ok.inj hh).symm

theorem resSyn_eq {rf : List ℝ} {time : List ℝ} {t0 t1 : ℝ} (h0 : time[0]? = some t0)
    (h1 : time[1]? = some t1) (hn : 0 < rf.length) :
    SynthAnalysis.ResonanceFilt rf time = .ok (resRec rf (t1 - t0) time "") := by
  unfold SynthAnalysis.ResonanceFilt
  simp only [item, h0, h1, bind, Except.bind, pure, Except.pure, if_neg hn.ne', freqIdx_eq hn]
  simp only [resRec, acOf, detrended_length]
  generalize findPeaks _ = locs
  cases locs <;> simp [Function.comp_def]

theorem resSyn_of {rf time : List ℝ} {R : FltResults}
    (h : SynthAnalysis.ResonanceFilt rf time = .ok R) :
    ∃ t0 t1, time[0]? = some t0 ∧ time[1]? = some t1 ∧ 0 < rf.length ∧
      R = resRec rf (t1 - t0) time "" := by
  have hh := h
  unfold SynthAnalysis.ResonanceFilt at h
  rcases h1 : time[1]? with _ | t1
  · simp [item, h1, bind, Except.bind] at h
  rcases h0 : time[0]? with _ | t0
  · simp [item, h1, h0, bind, Except.bind] at h
  have hn : 0 < rf.length := by
    rcases Nat.eq_zero_or_pos rf.length with hz | hp
    · exfalso
      simp [item, h0, h1, bind, Except.bind, hz] at h
    · exact hp
  refine ⟨t0, t1, rfl, rfl, hn, ?_⟩
  rw [resSyn_eq h0 h1 hn] at hh
  exact (Except.ok.inj hh).symm

/-! ## facts about the record -/

/-- everything the propositions need: with `D` the detrended data, the autocorrelation is the
normalised one, and `(r, L)` is either `(0,0)` with no trough or the first trough. -/
theorem resRec_facts {data : List ℝ} {dt : ℝ} (time : List ℝ) (sta : String)
    (hn : 0 < data.length) (hdt : dt ≠ 0) {D : List ℝ} (hD : IsDetrended data D) :
    (resRec data dt time sta).autoc = acOf D ∧
    ∃ L : Nat, (resRec data dt time sta).tlag.val = (L : ℝ) * dt ∧
      ((resRec data dt time sta).r = 0 ∧ L = 0 ∧ (resRec data dt time sta).tlag = ⟨.py, 0⟩ ∧
          (∀ s e, ¬ Trough (acOf D) s e) ∨
        ∃ s e, FirstTrough (acOf D) s e ∧ L = (s + e) / 2 ∧
          (resRec data dt time sta).tlag.kind = .np ∧
          (resRec data dt time sta).r = |(acOf D).getD L 0|) ∧
      (∀ k < data.length, (resRec data dt time sta).resonancefilter.getD k 0 =
        1 + ((resRec data dt time sta).r : ℂ) * W data.length (-((L : ℤ) * k))) ∧
      ∀ m < data.length, (resRec data dt time sta).filteredrf.getD m 0 =
        D.getD m 0 + (resRec data dt time sta).r * periodic D ((m : ℤ) - L) := by
  have hdet : detrend (data.map (fun x => x - npMean data)) = D := detrend_of hD _
  have hDl : D.length = data.length := hD.1
  refine ⟨by simp [resRec, hdet], ?_⟩
  have hpick : ∃ L : Nat, (resRec data dt time sta).tlag.val = (L : ℝ) * dt ∧
      ((resRec data dt time sta).r = 0 ∧ L = 0 ∧ (resRec data dt time sta).tlag = ⟨.py, 0⟩ ∧
          (∀ s e, ¬ Trough (acOf D) s e) ∨
        ∃ s e, FirstTrough (acOf D) s e ∧ L = (s + e) / 2 ∧
          (resRec data dt time sta).tlag.kind = .np ∧
          (resRec data dt time sta).r = |(acOf D).getD L 0|) := by
    rcases findPeaks_neg (acOf D) with ⟨h1, h2⟩ | ⟨s, e, t, h1, h2⟩
    · refine ⟨0, ?_, Or.inl ⟨?_, rfl, ?_, h2⟩⟩
      · simp only [resRec, hdet]; rw [h1]; simp
      · simp only [resRec, hdet]; rw [h1]
      · simp only [resRec, hdet]; rw [h1]
    · refine ⟨(s + e) / 2, ?_, Or.inr ⟨s, e, h2, rfl, ?_, ?_⟩⟩
      · simp only [resRec, hdet]; rw [h1]
      · simp only [resRec, hdet]; rw [h1]
      · simp only [resRec, hdet]; rw [h1]
        simp only
        rw [getD_map_zero (fun v => -v) (by simp), abs_neg]
  obtain ⟨L, hL, hp⟩ := hpick
  refine ⟨L, hL, hp, ?_⟩
  set R := resRec data dt time sta with hR
  have hflt : ∀ k < data.length, R.resonancefilter.getD k 0 =
      1 + (R.r : ℂ) * W data.length (-((L : ℤ) * k)) := by
    intro k hk
    have : R.resonancefilter.getD k 0 = 1 + (R.r : ℂ) * Complex.exp (-1 * Complex.I *
      ((2 * Real.pi * (1 / (2 * dt) / ((data.length : ℝ) / 2)) *
        (fftIdx data.length k : ℝ) : ℝ) : ℂ) * (R.tlag.val : ℂ)) := by
      rw [hR]; exact getD_map_range _ _ _ hk
    rw [this, hL, W_exp hn hdt]
  refine ⟨hflt, ?_⟩
  intro m hm
  have hfl : R.resonancefilter.length = data.length := by rw [hR]; simp [resRec]
  have hfr : R.filteredrf = toRe (ifft (vmul (fft (toC D) data.length) R.resonancefilter)
      data.length) := by
    rw [hR, ← hdet]; rfl
  rw [hfr, toRe_getD, ifft_getD _ hm]
  have h1 : idft data.length
      (fun k => (vmul (fft (toC D) data.length) R.resonancefilter).getD k 0) m =
      idft data.length (fun k => dft data.length (fun j => ((D.getD j 0 : ℝ) : ℂ)) k +
        (R.r : ℂ) * (dft data.length (fun j => ((D.getD j 0 : ℝ) : ℂ)) k *
          W data.length ((k : ℤ) * -(L : ℤ)))) m := by
    apply idft_congr
    intro k hk
    rw [vmul_getD (by rw [fft_length, hfl]), hflt k hk, fft_getD _ hk]
    simp only [toC_getD]
    rw [show (k : ℤ) * -(L : ℤ) = -((L : ℤ) * k) by ring]
    ring
  rw [h1, idft_add, idft_dft _ hm, idft_smul, idft_dft_shift hn]
  simp only [Complex.add_re, Complex.ofReal_re, Complex.re_ofReal_mul]
  rw [periodic, hDl]
  rfl

/-- rotating a record does not change its sum -/
theorem sum_periodic (D : List ℝ) (hn : 0 < D.length) (L : ℤ) (f : ℝ → ℝ) :
    ∑ m ∈ range D.length, f (periodic D ((m : ℤ) - L)) = ∑ m ∈ range D.length, f (D.getD m 0) := by
  refine Finset.sum_bij' (fun m _ => cyc D.length ((m : ℤ) - L))
    (fun m _ => cyc D.length ((m : ℤ) + L)) ?_ ?_ ?_ ?_ ?_
  · intro m _; exact Finset.mem_range.2 (cyc_lt hn _)
  · intro m _; exact Finset.mem_range.2 (cyc_lt hn _)
  · intro m hm
    have hm := Finset.mem_range.1 hm
    rw [cyc_cast hn]
    have : cyc D.length (((m : ℤ) - L) % D.length + L) = cyc D.length m := by
      apply cyc_congr
      have := Int.emod_add_mul_ediv ((m : ℤ) - L) D.length
      exact ⟨-(((m : ℤ) - L) / D.length), by linear_combination this⟩
    rw [this, cyc_of_lt hm]
  · intro m hm
    have hm := Finset.mem_range.1 hm
    rw [cyc_cast hn]
    have : cyc D.length (((m : ℤ) + L) % D.length - L) = cyc D.length m := by
      apply cyc_congr
      have := Int.emod_add_mul_ediv ((m : ℤ) + L) D.length
      exact ⟨-(((m : ℤ) + L) / D.length), by linear_combination this⟩
    rw [this, cyc_of_lt hm]
  · intro m _; rfl

end Rfsed
