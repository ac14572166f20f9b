import Verif.Proofs.Deconv4

/-! `deconv_iterative` as a whole. -/

namespace Rfsed.Synrf
open Finset Spec

theorem item_ok {α : Type} {x : List α} {i : Nat} (h : i < x.length) : ∃ v, item x i = .ok v := by
  unfold item
  rw [List.getElem?_eq_getElem h]
  exact ⟨_, rfl⟩

theorem setItem_of_lt {α : Type} {x : List α} {i : Nat} (h : i < x.length) (v : α) :
    setItem x i v = .ok (x.set i v) := by
  unfold setItem
  rw [if_pos h]

theorem ok_bind' {α β : Type} (a : α) (f : α → Except PyErr β) : (Except.ok a >>= f) = f a := rfl

theorem getD_of_lt {x : List ℝ} {i : Nat} (h : i < x.length) : x.getD i 0 = x[i] := by
  simp [List.getD_eq_getElem?_getD, h]

theorem getD_of_le {x : List ℝ} {i : Nat} (h : x.length ≤ i) : x.getD i 0 = 0 := by
  simp [List.getD_eq_getElem?_getD, h]

/-- With at least four samples in the FFT (or a phase other than P) a pass cannot fail. -/
theorem iterBody_total {c : IterConst} {s : IterState} (hc : ConstOk c) (hs : StateOk c s)
    (h4 : c.phase = "P" → 4 ≤ c.nfft) (hit : s.it < c.itmax) : ∃ s', iterBody c s = .ok s' := by
  unfold iterBody
  simp only
  set rw1 := (correl s.r_flt c.w_flt c.nfft).map (fun v : ℝ => v / sumSq c.w_flt) with hrw
  have hlen : rw1.length = c.nfft := by simp [hrw, correl_length]
  have hpos := hc.pos
  set win := (if c.phase = "P" then sliceTo rw1 (((c.nfft / 2 : Nat) : ℤ) - 1) else rw1) with hwin
  have hwl : win.length ≤ c.nfft ∧ 0 < win.length := by
    rw [hwin]
    split
    · rename_i hP
      have := h4 hP
      have hsl : sliceTo rw1 (((c.nfft / 2 : Nat) : ℤ) - 1) = rw1.take (c.nfft / 2 - 1) := by
        unfold sliceTo
        rw [if_neg (by omega)]
        congr 1
        omega
      rw [hsl, List.length_take]; omega
    · omega
  obtain ⟨i1, hi1⟩ := argmax_ok (F := ℝ) (xs := win.map (fun v : ℝ => |v|)) (by
    intro h0
    have := congrArg List.length h0
    simp at this
    rw [this] at hwl
    simp at hwl)
  have hi := argmax_lt hi1
  rw [List.length_map] at hi
  rw [hi1]
  simp only [ok_bind']
  by_cases hW : sumSq c.w_flt = 0
  · rw [if_pos hW]; exact ⟨_, rfl⟩
  · rw [if_neg hW]
    obtain ⟨rwi, h1⟩ := item_ok (x := rw1) (i := i1) (by omega)
    obtain ⟨old, h2⟩ := item_ok (x := s.p0) (i := i1) (by rw [hs.plen]; omega)
    rw [h1]
    simp only [ok_bind']
    rw [h2]
    simp only [ok_bind']
    rw [setItem_of_lt (by rw [hs.plen]; omega)]
    simp only [ok_bind']
    by_cases hU : c.powerU = 0
    · rw [if_pos hU]; exact ⟨_, rfl⟩
    · rw [if_neg hU, setItem_of_lt (by rw [hs.rmslen]; exact hit)]
      exact ⟨_, rfl⟩

theorem iterLoop_total {c : IterConst} (hc : ConstOk c) (h4 : c.phase = "P" → 4 ≤ c.nfft) :
    ∀ (k : Nat) (s : IterState) (P : Nat → List ℝ), c.itmax - s.it = k → History c s P →
    ∃ sf, iterLoop c s = .ok sf := by
  intro k
  induction k using Nat.strong_induction_on with
  | _ k ih =>
    intro s P hk h
    rw [iterLoop_eq c s (fun _ => iterBody_it)]
    split
    · rename_i hcond
      have hlt := (loopCond_true hcond).2.2
      obtain ⟨s', hb⟩ := iterBody_total hc h.st h4 hlt
      have hit := iterBody_it hb
      rw [hb]
      simp only [ok_bind']
      rcases history_step hc h hcond hb with ⟨P', h'⟩ | hn
      · exact ih (c.itmax - s'.it) (by omega) s' P' rfl h'
      · rw [iterLoop_eq c s' (fun _ => iterBody_it)]
        have hf : loopCond c s' = false := by
          unfold loopCond; simp [hn.nan]
        rw [hf]
        exact ⟨_, rfl⟩
    · exact ⟨_, rfl⟩

/-- inversion of `deconv_iterative` -/
theorem deconv_inv {uin win : List ℝ} {dt : ℝ} {nt : Option Nat} {preonset a : ℝ} {itmax : Nat}
    {minderr : ℝ} {phase : String} {R : IterResult}
    (h : deconv_iterative uin win dt nt preonset a itmax minderr phase = .ok R) :
    uin.length = win.length ∧ ∃ c s0 s,
      iterInit uin win dt (nt.getD uin.length) a itmax minderr phase = .ok (c, s0) ∧
      iterLoop c s0 = .ok s ∧
      R = { rf := if s.nanRF then none else some ((phaseshift (gfilter s.p0 c.nfft (toC c.gaussF) dt)
              c.nfft dt preonset).take (nt.getD uin.length)),
            rms := sliceTo s.rms ((s.it : ℤ) - 1), it := s.it } := by
  unfold deconv_iterative at h
  split at h
  · exact absurd h (by simp)
  · rename_i hl
    obtain ⟨⟨c, s0⟩, h1, h⟩ := bind_eq_ok.1 h
    obtain ⟨s, h2, h⟩ := bind_eq_ok.1 h
    exact ⟨by simpa using hl, c, s0, s, h1, h2, (Except.ok.inj h).symm⟩

theorem cconv_smp_inj {n : Nat} (hn : 0 < n) {x : List ℝ} (hx : x.length ≤ n) {dt a : ℝ} :
    energy n (cconv n (smp x) (gaussPulse dt n a)) = 0 ↔ ∀ v ∈ x, v = 0 := by
  constructor
  · intro h
    have h0 : ∀ m < n, cconv n (smp x) (gaussPulse dt n a) m = 0 := by
      intro m hm
      have := (sum_eq_zero_iff_of_nonneg (fun m _ => sq_nonneg _)).1 h m (mem_range.2 hm)
      exact pow_eq_zero_iff (two_ne_zero) |>.1 this
    have h1 : ∀ k < n, rdft n (smp x) k = 0 := by
      intro k hk
      have e := rdft_cconv hn (smp x) (gaussPulse dt n a) hk
      have z : rdft n (cconv n (smp x) (gaussPulse dt n a)) k = 0 := by
        unfold rdft dft
        apply sum_eq_zero
        intro m hm
        rw [h0 m (mem_range.1 hm)]; simp
      rw [z, rdft_gaussPulse hn hk] at e
      have hg : ((gaussResponse dt n a k : ℝ) : ℂ) ≠ 0 := by
        rw [Complex.ofReal_ne_zero]; exact (Real.exp_pos _).ne'
      rcases mul_eq_zero.1 e.symm with h | h
      · exact h
      · exact absurd h hg
    have h2 : ∀ m < n, smp x m = 0 := by
      intro m hm
      have := idft_dft (fun i => (smp x i : ℂ)) hm
      have z : idft n (dft n (fun i => (smp x i : ℂ))) m = 0 := by
        unfold idft
        rw [sum_eq_zero, zero_div]
        intro k hk
        have := h1 k (mem_range.1 hk)
        unfold rdft at this
        rw [this, zero_mul]
      rw [z] at this
      exact_mod_cast this.symm
    intro v hv
    obtain ⟨i, hi, rfl⟩ := List.mem_iff_getElem.1 hv
    have := h2 i (by omega)
    unfold smp at this
    rwa [getD_of_lt hi] at this
  · intro h
    apply sum_eq_zero
    intro m _
    have : cconv n (smp x) (gaussPulse dt n a) m = 0 := by
      apply sum_eq_zero
      intro i _
      have : smp x i = 0 := by
        unfold smp
        by_cases hi : i < x.length
        · rw [getD_of_lt hi]; exact h _ (List.getElem_mem hi)
        · rw [getD_of_le (by omega)]
      rw [this, zero_mul]
    rw [this]; ring

end Rfsed.Synrf

namespace Rfsed.Synrf
open Finset Spec

theorem misfit_congr {n : Nat} (hn : 0 < n) {dt : ℝ} {u u' w w' : Nat → ℝ} (hu : ∀ m < n, u m = u' m)
    (hw : ∀ m < n, w m = w' m) (p : Nat → ℝ) : misfit n dt u w p = misfit n dt u' w' p := by
  unfold misfit
  rw [energy_congr hu]
  congr 1
  apply energy_congr
  intro m hm
  rw [hu m hm, cconv_congr hn (fun _ _ => rfl) hw]

theorem bestSpike_congr {n : Nat} (hn : 0 < n) {dt : ℝ} {u u' w w' : Nat → ℝ} {phase : String}
    (hu : ∀ m < n, u m = u' m) (hw : ∀ m < n, w m = w' m) {p p' : List ℝ}
    (h : BestSpike n dt u w phase p p') : BestSpike n dt u' w' phase p p' := by
  obtain ⟨i, v, h1, h2, h3, h4, h5⟩ := h
  refine ⟨i, v, h1, h2, ?_, ?_, ?_⟩
  · intro i' v' hi; rw [← misfit_congr hn hu hw, ← misfit_congr hn hu hw]; exact h3 i' v' hi
  · intro i' v' hi; rw [← misfit_congr hn hu hw, ← misfit_congr hn hu hw]; exact h4 i' v' hi
  · intro v' hi; rw [← misfit_congr hn hu hw, ← misfit_congr hn hu hw]; exact h5 v' hi

theorem misfit_nonneg (n : Nat) (dt : ℝ) (u w p : Nat → ℝ) : 0 ≤ misfit n dt u w p :=
  div_nonneg (energy_nonneg _ _) (energy_nonneg _ _)

theorem bestSpike_le {n : Nat} {dt : ℝ} {u w : Nat → ℝ} {phase : String} {p p' : List ℝ}
    (hp : p.length = n) (h : BestSpike n dt u w phase p p') :
    misfit n dt u w (smp p') ≤ misfit n dt u w (smp p) := by
  obtain ⟨i, v, h1, h2, h3, _⟩ := h
  have := h3 i (p[i]'(by rw [hp]; exact h1.1)) h1
  rwa [List.set_getElem_self] at this

theorem misfit_start {n : Nat} {dt : ℝ} {u w : Nat → ℝ} (hu : energy n u ≠ 0) :
    misfit n dt u w (smp (List.replicate n 0)) = 1 := by
  unfold misfit
  rw [energy_congr (y := u), div_self hu]
  intro m _
  rw [cconv_zero, mul_zero, sub_zero]

theorem greedyRun_length {n : Nat} {dt : ℝ} {u w : Nat → ℝ} {phase : String} {minderr : ℝ}
    {itmax k : Nat} {P : Nat → List ℝ} (h : GreedyRun n dt u w phase minderr itmax k P) :
    ∀ j ≤ k, (P j).length = n := by
  intro j
  induction j with
  | zero => intro _; rw [h.start]; simp
  | succ j ih =>
    intro hj
    obtain ⟨i, v, _, h2, _⟩ := h.spike j (by omega)
    rw [h2, List.length_set]; exact ih (by omega)

/-- Everything a run of `deconv_iterative` guarantees. -/
theorem deconv_master {uin win : List ℝ} {dt : ℝ} {nt : Option Nat} {preonset a : ℝ} {itmax : Nat}
    {minderr : ℝ} {phase : String} {R : IterResult}
    (h : deconv_iterative uin win dt nt preonset a itmax minderr phase = .ok R)
    (hnt : nt.getD uin.length = uin.length) :
    let n := nextPow2 uin.length
    let u := lowpass n dt a uin
    let w := lowpass n dt a win
    dt ≠ 0 ∧ 2 ≤ n ∧ R.it ≤ itmax ∧
    ((∃ P rf, GreedyRun n dt u w phase minderr itmax R.it P ∧ R.rf = some rf ∧
        rf.length = uin.length ∧
        R.rms.length = (if R.it = 0 then itmax - 1 else R.it - 1) ∧
        (R.it = 0 → ∀ r ∈ R.rms, r = 0) ∧
        (0 < R.it → energy n w ≠ 0 ∧ energy n u ≠ 0) ∧
        (∀ j, j + 1 < R.it → R.rms[j]? = some (misfit n dt u w (smp (P (j + 1))))) ∧
        (Real.cos (2 * Real.pi * (pyInt (preonset / dt) : ℝ) / n) ≠ 0 → ∀ m < uin.length,
          smp rf m = cconv n (smp (P R.it)) (gaussPulse dt n a)
            (cyc n ((m : ℤ) - pyInt (preonset / dt))))) ∨
     (R.it = 1 ∧ R.rms = [] ∧ (∀ rf, R.rf = some rf → rf.length = uin.length) ∧
        minderr < |100 * energy n u + minderr| ∧
        (R.rf = none ↔ energy n w = 0) ∧ (energy n w = 0 ∨ energy n u = 0))) := by
  intro n u w
  obtain ⟨hlen, c, s0, s, h1, h2, hR⟩ := deconv_inv h
  rw [hnt] at h1 hR
  obtain ⟨hco, hh, _, e1, e2, e3, e4, e5, hg, hu, hw⟩ := iterInit_ok h1
  have hu := hu rfl
  have hw := hw hlen.symm
  obtain ⟨hstop, hcase⟩ := iterLoop_ok hco _ _ _ rfl hh s h2
  have hn2 : 2 ≤ c.nfft := by obtain ⟨k, hk, hk2⟩ := hco.even; omega
  have hdt := hco.dt
  have hWe : sumSq c.w_flt = energy c.nfft (lowpass c.nfft dt a win) := by
    rw [sumSq_energy hco.wlen]; exact energy_congr hw
  have hUe : c.powerU = energy c.nfft (lowpass c.nfft dt a uin) := by
    rw [hco.power]; exact energy_congr hu
  have hle : uin.length ≤ c.nfft := by rw [e2]; exact le_nextPow2 _
  have hmis : ∀ p, mis c p = misfit c.nfft dt (lowpass c.nfft dt a uin) (lowpass c.nfft dt a win) (smp p) := by
    intro p
    rw [mis_eq hco, e1]
    exact misfit_congr hco.pos hu hw _
  have hrfl : ∀ x : List ℝ, ((phaseshift (gfilter x c.nfft (toC c.gaussF) dt) c.nfft dt preonset).take
      uin.length).length = uin.length := by
    intro x
    rw [List.length_take, phaseshift_length]; omega
  have hsl : sliceTo s.rms ((s.it : ℤ) - 1) = if s.it = 0 then s.rms.take (s.rms.length - 1)
      else s.rms.take (s.it - 1) := by
    unfold sliceTo
    split
    · rw [if_pos (by omega)]
      congr 2
      omega
    · rw [if_neg (by omega)]
      congr 1
      omega
  have hn : c.nfft = n := e2
  rw [e1] at hdt
  rw [hn] at hn2 hWe hUe hle hu hw hg
  simp only [hn] at hmis hrfl
  have hRit : R.it = s.it := by rw [hR]
  have hRrms : R.rms = sliceTo s.rms ((s.it : ℤ) - 1) := by rw [hR]
  have hRrf : R.rf = if s.nanRF then none else some ((phaseshift (gfilter s.p0 n (toC c.gaussF) dt)
      n dt preonset).take uin.length) := by rw [hR, hn]
  clear hR
  refine ⟨hdt, hn2, ?_, ?_⟩
  · rw [hRit]
    rcases hcase with ⟨P, hP⟩ | hN
    · rw [← e3]; exact hP.le
    · rw [hN.it, ← e3]; exact hN.le
  · rcases hcase with ⟨P, hP⟩ | hN
    · left
      refine ⟨P, (phaseshift (gfilter s.p0 n (toC c.gaussF) dt) n dt preonset).take uin.length,
        ⟨?_, ?_, ?_, ?_⟩, ?_, ?_, ?_, ?_, ?_, ?_, ?_⟩
      · rw [hP.start, hn]
      · intro j hj
        rw [hRit] at hj
        have := hP.spike j hj
        rw [hn, e1, e5] at this
        exact bestSpike_congr (by omega) hu hw this
      · intro j hj
        rw [hRit] at hj
        have := hP.drop j hj
        rw [e4, hmis, hmis] at this
        exact this
      · rw [hRit]
        by_cases h3 : s.it < c.itmax
        · right
          have hd : ¬ c.minderr < |s.d_error| := by
            intro hd
            rw [loopCond_of hP.nan hd h3] at hstop
            exact absurd hstop (by simp)
          push Not at hd
          rcases Nat.eq_zero_or_pos s.it with h0 | h0
          · left
            refine ⟨h0, ?_⟩
            rw [hP.err0 h0] at hd
            have hp := energy_nonneg n u
            rw [hUe] at hd
            have h6 : 100 * energy n u + c.minderr ≤ c.minderr := le_trans (le_abs_self _) hd
            change energy n u = 0
            linarith
          · right
            refine ⟨s.it - 1, by omega, ?_⟩
            have h6 := hP.err (s.it - 1) (by omega)
            rw [h6, e4, hmis, hmis] at hd
            exact le_trans (le_abs_self _) hd
        · left
          have := hP.le
          omega
      · rw [hRrf, hP.nanRF]; rfl
      · exact hrfl _
      · rw [hRrms, hRit, hsl]
        have := hP.st.rmslen
        have := hP.le
        split
        · rw [List.length_take]; omega
        · rw [List.length_take]; omega
      · rw [hRit, hRrms]
        intro h0 r hr
        rw [hsl, if_pos h0] at hr
        have hr := List.mem_of_mem_take hr
        obtain ⟨j, hj, rfl⟩ := List.mem_iff_getElem.1 hr
        have := hP.rms0 j (by omega) (by rw [← hP.st.rmslen]; exact hj)
        rw [List.getElem?_eq_getElem hj] at this
        exact Option.some.inj this
      · rw [hRit]
        intro h0
        have := hP.good h0
        rw [hWe, hUe] at this
        exact this
      · rw [hRit, hRrms]
        intro j hj
        rw [hsl, if_neg (by omega), List.getElem?_take_of_lt (by omega), hP.rms j (by omega), hmis]
      · intro hcos m hm
        unfold smp
        rw [List.getD_eq_getElem?_getD, List.getElem?_take_of_lt hm, ← List.getD_eq_getElem?_getD]
        show smp _ m = _
        have hm' : m < n := by omega
        rw [phaseshift_eq (by omega) _ _ _ hcos hm']
        have hg' : gaussFilter dt n a = .ok c.gaussF := hg
        rw [gfilter_gauss hg' _ (cyc_lt (by omega) _), hP.cur, hRit]
        rfl
    · right
      refine ⟨by rw [hRit]; exact hN.it, ?_, ?_, ?_, ?_, ?_⟩
      · rw [hRrms, hsl, if_neg (by rw [hN.it]; omega), hN.it]; simp
      · intro rf hrf
        rw [hRrf] at hrf
        split at hrf
        · exact absurd hrf (by simp)
        · rw [← Option.some.inj hrf]; exact hrfl _
      · have := hN.entered
        rw [hUe, e4] at this
        exact this
      · rw [hRrf]
        change _ ↔ energy n (lowpass n dt a win) = 0
        rw [← hWe, ← hN.nanRF]
        cases s.nanRF <;> simp
      · have := hN.dead
        rw [hWe, hUe] at this
        exact this

end Rfsed.Synrf
