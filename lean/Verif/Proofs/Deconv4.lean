import Verif.Proofs.Deconv3

/-! The `while` loop of `deconv_iterative`: invariant over all iterations. -/

namespace Rfsed.Synrf
open Finset Spec

theorem loopCond_true {c : IterConst} {s : IterState} (h : loopCond c s = true) :
    s.nan = false ∧ c.minderr < |s.d_error| ∧ s.it < c.itmax := by
  unfold loopCond at h
  rw [Bool.and_eq_true, Bool.and_eq_true] at h
  refine ⟨?_, ?_, ?_⟩
  · simpa using h.1.1
  · exact (@decide_eq_true_iff _ (Classical.propDecidable _)).1 h.1.2
  · exact of_decide_eq_true h.2

theorem loopCond_of {c : IterConst} {s : IterState} (h1 : s.nan = false)
    (h2 : c.minderr < |s.d_error|) (h3 : s.it < c.itmax) : loopCond c s = true := by
  unfold loopCond
  rw [Bool.and_eq_true, Bool.and_eq_true]
  refine ⟨⟨by simp [h1], ?_⟩, ?_⟩
  · exact (@decide_eq_true_iff _ (Classical.propDecidable _)).2 h2
  · exact decide_eq_true h3

/-- What has happened so far: `P j` is the spike train after `j` iterations. -/
structure History (c : IterConst) (s : IterState) (P : Nat → List ℝ) : Prop where
  st : StateOk c s
  start : P 0 = List.replicate c.nfft 0
  cur : s.p0 = P s.it
  le : s.it ≤ c.itmax
  nan : s.nan = false
  nanRF : s.nanRF = false
  good : 0 < s.it → sumSq c.w_flt ≠ 0 ∧ c.powerU ≠ 0
  spike : ∀ j < s.it,
    BestSpike c.nfft c.dt (smp c.u_flt) (smp c.w_flt) c.phase (P j) (P (j + 1))
  rms : ∀ j < s.it, s.rms[j]? = some (mis c (P (j + 1)))
  rms0 : ∀ j, s.it ≤ j → j < c.itmax → s.rms[j]? = some 0
  mono : ∀ j < s.it, mis c (P (j + 1)) ≤ mis c (P j)
  sum : s.sumsq_i = if s.it = 0 then 1 else mis c (P s.it)
  err0 : s.it = 0 → s.d_error = 100 * c.powerU + c.minderr
  err : ∀ j, s.it = j + 1 → s.d_error = 100 * (mis c (P j) - mis c (P (j + 1)))
  drop : ∀ j, j + 1 < s.it → c.minderr < 100 * (mis c (P j) - mis c (P (j + 1)))

/-- The loop stopped with NaN in its first pass. -/
structure NanStop (c : IterConst) (s : IterState) : Prop where
  it : s.it = 1
  le : 1 ≤ c.itmax
  nan : s.nan = true
  dead : sumSq c.w_flt = 0 ∨ c.powerU = 0
  entered : c.minderr < |100 * c.powerU + c.minderr|
  rmslen : s.rms.length = c.itmax
  nanRF : s.nanRF = true ↔ sumSq c.w_flt = 0
  spike : s.nanRF = false → ∃ i v, AdmLag c i ∧ s.p0 = (List.replicate c.nfft (0 : ℝ)).set i v

theorem cconv_zero (n m : Nat) (w : Nat → ℝ) (k : Nat) :
    cconv n (smp (List.replicate k 0)) w m = 0 := by
  apply sum_eq_zero
  intro i _
  have : smp (List.replicate k 0) i = 0 := by
    unfold smp
    simp only [List.getD_eq_getElem?_getD, List.getElem?_replicate]
    split <;> rfl
  rw [this, zero_mul]

theorem mis_zero {c : IterConst} (hc : ConstOk c) (hU : c.powerU ≠ 0) :
    mis c (List.replicate c.nfft 0) = 1 := by
  unfold mis
  have : energy c.nfft (resid c (List.replicate c.nfft 0)) = c.powerU := by
    rw [hc.power]
    apply energy_congr
    intro m _
    unfold resid
    rw [cconv_zero, mul_zero, sub_zero]
  rw [this, div_self hU]

theorem history_step {c : IterConst} {s s' : IterState} {P : Nat → List ℝ} (hc : ConstOk c)
    (h : History c s P) (hcond : loopCond c s = true) (hb : iterBody c s = .ok s') :
    (∃ P', History c s' P') ∨ NanStop c s' := by
  obtain ⟨hnan, herr, hlt⟩ := loopCond_true hcond
  obtain ⟨hit, hcase⟩ := iterBody_ok hc h.st hb
  rcases hcase with ⟨hW, rfl⟩ | ⟨hW, hU, a1, a2, a3, a4, i, v, hl, hp⟩ |
    ⟨hW, hU, hst, a1, a2, a3, hsp, hrms, hsum, hd⟩
  · have h0 : s.it = 0 := by
      by_contra h0
      exact (h.good (by omega)).1 hW
    right
    refine ⟨by simp [h0], by omega, rfl, Or.inl hW, by rw [← h.err0 h0]; exact herr,
      h.st.rmslen, by simp [hW], by simp⟩
  · have h0 : s.it = 0 := by
      by_contra h0
      exact (h.good (by omega)).2 hU
    right
    refine ⟨by rw [hit, h0], by omega, a1, Or.inr hU, by rw [← h.err0 h0]; exact herr,
      by rw [a3]; exact h.st.rmslen, ?_, fun _ => ⟨i, v, hl, ?_⟩⟩
    · rw [a2, h.nanRF]; simp [hW]
    · rw [hp, h.cur, h0, h.start]
  · left
    have hmono : mis c s'.p0 ≤ mis c s.p0 := by
      obtain ⟨i, _, hi, _, hgr, _⟩ := id hsp
      have := hgr i (s.p0[i]'(by rw [h.st.plen]; exact hi.1)) hi
      rwa [List.set_getElem_self, ← mis_eq hc, ← mis_eq hc] at this
    set t := s.it with ht
    let P' : Nat → List ℝ := fun j => if j ≤ t then P j else s'.p0
    have hP' : ∀ j, j ≤ t → P' j = P j := fun j hj => if_pos hj
    have hPt : P' (t + 1) = s'.p0 := if_neg (by omega)
    have hcur : s.p0 = P t := h.cur
    have hprev : s.sumsq_i = mis c (P t) := by
      rw [h.sum]
      split
      · rename_i h0
        rw [← ht] at h0
        rw [h0, h.start, mis_zero hc hU]
      · rw [← ht]
    refine ⟨P', hst, ?_, ?_, ?_, ?_, ?_, ?_, ?_, ?_, ?_, ?_, ?_, ?_, ?_, ?_⟩
    · rw [hP' 0 (by omega), h.start]
    · rw [hit, hPt]
    · omega
    · rw [a1, hnan]
    · rw [a2, h.nanRF]
    · exact fun _ => ⟨hW, hU⟩
    · intro j hj
      by_cases hj' : j < t
      · rw [hP' (j + 1) (by omega), hP' j (by omega)]
        exact h.spike j (by omega)
      · have : j = t := by omega
        subst this
        rw [hPt, hP' _ (by omega), ← hcur]
        exact hsp
    · intro j hj
      by_cases hj' : j < t
      · rw [hP' (j + 1) (by omega), hrms, List.getElem?_set_ne (by omega)]
        exact h.rms j (by omega)
      · have : j = t := by omega
        subst this
        rw [hPt, hrms, List.getElem?_set_self (by rw [h.st.rmslen]; omega)]
    · intro j h1 h2
      rw [hrms, List.getElem?_set_ne (by omega)]
      exact h.rms0 j (by omega) h2
    · intro j hj
      by_cases hj' : j < t
      · rw [hP' (j + 1) (by omega), hP' j (by omega)]
        exact h.mono j (by omega)
      · have : j = t := by omega
        subst this
        rw [hPt, hP' _ (by omega), ← hcur]
        exact hmono
    · rw [hsum, hit, if_neg (by omega), hPt]
    · intro h0; omega
    · intro j hj
      have : j = t := by omega
      subst this
      rw [hd, hPt, hP' _ (le_refl _), hprev]
    · intro j hj
      rw [hit] at hj
      by_cases hj' : j + 1 < t
      · rw [hP' (j + 1) (by omega), hP' j (by omega)]
        exact h.drop j (by omega)
      · have hjt : t = j + 1 := by omega
        rw [hP' (j + 1) (by omega), hP' j (by omega)]
        have e := h.err j (by omega)
        have hm := h.mono j (by omega)
        rw [e, abs_of_nonneg (by linarith)] at herr
        exact herr

/-- one unfolding of the loop -/
theorem iterLoop_eq (c : IterConst) (s : IterState) (hit : ∀ s', iterBody c s = .ok s' → s'.it = s.it + 1) :
    iterLoop c s = if loopCond c s = true then iterBody c s >>= iterLoop c else .ok s := by
  rw [iterLoop]
  by_cases h : loopCond c s = true
  · simp only [h, if_true, dite_true]
    have hlt := (loopCond_true h).2.2
    split
    · rename_i e he
      rw [he]; rfl
    · rename_i s' hs'
      rw [hs']
      have := hit s' hs'
      rw [dif_pos (by omega)]
      rfl
  · simp only [h, dite_false, if_false]
    rfl

theorem iterBody_it {c : IterConst} {s s' : IterState} (h : iterBody c s = .ok s') :
    s'.it = s.it + 1 := by
  unfold iterBody at h
  obtain ⟨i1, _, h⟩ := bind_eq_ok.1 h
  simp only at h
  split at h
  · cases h; rfl
  · obtain ⟨_, _, h⟩ := bind_eq_ok.1 h
    obtain ⟨_, _, h⟩ := bind_eq_ok.1 h
    obtain ⟨_, _, h⟩ := bind_eq_ok.1 h
    split at h
    · cases h; rfl
    · obtain ⟨_, _, h⟩ := bind_eq_ok.1 h
      cases h; rfl

/-- The loop as a whole. -/
theorem iterLoop_ok {c : IterConst} (hc : ConstOk c) : ∀ (k : Nat) (s : IterState) (P : Nat → List ℝ),
    c.itmax - s.it = k → History c s P → ∀ sf, iterLoop c s = .ok sf →
    loopCond c sf = false ∧ ((∃ P', History c sf P') ∨ NanStop c sf) := by
  intro k
  induction k using Nat.strong_induction_on with
  | _ k ih =>
    intro s P hk h sf hsf
    rw [iterLoop_eq c s (fun _ => iterBody_it)] at hsf
    split at hsf
    · rename_i hcond
      obtain ⟨s', hb, hsf⟩ := bind_eq_ok.1 hsf
      have hit := iterBody_it hb
      have hlt := (loopCond_true hcond).2.2
      rcases history_step hc h hcond hb with ⟨P', h'⟩ | hn
      · exact ih (c.itmax - s'.it) (by omega) s' P' rfl h' sf hsf
      · rw [iterLoop_eq c s' (fun _ => iterBody_it)] at hsf
        have hf : loopCond c s' = false := by
          unfold loopCond; simp [hn.nan]
        rw [hf] at hsf
        simp only [Bool.false_eq_true, if_false] at hsf
        cases hsf
        exact ⟨hf, Or.inr hn⟩
    · rename_i hcond
      cases hsf
      exact ⟨by simpa using hcond, Or.inl ⟨P, h⟩⟩

/-- The initial state satisfies the invariant. -/
theorem iterInit_ok {uin win : List ℝ} {dt : ℝ} {nt : Nat} {a : ℝ} {itmax : Nat} {minderr : ℝ}
    {phase : String} {c : IterConst} {s0 : IterState}
    (h : iterInit uin win dt nt a itmax minderr phase = .ok (c, s0)) :
    ConstOk c ∧ History c s0 (fun _ => List.replicate c.nfft 0) ∧ s0.it = 0 ∧
    c.dt = dt ∧ c.nfft = nextPow2 nt ∧ c.itmax = itmax ∧ c.minderr = minderr ∧ c.phase = phase ∧
    gaussFilter dt c.nfft a = .ok c.gaussF ∧
    (uin.length = nt → ∀ m < c.nfft,
      smp c.u_flt m = cconv c.nfft (smp uin) (gaussPulse dt c.nfft a) m) ∧
    (win.length = nt → ∀ m < c.nfft,
      smp c.w_flt m = cconv c.nfft (smp win) (gaussPulse dt c.nfft a) m) := by
  unfold iterInit at h
  obtain ⟨u0, hu0, h⟩ := bind_eq_ok.1 h
  obtain ⟨w0, hw0, h⟩ := bind_eq_ok.1 h
  obtain ⟨g, hg, h⟩ := bind_eq_ok.1 h
  simp only [except_pure] at h
  have h := Except.ok.inj h
  obtain ⟨hdt, k, hk, hn, _⟩ := gaussFilter_ok hg
  have hc := (Prod.mk.inj h).1
  have hs := (Prod.mk.inj h).2
  have pad : ∀ {x y : List ℝ}, setSlice (List.replicate (nextPow2 nt) (0 : ℝ)) 0 nt x = .ok y →
      x.length = nt → smp y = smp x := by
    intro x y hxy hx
    rw [setSlice_eq _ (by omega) (by simp; exact le_nextPow2 nt) (by omega)] at hxy
    have := Except.ok.inj hxy
    subst this
    funext i
    unfold smp
    simp only [List.take_zero, List.nil_append, List.drop_replicate]
    by_cases hi : i < x.length
    · rw [getD_append_lt _ _ _ hi]
    · rw [getD_append_ge _ _ _ (by omega)]
      simp only [List.getD_eq_getElem?_getD, List.getElem?_replicate]
      rw [List.getElem?_eq_none (by omega)]
      split <;> rfl
  subst hc hs
  refine ⟨⟨by simp only; omega, ⟨k, hk, hn⟩, hdt, ⟨a, hg, w0, rfl,
    fun m hm => gfilter_gauss hg w0 hm⟩, gfilter_length .., gfilter_length ..,
    sumSq_energy (gfilter_length ..)⟩, ?_, rfl, rfl, rfl, rfl, rfl, rfl, hg, ?_, ?_⟩
  · refine ⟨⟨by simp, gfilter_length .., ?_, by simp⟩, rfl, rfl, by simp, rfl, rfl, by simp,
      by simp, by simp, ?_, by simp, by simp, fun _ => rfl, by simp, by simp⟩
    · intro m _
      unfold resid
      rw [cconv_zero, mul_zero, sub_zero]
    · intro j _ hj
      simp only at hj
      simp [hj]
  · intro hu m hm
    show smp (gfilter u0 (nextPow2 nt) (toC g) dt) m = _
    rw [gfilter_gauss hg u0 hm, pad hu0 hu]
  · intro hu m hm
    show smp (gfilter w0 (nextPow2 nt) (toC g) dt) m = _
    rw [gfilter_gauss hg w0 hm, pad hw0 hu]

end Rfsed.Synrf
