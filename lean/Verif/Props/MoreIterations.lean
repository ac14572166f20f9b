import Verif.Props.Deconv
import Verif.Proofs.DeconvScale
import Verif.Proofs.IterSteady

/-!
# C147: more iterations only continue the fit
-/

namespace Rfsed.Props
open Rfsed Synrf Spec

section
variable {uin win : List ℝ} {dt preonset a minderr minderr' : ℝ} {nt : Option Nat} {itmax itmax' : Nat} {phase : String}
  {R R' : IterResult}

/-- the same state of two runs with different limits -/
structure SameFit (c c' : IterConst) (s s' : IterState) : Prop where
  it : s'.it = s.it
  p0 : s'.p0 = s.p0
  r : s'.r_flt = s.r_flt
  sq : s'.sumsq_i = s.sumsq_i
  nan : s'.nan = s.nan
  nanRF : s'.nanRF = s.nanRF
  err : (s.it = 0 ∧ s.d_error = 100 * c.powerU + c.minderr ∧ s'.d_error = 100 * c.powerU + c'.minderr) ∨
    s.nan = true ∨ (1 ≤ s.it ∧ s'.d_error = s.d_error)
  rms : ∀ j, j + 1 < s.it ∨ (j < s.it ∧ s.nan = false) → s'.rms[j]? = s.rms[j]?

/-- the constants of a run with other limits -/
def withLimits (c : IterConst) (m : Nat) (e : ℝ) : IterConst := { c with itmax := m, minderr := e }

theorem iterInit_limits {n : Nat} {c : IterConst} {s0 : IterState}
    (h : iterInit uin win dt n a itmax minderr phase = .ok (c, s0)) :
    c.itmax = itmax ∧ c.minderr = minderr ∧ 0 ≤ c.powerU ∧
    ∃ s0', iterInit uin win dt n a itmax' minderr' phase = .ok (withLimits c itmax' minderr', s0') ∧
      SameFit c (withLimits c itmax' minderr') s0 s0' ∧ s0.it = 0 ∧ s0.nan = false := by
  unfold iterInit at h ⊢
  simp only at h ⊢
  obtain ⟨u0, e1, h⟩ := bind_eq_ok.1 h
  obtain ⟨w0, e2, h⟩ := bind_eq_ok.1 h
  obtain ⟨g, e3, h⟩ := bind_eq_ok.1 h
  have h := Except.ok.inj h
  rw [Prod.mk.injEq] at h
  obtain ⟨hc, hs⟩ := h
  rw [e1, e2, e3]
  subst hc hs
  refine ⟨rfl, rfl, sumSq_nonneg _, _, rfl, ⟨rfl, rfl, rfl, rfl, rfl, rfl, Or.inl ⟨rfl, rfl, rfl⟩, ?_⟩, rfl, rfl⟩
  intro j hj
  exact absurd hj (by simp)

theorem iterBody_limits {c : IterConst} {m : Nat} {e : ℝ} {s s' t t' : IterState}
    (hs : SameFit c (withLimits c m e) s s') (hn : s.nan = false)
    (h : iterBody c s = .ok t) (h' : iterBody (withLimits c m e) s' = .ok t') :
    SameFit c (withLimits c m e) t t' := by
  unfold iterBody at h h'
  simp only [withLimits, hs.it, hs.p0, hs.r, hs.sq] at h'
  obtain ⟨i1, e1, h⟩ := bind_eq_ok.1 h
  obtain ⟨i1', e1', h'⟩ := bind_eq_ok.1 h'
  rw [e1] at e1'
  obtain rfl := Except.ok.inj e1'
  have hnan : ∀ j, j + 1 < s.it + 1 ∨ (j < s.it + 1 ∧ true = false) → s'.rms[j]? = s.rms[j]? := by
    rintro j (hj | ⟨_, hj⟩)
    · exact hs.rms j (Or.inr ⟨by omega, hn⟩)
    · cases hj
  by_cases hw : sumSq c.w_flt = 0
  · rw [if_pos hw] at h h'
    have h := Except.ok.inj h
    have h' := Except.ok.inj h'
    subst h h'
    exact ⟨rfl, rfl, rfl, rfl, rfl, rfl, Or.inr (Or.inl rfl), hnan⟩
  · rw [if_neg hw] at h h'
    obtain ⟨rwi, e2, h⟩ := bind_eq_ok.1 h
    obtain ⟨rwi', e2', h'⟩ := bind_eq_ok.1 h'
    rw [e2] at e2'
    obtain rfl := Except.ok.inj e2'
    obtain ⟨old, e3, h⟩ := bind_eq_ok.1 h
    obtain ⟨old', e3', h'⟩ := bind_eq_ok.1 h'
    rw [e3] at e3'
    obtain rfl := Except.ok.inj e3'
    obtain ⟨p, e4, h⟩ := bind_eq_ok.1 h
    obtain ⟨p', e4', h'⟩ := bind_eq_ok.1 h'
    rw [e4] at e4'
    obtain rfl := Except.ok.inj e4'
    by_cases hp : c.powerU = 0
    · rw [if_pos hp] at h h'
      have h := Except.ok.inj h
      have h' := Except.ok.inj h'
      subst h h'
      exact ⟨rfl, rfl, rfl, rfl, rfl, hs.nanRF, Or.inr (Or.inl rfl), hnan⟩
    · rw [if_neg hp] at h h'
      obtain ⟨r, e5, h⟩ := bind_eq_ok.1 h
      obtain ⟨r', e5', h'⟩ := bind_eq_ok.1 h'
      have h := Except.ok.inj h
      have h' := Except.ok.inj h'
      obtain ⟨b1, rfl⟩ := setItem_ok' e5
      obtain ⟨b2, rfl⟩ := setItem_ok' e5'
      subst h h'
      refine ⟨rfl, rfl, rfl, rfl, hs.nan, hs.nanRF, Or.inr (Or.inr ⟨Nat.succ_pos _, rfl⟩), ?_⟩
      intro j hj
      simp only at hj ⊢
      rcases Nat.lt_or_ge j s.it with h1 | h1
      · rw [List.getElem?_set_ne (by omega), List.getElem?_set_ne (by omega)]
        exact hs.rms j (Or.inr ⟨h1, hn⟩)
      · obtain rfl : j = s.it := by omega
        rw [List.getElem?_set_self b1, List.getElem?_set_self b2]

theorem cond_limits {c : IterConst} {m : Nat} {e : ℝ} {s s' : IterState} (hP : 0 ≤ c.powerU) (he : 0 ≤ e)
    (hle : e ≤ c.minderr) (hs : SameFit c (withLimits c m e) s s') (h : loopCond c s = true) (hm : s.it < m) :
    loopCond (withLimits c m e) s' = true := by
  obtain ⟨h1, h2, h3⟩ := loopCond_true h
  refine loopCond_of (by rw [hs.nan]; exact h1) ?_ (by rw [hs.it]; exact hm)
  show e < |s'.d_error|
  rcases hs.err with ⟨_, h5, h6⟩ | h5 | ⟨_, h5⟩
  · rw [h5] at h2
    rw [h6]
    rcases (first_pass hP).1 h2 with h7 | h7
    · exact (first_pass hP).2 (Or.inl h7)
    · linarith
  · rw [h1] at h5; cases h5
  · rw [h5]; linarith

/-- the run with the looser limits passes through the last state of the other -/
theorem loop_limits {c : IterConst} {m : Nat} {e : ℝ} (hP : 0 ≤ c.powerU) (he : 0 ≤ e) (hle : e ≤ c.minderr)
    (hm : c.itmax ≤ m) : ∀ (k : Nat) (s s' t t' : IterState), c.itmax - s.it = k → SameFit c (withLimits c m e) s s' →
      iterLoop c s = .ok t → iterLoop (withLimits c m e) s' = .ok t' →
      ∃ u, SameFit c (withLimits c m e) t u ∧ iterLoop (withLimits c m e) u = .ok t' ∧ loopCond c t = false := by
  intro k
  induction k with
  | zero =>
    intro s s' t t' hk hs h h'
    have hc : loopCond c s = false := by
      have : ¬ s.it < c.itmax := by omega
      simp [loopCond, this]
    rw [iterLoop_eq _ _ (fun _ => iterBody_it), hc] at h
    obtain rfl := Except.ok.inj h
    exact ⟨s', hs, h', hc⟩
  | succ k ih =>
    intro s s' t t' hk hs h h'
    rw [iterLoop_eq _ _ (fun _ => iterBody_it)] at h
    by_cases hc : loopCond c s = true
    · rw [if_pos hc] at h
      rw [iterLoop_eq _ _ (fun _ => iterBody_it), if_pos (cond_limits hP he hle hs hc (by omega))] at h'
      obtain ⟨s1, b1, h⟩ := bind_eq_ok.1 h
      obtain ⟨s1', b1', h'⟩ := bind_eq_ok.1 h'
      exact ih s1 s1' t t' (by have := iterBody_it b1; omega) (iterBody_limits hs (loopCond_true hc).1 b1 b1') h h'
    · rw [if_neg hc] at h
      obtain rfl := Except.ok.inj h
      exact ⟨s', hs, h', by simpa using hc⟩

/-- what a run does to the misfits it has already written -/
theorem loop_keeps {c : IterConst} : ∀ (k : Nat) (s t : IterState), c.itmax - s.it = k → iterLoop c s = .ok t →
    t.rms.length = s.rms.length ∧ (t = s ∨ (s.it < t.it ∧ loopCond c s = true)) ∧
    ∀ j < s.it, t.rms[j]? = s.rms[j]? := by
  intro k
  induction k with
  | zero =>
    intro s t hk h
    have hc : loopCond c s = false := by
      have : ¬ s.it < c.itmax := by omega
      simp [loopCond, this]
    rw [iterLoop_eq _ _ (fun _ => iterBody_it), hc] at h
    obtain rfl := Except.ok.inj h
    exact ⟨rfl, Or.inl rfl, fun _ _ => rfl⟩
  | succ k ih =>
    intro s t hk h
    rw [iterLoop_eq _ _ (fun _ => iterBody_it)] at h
    by_cases hc : loopCond c s = true
    · rw [if_pos hc] at h
      obtain ⟨s1, b1, h⟩ := bind_eq_ok.1 h
      have hit := iterBody_it b1
      have hr : s1.rms.length = s.rms.length ∧ ∀ j < s.it, s1.rms[j]? = s.rms[j]? := by
        unfold iterBody at b1
        obtain ⟨_, _, b1⟩ := bind_eq_ok.1 b1
        simp only at b1
        split at b1
        · cases b1; exact ⟨rfl, fun _ _ => rfl⟩
        · obtain ⟨_, _, b1⟩ := bind_eq_ok.1 b1
          obtain ⟨_, _, b1⟩ := bind_eq_ok.1 b1
          obtain ⟨_, _, b1⟩ := bind_eq_ok.1 b1
          split at b1
          · cases b1; exact ⟨rfl, fun _ _ => rfl⟩
          · obtain ⟨r, e5, b1⟩ := bind_eq_ok.1 b1
            obtain ⟨b2, rfl⟩ := setItem_ok' e5
            cases b1
            exact ⟨by simp, fun j hj => List.getElem?_set_ne (by omega)⟩
      obtain ⟨i1, i2, i3⟩ := ih s1 t (by omega) h
      refine ⟨i1.trans hr.1, Or.inr ⟨?_, hc⟩, fun j hj => (i3 j (by omega)).trans (hr.2 j hj)⟩
      rcases i2 with rfl | ⟨i2, _⟩ <;> omega
    · rw [if_neg hc] at h
      obtain rfl := Except.ok.inj h
      exact ⟨rfl, Or.inl rfl, fun _ _ => rfl⟩

/-- **C147** Run the iterative deconvolution twice on the same traces, the second time with at least as many iterations
allowed and at most as large a stopping threshold: the second run makes at least as many iterations, its misfits begin with
those of the first, it returns the same receiver function if it made no further iteration, and it makes none if only
`itmax` was raised and the first run had stopped before its limit. -/
theorem c147_more_iterations
    (h : deconv_iterative uin win dt nt preonset a itmax minderr phase = .ok R)
    (h' : deconv_iterative uin win dt nt preonset a itmax' minderr' phase = .ok R')
    (hm : 0 ≤ minderr') (hle : minderr' ≤ minderr) (hit : itmax ≤ itmax') :
    R.it ≤ R'.it ∧ (1 ≤ R.it → R.rms <+: R'.rms) ∧ (R'.it = R.it → R'.rf = R.rf) ∧
    (minderr' = minderr → R.it < itmax → R'.it = R.it) := by
  obtain ⟨_, c, s0, t, h1, h2, rfl⟩ := deconv_inv h
  obtain ⟨_, c', s0', t', h1', h2', rfl⟩ := deconv_inv h'
  obtain ⟨e1, e2, hP, s1, h3, hs, hs0, _⟩ := iterInit_limits (itmax' := itmax') (minderr' := minderr') h1
  rw [h3] at h1'
  obtain ⟨rfl, rfl⟩ := Prod.mk.inj (Except.ok.inj h1')
  subst e1 e2
  obtain ⟨u, hu, h4, hstop⟩ := loop_limits hP hm hle hit _ s0 s1 t t' rfl hs h2 h2'
  obtain ⟨_, k2, k3⟩ := loop_keeps _ u t' rfl h4
  have hge : t.it ≤ t'.it := by
    rw [← hu.it]
    rcases k2 with rfl | ⟨k2, _⟩ <;> omega
  have hsl : ∀ x : List ℝ, ∀ k : Nat, 1 ≤ k → sliceTo x ((k : ℤ) - 1) = x.take (k - 1) := by
    intro x k hk
    unfold sliceTo
    rw [if_neg (by omega)]
    congr 1
    omega
  refine ⟨hge, fun h0 => ?_, fun he => ?_, fun he hlt => ?_⟩
  · simp only at h0 ⊢
    rw [hsl _ _ h0, hsl _ _ (le_trans h0 hge)]
    have : t.rms.take (t.it - 1) = (t'.rms.take (t'.it - 1)).take (t.it - 1) := by
      rw [List.take_take, Nat.min_eq_left (by omega)]
      apply List.ext_getElem?
      intro j
      rw [List.getElem?_take, List.getElem?_take]
      split
      · rw [k3 j (by rw [hu.it]; omega), hu.rms j (Or.inl (by omega))]
      · rfl
    rw [this]
    exact List.take_prefix _ _
  · simp only at he ⊢
    rcases k2 with rfl | ⟨k2, _⟩
    · rw [hu.nanRF, hu.p0]; rfl
    · rw [hu.it] at k2; omega
  · simp only at he hlt ⊢
    rcases k2 with rfl | ⟨k2, hc⟩
    · exact hu.it
    · exfalso
      have hn : t.nan = false := by rw [← hu.nan]; exact (loopCond_true hc).1
      have hd := (loopCond_true hc).2.1
      rw [← Bool.not_eq_true] at hstop
      apply hstop
      refine loopCond_of hn ?_ hlt
      rcases hu.err with ⟨_, h5, h6⟩ | h5 | ⟨_, h5⟩
      · rw [h5]
        rw [h6] at hd
        rw [← he]; exact hd
      · rw [hn] at h5; cases h5
      · rw [← h5, ← he]; exact hd

/-- **C147** What the method reports after `k` iterations is what a run limited to `k` iterations returns: such a run
makes exactly `k` iterations, returns the first `k - 1` misfits, and for all iterations the same receiver function. -/
theorem c147_stop_early
    (h : deconv_iterative uin win dt none preonset a itmax minderr phase = .ok R) (h3 : 3 ≤ uin.length)
    (hm : 0 ≤ minderr) {k : Nat} (hk : k ≤ R.it) :
    ∃ S, deconv_iterative uin win dt none preonset a k minderr phase = .ok S ∧ S.it = k ∧
      (1 ≤ k → S.rms = R.rms.take (k - 1)) ∧ (k = R.it → S.rf = R.rf) := by
  obtain ⟨hlen, -⟩ := deconv_inv h
  obtain ⟨hdt, _, hle, _⟩ := deconv_master h rfl
  obtain ⟨S, hS⟩ := c53_total (uin := uin) (win := win) (dt := dt) (preonset := preonset) (a := a) (itmax := k)
    (minderr := minderr) (phase := phase) hlen h3 hdt
  obtain ⟨m1, m2, m3, m4⟩ := c147_more_iterations hS h hm le_rfl (le_trans hk hle)
  have hw := c53_work hS (Or.inl rfl)
  have hk' : S.it = k := by
    by_contra hne
    have hlt : S.it < k := lt_of_le_of_ne hw.1 hne
    have := m4 rfl hlt
    omega
  refine ⟨S, hS, hk', fun h1 => ?_, fun e => (m3 (by omega)).symm⟩
  rw [← hk'] at h1
  have := List.prefix_iff_eq_take.1 (m2 h1)
  rw [hw.2.1 h1, hk'] at this
  exact this

/-- **C147** More iterations never fit worse: the spike trains after the last iteration of two such runs. -/
theorem c147_never_worse
    (h : deconv_iterative uin win dt none preonset a itmax minderr phase = .ok R)
    (h' : deconv_iterative uin win dt none preonset a itmax' minderr' phase = .ok R')
    (hm : 0 ≤ minderr') (hle : minderr' ≤ minderr) (hit : itmax ≤ itmax') {rf rf' : List ℝ}
    (hrf : R.rf = some rf) (hrf' : R'.rf = some rf') :
    let n := nextPow2 uin.length
    let u := lowpass n dt a uin
    let w := lowpass n dt a win
    ∃ P P', GreedyRun n dt u w phase minderr itmax R.it P ∧ GreedyRun n dt u w phase minderr' itmax' R'.it P' ∧
      (∀ j ≤ R.it, P' j = P j) ∧ misfit n dt u w (smp (P' R'.it)) ≤ misfit n dt u w (smp (P R.it)) := by
  intro n u w
  obtain ⟨P, hg, -, -⟩ := c54_greedy h (Or.inl rfl) (hm.trans hle) hrf
  obtain ⟨P', hg', -, -⟩ := c54_greedy h' (Or.inl rfl) hm hrf'
  have hge := (c147_more_iterations h h' hm hle hit).1
  have hpre : ∀ j ≤ R.it, P' j = P j :=
    spikes_prefix (by rw [hg'.start, hg.start]) (fun j hj => hg'.spike j (by omega)) hg.spike
  refine ⟨P, P', hg, hg', hpre, ?_⟩
  rw [← hpre _ le_rfl]
  have hstep : ∀ d, R.it + d ≤ R'.it → misfit n dt u w (smp (P' (R.it + d))) ≤ misfit n dt u w (smp (P' R.it)) := by
    intro d
    induction d with
    | zero => intro _; exact le_rfl
    | succ d ih =>
      intro hd
      have hl := greedyRun_length hg' (R.it + d) (by omega)
      exact le_trans (bestSpike_le hl (hg'.spike (R.it + d) (by omega))) (ih (by omega))
  have := hstep (R'.it - R.it) (by omega)
  rwa [show R.it + (R'.it - R.it) = R'.it by omega] at this

end

/-- the hypotheses are met by three-sample traces, once with one and once with up to 400 iterations -/
example : ∃ R R', deconv_iterative [1, 2, 0] [1, 0, 0] (1/10) none 10 2 1 (1/1000) "P" = .ok R ∧
    deconv_iterative [1, 2, 0] [1, 0, 0] (1/10) none 10 2 400 (1/1000) "P" = .ok R' ∧
    R.it = 1 ∧ 1 ≤ R'.it ∧ R.rms <+: R'.rms := by
  obtain ⟨R', hR'⟩ := c53_total (uin := [1, 2, 0]) (win := [1, 0, 0]) (dt := 1/10) (preonset := 10)
    (a := 2) (itmax := 400) (minderr := 1/1000) (phase := "P") rfl (by simp) (by norm_num)
  have h1 : 1 ≤ R'.it := by
    by_contra h0
    rcases (c53_dead_numerator hR' (Or.inl rfl) (by norm_num)).1 (by omega) with h | h
    · omega
    · have := h 1 (by simp)
      norm_num at this
  obtain ⟨R, hR, e, -, -⟩ := c147_stop_early hR' (by simp) (by norm_num) h1
  exact ⟨R, R', hR, hR', e, h1, (c147_more_iterations hR hR' (by norm_num) le_rfl (by omega)).2.1 (by omega)⟩

end Rfsed.Props
