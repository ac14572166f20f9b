import Verif.Props.TiesSteady
import Verif.Props.Deconv

/-!
# C137: a noisy delayed copy
-/

namespace Rfsed.Props
open Rfsed Synrf Spec Finset

/-- an iteration that improves nothing changes nothing -/
theorem spike_none {n : Nat} (hn : 0 < n) {dt : ℝ} (hdt : dt ≠ 0) {u w : Nat → ℝ} {phase : String} {p p' : List ℝ}
    (hp : p.length = n) (h : BestSpike n dt u w phase p p')
    (hno : misfit n dt u w (smp p') = misfit n dt u w (smp p)) : p' = p := by
  obtain ⟨hU, hE⟩ := no_bestSpike hn h
  obtain ⟨i0, hl0, e0, -⟩ := cor_of_best hn hdt hE hU hp h
  have hg := gain_best (u := u) hn hdt hE hp hl0.1
  rw [← e0, hno, sub_self] at hg
  have hc0 : cor n dt u w p i0 = 0 := by
    by_contra hne
    exact div_ne_zero (div_ne_zero (pow_ne_zero 2 hne) hE) hU hg.symm
  rw [e0, bestVal, hc0]
  simp only [zero_div, add_zero]
  have : i0 < p.length := by rw [hp]; exact hl0.1
  rw [smp, getD_of_lt this, List.set_getElem_self]

/-- two low-passed traces that are multiples of shifted copies of one trace agree only if the copies do -/
theorem lowpass_shift_inj {n : Nat} (hn : 0 < n) {dt a : ℝ} {x : List ℝ} {b c : ℝ} {L i : ℤ}
    (h : ∀ m < n, b * lowpass n dt a x (cyc n ((m : ℤ) - L)) = c * lowpass n dt a x (cyc n ((m : ℤ) - i))) :
    ∀ m < n, b * smp x (cyc n ((m : ℤ) - L)) = c * smp x (cyc n ((m : ℤ) - i)) := by
  set d : List ℝ := (List.range n).map (fun m : Nat => b * smp x (cyc n ((m : ℤ) - L)) - c * smp x (cyc n ((m : ℤ) - i)))
    with hd
  have hz : energy n (cconv n (smp d) (gaussPulse dt n a)) = 0 := by
    apply sum_eq_zero
    intro m hm
    have e : cconv n (smp d) (gaussPulse dt n a) m =
        cconv n (fun j => b * smp x (cyc n ((j : ℤ) - L))) (gaussPulse dt n a) m -
        cconv n (fun j => c * smp x (cyc n ((j : ℤ) - i))) (gaussPulse dt n a) m := by
      unfold cconv
      rw [← sum_sub_distrib]
      apply sum_congr rfl
      intro j hj
      rw [hd, smp_map_range _ (mem_range.1 hj)]
      ring
    have h0 := h m (mem_range.1 hm)
    unfold lowpass at h0
    rw [e, cconv_shift hn, cconv_shift hn, h0, sub_self]
    simp
  have := (cconv_smp_inj hn (by simp [hd])).1 hz
  intro m hm
  have h1 := this _ (List.mem_map.2 ⟨m, List.mem_range.2 hm, rfl⟩)
  linarith

/-- the run that explains a delayed copy is steady -/
theorem steady_copy {uin win : List ℝ} {dt preonset a minderr b : ℝ} {nt : Option Nat} {itmax L : Nat}
    {phase : String} {R : IterResult}
    (h : deconv_iterative uin win dt nt preonset a itmax minderr phase = .ok R)
    (hnt : nt = none ∨ nt = some uin.length) (h0 : 0 ≤ minderr) (h1 : minderr < 100) (h2 : 2 ≤ itmax)
    (h3 : 0 < minderr ∨ itmax = 2) (hne : ∃ x ∈ uin, x ≠ 0) :
    let n := nextPow2 uin.length
    Lag n phase L → (∀ m < n, smp uin m = b * smp win (cyc n ((m : ℤ) - L))) →
    (∀ i c, Lag n phase i → i ≠ L → ∃ m < n, smp win (cyc n ((m : ℤ) - L)) ≠ c * smp win (cyc n ((m : ℤ) - i))) →
    ∃ P rf, SteadyRun n dt (lowpass n dt a uin) (lowpass n dt a win) phase minderr itmax R.it P ∧ R.rf = some rf ∧
      (Real.cos (2 * Real.pi * (pyInt (preonset / dt) : ℝ) / n) ≠ 0 →
        ∀ m < uin.length, smp rf m = b / dt * gaussPulse dt n a (cyc n ((m : ℤ) - pyInt (preonset / dt) - L))) := by
  intro n hL hu hsh
  have hnt' : nt.getD uin.length = uin.length := by rcases hnt with rfl | rfl <;> rfl
  have hle := le_nextPow2 uin.length
  obtain ⟨hdt, hn2, hit, hcase⟩ := deconv_master h hnt'
  have hn : 0 < n := by omega
  set u := lowpass n dt a uin with hu'
  set w := lowpass n dt a win with hw'
  have hU : energy n u ≠ 0 := by
    intro hz
    obtain ⟨x, hx, hx0⟩ := hne
    exact hx0 ((cconv_smp_inj hn hle).1 hz x hx)
  have huw : ∀ m < n, u m = b * w (cyc n ((m : ℤ) - L)) := by
    intro m hm
    rw [hu', hw']
    unfold lowpass
    rw [← cconv_shift hn]
    unfold cconv
    apply sum_congr rfl
    intro j hj
    rw [hu j (mem_range.1 hj)]
  have hb : b ≠ 0 := by
    rintro rfl
    apply hU
    apply sum_eq_zero
    intro m hm
    rw [huw m (mem_range.1 hm), zero_mul]
    norm_num
  -- no other lag explains the numerator
  have hother : ∀ i v, Lag n phase i → i ≠ L → 0 < misfit n dt u w (smp ((List.replicate n (0 : ℝ)).set i v)) := by
    intro i v hi hne
    refine lt_of_le_of_ne (misfit_nonneg ..) fun he => ?_
    have hz : energy n (fun m => u m - dt * cconv n (smp ((List.replicate n (0 : ℝ)).set i v)) w m) = 0 := by
      unfold misfit at he
      rcases div_eq_zero_iff.1 he.symm with e | e
      · exact e
      · exact absurd e hU
    have hz' := energy_add_zero_iff.1 hz
    have hm : ∀ m < n, b * w (cyc n ((m : ℤ) - L)) = (dt * v) * w (cyc n ((m : ℤ) - i)) := by
      intro m hm
      have := hz' m hm
      rw [huw m hm, cconv_single hi.1] at this
      linarith
    have hx := lowpass_shift_inj hn hm
    obtain ⟨m, hm1, hm2⟩ := hsh i (dt * v / b) hi hne
    apply hm2
    have := hx m hm1
    field_simp
    linarith
  rcases hcase with ⟨P, rf, hg, hrf, hl, -, -, -, -, hval⟩ | ⟨-, -, -, -, -, e2⟩
  · obtain ⟨hk, m1, m2⟩ := greedyRun_copy hdt hL huw hU h0 h1 h2 hg
    have hP1 : P 1 = (List.replicate n (0 : ℝ)).set L (b / dt) := by
      obtain ⟨i, v, hl, e, -, -, hown⟩ := hg.spike 0 (by omega)
      rw [hg.start, zero_add] at e hown
      have hi : i = L := by
        by_contra hne
        have := hother i v hl hne
        rw [← e, m1] at this
        exact lt_irrefl _ this
      subst hi
      by_cases hv : b / dt = v
      · rw [hv]; exact e
      · exfalso
        have := hown _ hv
        rw [misfit_copy hdt hL.1 huw] at this
        exact absurd (misfit_nonneg ..) (not_le.2 this)
    have hP2 : P 2 = P 1 := spike_none hn hdt (by rw [hP1]; simp) (hg.spike 1 (by omega)) (by
      show misfit n dt u w (smp (P 2)) = misfit n dt u w (smp (P 1))
      rw [m1, m2])
    have hsteady : SteadyRun n dt u w phase minderr itmax R.it P := by
      refine ⟨hg, fun j hj => ?_, ?_⟩
      · have : j = 0 ∨ j = 1 := by omega
        rcases this with rfl | rfl
        · left
          refine ⟨L, b / dt, hL, by rw [hg.start]; exact hP1, fun i' v' hi' hne => ?_⟩
          rw [zero_add, m1, hg.start]
          exact hother i' v' hi' hne
        · right
          exact ⟨by omega, by rw [m1, show 1 + 1 = 2 from rfl, m2]⟩
      · rcases h3 with h3 | h3
        · right
          refine ⟨1, hk, ?_⟩
          rw [m1, show 1 + 1 = 2 from rfl, m2]
          linarith
        · left; omega
    refine ⟨P, rf, hsteady, hrf, fun hcos m hm => ?_⟩
    rw [hval hcos m hm, hk, hP2, hP1, cconv_single hL.1]
    congr 2
    rw [sub_eq_add_neg, cyc_cyc_add hn, ← sub_eq_add_neg]
  · rcases e2 with e | e
    · exfalso
      apply hU
      have := energy_add_zero_iff.1 e
      apply sum_eq_zero
      intro m hm
      rw [huw m (mem_range.1 hm), this _ (cyc_lt hn _)]
      norm_num
    · exact absurd e hU

/-- **C137** A noisy delayed copy: let the numerator be the denominator, delayed by an admissible lag `L` and multiplied by
`b`, and let no other admissible delay of the denominator be a multiple of it. Then the receiver function is `b/dt` times
the Gaussian pulse delayed by `L` and the pre-onset, and noise of at most `δ` in the samples of both traces changes it by
at most `C δ`, for every `δ` small enough. -/
theorem c137_noisy_copy {uin win : List ℝ} {dt preonset a minderr b : ℝ} {nt : Option Nat} {itmax L : Nat}
    {phase : String} {R : IterResult}
    (h : deconv_iterative uin win dt nt preonset a itmax minderr phase = .ok R)
    (hnt : nt = none ∨ nt = some uin.length) (h0 : 0 ≤ minderr) (h1 : minderr < 100) (h2 : 2 ≤ itmax)
    (h3 : 0 < minderr ∨ itmax = 2) (hne : ∃ x ∈ uin, x ≠ 0)
    (hcos : Real.cos (2 * Real.pi * (pyInt (preonset / dt) : ℝ) / nextPow2 uin.length) ≠ 0) :
    let n := nextPow2 uin.length
    Lag n phase L → (∀ m < n, smp uin m = b * smp win (cyc n ((m : ℤ) - L))) →
    (∀ i c, Lag n phase i → i ≠ L → ∃ m < n, smp win (cyc n ((m : ℤ) - L)) ≠ c * smp win (cyc n ((m : ℤ) - i))) →
    ∃ rf, R.rf = some rf ∧
      (∀ m < uin.length, smp rf m = b / dt * gaussPulse dt n a (cyc n ((m : ℤ) - pyInt (preonset / dt) - L))) ∧
      ∃ C > 0, ∃ δ₀ > 0, ∀ δ, 0 < δ → δ ≤ δ₀ → ∀ uin' win', SamplesWithin δ uin uin' →
      SamplesWithin δ win win' → ∃ R' rf', deconv_iterative uin' win' dt nt preonset a itmax minderr phase = .ok R' ∧
        R'.it = R.it ∧ R'.rf = some rf' ∧ SamplesWithin (C * δ) rf rf' := by
  intro n hL hu hsh
  obtain ⟨P, rf, hP, hrf, hv⟩ := steady_copy h hnt h0 h1 h2 h3 hne hL hu hsh
  obtain ⟨rf2, hrf2, hC⟩ := c137_proportional h hnt h0 ⟨P, hP⟩ hcos
  rw [hrf] at hrf2
  cases hrf2
  exact ⟨rf, hrf, hv hcos, hC⟩

/-- an impulse and its copy two samples later, with the parameters of the package -/
example : ∃ R rf, deconv_iterative [0, 0, 3, 0, 0, 0, 0, 0] [1, 0, 0, 0, 0, 0, 0, 0] 0.1 none 0 2 400 0.001 "P" = .ok R ∧
    R.rf = some rf ∧ (∀ m < 8, smp rf m = 30 * gaussPulse 0.1 8 2 (cyc 8 ((m : ℤ) - 2))) ∧
      ∃ C > 0, ∃ δ₀ > 0, ∀ δ, 0 < δ → δ ≤ δ₀ → ∀ uin' win', SamplesWithin δ [0, 0, 3, 0, 0, 0, 0, 0] uin' →
      SamplesWithin δ [1, 0, 0, 0, 0, 0, 0, 0] win' → ∃ R' rf',
        deconv_iterative uin' win' 0.1 none 0 2 400 0.001 "P" = .ok R' ∧
        R'.it = R.it ∧ R'.rf = some rf' ∧ SamplesWithin (C * δ) rf rf' := by
  obtain ⟨R, hR⟩ := (c112_iterative (uin := [0, 0, 3, 0, 0, 0, 0, 0]) (win := [1, 0, 0, 0, 0, 0, 0, 0]) (dt := 0.1)
    (nt := none) (preonset := 0) (a := 2) (itmax := 400) (minderr := 0.001) (phase := "P") (by norm_num)).2
    ⟨rfl, by norm_num, Or.inl rfl, Or.inl (by simp)⟩
  have h8 : nextPow2 8 = 8 := by
    rw [nextPow2_pos (by norm_num)]
    have : Nat.clog 2 8 = 3 := by decide +kernel
    rw [this]; norm_num
  have hz : pyInt ((0 : ℝ) / 0.1) = 0 := by simp [pyInt]
  have key := c137_noisy_copy (L := 2) (b := 3) hR (Or.inl rfl) (by norm_num) (by norm_num) (by norm_num)
    (Or.inl (by norm_num)) ⟨3, by simp, by norm_num⟩ (by rw [hz]; simp)
  simp only [List.length_cons, List.length_nil, zero_add, Nat.reduceAdd, h8, hz] at key
  obtain ⟨rf, a1, a2, a3⟩ := key ⟨by norm_num, fun _ => by norm_num⟩
    (by
      intro m hm
      interval_cases m <;> simp [smp, cyc])
    (by
      intro i c hi hne
      refine ⟨2, by norm_num, ?_⟩
      have h3 := hi.2 rfl
      have h4 : i = 0 ∨ i = 1 := by omega
      rcases h4 with rfl | rfl <;> simp [smp, cyc])
  refine ⟨R, rf, hR, a1, fun m hm => ?_, a3⟩
  rw [a2 m hm]
  norm_num

end Rfsed.Props
