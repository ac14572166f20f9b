import Verif.Props.WeightNoise

/-!
# C154: small changes of the weights cannot change a clear overall best model of the waveform fit
-/

namespace Rfsed.Props
open Spec PyFloat Waveform

/-- the overall scores of one model under two choices of weights -/
theorem score_near {wc wr wp wc' wr' wp' c r p A : ℝ} (hA : 1 ≤ A) (hc : |c| ≤ A) (hr0 : 0 ≤ r) (hr1 : r ≤ 1)
    (hp : |p| ≤ A) : |wc * c + wr * (1 - r) + wp * p - (wc' * c + wr' * (1 - r) + wp' * p)| ≤
      weightChange wc wr wp wc' wr' wp' * A := by
  have e : wc * c + wr * (1 - r) + wp * p - (wc' * c + wr' * (1 - r) + wp' * p) =
      -((wc' - wc) * c + (wr' - wr) * (1 - r) + (wp' - wp) * p) := by ring
  rw [e, abs_neg]
  have h1 : |(wc' - wc) * c| ≤ |wc' - wc| * A := by
    rw [abs_mul]; exact mul_le_mul_of_nonneg_left hc (abs_nonneg _)
  have h2 : |(wr' - wr) * (1 - r)| ≤ |wr' - wr| * A := by
    rw [abs_mul]
    refine mul_le_mul_of_nonneg_left ?_ (abs_nonneg _)
    rw [abs_of_nonneg (by linarith)]; linarith
  have h3 : |(wp' - wp) * p| ≤ |wp' - wp| * A := by
    rw [abs_mul]; exact mul_le_mul_of_nonneg_left hp (abs_nonneg _)
  unfold weightChange
  calc _ ≤ |(wc' - wc) * c| + |(wr' - wr) * (1 - r)| + |(wp' - wp) * p| := abs_add_three _ _ _
    _ ≤ _ := by linarith

theorem wave_noise {all : List (Crit ℝ)} {wc wr wp wc' wr' wp' A : ℝ} {sols sols' : List (Sol ℝ)} {best best' : Best ℝ}
    (hA : 1 ≤ A) (hs : normalise all wc wr wp = .ok sols) (hbm : bestModels sols = .ok best)
    (hs' : normalise all wc' wr' wp' = .ok sols') (hbm' : bestModels sols' = .ok best')
    (hn : Normalisable sols)
    (hc : ∀ s ∈ sols, ∃ s' ∈ sols, -s.corr ≤ A * s'.corr)
    (hp : ∀ s ∈ sols, ∃ s' ∈ sols, -s.pg ≤ A * s'.pg) :
    let B := weightChange wc wr wp wc' wr' wp' * A
    List.Forall₂ (fun s s' : Sol ℝ => s'.h = s.h ∧ s'.k = s.k ∧ s'.corr = s.corr ∧ s'.rmse = s.rmse ∧ s'.pg = s.pg ∧
        |s.gof - s'.gof| ≤ B) sols sols' ∧
    ((∀ s ∈ sols, s ≠ best.gof → s.gof + 2 * B < best.gof.gof) →
      best'.gof.h = best.gof.h ∧ best'.gof.k = best.gof.k ∧
      best'.gof.corr = best.gof.corr ∧ best'.gof.rmse = best.gof.rmse ∧
      best'.gof.pg = best.gof.pg) := by
  intro B
  obtain ⟨mc, mr, mp, m1, m2, m3, rfl⟩ := normalise_ok hs
  obtain ⟨mc', mr', mp', n1, n2, n3, rfl⟩ := normalise_ok hs'
  obtain rfl := Except.ok.inj (m1.symm.trans n1)
  obtain rfl := Except.ok.inj (m2.symm.trans n2)
  obtain rfl := Except.ok.inj (m3.symm.trans n3)
  have x1 := pyMax_real m1
  have x2 := pyMax_real m2
  have x3 := pyMax_real m3
  have pc : 0 < mc := by
    obtain ⟨s, hs, h0⟩ := hn.1
    obtain ⟨y, hy, rfl⟩ := List.mem_map.1 hs
    exact lt_of_lt_of_le h0 (x1.2 _ (List.mem_map_of_mem hy))
  have pr : 0 < mr := by
    obtain ⟨s, hs, h0⟩ := hn.2.1
    obtain ⟨y, hy, rfl⟩ := List.mem_map.1 hs
    exact lt_of_lt_of_le h0 (x2.2 _ (List.mem_map_of_mem hy))
  have pp : 0 < mp := by
    obtain ⟨s, hs, h0⟩ := hn.2.2.1
    obtain ⟨y, hy, rfl⟩ := List.mem_map.1 hs
    exact lt_of_lt_of_le h0 (x3.2 _ (List.mem_map_of_mem hy))
  have near : ∀ y ∈ all, |wc * (y.corr / mc) + wr * (1 - y.rmse / mr) + wp * (y.pg / mp) -
      (wc' * (y.corr / mc) + wr' * (1 - y.rmse / mr) + wp' * (y.pg / mp))| ≤ B := by
    intro y hy
    have lc := x1.2 _ (List.mem_map_of_mem hy)
    have lr := x2.2 _ (List.mem_map_of_mem hy)
    have lp := x3.2 _ (List.mem_map_of_mem hy)
    refine score_near hA ?_ ?_ ?_ ?_
    · obtain ⟨s', hs', hle⟩ := hc _ (List.mem_map_of_mem hy)
      obtain ⟨z, hz, rfl⟩ := List.mem_map.1 hs'
      have lz := x1.2 _ (List.mem_map_of_mem hz)
      simp only at hle
      rw [abs_div, abs_of_pos pc, div_le_iff₀ pc, abs_le]
      constructor <;> nlinarith
    · have := hn.2.2.2 _ (List.mem_map_of_mem hy)
      exact div_nonneg this pr.le
    · exact (div_le_one pr).2 lr
    · obtain ⟨s', hs', hle⟩ := hp _ (List.mem_map_of_mem hy)
      obtain ⟨z, hz, rfl⟩ := List.mem_map.1 hs'
      have lz := x3.2 _ (List.mem_map_of_mem hz)
      simp only at hle
      rw [abs_div, abs_of_pos pp, div_le_iff₀ pp, abs_le]
      constructor <;> nlinarith
  refine ⟨?_, ?_⟩
  · rw [List.forall₂_map_left_iff, List.forall₂_map_right_iff, List.forall₂_same]
    intro y hy
    exact ⟨rfl, rfl, rfl, rfl, rfl, by simpa using near y hy⟩
  · intro hm
    obtain ⟨-, -, -, l, -, -, -, -, -, -, a7, a8⟩ := bestModels_ok hbm
    obtain ⟨-, -, -, l', -, -, -, -, -, -, b7, b8⟩ := bestModels_ok hbm'
    obtain ⟨p1, p2⟩ := argmax_real a7 a8
    obtain ⟨q1, q2⟩ := argmax_real b7 b8
    obtain ⟨c, hc', ec⟩ := List.mem_map.1 p1
    obtain ⟨c', hc'', ec'⟩ := List.mem_map.1 q1
    by_cases he : (⟨c'.corr, c'.rmse, c'.pg, wc * (c'.corr / mc) + wr * (one - c'.rmse / mr) + wp * (c'.pg / mp), c'.h,
        c'.k⟩ : Sol ℝ) = best.gof
    · rw [← ec', ← he]
      exact ⟨rfl, rfl, rfl, rfl, rfl⟩
    · exfalso
      have k1 := hm _ (List.mem_map_of_mem hc'') he
      have k2 := q2 _ (List.mem_map_of_mem hc')
      have e1 := abs_le.1 (near c hc')
      have e2 := abs_le.1 (near c' hc'')
      rw [← ec] at k1
      rw [← ec'] at k2
      simp only [real_one] at k1 k2
      linarith [e1.1, e1.2, e2.1, e2.2]

/-- **C154** `A` says how far below zero, relative to their largest value, correlation and phase criterion may go; it is 1
if none is negative. -/
theorem c154_waveform {env : WEnv ℝ} {rfs : List (Trace ℝ)} {preonset HSed VpSed VpCrust rayp gaussian : ℝ}
    {KMoho HMoho : List ℝ} {wc wr wp wc' wr' wp' A : ℝ} {R R' : WResult ℝ} (hA : 1 ≤ A)
    (h : WaveformFitting env rfs preonset HSed VpSed VpCrust rayp KMoho HMoho gaussian wc wr wp = .ok R)
    (h' : WaveformFitting env rfs preonset HSed VpSed VpCrust rayp KMoho HMoho gaussian wc' wr' wp' = .ok R')
    (hn : Normalisable R.WaveformSolutions)
    (hc : ∀ s ∈ R.WaveformSolutions, ∃ s' ∈ R.WaveformSolutions, -s.corr ≤ A * s'.corr)
    (hp : ∀ s ∈ R.WaveformSolutions, ∃ s' ∈ R.WaveformSolutions, -s.pg ≤ A * s'.pg) :
    let B := weightChange wc wr wp wc' wr' wp' * A
    List.Forall₂ (fun s s' : Sol ℝ => s'.h = s.h ∧ s'.k = s.k ∧ s'.corr = s.corr ∧ s'.rmse = s.rmse ∧ s'.pg = s.pg ∧
        |s.gof - s'.gof| ≤ B) R.WaveformSolutions R'.WaveformSolutions ∧
    ((∀ s ∈ R.WaveformSolutions, s ≠ R.printed.gof → s.gof + 2 * B < R.printed.gof.gof) →
      R'.printed.gof.h = R.printed.gof.h ∧ R'.printed.gof.k = R.printed.gof.k ∧
      R'.printed.gof.corr = R.printed.gof.corr ∧ R'.printed.gof.rmse = R.printed.gof.rmse ∧
      R'.printed.gof.pg = R.printed.gof.pg) := by
  obtain ⟨P, all, sols, best, hP, hall, hs, hbm, rfl⟩ := WaveformFitting_ok h
  obtain ⟨P', all', sols', best', hP', hall', hs', hbm', rfl⟩ := WaveformFitting_ok h'
  obtain rfl := Except.ok.inj (hP.symm.trans hP')
  obtain rfl := Except.ok.inj (hall.symm.trans hall')
  exact wave_noise hA hs hbm hs' hbm' hn hc hp

/-- **C154** the same for `plotbestmodel`, which combines the results of the multiprocess fit -/
theorem c154_plotbestmodel {env : WEnv ℝ} {res : List (List (Crit ℝ))} {P : Para ℝ} {sv fm : String}
    {wc wr wp wc' wr' wp' A : ℝ} {sols sols' : List (Sol ℝ)} {best best' : Best ℝ} {figs figs' : List (Fig ℝ)}
    (hA : 1 ≤ A)
    (h : plotbestmodel env res P (some wc) (some wr) (some wp) sv fm = .ok (sols, best, figs))
    (h' : plotbestmodel env res P (some wc') (some wr') (some wp') sv fm = .ok (sols', best', figs'))
    (hn : Normalisable sols)
    (hc : ∀ s ∈ sols, ∃ s' ∈ sols, -s.corr ≤ A * s'.corr)
    (hp : ∀ s ∈ sols, ∃ s' ∈ sols, -s.pg ≤ A * s'.pg) :
    let B := weightChange wc wr wp wc' wr' wp' * A
    List.Forall₂ (fun s s' : Sol ℝ => s'.h = s.h ∧ s'.k = s.k ∧ s'.corr = s.corr ∧ s'.rmse = s.rmse ∧ s'.pg = s.pg ∧
        |s.gof - s'.gof| ≤ B) sols sols' ∧
    ((∀ s ∈ sols, s ≠ best.gof → s.gof + 2 * B < best.gof.gof) →
      best'.gof.h = best.gof.h ∧ best'.gof.k = best.gof.k ∧
      best'.gof.corr = best.gof.corr ∧ best'.gof.rmse = best.gof.rmse ∧
      best'.gof.pg = best.gof.pg) := by
  obtain ⟨all, ha, hs, hb⟩ := plotbestmodel_ok h
  obtain ⟨all', ha', hs', hb'⟩ := plotbestmodel_ok h'
  obtain rfl := Except.ok.inj (ha.symm.trans ha')
  exact wave_noise hA (by simpa using hs) hb (by simpa using hs') hb' hn hc hp

/-- the hypotheses are met by the sample run, whose correlations and phase criteria are positive, and any weights -/
example (wc wr wp wc' wr' wp' : ℝ) : ∃ R R',
    WaveformFitting wEnv [wTrace] 0 1 2 6 (6/100) [2] [30, 40] 1 wc wr wp = .ok R ∧
    WaveformFitting wEnv [wTrace] 0 1 2 6 (6/100) [2] [30, 40] 1 wc' wr' wp' = .ok R' ∧
    List.Forall₂ (fun s s' : Sol ℝ => |s.gof - s'.gof| ≤ weightChange wc wr wp wc' wr' wp') R.WaveformSolutions
      R'.WaveformSolutions := by
  obtain ⟨R, h, -, hn, -⟩ := wNormalisable wc wr wp
  obtain ⟨R1, s0, s1, hR, hs, h0, k0, h1, k1, c0, r0, c1, r1, p0, p1⟩ := wRun wc wr wp
  obtain rfl := Except.ok.inj (h.symm.trans hR)
  obtain ⟨R', h', -⟩ := wNormalisable wc' wr' wp'
  have pos : ∀ s ∈ R.WaveformSolutions, 0 ≤ s.corr ∧ 0 ≤ s.pg := by
    intro s hm
    rw [hs] at hm
    rcases List.mem_cons.1 hm with rfl | hm
    · rw [c0, p0]; norm_num
    · rw [List.mem_singleton.1 hm, c1, p1]
      exact ⟨by positivity, by norm_num⟩
  have := (c154_waveform (A := 1) le_rfl h h' hn (fun s hm => ⟨s, hm, by linarith [(pos s hm).1]⟩)
    (fun s hm => ⟨s, hm, by linarith [(pos s hm).2]⟩)).1
  exact ⟨R, R', h, h', this.imp (fun s s' q => by simpa using q.2.2.2.2.2)⟩

end Rfsed.Props
