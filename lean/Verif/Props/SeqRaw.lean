import Verif.Props.Seq

/-!
# C21: the raw stack behind the returned Moho table
-/

namespace Rfsed.Props
open Rfsed PyFloat Spec HkSeqYeck

/-- reading the best row of a clipped table -/
theorem clipped_best {raw table : List (Row ℝ)} {n : Nat} {best : Row ℝ} (hc : ClippedFrom raw table)
    (hb : BestRow raw n best) : table[n]? = some ⟨best.h, best.k, max best.s 0⟩ := by
  rw [hc.2 n best hb.1, real_zero]
  congr 2
  by_cases h : best.s ≤ 0
  · rw [if_pos (by simpa using h), max_eq_right h]
  · rw [if_neg (by simpa using h), max_eq_left (not_le.1 h).le]

/-- **C21**, `hkSeq` without stacking: the first maximum of the weighted sums themselves gives the H and K of
`bestmodelMoho`; the returned table is that of the weighted sums with the values `≤ 0` set to `0`. -/
theorem c21_raw_unstacked {env : Env ℝ} {stS init : List (Trace ℝ)} {last : Trace ℝ}
    {preonset : ℝ} {HS KS HM KM : List ℝ} {Vp vm : Scalar ℝ} {w1S w2S w3S : Option ℝ}
    {w1 w2 w3 : ℝ} {sl : Scalar ℝ} {r : SeqResult ℝ}
    (h : hkSeq env stS (init ++ [last]) preonset HS KS (some Vp) w1S w2S w3S
      HM KM (some vm) (some w1) (some w2) (some w3) (some false) = .ok r)
    (hsl : last.slowness = some sl) (hVp : Vp.val ≠ 0) (hvm : vm.val ≠ 0)
    (hpre : (env.km2deg1 * sl.val) ^ 2 ≤ (1 / Vp.val) ^ 2)
    (hpre2 : (env.km2deg1 * sl.val) ^ 2 ≤ (1 / vm.val) ^ 2) {p : ℝ} (hp : p = env.km2deg1 * sl.val) :
    ∃ bS raw best, r.bestmodelSed = some bS ∧ GridTable KM HM raw ∧ ClippedFrom raw r.stackvalueMoho ∧
      BestRow raw r.bestIdxMoho best ∧ r.bestmodelMoho = some ⟨best.h, best.k, max best.s 0⟩ ∧
      ∀ row ∈ raw, StackValue w1 w2 w3 last.data r.time (tPs p Vp.val bS.h bS.k + tPs p vm.val row.h row.k)
        (tPpPs p Vp.val bS.h bS.k + tPpPs p vm.val row.h row.k)
        (tPsPs p Vp.val bS.h bS.k + tPsPs p vm.val row.h row.k) row.s := by
  subst hp
  obtain ⟨bS, h1, raw, best, h2, h3, h4, h5⟩ := c20_hkSeq_moho h hsl hVp hvm hpre hpre2
  exact ⟨bS, raw, best, h1, h2, h4, h3, clipped_best h4 h3, h5⟩

/-- **C21**, `hkSeq` with stacking. -/
theorem c21_raw_stacked {env : Env ℝ} {stS stM : List (Trace ℝ)}
    {preonset : ℝ} {HS KS HM KM : List ℝ} {Vp vm : Scalar ℝ} {w1S w2S w3S : Option ℝ}
    {w1 w2 w3 : ℝ} {r : SeqResult ℝ}
    (h : hkSeq env stS stM preonset HS KS (some Vp) w1S w2S w3S
      HM KM (some vm) (some w1) (some w2) (some w3) (some true) = .ok r)
    (hVp : Vp.val ≠ 0) (hvm : vm.val ≠ 0)
    (hpre : (env.km2deg1 * r.AvgSlow) ^ 2 ≤ (1 / Vp.val) ^ 2)
    (hpre2 : (env.km2deg1 * r.AvgSlow) ^ 2 ≤ (1 / vm.val) ^ 2) {p : ℝ} (hp : p = env.km2deg1 * r.AvgSlow) :
    ∃ bS raw best, r.bestmodelSed = some bS ∧ GridTable KM HM raw ∧ ClippedFrom raw r.stackvalueMoho ∧
      BestRow raw r.bestIdxMoho best ∧ r.bestmodelMoho = some ⟨best.h, best.k, max best.s 0⟩ ∧
      ∀ row ∈ raw, StackValue w1 w2 w3 r.RFMohoStack r.time (tPs p Vp.val bS.h bS.k + tPs p vm.val row.h row.k)
        (tPpPs p Vp.val bS.h bS.k + tPpPs p vm.val row.h row.k)
        (tPsPs p Vp.val bS.h bS.k + tPsPs p vm.val row.h row.k) row.s := by
  subst hp
  obtain ⟨-, bS, h1, raw, best, h2, h3, h4, h5⟩ := c20_hkSeq_moho_stacked h hVp hvm hpre hpre2
  exact ⟨bS, raw, best, h1, h2, h4, h3, clipped_best h4 h3, h5⟩

/-- **C21**, `hkSeqSynth`; and its sediment table is returned unclipped: every value is the weighted sum itself. -/
theorem c21_raw_synth {env : Env ℝ} {dS dM t : List ℝ} {rp : Scalar ℝ}
    {HS KS HM KM : List ℝ} {Vp vm : Scalar ℝ} {v1 v2 v3 w1 w2 w3 : ℝ}
    {r : SynthAnalysis.SeqSynthResult ℝ}
    (h : SynthAnalysis.hkSeqSynth env dS dM t rp HS KS (some Vp) (some v1) (some v2) (some v3) HM KM
      (some vm) (some w1) (some w2) (some w3) = .ok r)
    (hVp : Vp.val ≠ 0) (hvm : vm.val ≠ 0)
    (hpre : rp.val ^ 2 ≤ (1 / Vp.val) ^ 2) (hpre2 : rp.val ^ 2 ≤ (1 / vm.val) ^ 2) {p : ℝ} (hp : p = rp.val) :
    (∀ row ∈ r.stackvalueSed, StackValue v1 v2 v3 dS t (tPs p Vp.val row.h row.k) (tPpPs p Vp.val row.h row.k)
      (tPsPs p Vp.val row.h row.k) row.s) ∧
    ∃ bS raw best, r.bestmodelSed = some bS ∧ GridTable KM HM raw ∧ ClippedFrom raw r.stackvalueMoho ∧
      BestRow raw r.bestIdxMoho best ∧ r.bestmodelMoho = some ⟨best.h, best.k, max best.s 0⟩ ∧
      ∀ row ∈ raw, StackValue w1 w2 w3 dM t (tPs p Vp.val bS.h bS.k + tPs p vm.val row.h row.k)
        (tPpPs p Vp.val bS.h bS.k + tPpPs p vm.val row.h row.k)
        (tPsPs p Vp.val bS.h bS.k + tPsPs p vm.val row.h row.k) row.s := by
  subst hp
  refine ⟨c20_hkSeqSynth_sed h hVp hpre, ?_⟩
  obtain ⟨bS, h1, raw, best, h2, h3, h4, h5⟩ := c20_hkSeqSynth_moho h hVp hvm hpre hpre2
  exact ⟨bS, raw, best, h1, h2, h4, h3, clipped_best h4 h3, h5⟩

/-- a call that meets the hypotheses of `c21_raw_unstacked`: two Moho traces, vertical incidence of the last one -/
example : ∃ (trM : Trace ℝ) (r : SeqResult ℝ),
    hkSeq Sample.env [trM] ([trM] ++ [trM]) 0 [1, 2] [2] (some ⟨.py, 3⟩) none none none [3, 4] [2] (some ⟨.py, 6⟩)
      (some 1) (some 1) (some 1) (some false) = .ok r ∧ trM.slowness = some ⟨.py, 0⟩ ∧
    (Sample.env.km2deg1 * (0 : ℝ)) ^ 2 ≤ (1 / 3) ^ 2 ∧ (Sample.env.km2deg1 * (0 : ℝ)) ^ 2 ≤ (1 / 6) ^ 2 := by
  let tr : Trace ℝ := { station := "A", channel := "RRF", data := [1, 0, 2, -1], delta := 1, starttime := 0, onset := some 0,
                        slowness := some ⟨.py, 0⟩, backAzimuth := none, distance := none }
  have hall : ∀ tr' ∈ [tr] ++ tr :: [tr], (∃ o, tr'.onset = some o) ∧
      (∃ s, tr'.slowness = some s) ∧ tr'.data.length = tr.data.length := by
    intro tr' htr'
    have : tr' = tr := by simpa using htr'
    subst this
    exact ⟨⟨_, rfl⟩, ⟨_, rfl⟩, rfl⟩
  obtain ⟨r, hr⟩ := sample_hkSeq tr [] tr [tr] (by simp [tr]) hall (KS := [2]) (HS := [1, 2]) (KM := [2]) (HM := [3, 4])
    (by simp) (by simp) (by simp) (by simp) (Vp := 3) (vm := 6) (by norm_num) (by norm_num) 0 none none none 1 1 1 (some false)
  exact ⟨tr, r, hr, rfl, by norm_num, by norm_num⟩

end Rfsed.Props
