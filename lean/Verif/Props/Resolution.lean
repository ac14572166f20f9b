import Verif.Proofs.Resolution
import Verif.Props.Accuracy

/-!
# C127: grids finer than the sampling
-/

namespace Rfsed.Props
open PyFloat Rfsed.Spec Rfsed.HkZhu Rfsed.Proofs

/-- the phase times increase with thickness -/
theorem phases_mono {p V k : ℝ} (hV : 0 < V) (hk : 1 ≤ k) : ∀ t ∈ phases p V, Monotone (fun x => t x k) := by
  have h1 := eta_le_of_one_le p V k hV hk
  have h2 : 0 ≤ eta p V := Real.sqrt_nonneg _
  intro t ht x y hxy
  simp only [phases, List.mem_cons, List.not_mem_nil, or_false] at ht
  rcases ht with rfl | rfl | rfl
  · exact mul_le_mul_of_nonneg_right hxy (by linarith)
  · exact mul_le_mul_of_nonneg_right hxy (by linarith)
  · have : 0 ≤ eta p (V / k) := Real.sqrt_nonneg _
    simp only [tPsPs]
    nlinarith

/-- from ties to the whole statement -/
theorem limited_of {dt pre : ℝ} {l : Nat} (hdt : 0 < dt) (hl : timeAxis dt pre l ≠ []) {T : List (ℝ → ℝ → ℝ)}
    (hT : ∀ k, 1 ≤ k → ∀ t ∈ T, Monotone (fun x => t x k)) {raw tb : List (Row ℝ)} {n : Nat} {b : Row ℝ}
    (hties : ∀ u ∈ raw, ∀ v ∈ raw, SameReads (timeAxis dt pre l) T u v → u.s = v.s)
    (hb : BestRow raw n b) (g : ℝ → ℝ) (htb : tb = raw.map (fun row => ⟨row.h, row.k, g row.s⟩)) :
    LimitedBySampling (timeAxis dt pre l) dt T tb n := by
  have hties' : ∀ u ∈ tb, ∀ v ∈ tb, SameReads (timeAxis dt pre l) T u v → u.s = v.s := by
    subst htb
    intro u hu v hv h
    obtain ⟨u', hu', rfl⟩ := List.mem_map.1 hu
    obtain ⟨v', hv', rfl⟩ := List.mem_map.1 hv
    exact congrArg g (hties u' hu' v' hv' h)
  refine ⟨hties', ?_, ?_⟩
  · intro best hbest m v hv hsame
    by_contra hc
    push Not at hc
    subst htb
    rw [List.getElem?_map, hb.1] at hbest
    rw [List.getElem?_map, Option.map_eq_some_iff] at hv
    obtain ⟨v', hv', rfl⟩ := hv
    have e := (Option.some.inj hbest).symm
    subst e
    have := hties b (List.mem_of_getElem? hb.1) v' (List.mem_of_getElem? hv') hsame
    have h2 := hb.2.2 m v' hc hv'
    rw [real_lt] at h2
    linarith
  · intro k x y hk hxy hin
    classical
    set S : Finset ℝ := ((tb.filter (fun row => row.k = k)).map Row.h).toFinset with hS
    have hmem : ∀ x ∈ S, ∃ row ∈ tb, row.k = k ∧ row.h = x := by
      intro x hx
      simp only [hS, List.mem_toFinset, List.mem_map, List.mem_filter, decide_eq_true_eq] at hx
      obtain ⟨row, ⟨h1, h2⟩, h3⟩ := hx
      exact ⟨row, h1, h2, h3⟩
    let f : ℝ → ℝ := fun x => if h : ∃ row ∈ tb, row.k = k ∧ row.h = x then h.choose.s else 0
    have hspec : ∀ x ∈ S, ∃ row ∈ tb, row.k = k ∧ row.h = x ∧ f x = row.s := by
      intro x hx
      have h := hmem x hx
      refine ⟨h.choose, h.choose_spec.1, h.choose_spec.2.1, h.choose_spec.2.2, ?_⟩
      simp only [f, dif_pos h]
    have key := few_values hdt hl (T.map (fun t x => t x k))
      (by
        intro t ht
        obtain ⟨t', ht', rfl⟩ := List.mem_map.1 ht
        exact hT k hk t' ht') S f hxy
      (by
        intro z hz
        obtain ⟨row, h1, h2, rfl⟩ := hmem z hz
        exact hin row h1 h2)
      (by
        intro z hz w hw hs
        obtain ⟨u, hu, hu2, hu3, e1⟩ := hspec z hz
        obtain ⟨v, hv, hv2, hv3, e2⟩ := hspec w hw
        rw [e1, e2]
        apply hties' u hu v hv
        intro t ht
        rw [hu2, hu3, hv2, hv3]
        exact hs _ (List.mem_map.2 ⟨t, ht, rfl⟩))
    have hset : {s | ∃ row ∈ tb, row.k = k ∧ row.s = s} = (S.image f : Set ℝ) := by
      ext s
      simp only [Set.mem_setOf_eq, Finset.coe_image, Set.mem_image, Finset.mem_coe]
      constructor
      · rintro ⟨row, h1, h2, rfl⟩
        have hx : row.h ∈ S := by
          simp only [hS, List.mem_toFinset, List.mem_map, List.mem_filter, decide_eq_true_eq]
          exact ⟨row, ⟨h1, h2⟩, rfl⟩
        obtain ⟨v, hv, hv2, hv3, e⟩ := hspec _ hx
        refine ⟨row.h, hx, ?_⟩
        rw [e]
        apply hties' v hv row h1
        intro t _
        rw [hv2, hv3, h2]
        exact ⟨_, near_spec hl _, near_spec hl _⟩
      · rintro ⟨x, hx, rfl⟩
        obtain ⟨v, hv, hv2, _, e⟩ := hspec _ hx
        exact ⟨v, hv, hv2, e.symm⟩
    unfold distinctValues
    rw [hset, Set.ncard_coe_finset]
    rwa [List.map_map] at key

theorem ties_of_stackValue {axis : List ℝ} {d : List ℝ} {w1 w2 w3 : ℝ} {f1 f2 f3 : ℝ → ℝ → ℝ} {raw : List (Row ℝ)}
    (h : ∀ row ∈ raw, StackValue w1 w2 w3 d axis (f1 row.h row.k) (f2 row.h row.k) (f3 row.h row.k) row.s) :
    ∀ u ∈ raw, ∀ v ∈ raw, SameReads axis [f1, f2, f3] u v → u.s = v.s := by
  intro u hu v hv hs
  obtain ⟨a1, a2, a3, h1, h2, h3, e⟩ := h u hu
  obtain ⟨b1, b2, b3, g1, g2, g3, e'⟩ := h v hv
  rw [e, e', reads_same (hs f1 (by simp)) h1 g1, reads_same (hs f2 (by simp)) h2 g2, reads_same (hs f3 (by simp)) h3 g3]

theorem map_id_row (tb : List (Row ℝ)) : tb = tb.map (fun row => ⟨row.h, row.k, id row.s⟩) := by simp

/-- a row shows that the time axis is not empty -/
theorem axis_ne {axis d : List ℝ} {t a : ℝ} (h : ReadsNearest d axis t a) : axis ≠ [] := by
  rintro rfl
  obtain ⟨i, hi, _⟩ := h
  have := NearestSample.lt hi
  simp at this

/-- **C127** `hk` without stacking: the arrivals of every trace, at its own slowness. -/
theorem c127_hk {env : Env ℝ} {tr0 : Trace ℝ} {rest : List (Trace ℝ)} {preonset : ℝ} {H K : List ℝ}
    {Vp : Scalar ℝ} {w1 w2 w3 : ℝ} {layer : Option String} {r : HKResult ℝ}
    (h : hk env (tr0 :: rest) preonset H K (some Vp) (some w1) (some w2) (some w3) layer (some false) = .ok r)
    (hdt : 0 < tr0.delta) (hVp : 0 < Vp.val)
    (hpre : ∀ tr ∈ tr0 :: rest, ∀ k ∈ K, PreCritical (env.km2deg1 * slownessOf tr) Vp.val k) :
    LimitedBySampling r.time tr0.delta
      ((tr0 :: rest).flatMap (fun tr => phases (env.km2deg1 * slownessOf tr) Vp.val)) r.stackvalues r.bestIdx := by
  have hv := c04_stack_value h hVp.ne' hpre
  obtain ⟨tr0', rest', slows, f⟩ := hk_inv h
  have e0 : tr0' = tr0 := by have := f.hst; simp at this; exact this.1.symm
  obtain ⟨b, hb⟩ := bestRow_of f.hbest (fun _ _ => rfl)
  obtain ⟨A, hA, _⟩ := hv b (List.mem_of_getElem? hb.1)
  have hne := axis_ne (hA tr0 (by simp) _ (List.mem_cons_self ..))
  rw [f.htime, e0] at hne hv ⊢
  refine limited_of hdt hne ?_ ?_ hb id (map_id_row _)
  · intro k hk t ht
    obtain ⟨tr, _, ht⟩ := List.mem_flatMap.1 ht
    exact phases_mono hVp hk t ht
  · intro u hu v hv' hs
    obtain ⟨A, hA, e⟩ := hv u hu
    obtain ⟨B, hB, e'⟩ := hv v hv'
    rw [e, e']
    congr 1
    apply List.map_congr_left
    intro tr htr
    have hs' : ∀ t ∈ phases (env.km2deg1 * slownessOf tr) Vp.val, SameSample _ (t u.h u.k) (t v.h v.k) :=
      fun t ht => hs t (List.mem_flatMap.2 ⟨tr, htr, ht⟩)
    rw [reads_same (hs' _ (by simp [phases])) (hA tr htr _ (by simp)) (hB tr htr _ (by simp)),
      reads_same (hs' (tPpPs _ _) (by simp [phases])) (hA tr htr _ (by simp)) (hB tr htr _ (by simp)),
      reads_same (hs' (tPsPs _ _) (by simp [phases])) (hA tr htr _ (by simp)) (hB tr htr _ (by simp))]

/-- **C127** `hk` without stacking, the number spelled out: between the thicknesses `a` and `b` every trace contributes
`3 + 4 (b - a) / (dt · vertical S velocity)` at most, however fine the grid is. -/
theorem c127_hk_count {env : Env ℝ} {tr0 : Trace ℝ} {rest : List (Trace ℝ)} {preonset : ℝ} {H K : List ℝ}
    {Vp : Scalar ℝ} {w1 w2 w3 : ℝ} {layer : Option String} {r : HKResult ℝ}
    (h : hk env (tr0 :: rest) preonset H K (some Vp) (some w1) (some w2) (some w3) layer (some false) = .ok r)
    (hdt : 0 < tr0.delta) (hVp : 0 < Vp.val)
    (hpre : ∀ tr ∈ tr0 :: rest, ∀ k ∈ K, PreCritical (env.km2deg1 * slownessOf tr) Vp.val k)
    {k a b : ℝ} (hk : 1 ≤ k) (hab : a ≤ b) (hH : ∀ x ∈ H, a ≤ x ∧ x ≤ b) :
    (distinctValues r.stackvalues k : ℝ) ≤ 1 + ((tr0 :: rest).map (fun tr =>
      3 + 4 * (b - a) * eta (env.km2deg1 * slownessOf tr) (Vp.val / k) / tr0.delta)).sum := by
  have h1 := (c127_hk h hdt hVp hpre).count k a b hk hab (by
    intro row hrow _
    obtain ⟨tr0', rest', slows, f⟩ := hk_inv h
    exact hH _ (gridTable_mem (gridTable_of f.hgrid) hrow).1)
  refine h1.trans (le_of_eq ?_)
  congr 1
  generalize tr0 :: rest = l
  induction l with
  | nil => rfl
  | cons tr l ih =>
    rw [List.flatMap_cons, List.map_append, List.sum_append, ih, List.map_cons, List.sum_cons]
    congr 1
    simp only [phases, tPs, tPpPs, tPsPs, List.map_cons, List.map_nil, List.sum_cons, List.sum_nil]
    field_simp
    ring

/-- **C127** `hk` with stacking: the arrivals at the mean slowness. -/
theorem c127_hk_stack {env : Env ℝ} {tr0 : Trace ℝ} {rest : List (Trace ℝ)} {preonset : ℝ} {H K : List ℝ}
    {Vp : Scalar ℝ} {w1 w2 w3 : ℝ} {layer : Option String} {r : HKResult ℝ}
    (h : hk env (tr0 :: rest) preonset H K (some Vp) (some w1) (some w2) (some w3) layer (some true) = .ok r)
    (hdt : 0 < tr0.delta) (hVp : 0 < Vp.val)
    (p : ℝ) (hp : p = env.km2deg1 * (((tr0 :: rest).map slownessOf).sum / (tr0 :: rest).length))
    (hpre : ∀ k ∈ K, PreCritical p Vp.val k) :
    LimitedBySampling r.time tr0.delta (phases p Vp.val) r.stackvalues r.bestIdx := by
  have hv := c06_stack_value h hVp.ne' p hp hpre
  obtain ⟨tr0', rest', slows, f⟩ := hk_inv h
  have e0 : tr0' = tr0 := by have := f.hst; simp at this; exact this.1.symm
  obtain ⟨b, hb⟩ := bestRow_of f.hbest (fun _ _ => rfl)
  obtain ⟨_, _, _, hA, _⟩ := hv b (List.mem_of_getElem? hb.1)
  have hne := axis_ne hA
  rw [f.htime, e0] at hne hv ⊢
  refine limited_of hdt hne (fun k hk => phases_mono hVp hk) ?_ hb id (map_id_row _)
  intro u hu v hv' hs
  obtain ⟨a1, a2, a3, h1, h2, h3, e⟩ := hv u hu
  obtain ⟨b1, b2, b3, g1, g2, g3, e'⟩ := hv v hv'
  rw [e, e', reads_same (hs _ (by simp [phases])) h1 g1, reads_same (hs (tPpPs _ _) (by simp [phases])) h2 g2,
    reads_same (hs (tPsPs _ _) (by simp [phases])) h3 g3]

/-- **C127** `hkSynth`, on a regular time axis. -/
theorem c127_hkSynth {env : Env ℝ} {d : List ℝ} {dt pre : ℝ} {l : Nat} {rp Vp : Scalar ℝ} {H K : List ℝ}
    {w1 w2 w3 : ℝ} {layer : Option String} {r : SynthAnalysis.SynthResult ℝ}
    (h : SynthAnalysis.hkSynth env d (timeAxis dt pre l) rp H K (some Vp) (some w1) (some w2) (some w3) layer = .ok r)
    (hdt : 0 < dt) (hV : 0 < Vp.val) (hpre : rp.val ^ 2 ≤ (1 / Vp.val) ^ 2) :
    LimitedBySampling (timeAxis dt pre l) dt (phases rp.val Vp.val) r.stackvalues r.bestIdx := by
  have f := hkSynth_inv h
  obtain ⟨b, hbm, hb⟩ := c25_hkSynth_best h (fun _ _ => rfl)
  have hv : ∀ row ∈ r.stackvalues, StackValue w1 w2 w3 d (timeAxis dt pre l) (tPs rp.val Vp.val row.h row.k)
      (tPpPs rp.val Vp.val row.h row.k) (tPsPs rp.val Vp.val row.h row.k) row.s := by
    intro row hrow
    obtain ⟨_, _, hv⟩ := gridLoop_row f.hgrid hrow
    simp only [Option.getD_some] at hv
    rw [synthCell_eq, bestTimes_real hV.ne' hpre, except_ok_bind] at hv
    obtain ⟨v, hw, hv⟩ := bind_eq_ok.1 hv
    have : row.s = v := by rw [← Except.ok.inj hv, real_zero, add_zero]
    rw [this]
    exact weigh_real.1 hw
  obtain ⟨_, _, _, hA, _⟩ := hv b (List.mem_of_getElem? hb.1)
  exact limited_of hdt (axis_ne hA) (fun k hk => phases_mono hV hk)
    (ties_of_stackValue hv) hb id (map_id_row _)

/-- **C127** `hkYu`: the arrivals below the sediment. -/
theorem c127_hkYu {env : Env ℝ} {flt : HkYu.FltInput ℝ} {dt pre : ℝ} {l : Nat} {rp Vp : Scalar ℝ} {H K : List ℝ}
    {VpSed VsSed : Option (Scalar ℝ)} {w1 w2 w3 : ℝ} {r : HkYu.YuResult ℝ}
    (h : HkYu.hkYu env flt rp H K (some Vp) VpSed VsSed (some w1) (some w2) (some w3) = .ok r)
    (ht : flt.time = timeAxis dt pre l) (hdt : 0 < dt) (hV : 0 < Vp.val) (hpre : rp.val ^ 2 ≤ (1 / Vp.val) ^ 2) :
    LimitedBySampling flt.time dt [fun x k => tPs rp.val Vp.val x k + r.Pdelay,
        fun x k => tPpPs rp.val Vp.val x k + flt.tlag.val - r.Pdelay,
        fun x k => tPsPs rp.val Vp.val x k + flt.tlag.val] r.stackvaluesSubSed r.bestIdx := by
  have hv := c23_stack_value h hV.ne' hpre
  obtain ⟨_, _, _, _, f⟩ := hkYu_inv h
  obtain ⟨b, hb⟩ := bestRow_of f.hbest (fun _ _ => rfl)
  obtain ⟨_, _, _, hA, _⟩ := hv b (List.mem_of_getElem? hb.1)
  have hne := axis_ne hA
  rw [ht] at hne hv ⊢
  refine limited_of hdt hne ?_ (ties_of_stackValue (f1 := fun x k => tPs rp.val Vp.val x k + r.Pdelay)
    (f2 := fun x k => tPpPs rp.val Vp.val x k + flt.tlag.val - r.Pdelay)
    (f3 := fun x k => tPsPs rp.val Vp.val x k + flt.tlag.val) hv) hb id (map_id_row _)
  intro k hk t ht x y hxy
  simp only [List.mem_cons, List.not_mem_nil, or_false] at ht
  rcases ht with rfl | rfl | rfl
  · have := phases_mono (p := rp.val) hV hk (tPs rp.val Vp.val) (by simp [phases]) hxy
    simp only at this ⊢; linarith
  · have := phases_mono (p := rp.val) hV hk (tPpPs rp.val Vp.val) (by simp [phases]) hxy
    simp only at this ⊢; linarith
  · have := phases_mono (p := rp.val) hV hk (tPsPs rp.val Vp.val) (by simp [phases]) hxy
    simp only at this ⊢; linarith

/-- the Moho stage of the sequential stackings -/
theorem limited_moho {p VpS VpM w1 w2 w3 dt pre : ℝ} {l : Nat} {data : List ℝ} {bS : Row ℝ} {KM HM : List ℝ} {n : Nat}
    {table : List (Row ℝ)} (h : MohoStage p VpS VpM w1 w2 w3 data (timeAxis dt pre l) bS KM HM n table)
    (hdt : 0 < dt) (hV : 0 < VpM) :
    LimitedBySampling (timeAxis dt pre l) dt [fun x k => tPs p VpS bS.h bS.k + tPs p VpM x k,
      fun x k => tPpPs p VpS bS.h bS.k + tPpPs p VpM x k, fun x k => tPsPs p VpS bS.h bS.k + tPsPs p VpM x k] table n := by
  obtain ⟨raw, b, _, hb, hc, hv⟩ := h
  obtain ⟨_, _, _, hA, _⟩ := hv b (List.mem_of_getElem? hb.1)
  refine limited_of hdt (axis_ne hA) ?_
    (ties_of_stackValue (f1 := fun x k => tPs p VpS bS.h bS.k + tPs p VpM x k)
      (f2 := fun x k => tPpPs p VpS bS.h bS.k + tPpPs p VpM x k)
      (f3 := fun x k => tPsPs p VpS bS.h bS.k + tPsPs p VpM x k) hv) hb
    (fun s => if s ≤ 0 then 0 else s) ?_
  · intro k hk t ht x y hxy
    simp only [List.mem_cons, List.not_mem_nil, or_false] at ht
    rcases ht with rfl | rfl | rfl
    · have := phases_mono (p := p) hV hk (tPs p VpM) (by simp [phases]) hxy
      simp only at this ⊢; linarith
    · have := phases_mono (p := p) hV hk (tPpPs p VpM) (by simp [phases]) hxy
      simp only at this ⊢; linarith
    · have := phases_mono (p := p) hV hk (tPsPs p VpM) (by simp [phases]) hxy
      simp only at this ⊢; linarith
  · apply List.ext_getElem?
    intro i
    rw [List.getElem?_map]
    cases hi : raw[i]? with
    | none =>
      rw [List.getElem?_eq_none_iff] at hi
      rw [Option.map_none, List.getElem?_eq_none_iff, hc.1]
      exact hi
    | some row =>
      rw [hc.2 i row hi]
      simp

/-- **C127** `hkSeq` without stacking: both stages. -/
theorem c127_hkSeq {env : Env ℝ} {initS : List (Trace ℝ)} {lastS : Trace ℝ} {init : List (Trace ℝ)} {last : Trace ℝ}
    {preonset : ℝ} {HS KS HM KM : List ℝ} {Vp vm : Scalar ℝ} {u1 u2 u3 w1 w2 w3 : ℝ} {slS sl : Scalar ℝ}
    {r : HkSeqYeck.SeqResult ℝ} {dt : ℝ} {l : Nat}
    (h : HkSeqYeck.hkSeq env (initS ++ [lastS]) (init ++ [last]) preonset HS KS (some Vp) (some u1) (some u2) (some u3)
      HM KM (some vm) (some w1) (some w2) (some w3) (some false) = .ok r)
    (ht : r.time = timeAxis dt preonset l) (hdt : 0 < dt)
    (hslS : lastS.slowness = some slS) (hsl : last.slowness = some sl) (hVp : 0 < Vp.val) (hvm : 0 < vm.val)
    (hpreS : (env.km2deg1 * slS.val) ^ 2 ≤ (1 / Vp.val) ^ 2)
    (hpre : (env.km2deg1 * sl.val) ^ 2 ≤ (1 / Vp.val) ^ 2) (hpre2 : (env.km2deg1 * sl.val) ^ 2 ≤ (1 / vm.val) ^ 2) :
    LimitedBySampling r.time dt (phases (env.km2deg1 * slS.val) Vp.val) r.stackvalueSed r.bestIdxSed ∧
    ∃ bS, r.bestmodelSed = some bS ∧ LimitedBySampling r.time dt
      [fun x k => tPs (env.km2deg1 * sl.val) Vp.val bS.h bS.k + tPs (env.km2deg1 * sl.val) vm.val x k,
       fun x k => tPpPs (env.km2deg1 * sl.val) Vp.val bS.h bS.k + tPpPs (env.km2deg1 * sl.val) vm.val x k,
       fun x k => tPsPs (env.km2deg1 * sl.val) Vp.val bS.h bS.k + tPsPs (env.km2deg1 * sl.val) vm.val x k]
      r.stackvalueMoho r.bestIdxMoho := by
  have hv := c19_sed_last_trace h hslS hVp.ne' hpreS
  obtain ⟨bS, hbS, hm⟩ := c20_hkSeq_moho h hsl hVp.ne' hvm.ne' hpre hpre2
  obtain ⟨tr0, rest, slows, bmod, raw, f⟩ := hkSeq_inv h
  obtain ⟨b, hb⟩ := bestRow_of f.hbestS (fun _ _ => rfl)
  obtain ⟨_, _, _, hA, _⟩ := hv b (List.mem_of_getElem? hb.1)
  have hne := axis_ne hA
  rw [ht] at hne hv hm ⊢
  exact ⟨limited_of hdt hne (fun k hk => phases_mono hVp hk) (ties_of_stackValue hv) hb id
    (map_id_row _), bS, hbS, limited_moho hm hdt hvm⟩

/-- **C127** `hkSeqSynth`: both stages. -/
theorem c127_hkSeqSynth {env : Env ℝ} {dS dM : List ℝ} {dt pre : ℝ} {l : Nat} {rp : Scalar ℝ}
    {HS KS HM KM : List ℝ} {Vp vm : Scalar ℝ} {u1 u2 u3 w1 w2 w3 : ℝ} {r : SynthAnalysis.SeqSynthResult ℝ}
    (h : SynthAnalysis.hkSeqSynth env dS dM (timeAxis dt pre l) rp HS KS (some Vp) (some u1) (some u2) (some u3) HM KM
      (some vm) (some w1) (some w2) (some w3) = .ok r)
    (hdt : 0 < dt) (hVp : 0 < Vp.val) (hvm : 0 < vm.val)
    (hpre : rp.val ^ 2 ≤ (1 / Vp.val) ^ 2) (hpre2 : rp.val ^ 2 ≤ (1 / vm.val) ^ 2) :
    LimitedBySampling (timeAxis dt pre l) dt (phases rp.val Vp.val) r.stackvalueSed r.bestIdxSed ∧
    ∃ bS, r.bestmodelSed = some bS ∧ LimitedBySampling (timeAxis dt pre l) dt
      [fun x k => tPs rp.val Vp.val bS.h bS.k + tPs rp.val vm.val x k,
       fun x k => tPpPs rp.val Vp.val bS.h bS.k + tPpPs rp.val vm.val x k,
       fun x k => tPsPs rp.val Vp.val bS.h bS.k + tPsPs rp.val vm.val x k]
      r.stackvalueMoho r.bestIdxMoho := by
  have hv := c20_hkSeqSynth_sed h hVp.ne' hpre
  obtain ⟨bS, hbS, hm⟩ := c20_hkSeqSynth_moho h hVp.ne' hvm.ne' hpre hpre2
  obtain ⟨bmod, raw, f⟩ := hkSeqSynth_inv h
  obtain ⟨b, hb⟩ := bestRow_of f.hbestS (fun _ _ => rfl)
  obtain ⟨_, _, _, hA, _⟩ := hv b (List.mem_of_getElem? hb.1)
  exact ⟨limited_of hdt (axis_ne hA) (fun k hk => phases_mono hVp hk) (ties_of_stackValue hv) hb id
    (map_id_row _), bS, hbS, limited_moho hm hdt hvm⟩

/-- **C127** a step: if a phase moves by less than the sampling interval, it is read at the same or the next sample. -/
theorem c127_step {dt pre t s : ℝ} {l i j : Nat} (hdt : 0 < dt) (hi : NearestSample (timeAxis dt pre l) t i)
    (hj : NearestSample (timeAxis dt pre l) s j) (hts : t ≤ s) (hd : s - t < dt) : j = i ∨ j = i + 1 := by
  have h1 := nearest_mono hdt hi hj hts
  have h2 := nearest_gap hdt hi hj hts
  have h3 : (s - t) / dt < 1 := by rw [div_lt_one hdt]; exact hd
  have h4 : (j : ℝ) < i + 2 := by linarith
  have h5 : j < i + 2 := by exact_mod_cast h4
  omega

/-- the two-trace sample with a thousand thicknesses between 30 and 31 km: the call succeeds and meets the hypotheses,
and at most 11 of the thousand stack values are different -/
example : ∃ r, hk Sample.env Sample.stream 1 ((List.range 1000).map (fun i : Nat => 30 + (i : ℝ) / 1000)) [1.7, 1.8, 1.9]
      (some ⟨.py, 6.5⟩) (some 0.6) (some 0.3) (some 0.1) none (some false) = .ok r ∧
    r.stackvalues.length = 3000 ∧ distinctValues r.stackvalues 1.8 ≤ 11 := by
  obtain ⟨r, hr⟩ : ∃ r, hk Sample.env Sample.stream 1 ((List.range 1000).map (fun i : Nat => 30 + (i : ℝ) / 1000))
      [1.7, 1.8, 1.9] (some ⟨.py, 6.5⟩) (some 0.6) (some 0.3) (some 0.1) none (some false) = .ok r := by
    unfold Sample.stream
    refine c03_succeeds (sd := _) (more := []) rfl ?_ ?_ ?_ ?_ ?_ ?_ (by simp) (by simp) ?_
    · intro _; simp [Sample.trace]
    · simp [Sample.trace]
    · intro tr htr
      simp at htr
      rcases htr with rfl | rfl <;> simp [Sample.trace]
    · intro tr htr
      simp at htr
      subst htr; simp [Sample.trace]
    · intro v hv
      cases hv
      right
      rw [← Bool.not_eq_true, real_eq]; norm_num
    · intro h; cases h
    · intro _ _; rfl
  refine ⟨r, hr, by rw [(c03_table_shape hr).1]; simp, ?_⟩
  have hpre : ∀ tr ∈ Sample.stream, ∀ k ∈ [(1.7 : ℝ), 1.8, 1.9],
      PreCritical (Sample.env.km2deg1 * slownessOf tr) 6.5 k := by
    intro tr htr k hk
    simp only [Sample.stream, List.mem_cons, List.not_mem_nil, or_false] at htr hk
    rcases htr with rfl | rfl <;> rcases hk with rfl | rfl | rfl <;>
    norm_num [PreCritical, slownessOf, Sample.trace, Sample.env]
  have hc := c127_hk_count (k := 1.8) (a := 30) (b := 31) hr (by norm_num [Sample.trace]) (by norm_num) hpre
    (by norm_num) (by norm_num) (by
      intro x hx
      obtain ⟨i, hi, rfl⟩ := List.mem_map.1 hx
      have hi : i < 1000 := by simpa using hi
      have : (i : ℝ) ≤ 1000 := by exact_mod_cast hi.le
      constructor
      · have : (0:ℝ) ≤ i := Nat.cast_nonneg i; linarith
      · linarith)
  have hs : ∀ p : ℝ, eta p (6.5 / 1.8) ≤ 0.28 := by
    intro p
    unfold eta
    rw [Real.sqrt_le_left (by norm_num)]
    nlinarith [sq_nonneg p]
  have h1 := hs (Sample.env.km2deg1 * slownessOf (Sample.trace [0, 1, 3, 2, 0] 6))
  have h2 := hs (Sample.env.km2deg1 * slownessOf (Sample.trace [1, 1, 2, 0, -1] 7))
  simp only [List.map_cons, List.map_nil, List.sum_cons, List.sum_nil] at hc
  have hd : (Sample.trace [0, 1, 3, 2, 0] 6).delta = 1 / 2 := rfl
  rw [hd] at hc
  have : (distinctValues r.stackvalues 1.8 : ℝ) < 12 := by
    refine lt_of_le_of_lt hc ?_
    norm_num at h1 h2 ⊢
    linarith
  have : distinctValues r.stackvalues 1.8 < 12 := by exact_mod_cast this
  omega

end Rfsed.Props
