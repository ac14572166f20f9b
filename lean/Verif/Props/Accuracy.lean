import Verif.Proofs.Accuracy
import Verif.Props.HkZhu2
import Verif.Props.Variants
import Verif.Props.Seq
import Verif.Props.PsOnly

/-!
# C120: accuracy of H-k stacking
-/

namespace Rfsed.Props
open PyFloat Rfsed.Spec Rfsed.HkZhu

/-- **C120**, from times to velocity ratio: what `WithinSampling` means for the velocity ratio. -/
theorem c120_ratio {dt p V H0 K0 H K : ℝ} (hV : Propagates p V) (hH : 0 < H) (hK : 1 ≤ K) (hK0 : 1 ≤ K0)
    (h : WithinSampling dt p V H0 K0 H K) :
    |H - H0| ≤ 3 / 2 * (dt / eta p V) ∧ |K - K0| ≤ V / H * (1 / 2 + 3 / 2 * (eta p (V / K0) / eta p V)) * dt := by
  have hV0 := hV.1
  have hn := Rfsed.Proofs.eta_pos hV
  obtain ⟨h1, _, h3⟩ := h
  have hs0 : 0 ≤ eta p (V / K0) := Real.sqrt_nonneg _
  have hs : 0 ≤ eta p (V / K) := Real.sqrt_nonneg _
  have e1 : |H - H0| ≤ 3 / 2 * (dt / eta p V) := by
    rw [← mul_div_assoc, le_div_iff₀ hn]; linarith
  refine ⟨e1, ?_⟩
  have sq : ∀ k : ℝ, 1 ≤ k → (eta p (V / k)) ^ 2 = (k / V) ^ 2 - p ^ 2 := by
    intro k hk
    rw [eta_ratio, Real.sq_sqrt]
    have : (1 / V) ^ 2 ≤ (k / V) ^ 2 := by gcongr
    linarith [hV.2]
  have le1 : ∀ k : ℝ, 1 ≤ k → eta p (V / k) ≤ k / V := by
    intro k hk
    rw [eta_ratio]
    apply Real.sqrt_le_iff.2
    exact ⟨by positivity, by nlinarith [sq_nonneg p]⟩
  have e2 : H * |eta p (V / K) - eta p (V / K0)| ≤ (1 / 2 + 3 / 2 * (eta p (V / K0) / eta p V)) * dt := by
    have : H * (eta p (V / K) - eta p (V / K0))
        = (H * eta p (V / K) - H0 * eta p (V / K0)) - (H - H0) * eta p (V / K0) := by ring
    have ha : H * |eta p (V / K) - eta p (V / K0)| = |H * (eta p (V / K) - eta p (V / K0))| := by
      rw [abs_mul, abs_of_pos hH]
    rw [ha, this]
    refine (abs_sub _ _).trans ?_
    rw [abs_mul, abs_of_nonneg hs0]
    have := mul_le_mul_of_nonneg_right e1 hs0
    have e : 3 / 2 * (dt / eta p V) * eta p (V / K0) = 3 / 2 * (eta p (V / K0) / eta p V) * dt := by
      field_simp
    rw [e] at this
    linarith
  have e3 : |K - K0| ≤ V * |eta p (V / K) - eta p (V / K0)| := by
    have a := sq K hK
    have b := sq K0 hK0
    have c : (K - K0) * ((K + K0) / V ^ 2)
        = (eta p (V / K) - eta p (V / K0)) * (eta p (V / K) + eta p (V / K0)) := by
      have : (eta p (V / K) - eta p (V / K0)) * (eta p (V / K) + eta p (V / K0))
        = (eta p (V / K)) ^ 2 - (eta p (V / K0)) ^ 2 := by ring
      rw [this, a, b]; field_simp; ring
    have d : eta p (V / K) + eta p (V / K0) ≤ (K + K0) / V := by
      have := le1 K hK
      have := le1 K0 hK0
      rw [add_div]; linarith
    have c' := congrArg (fun z : ℝ => |z|) c
    rw [abs_mul, abs_mul, abs_of_pos (show 0 < (K + K0) / V ^ 2 by positivity), abs_of_nonneg (add_nonneg hs hs0)] at c'
    have := mul_le_mul_of_nonneg_left d (abs_nonneg (eta p (V / K) - eta p (V / K0)))
    rw [← c'] at this
    have g : 0 < (K + K0) / V ^ 2 := by positivity
    have : |K - K0| * ((K + K0) / V ^ 2) ≤ (V * |eta p (V / K) - eta p (V / K0)|) * ((K + K0) / V ^ 2) := by
      refine this.trans (le_of_eq ?_)
      field_simp
    exact le_of_mul_le_mul_right this g
  calc |K - K0| ≤ V * |eta p (V / K) - eta p (V / K0)| := e3
    _ = V / H * (H * |eta p (V / K) - eta p (V / K0)|) := by field_simp
    _ ≤ V / H * ((1 / 2 + 3 / 2 * (eta p (V / K0) / eta p V)) * dt) := by gcongr
    _ = _ := by ring

/-- one record: reading all three phases, or losing the weight of one -/
theorem record_cases {d axis : List ℝ} {t1 t2 t3 s1 s2 s3 A e w1 w2 w3 a1 a2 a3 : ℝ}
    (hA : 0 ≤ A) (hw1 : 0 ≤ w1) (hw2 : 0 ≤ w2) (hw3 : 0 ≤ w3)
    (hs : ShowsPhases d axis t1 t2 t3 A e)
    (r1 : ReadsNearest d axis s1 a1) (r2 : ReadsNearest d axis s2 a2) (r3 : ReadsNearest d axis s3 a3) :
    w1 * a1 + w2 * a2 - w3 * a3 ≤ (w1 + w2 + w3) * (A + e) ∧
    ((∃ i1 i2 i3 j1 j2 j3, NearestSample axis t1 i1 ∧ NearestSample axis t2 i2 ∧ NearestSample axis t3 i3 ∧
        NearestSample axis s1 j1 ∧ NearestSample axis s2 j2 ∧ NearestSample axis s3 j3 ∧
        (j1 = i1 ∨ j1 = i2) ∧ (j2 = i1 ∨ j2 = i2) ∧ j3 = i3) ∨
      w1 * a1 + w2 * a2 - w3 * a3 ≤ (w1 + w2 + w3) * (A + e) - min w1 (min w2 w3) * A) := by
  obtain ⟨i1, i2, i3, n1, n2, n3, hd⟩ := hs
  obtain ⟨j1, m1, g1⟩ := r1
  obtain ⟨j2, m2, g2⟩ := r2
  obtain ⟨j3, m3, g3⟩ := r3
  obtain ⟨b, b1, b2, b3⟩ := shows_le hA hw1 hw2 hw3 hd g1 g2 g3
  refine ⟨b, ?_⟩
  have q1 : min w1 (min w2 w3) * A ≤ w1 * A := mul_le_mul_of_nonneg_right (min_le_left _ _) hA
  have q2 : min w1 (min w2 w3) * A ≤ w2 * A :=
    mul_le_mul_of_nonneg_right ((min_le_right _ _).trans (min_le_left _ _)) hA
  have q3 : min w1 (min w2 w3) * A ≤ w3 * A :=
    mul_le_mul_of_nonneg_right ((min_le_right _ _).trans (min_le_right _ _)) hA
  by_cases c1 : j1 = i1 ∨ j1 = i2
  · by_cases c2 : j2 = i1 ∨ j2 = i2
    · by_cases c3 : j3 = i3
      · exact .inl ⟨i1, i2, i3, j1, j2, j3, n1, n2, n3, m1, m2, m3, c1, c2, c3⟩
      · right; have := b3 c3; linarith
    · right; have := b2 c2; linarith
  · right; have := b1 c1; linarith

/-- one record: a model with the samples of the three phases -/
theorem record_ge {d axis : List ℝ} {t1 t2 t3 s1 s2 s3 A e w1 w2 w3 a1 a2 a3 : ℝ}
    (hw1 : 0 ≤ w1) (hw2 : 0 ≤ w2) (hw3 : 0 ≤ w3) (hs : ShowsPhases d axis t1 t2 t3 A e)
    (x1 : SameSample axis t1 s1) (x2 : SameSample axis t2 s2) (x3 : SameSample axis t3 s3)
    (r1 : ReadsNearest d axis s1 a1) (r2 : ReadsNearest d axis s2 a2) (r3 : ReadsNearest d axis s3 a3) :
    (w1 + w2 + w3) * (A - e) ≤ w1 * a1 + w2 * a2 - w3 * a3 := by
  obtain ⟨i1, i2, i3, n1, n2, n3, hd⟩ := hs
  obtain ⟨j1, m1, g1⟩ := r1
  obtain ⟨j2, m2, g2⟩ := r2
  obtain ⟨j3, m3, g3⟩ := r3
  obtain ⟨k1, u1, v1⟩ := x1
  obtain ⟨k2, u2, v2⟩ := x2
  obtain ⟨k3, u3, v3⟩ := x3
  obtain rfl : j1 = i1 := by rw [NearestSample.unique m1 v1, NearestSample.unique n1 u1]
  obtain rfl : j2 = i2 := by rw [NearestSample.unique m2 v2, NearestSample.unique n2 u2]
  obtain rfl : j3 = i3 := by rw [NearestSample.unique m3 v3, NearestSample.unique n3 u3]
  exact shows_ge hw1 hw2 hw3 hd g1 g2 g3

/-- the times of the model `(x, k)` and of the layer `(H0, K0)` have the same samples -/
def SameSamples (axis : List ℝ) (p V H0 K0 x k : ℝ) : Prop :=
  SameSample axis (tPs p V H0 K0) (tPs p V x k) ∧ SameSample axis (tPpPs p V H0 K0) (tPpPs p V x k) ∧
    SameSample axis (tPsPs p V H0 K0) (tPsPs p V x k)

/-- the delay times of a layer are in the record -/
def Recorded (V T x k : ℝ) : Prop := 0 ≤ x ∧ 1 ≤ k ∧ 2 * x * k / V ≤ T

theorem cases_within {dt pre T p V H0 K0 x k : ℝ} {l : Nat} (hdt : 0 < dt) (hc : CoversTo dt pre T l) (hV : 0 < V)
    (h0 : Recorded V T H0 K0) (hx : Recorded V T x k)
    (h : ∃ i1 i2 i3 j1 j2 j3, NearestSample (timeAxis dt pre l) (tPs p V H0 K0) i1 ∧
      NearestSample (timeAxis dt pre l) (tPpPs p V H0 K0) i2 ∧
      NearestSample (timeAxis dt pre l) (tPsPs p V H0 K0) i3 ∧ NearestSample (timeAxis dt pre l) (tPs p V x k) j1 ∧
      NearestSample (timeAxis dt pre l) (tPpPs p V x k) j2 ∧ NearestSample (timeAxis dt pre l) (tPsPs p V x k) j3 ∧
        (j1 = i1 ∨ j1 = i2) ∧ (j2 = i1 ∨ j2 = i2) ∧ j3 = i3) : WithinSampling dt p V H0 K0 x k := by
  obtain ⟨i1, i2, i3, j1, j2, j3, n1, n2, n3, m1, m2, m3, e1, e2, e3⟩ := h
  obtain ⟨a1, a2, a3⟩ := delay_range (p := p) hV h0.1 h0.2.1 h0.2.2
  obtain ⟨b1, b2, b3⟩ := delay_range (p := p) hV hx.1 hx.2.1 hx.2.2
  obtain ⟨_, o1, _, q1⟩ := c08_ordered_additive p V H0 K0 hV h0.1 h0.2.1
  obtain ⟨_, o2, _, q2⟩ := c08_ordered_additive p V x k hV hx.1 hx.2.1
  obtain ⟨c1, c2, c3⟩ := times_close hdt hc a1 a2 a3 b1 b2 b3 o1 o2 (by linarith) n1 n2 n3 m1 m2 m3 e1 e2 e3
  exact within_of_times rfl rfl rfl c1 c2 c3

/-- **C120** `hk`, without stacking. -/
theorem c120_hk {env : Env ℝ} {tr0 : Trace ℝ} {rest : List (Trace ℝ)} {pre T : ℝ} {H K : List ℝ}
    {Vp : Scalar ℝ} {w1 w2 w3 : ℝ} {layer : Option String} {r : HKResult ℝ}
    (h : hk env (tr0 :: rest) pre H K (some Vp) (some w1) (some w2) (some w3) layer (some false) = .ok r)
    (hdt : 0 < tr0.delta) (hc : CoversTo tr0.delta pre T tr0.data.length)
    (hV : ∀ tr ∈ tr0 :: rest, Propagates (env.km2deg1 * slownessOf tr) Vp.val)
    (hw1 : 0 < w1) (hw2 : 0 < w2) (hw3 : 0 < w3) {H0 K0 A e : ℝ} (hA : 0 ≤ A)
    (h0 : Recorded Vp.val T H0 K0) (hgrid : ∀ x ∈ H, ∀ k ∈ K, Recorded Vp.val T x k)
    (hshow : ∀ tr ∈ tr0 :: rest, ShowsPhases tr.data r.time (tPs (env.km2deg1 * slownessOf tr) Vp.val H0 K0)
      (tPpPs (env.km2deg1 * slownessOf tr) Vp.val H0 K0) (tPsPs (env.km2deg1 * slownessOf tr) Vp.val H0 K0) A e)
    (hnoise : 2 * ((tr0 :: rest).length * ((w1 + w2 + w3) * e)) < min w1 (min w2 w3) * A)
    (hin : ∃ x ∈ H, ∃ k ∈ K, ∀ tr ∈ tr0 :: rest, SameSamples r.time (env.km2deg1 * slownessOf tr) Vp.val H0 K0 x k) :
    ∃ best, r.bestmodel = some best ∧ ∀ tr ∈ tr0 :: rest,
      WithinSampling tr0.delta (env.km2deg1 * slownessOf tr) Vp.val H0 K0 best.h best.k := by
  have hV0 : 0 < Vp.val := (hV tr0 (List.mem_cons_self ..)).1
  have hsh := c03_table_shape h
  obtain ⟨tr0', rest', he, htime⟩ := hsh.2.2.2
  cases he
  have htime : r.time = timeAxis tr0.delta pre tr0.data.length := htime
  have hpre : ∀ tr ∈ tr0 :: rest, ∀ k ∈ K, PreCritical (env.km2deg1 * slownessOf tr) Vp.val k := by
    intro tr htr k hk
    have hv := hV tr htr
    obtain ⟨x, hx, _⟩ := hin
    have h1 := (hgrid x hx k hk).2.1
    have : (1 / Vp.val) ^ 2 ≤ (k / Vp.val) ^ 2 := by gcongr
    exact ⟨by linarith [hv.2], hv.2.le⟩
  obtain ⟨best, hb, hb', bh, bk, hmax, _⟩ := c05_bestmodel_first_max h (fun _ _ => rfl)
  refine ⟨best, hb, ?_⟩
  -- the model that reads the phases
  obtain ⟨x, hx, k, hk, hsame⟩ := hin
  obtain ⟨i, hi, rfl⟩ := List.getElem_of_mem hk
  obtain ⟨j, hj, rfl⟩ := List.getElem_of_mem hx
  obtain ⟨s, hrow⟩ := hsh.2.1 i j K[i] H[j] (by simp [hi]) (by simp [hj])
  have hle := hmax _ _ hrow
  rw [real_le] at hle
  obtain ⟨B, hB, eB⟩ := c04_stack_value h hV0.ne' hpre _ (List.mem_of_getElem? hrow)
  obtain ⟨C, hC, eC⟩ := c04_stack_value h hV0.ne' hpre _ (List.mem_of_getElem? hb')
  have lower : ((tr0 :: rest).length : ℝ) * ((w1 + w2 + w3) * (A - e)) ≤ s := by
    rw [show s = _ from eB]
    apply le_sum_all
    intro tr htr
    obtain ⟨x1, x2, x3⟩ := hsame tr htr
    exact record_ge hw1.le hw2.le hw3.le (hshow tr htr) x1 x2 x3 (hB tr htr _ (List.mem_cons_self ..))
      (hB tr htr _ (List.mem_cons_of_mem _ (List.mem_cons_self ..))) (hB tr htr _ (List.mem_cons_of_mem _ (List.mem_cons_of_mem _ (List.mem_cons_self ..))))
  intro tr htr
  have hrec := fun tr htr => record_cases hA hw1.le hw2.le hw3.le (hshow tr htr) (hC tr htr _ (List.mem_cons_self ..))
    (hC tr htr _ (List.mem_cons_of_mem _ (List.mem_cons_self ..))) (hC tr htr _ (List.mem_cons_of_mem _ (List.mem_cons_of_mem _ (List.mem_cons_self ..))))
  rcases (hrec tr htr).2 with hgood | hbad
  · rw [htime] at hgood
    exact cases_within hdt hc hV0 h0 (hgrid _ bh _ bk) hgood
  · exfalso
    have := sum_le_miss (c := min w1 (min w2 w3) * A) (fun tr htr => (hrec tr htr).1) ⟨tr, htr, hbad⟩
    rw [← eC] at this
    nlinarith

/-- the arrivals stand out: the weights are positive and the disturbance `e` is small compared with the amplitude -/
def StandsOut (w1 w2 w3 A e : ℝ) : Prop :=
  0 < w1 ∧ 0 < w2 ∧ 0 < w3 ∧ 0 ≤ A ∧ 2 * ((w1 + w2 + w3) * e) < min w1 (min w2 w3) * A

/-- the best row of a table of stack values of one record reads the samples of the phases the record shows -/
theorem best_hits {tb : List (Row ℝ)} {n : Nat} {best u : Row ℝ} (hb : BestRow tb n best) {w1 w2 w3 A e t1 t2 t3 : ℝ}
    (hst : StandsOut w1 w2 w3 A e) {d axis : List ℝ} {f1 f2 f3 : ℝ → ℝ → ℝ}
    (hv : ∀ row ∈ tb, StackValue w1 w2 w3 d axis (f1 row.h row.k) (f2 row.h row.k) (f3 row.h row.k) row.s)
    (hs : ShowsPhases d axis t1 t2 t3 A e) (hu : u ∈ tb)
    (x1 : SameSample axis t1 (f1 u.h u.k)) (x2 : SameSample axis t2 (f2 u.h u.k))
    (x3 : SameSample axis t3 (f3 u.h u.k)) :
    ∃ i1 i2 i3 j1 j2 j3, NearestSample axis t1 i1 ∧ NearestSample axis t2 i2 ∧ NearestSample axis t3 i3 ∧
      NearestSample axis (f1 best.h best.k) j1 ∧ NearestSample axis (f2 best.h best.k) j2 ∧
      NearestSample axis (f3 best.h best.k) j3 ∧ (j1 = i1 ∨ j1 = i2) ∧ (j2 = i1 ∨ j2 = i2) ∧ j3 = i3 := by
  obtain ⟨hw1, hw2, hw3, hA, hn⟩ := hst
  obtain ⟨m, hm, hu'⟩ := List.getElem_of_mem hu
  have hle := hb.2.1 m u (by simp [hm, hu'])
  rw [real_le] at hle
  obtain ⟨a1, a2, a3, r1, r2, r3, ea⟩ := hv u hu
  obtain ⟨b1, b2, b3, q1, q2, q3, eb⟩ := hv best (List.mem_of_getElem? hb.1)
  have lo := record_ge hw1.le hw2.le hw3.le hs x1 x2 x3 r1 r2 r3
  rcases (record_cases hA hw1.le hw2.le hw3.le hs q1 q2 q3).2 with hg | hbad
  · exact hg
  · exfalso
    rw [← ea] at lo
    rw [← eb] at hbad
    nlinarith

/-- the row of a grid point -/
theorem gridTable_row {K H : List ℝ} {tb : List (Row ℝ)} (h : GridTable K H tb) {x k : ℝ} (hx : x ∈ H) (hk : k ∈ K) :
    ∃ u ∈ tb, u.h = x ∧ u.k = k := by
  obtain ⟨i, hi, rfl⟩ := List.getElem_of_mem hk
  obtain ⟨j, hj, rfl⟩ := List.getElem_of_mem hx
  obtain ⟨s, hs⟩ := h.2 i j K[i] H[j] (by simp [hi]) (by simp [hj])
  exact ⟨_, List.mem_of_getElem? hs, rfl, rfl⟩

/-- rows are grid points -/
theorem gridTable_mem {K H : List ℝ} {tb : List (Row ℝ)} (h : GridTable K H tb) {b : Row ℝ} (hb : b ∈ tb) :
    b.h ∈ H ∧ b.k ∈ K := by
  obtain ⟨n, hn, rfl⟩ := List.getElem_of_mem hb
  have hl := h.1
  have hlt : n < K.length * H.length := by omega
  have hpos : 0 < H.length := by
    rcases Nat.eq_zero_or_pos H.length with e | e
    · rw [e] at hlt; simp at hlt
    · exact e
  have hi : n / H.length < K.length := by rw [Nat.div_lt_iff_lt_mul hpos]; exact hlt
  have hj : n % H.length < H.length := Nat.mod_lt _ hpos
  obtain ⟨s, hs⟩ := h.2 (n / H.length) (n % H.length) _ _ (List.getElem?_eq_getElem hi) (List.getElem?_eq_getElem hj)
  rw [Nat.div_add_mod', List.getElem?_eq_getElem hn] at hs
  rw [Option.some.inj hs]
  exact ⟨List.getElem_mem _, List.getElem_mem _⟩

/-- **C120** `hkSynth`, on a regular time axis. -/
theorem c120_hkSynth {env : Env ℝ} {d : List ℝ} {dt pre T : ℝ} {l : Nat} {rp Vp : Scalar ℝ} {H K : List ℝ}
    {w1 w2 w3 : ℝ} {layer : Option String} {r : SynthAnalysis.SynthResult ℝ}
    (h : SynthAnalysis.hkSynth env d (timeAxis dt pre l) rp H K (some Vp) (some w1) (some w2) (some w3) layer = .ok r)
    (hdt : 0 < dt) (hc : CoversTo dt pre T l) (hV : Propagates rp.val Vp.val) {H0 K0 A e : ℝ}
    (hst : StandsOut w1 w2 w3 A e)
    (h0 : Recorded Vp.val T H0 K0) (hgrid : ∀ x ∈ H, ∀ k ∈ K, Recorded Vp.val T x k)
    (hshow : ShowsPhases d (timeAxis dt pre l) (tPs rp.val Vp.val H0 K0) (tPpPs rp.val Vp.val H0 K0)
      (tPsPs rp.val Vp.val H0 K0) A e)
    (hin : ∃ x ∈ H, ∃ k ∈ K, SameSamples (timeAxis dt pre l) rp.val Vp.val H0 K0 x k) :
    ∃ best, r.bestmodel = some best ∧ WithinSampling dt rp.val Vp.val H0 K0 best.h best.k := by
  have f := hkSynth_inv h
  obtain ⟨best, hbm, hb⟩ := c25_hkSynth_best h (fun _ _ => rfl)
  refine ⟨best, hbm, ?_⟩
  obtain ⟨x, hx, k, hk, s1, s2, s3⟩ := hin
  obtain ⟨u, hu, rfl, rfl⟩ := gridTable_row (gridTable_of f.hgrid) hx hk
  have hv : ∀ row ∈ r.stackvalues, StackValue w1 w2 w3 d (timeAxis dt pre l) (tPs rp.val Vp.val row.h row.k)
      (tPpPs rp.val Vp.val row.h row.k) (tPsPs rp.val Vp.val row.h row.k) row.s := by
    intro row hrow
    obtain ⟨_, _, hv⟩ := gridLoop_row f.hgrid hrow
    simp only [Option.getD_some] at hv
    rw [synthCell_eq, bestTimes_real hV.1.ne' hV.2.le, except_ok_bind] at hv
    obtain ⟨v, hw, hv⟩ := bind_eq_ok.1 hv
    have : row.s = v := by rw [← Except.ok.inj hv, real_zero, add_zero]
    rw [this]
    exact weigh_real.1 hw
  have hg := gridTable_mem (gridTable_of f.hgrid) (List.mem_of_getElem? hb.1)
  exact cases_within hdt hc hV.1 h0 (hgrid _ hg.1 _ hg.2)
    (best_hits hb hst (f1 := tPs rp.val Vp.val) (f2 := tPpPs rp.val Vp.val) (f3 := tPsPs rp.val Vp.val) hv hshow hu s1 s2 s3)

/-- **C120** `hk`, with stacking: the stacked receiver function and the mean slowness count. -/
theorem c120_hk_stack {env : Env ℝ} {tr0 : Trace ℝ} {rest : List (Trace ℝ)} {pre T : ℝ} {H K : List ℝ}
    {Vp : Scalar ℝ} {w1 w2 w3 : ℝ} {layer : Option String} {r : HKResult ℝ}
    (h : hk env (tr0 :: rest) pre H K (some Vp) (some w1) (some w2) (some w3) layer (some true) = .ok r)
    (hdt : 0 < tr0.delta) (hc : CoversTo tr0.delta pre T tr0.data.length) {p : ℝ}
    (hp : p = env.km2deg1 * (((tr0 :: rest).map slownessOf).sum / (tr0 :: rest).length))
    (hV : Propagates p Vp.val) {H0 K0 A e : ℝ} (hst : StandsOut w1 w2 w3 A e)
    (h0 : Recorded Vp.val T H0 K0) (hgrid : ∀ x ∈ H, ∀ k ∈ K, Recorded Vp.val T x k)
    (hshow : ShowsPhases r.RFStack r.time (tPs p Vp.val H0 K0) (tPpPs p Vp.val H0 K0) (tPsPs p Vp.val H0 K0) A e)
    (hin : ∃ x ∈ H, ∃ k ∈ K, SameSamples r.time p Vp.val H0 K0 x k) :
    ∃ best, r.bestmodel = some best ∧ WithinSampling tr0.delta p Vp.val H0 K0 best.h best.k := by
  obtain ⟨tr0', rest', he, htime⟩ := (c03_table_shape h).2.2.2
  cases he
  have htime : r.time = timeAxis tr0.delta pre tr0.data.length := htime
  obtain ⟨_, havg, r', hr', htb, hbi⟩ := c06_stack_true h
  have hp' : p = env.km2deg1 * r.AvgSlow := by rw [havg]; exact hp
  subst hp'
  rw [htime] at hr' hshow hin
  obtain ⟨best, hb, hw⟩ := c120_hkSynth hr' hdt hc hV hst h0 hgrid hshow hin
  refine ⟨⟨best.h, best.k, (tr0 :: rest).length * best.s⟩, ?_, hw⟩
  unfold HKResult.bestmodel
  unfold SynthAnalysis.SynthResult.bestmodel at hb
  rw [htb, hbi, List.getElem?_map, hb]
  rfl

/-- **C120** `hkYu`: the filtered record shows the phases at the adjusted times. -/
theorem c120_hkYu {env : Env ℝ} {flt : HkYu.FltInput ℝ} {dt pre T : ℝ} {l : Nat} {rp Vp VpSed VsSed : Scalar ℝ}
    {H K : List ℝ} {w1 w2 w3 : ℝ} {r : HkYu.YuResult ℝ}
    (h : HkYu.hkYu env flt rp H K (some Vp) (some VpSed) (some VsSed) (some w1) (some w2) (some w3) = .ok r)
    (htime : flt.time = timeAxis dt pre l) (hVs : 0 < VsSed.val) (hle : VsSed.val ≤ VpSed.val)
    (hlag : 0 ≤ flt.tlag.val)
    (hdt : 0 < dt) (hc : CoversTo dt pre (T + flt.tlag.val) l) (hV : Propagates rp.val Vp.val) {H0 K0 A e : ℝ}
    (hst : StandsOut w1 w2 w3 A e)
    (h0 : Recorded Vp.val T H0 K0) (hgrid : ∀ x ∈ H, ∀ k ∈ K, Recorded Vp.val T x k)
    (hshow : ShowsPhases flt.filteredrf flt.time (tPs rp.val Vp.val H0 K0 + r.Pdelay)
      (tPpPs rp.val Vp.val H0 K0 + flt.tlag.val - r.Pdelay) (tPsPs rp.val Vp.val H0 K0 + flt.tlag.val) A e)
    (hin : ∃ x ∈ H, ∃ k ∈ K,
      SameSample flt.time (tPs rp.val Vp.val H0 K0 + r.Pdelay) (tPs rp.val Vp.val x k + r.Pdelay) ∧
      SameSample flt.time (tPpPs rp.val Vp.val H0 K0 + flt.tlag.val - r.Pdelay)
        (tPpPs rp.val Vp.val x k + flt.tlag.val - r.Pdelay) ∧
      SameSample flt.time (tPsPs rp.val Vp.val H0 K0 + flt.tlag.val) (tPsPs rp.val Vp.val x k + flt.tlag.val)) :
    WithinSampling dt rp.val Vp.val H0 K0 r.SubSedThick r.SubSedVpVs := by
  obtain ⟨_, _, _, _, f⟩ := hkYu_inv h
  obtain ⟨best, hbm, hb, hth, hvv⟩ := c25_hkYu_best h (fun _ _ => rfl)
  rw [hth, hvv]
  obtain ⟨x, hx, k, hk, s1, s2, s3⟩ := hin
  obtain ⟨u, hu, rfl, rfl⟩ := gridTable_row (gridTable_of f.hgrid) hx hk
  have hv := c23_stack_value h hV.1.ne' hV.2.le
  have hg := gridTable_mem (gridTable_of f.hgrid) (List.mem_of_getElem? hb.1)
  obtain ⟨_, _, hpd⟩ := c23_thickness_delay h hVs hle
  obtain ⟨p0, p1⟩ := hpd hlag
  rw [htime] at hshow s1 s2 s3 hv
  obtain ⟨i1, i2, i3, j1, j2, j3, n1, n2, n3, m1, m2, m3, e1, e2, e3⟩ := best_hits hb hst
    (f1 := fun x k => tPs rp.val Vp.val x k + r.Pdelay) (f2 := fun x k => tPpPs rp.val Vp.val x k + flt.tlag.val - r.Pdelay)
    (f3 := fun x k => tPsPs rp.val Vp.val x k + flt.tlag.val) hv hshow hu s1 s2 s3
  have hx' := hgrid _ hg.1 _ hg.2
  obtain ⟨a1, a2, a3⟩ := delay_range (p := rp.val) hV.1 h0.1 h0.2.1 h0.2.2
  obtain ⟨b1, b2, b3⟩ := delay_range (p := rp.val) hV.1 hx'.1 hx'.2.1 hx'.2.2
  obtain ⟨_, o1, _, q1⟩ := c08_ordered_additive rp.val Vp.val H0 K0 hV.1 h0.1 h0.2.1
  obtain ⟨_, o2, _, q2⟩ := c08_ordered_additive rp.val Vp.val best.h best.k hV.1 hx'.1 hx'.2.1
  obtain ⟨c1, c2, c3⟩ := times_close hdt hc (t1 := tPs rp.val Vp.val H0 K0 + r.Pdelay)
    (t2 := tPpPs rp.val Vp.val H0 K0 + flt.tlag.val - r.Pdelay) (t3 := tPsPs rp.val Vp.val H0 K0 + flt.tlag.val)
    ⟨by linarith, by linarith⟩ ⟨by linarith, by linarith⟩ ⟨by linarith, by linarith⟩
    ⟨by linarith, by linarith⟩ ⟨by linarith, by linarith⟩ ⟨by linarith, by linarith⟩ (by linarith)
    (by linarith) (by linarith) n1 n2 n3 m1 m2 m3 e1 e2 e3
  refine within_of_times rfl rfl rfl ?_ (fun hlt => ?_) ?_
  · refine le_of_eq_of_le ?_ c1; congr 1; ring
  · refine le_of_eq_of_le ?_ (c2 (by linarith)); congr 1; ring
  · refine le_of_eq_of_le ?_ c3; congr 1; ring

/-- How far the crust `(H, K)` found below the sediment `(H1, K1)` is from the crust `(H0, K0)` below the sediment
`(S0, Q0)`: the two-way P and S times of the whole stack agree up to sampling. -/
def StackWithinSampling (dt p V1 V2 S0 Q0 H0 K0 H1 K1 H K : ℝ) : Prop :=
  2 * |(H - H0) * eta p V2 + (H1 - S0) * eta p V1| ≤ 3 * dt ∧
  2 * |(H * eta p (V2 / K) - H0 * eta p (V2 / K0)) + (H1 * eta p (V1 / K1) - S0 * eta p (V1 / Q0))| ≤ dt

/-- **C120**, error propagation: an error of the sediment model enters the crust found below it. -/
theorem c120_propagation {dt p V1 V2 S0 Q0 H0 K0 H1 K1 H K : ℝ}
    (h : StackWithinSampling dt p V1 V2 S0 Q0 H0 K0 H1 K1 H K) :
    2 * |H - H0| * eta p V2 ≤ 3 * dt + 2 * |H1 - S0| * eta p V1 ∧
    2 * |H * eta p (V2 / K) - H0 * eta p (V2 / K0)| ≤ dt + 2 * |H1 * eta p (V1 / K1) - S0 * eta p (V1 / Q0)| ∧
    (WithinSampling dt p V1 S0 Q0 H1 K1 → 2 * |H - H0| * eta p V2 ≤ 6 * dt ∧
      2 * |H * eta p (V2 / K) - H0 * eta p (V2 / K0)| ≤ 2 * dt) := by
  have n1 : 0 ≤ eta p V1 := Real.sqrt_nonneg _
  have n2 : 0 ≤ eta p V2 := Real.sqrt_nonneg _
  obtain ⟨a, b⟩ := h
  have x1 : 2 * |H - H0| * eta p V2 ≤ 3 * dt + 2 * |H1 - S0| * eta p V1 := by
    have t := abs_sub ((H - H0) * eta p V2 + (H1 - S0) * eta p V1) ((H1 - S0) * eta p V1)
    rw [add_sub_cancel_right, abs_mul, abs_mul (H1 - S0), abs_of_nonneg n1, abs_of_nonneg n2] at t
    linarith
  have x2 : 2 * |H * eta p (V2 / K) - H0 * eta p (V2 / K0)| ≤ dt + 2 * |H1 * eta p (V1 / K1) - S0 * eta p (V1 / Q0)| := by
    have t := abs_sub ((H * eta p (V2 / K) - H0 * eta p (V2 / K0)) + (H1 * eta p (V1 / K1) - S0 * eta p (V1 / Q0)))
      (H1 * eta p (V1 / K1) - S0 * eta p (V1 / Q0))
    rw [add_sub_cancel_right] at t
    linarith
  refine ⟨x1, x2, fun hw => ⟨?_, ?_⟩⟩
  · linarith [hw.1]
  · linarith [hw.2.2]

/-- the Moho stage of both sequential stackings -/
theorem moho_within {dt pre T T1 p VpS VpM w1 w2 w3 : ℝ} {l : Nat} {data : List ℝ} {bS : Row ℝ} {KM HM : List ℝ}
    {bestIdx : Nat} {table : List (Row ℝ)}
    (h : MohoStage p VpS VpM w1 w2 w3 data (timeAxis dt pre l) bS KM HM bestIdx table)
    (hdt : 0 < dt) (hc : CoversTo dt pre (T1 + T) l) (hS : 0 < VpS) (hM : 0 < VpM) {S0 Q0 H0 K0 A e : ℝ}
    (hst : StandsOut w1 w2 w3 A e) (hs0 : Recorded VpS T1 S0 Q0) (hsb : Recorded VpS T1 bS.h bS.k)
    (h0 : Recorded VpM T H0 K0) (hgrid : ∀ x ∈ HM, ∀ k ∈ KM, Recorded VpM T x k)
    (hshow : ShowsPhases data (timeAxis dt pre l) (tPs p VpS S0 Q0 + tPs p VpM H0 K0)
      (tPpPs p VpS S0 Q0 + tPpPs p VpM H0 K0) (tPsPs p VpS S0 Q0 + tPsPs p VpM H0 K0) A e)
    (hin : ∃ x ∈ HM, ∃ k ∈ KM,
      SameSample (timeAxis dt pre l) (tPs p VpS S0 Q0 + tPs p VpM H0 K0) (tPs p VpS bS.h bS.k + tPs p VpM x k) ∧
      SameSample (timeAxis dt pre l) (tPpPs p VpS S0 Q0 + tPpPs p VpM H0 K0) (tPpPs p VpS bS.h bS.k + tPpPs p VpM x k) ∧
      SameSample (timeAxis dt pre l) (tPsPs p VpS S0 Q0 + tPsPs p VpM H0 K0) (tPsPs p VpS bS.h bS.k + tPsPs p VpM x k)) :
    ∃ b, table[bestIdx]? = some b ∧ StackWithinSampling dt p VpS VpM S0 Q0 H0 K0 bS.h bS.k b.h b.k := by
  obtain ⟨raw, best, hgt, hb, hcl, hv⟩ := h
  refine ⟨_, hcl.2 _ _ hb.1, ?_⟩
  obtain ⟨x, hx, k, hk, s1, s2, s3⟩ := hin
  obtain ⟨u, hu, rfl, rfl⟩ := gridTable_row hgt hx hk
  obtain ⟨i1, i2, i3, j1, j2, j3, n1, n2, n3, m1, m2, m3, e1, e2, e3⟩ := best_hits hb hst
    (f1 := fun x k => tPs p VpS bS.h bS.k + tPs p VpM x k) (f2 := fun x k => tPpPs p VpS bS.h bS.k + tPpPs p VpM x k)
    (f3 := fun x k => tPsPs p VpS bS.h bS.k + tPsPs p VpM x k) hv hshow hu s1 s2 s3
  have hbx : best.h ∈ HM ∧ best.k ∈ KM := gridTable_mem hgt (List.mem_of_getElem? hb.1)
  have hx' := hgrid _ hbx.1 _ hbx.2
  obtain ⟨a1, a2, a3⟩ := delay_range (p := p) hM h0.1 h0.2.1 h0.2.2
  obtain ⟨b1, b2, b3⟩ := delay_range (p := p) hM hx'.1 hx'.2.1 hx'.2.2
  obtain ⟨c1, c2, c3⟩ := delay_range (p := p) hS hs0.1 hs0.2.1 hs0.2.2
  obtain ⟨d1, d2, d3⟩ := delay_range (p := p) hS hsb.1 hsb.2.1 hsb.2.2
  obtain ⟨_, o1, _, q1⟩ := c08_ordered_additive p VpM H0 K0 hM h0.1 h0.2.1
  obtain ⟨_, o2, _, q2⟩ := c08_ordered_additive p VpM best.h best.k hM hx'.1 hx'.2.1
  obtain ⟨_, o3, _, q3⟩ := c08_ordered_additive p VpS S0 Q0 hS hs0.1 hs0.2.1
  obtain ⟨_, o4, _, q4⟩ := c08_ordered_additive p VpS bS.h bS.k hS hsb.1 hsb.2.1
  obtain ⟨r1, _, r3⟩ := times_close hdt hc (t1 := tPs p VpS S0 Q0 + tPs p VpM H0 K0)
    (t2 := tPpPs p VpS S0 Q0 + tPpPs p VpM H0 K0) (t3 := tPsPs p VpS S0 Q0 + tPsPs p VpM H0 K0)
    ⟨by linarith, by linarith⟩ ⟨by linarith, by linarith⟩ ⟨by linarith, by linarith⟩
    ⟨by linarith, by linarith⟩ ⟨by linarith, by linarith⟩ ⟨by linarith, by linarith⟩ (by linarith)
    (by linarith) (by linarith) n1 n2 n3 m1 m2 m3 e1 e2 e3
  constructor
  · rw [← abs_two, ← abs_mul]
    refine le_of_eq_of_le ?_ r1
    congr 1
    unfold tPs tPpPs; ring
  · rw [← abs_two, ← abs_mul]
    refine le_of_eq_of_le ?_ r3
    congr 1
    unfold tPsPs; ring

/-- What the user knows about the two stages: the records `dS` and `dM` show the phases of the sediment `(S0, Q0)`
and of the sediment with the crust `(H0, K0)` below it, the grids and the layers fit into the records, some point of
the sediment grid has the sediment's samples and, below the sediment found, some point of the crustal grid has the
samples of the stack. -/
structure TwoStages (dt pre T1 T p V1 V2 : ℝ) (l : Nat) (dS dM : List ℝ) (HS KS HM KM : List ℝ)
    (u1 u2 u3 w1 w2 w3 S0 Q0 H0 K0 A e A' e' : ℝ) (found : Option (Row ℝ)) : Prop where
  hdt : 0 < dt
  hT : 0 ≤ T
  hc : CoversTo dt pre (T1 + T) l
  hV : Propagates p V1
  hM : Propagates p V2
  hst : StandsOut u1 u2 u3 A e
  hst' : StandsOut w1 w2 w3 A' e'
  hs0 : Recorded V1 T1 S0 Q0
  hgridS : ∀ x ∈ HS, ∀ k ∈ KS, Recorded V1 T1 x k
  h0 : Recorded V2 T H0 K0
  hgrid : ∀ x ∈ HM, ∀ k ∈ KM, Recorded V2 T x k
  hshowS : ShowsPhases dS (timeAxis dt pre l) (tPs p V1 S0 Q0) (tPpPs p V1 S0 Q0) (tPsPs p V1 S0 Q0) A e
  hinS : ∃ x ∈ HS, ∃ k ∈ KS, SameSamples (timeAxis dt pre l) p V1 S0 Q0 x k
  hshow : ShowsPhases dM (timeAxis dt pre l) (tPs p V1 S0 Q0 + tPs p V2 H0 K0)
      (tPpPs p V1 S0 Q0 + tPpPs p V2 H0 K0) (tPsPs p V1 S0 Q0 + tPsPs p V2 H0 K0) A' e'
  hin : ∀ bS, found = some bS → ∃ x ∈ HM, ∃ k ∈ KM,
      SameSample (timeAxis dt pre l) (tPs p V1 S0 Q0 + tPs p V2 H0 K0) (tPs p V1 bS.h bS.k + tPs p V2 x k) ∧
      SameSample (timeAxis dt pre l) (tPpPs p V1 S0 Q0 + tPpPs p V2 H0 K0) (tPpPs p V1 bS.h bS.k + tPpPs p V2 x k) ∧
      SameSample (timeAxis dt pre l) (tPsPs p V1 S0 Q0 + tPsPs p V2 H0 K0) (tPsPs p V1 bS.h bS.k + tPsPs p V2 x k)

theorem two_stages {dt pre T1 T p V1 V2 : ℝ} {l : Nat} {dS dM : List ℝ} {HS KS HM KM : List ℝ}
    {u1 u2 u3 w1 w2 w3 S0 Q0 H0 K0 A e A' e' : ℝ} {tbS tbM : List (Row ℝ)} {iS iM : Nat} {bS : Row ℝ}
    (h : TwoStages dt pre T1 T p V1 V2 l dS dM HS KS HM KM u1 u2 u3 w1 w2 w3 S0 Q0 H0 K0 A e A' e' tbS[iS]?)
    (hbS : tbS[iS]? = some bS) (hb : ∃ b, BestRow tbS iS b) (hgt : GridTable KS HS tbS)
    (hv : ∀ row ∈ tbS, StackValue u1 u2 u3 dS (timeAxis dt pre l) (tPs p V1 row.h row.k) (tPpPs p V1 row.h row.k)
      (tPsPs p V1 row.h row.k) row.s)
    (hstage : MohoStage p V1 V2 w1 w2 w3 dM (timeAxis dt pre l) bS KM HM iM tbM) :
    ∃ bM, tbM[iM]? = some bM ∧ WithinSampling dt p V1 S0 Q0 bS.h bS.k ∧
      StackWithinSampling dt p V1 V2 S0 Q0 H0 K0 bS.h bS.k bM.h bM.k ∧ 2 * |bM.h - H0| * eta p V2 ≤ 6 * dt := by
  obtain ⟨b, hb⟩ := hb
  have eb : b = bS := by
    have := hb.1
    rw [hbS] at this
    exact (Option.some.inj this).symm
  subst eb
  have hg := gridTable_mem hgt (List.mem_of_getElem? hb.1)
  have hrec := h.hgridS _ hg.1 _ hg.2
  have hcS : CoversTo dt pre T1 l := ⟨h.hc.1, by linarith [h.hc.2, h.hT]⟩
  obtain ⟨x, hx, k, hk, s1, s2, s3⟩ := h.hinS
  obtain ⟨u, hu, rfl, rfl⟩ := gridTable_row hgt hx hk
  have hw : WithinSampling dt p V1 S0 Q0 b.h b.k := cases_within h.hdt hcS h.hV.1 h.hs0 hrec
    (best_hits hb h.hst (f1 := tPs p V1) (f2 := tPpPs p V1) (f3 := tPsPs p V1) hv h.hshowS hu s1 s2 s3)
  obtain ⟨bM, hbM, hsw⟩ := moho_within hstage h.hdt h.hc h.hV.1 h.hM.1 h.hst' h.hs0 hrec h.h0 h.hgrid h.hshow
    (h.hin b hbS)
  exact ⟨bM, hbM, hw, hsw, ((c120_propagation hsw).2.2 hw).1⟩

/-- **C120** `hkSeqSynth`: the sediment, and the crust below the sediment found. -/
theorem c120_hkSeqSynth {env : Env ℝ} {dS dM : List ℝ} {dt pre T T1 : ℝ} {l : Nat} {rp Vp vm : Scalar ℝ}
    {HS KS HM KM : List ℝ} {u1 u2 u3 w1 w2 w3 : ℝ} {r : SynthAnalysis.SeqSynthResult ℝ} {S0 Q0 H0 K0 A e A' e' : ℝ}
    (h : SynthAnalysis.hkSeqSynth env dS dM (timeAxis dt pre l) rp HS KS (some Vp) (some u1) (some u2) (some u3) HM KM
      (some vm) (some w1) (some w2) (some w3) = .ok r)
    (ht : TwoStages dt pre T1 T rp.val Vp.val vm.val l dS dM HS KS HM KM u1 u2 u3 w1 w2 w3 S0 Q0 H0 K0 A e A' e'
      r.bestmodelSed) :
    ∃ bS bM, r.bestmodelSed = some bS ∧ r.bestmodelMoho = some bM ∧
      WithinSampling dt rp.val Vp.val S0 Q0 bS.h bS.k ∧
      StackWithinSampling dt rp.val Vp.val vm.val S0 Q0 H0 K0 bS.h bS.k bM.h bM.k ∧
      2 * |bM.h - H0| * eta rp.val vm.val ≤ 6 * dt := by
  obtain ⟨bS, hbS, hstage⟩ := c20_hkSeqSynth_moho h ht.hV.1.ne' ht.hM.1.ne' ht.hV.2.le ht.hM.2.le
  obtain ⟨bmod, raw, f⟩ := hkSeqSynth_inv h
  obtain ⟨bM, hbM, hw⟩ := two_stages ht hbS (bestRow_of f.hbestS (fun _ _ => rfl)) (gridTable_of f.hgridS)
    (c20_hkSeqSynth_sed h ht.hV.1.ne' ht.hV.2.le) hstage
  exact ⟨bS, bM, hbS, hbM, hw⟩

/-- **C120** `hkSeq` with stacking: the stacked records and the mean slowness count. -/
theorem c120_hkSeq_stack {env : Env ℝ} {tr0 : Trace ℝ} {rest stM : List (Trace ℝ)} {pre T T1 : ℝ} {Vp vm : Scalar ℝ}
    {HS KS HM KM : List ℝ} {u1 u2 u3 w1 w2 w3 : ℝ} {r : HkSeqYeck.SeqResult ℝ} {S0 Q0 H0 K0 A e A' e' : ℝ}
    (h : HkSeqYeck.hkSeq env (tr0 :: rest) stM pre HS KS (some Vp) (some u1) (some u2) (some u3) HM KM
      (some vm) (some w1) (some w2) (some w3) (some true) = .ok r)
    (ht : TwoStages tr0.delta pre T1 T (env.km2deg1 * r.AvgSlow) Vp.val vm.val tr0.data.length r.RFSedStack r.RFMohoStack
      HS KS HM KM u1 u2 u3 w1 w2 w3 S0 Q0 H0 K0 A e A' e' r.bestmodelSed) :
    ∃ bS bM, r.bestmodelSed = some bS ∧ r.bestmodelMoho = some bM ∧
      WithinSampling tr0.delta (env.km2deg1 * r.AvgSlow) Vp.val S0 Q0 bS.h bS.k ∧
      StackWithinSampling tr0.delta (env.km2deg1 * r.AvgSlow) Vp.val vm.val S0 Q0 H0 K0 bS.h bS.k bM.h bM.k ∧
      2 * |bM.h - H0| * eta (env.km2deg1 * r.AvgSlow) vm.val ≤ 6 * tr0.delta := by
  obtain ⟨_, bS, hbS, hstage⟩ := c20_hkSeq_moho_stacked h ht.hV.1.ne' ht.hM.1.ne' ht.hV.2.le ht.hM.2.le
  obtain ⟨_, hv⟩ := c19_sed_stacked h ht.hV.1.ne' ht.hV.2.le
  obtain ⟨t0, rs, slows, bmod, raw, f⟩ := hkSeq_inv h
  have he := f.hst
  simp only [List.cons.injEq] at he
  obtain ⟨rfl, rfl⟩ := he
  rw [f.htime] at hstage hv
  obtain ⟨bM, hbM, hw⟩ := two_stages ht hbS (bestRow_of f.hbestS (fun _ _ => rfl)) (gridTable_of f.hgridS) hv hstage
  exact ⟨bS, bM, hbS, hbM, hw⟩

/-- **C120** `hkSeq` without stacking: the last traces of the two streams count (C19), here with the same slowness. -/
theorem c120_hkSeq_last {env : Env ℝ} {tr0 lastS lastM : Trace ℝ} {rest initS initM : List (Trace ℝ)} {pre T T1 : ℝ}
    {Vp vm slS slM : Scalar ℝ} {HS KS HM KM : List ℝ} {u1 u2 u3 w1 w2 w3 : ℝ} {r : HkSeqYeck.SeqResult ℝ}
    {S0 Q0 H0 K0 A e A' e' p : ℝ} (hS : tr0 :: rest = initS ++ [lastS])
    (h : HkSeqYeck.hkSeq env (tr0 :: rest) (initM ++ [lastM]) pre HS KS (some Vp) (some u1) (some u2) (some u3) HM KM
      (some vm) (some w1) (some w2) (some w3) (some false) = .ok r)
    (hslS : lastS.slowness = some slS) (hslM : lastM.slowness = some slM)
    (hpS : env.km2deg1 * slS.val = p) (hpM : env.km2deg1 * slM.val = p)
    (ht : TwoStages tr0.delta pre T1 T p Vp.val vm.val tr0.data.length lastS.data lastM.data
      HS KS HM KM u1 u2 u3 w1 w2 w3 S0 Q0 H0 K0 A e A' e' r.bestmodelSed) :
    ∃ bS bM, r.bestmodelSed = some bS ∧ r.bestmodelMoho = some bM ∧
      WithinSampling tr0.delta p Vp.val S0 Q0 bS.h bS.k ∧
      StackWithinSampling tr0.delta p Vp.val vm.val S0 Q0 H0 K0 bS.h bS.k bM.h bM.k ∧
      2 * |bM.h - H0| * eta p vm.val ≤ 6 * tr0.delta := by
  obtain ⟨bS, hbS, hstage⟩ := c20_hkSeq_moho h hslM ht.hV.1.ne' ht.hM.1.ne' (by rw [hpM]; exact ht.hV.2.le)
    (by rw [hpM]; exact ht.hM.2.le)
  obtain ⟨t0, rs, slows, bmod, raw, f⟩ := hkSeq_inv h
  have he := f.hst
  simp only [List.cons.injEq] at he
  obtain ⟨rfl, rfl⟩ := he
  have hv := c19_sed_last_trace (hS ▸ h) hslS ht.hV.1.ne' (by rw [hpS]; exact ht.hV.2.le)
  rw [hpS] at hv
  rw [hpM] at hstage
  rw [f.htime] at hstage hv
  obtain ⟨bM, hbM, hw⟩ := two_stages ht hbS (bestRow_of f.hbestS (fun _ _ => rfl)) (gridTable_of f.hgridS) hv hstage
  exact ⟨bS, bM, hbS, hbM, hw⟩

/-! ## The hypotheses are met -/

/-- a record of six samples with the phases of the layer `H = 1`, `κ = 2` at 1, 3 and 4 s and a disturbance of 1 % -/
noncomputable def phaseTrace : Trace ℝ := { Sample.trace [0.01, 1, -0.01, 1.01, -1, 0] 0 with delta := 1 }

theorem axis_near {t T : ℝ} {l : Nat} (i : Nat) (hc : CoversTo 1 0 T l) (h0 : 0 ≤ t) (hT : t ≤ T)
    (h1 : t - 1 / 2 ≤ i) (h2 : (i : ℝ) < t + 1 / 2) : NearestSample (timeAxis 1 0 l) t i :=
  (nearest_timeAxis one_pos hc h0 hT).2 ⟨by linarith, by linarith⟩

/-- all hypotheses of `c120_hk` hold for two noisy records and a grid that misses the layer: the best model is within
the sampling interval of the layer -/
example : ∃ r best, hk Sample.env [phaseTrace, phaseTrace] 0 [0.5, 1.05] [2, 1.5] (some ⟨.py, 1⟩)
      (some 0.6) (some 0.3) (some 0.1) none (some false) = .ok r ∧ r.bestmodel = some best ∧
      |best.h - 1| ≤ 3 / 2 := by
  have e1 : ∃ r, hk Sample.env [phaseTrace, phaseTrace] 0 [0.5, 1.05] [2, 1.5] (some ⟨.py, 1⟩)
      (some 0.6) (some 0.3) (some 0.1) none (some false) = .ok r := by
    refine c03_succeeds (sd := _) (more := []) rfl ?_ ?_ ?_ ?_ ?_ (by simp) (by simp) (by simp) ?_
    · intro h; cases h
    · simp [phaseTrace, Sample.trace]
    · intro tr htr
      simp at htr
      subst htr; simp [phaseTrace, Sample.trace]
    · intro tr htr; simp at htr; subst htr; rfl
    · intro v hv; cases hv; right; rw [← Bool.not_eq_true, real_eq]; norm_num
    · intro _ _; rfl
  obtain ⟨r, hr⟩ := e1
  obtain ⟨_, _, _, tr0, rest, hst, ht⟩ := c03_table_shape hr
  cases hst
  have hax : r.time = timeAxis 1 0 6 := ht
  have hp : Sample.env.km2deg1 * slownessOf phaseTrace = 0 := by
    simp [slownessOf, phaseTrace, Sample.trace]
  have hc : CoversTo 1 0 4.3 6 := ⟨le_rfl, by norm_num⟩
  have hall : ∀ tr ∈ [phaseTrace, phaseTrace], tr = phaseTrace := by intro tr htr; simpa using htr
  obtain ⟨best, hb, hw⟩ := c120_hk (T := 4.3) (H0 := 1) (K0 := 2) (A := 1) (e := 0.01) hr
    (show (0 : ℝ) < 1 from one_pos) hc
    (by intro tr htr; rw [hall tr htr, hp]; norm_num [Propagates])
    (by norm_num) (by norm_num) (by norm_num) zero_le_one
    (by norm_num [Recorded])
    (by
      intro x hx k hk
      simp only [List.mem_cons, List.not_mem_nil, or_false] at hx hk
      rcases hx with rfl | rfl <;> rcases hk with rfl | rfl <;> norm_num [Recorded])
    (by
      intro tr htr
      rw [hall tr htr, hp, hax]
      simp only [tPs, tPpPs, tPsPs, eta_half, eta_unit]
      refine ⟨1, 3, 4, axis_near 1 hc ?_ ?_ ?_ ?_, axis_near 3 hc ?_ ?_ ?_ ?_, axis_near 4 hc ?_ ?_ ?_ ?_, ?_⟩
      any_goals norm_num
      intro j a ha
      match j with
      | 0 | 1 | 2 | 3 | 4 | 5 => simp [phaseTrace, Sample.trace] at ha; subst ha; norm_num [abs_le]
      | j + 6 => simp [phaseTrace, Sample.trace] at ha)
    (by norm_num)
    ⟨1.05, by simp, 2, by simp, by
      intro tr htr
      rw [hall tr htr, hp, hax]
      simp only [SameSamples, tPs, tPpPs, tPsPs, eta_half, eta_unit]
      refine ⟨⟨1, axis_near 1 hc ?_ ?_ ?_ ?_, axis_near 1 hc ?_ ?_ ?_ ?_⟩,
        ⟨3, axis_near 3 hc ?_ ?_ ?_ ?_, axis_near 3 hc ?_ ?_ ?_ ?_⟩,
        ⟨4, axis_near 4 hc ?_ ?_ ?_ ?_, axis_near 4 hc ?_ ?_ ?_ ?_⟩⟩
      all_goals norm_num⟩
  refine ⟨r, best, hr, hb, ?_⟩
  have := (hw phaseTrace (List.mem_cons_self ..)).1
  rw [hp] at this
  simp only [eta_unit] at this
  have h3 : 2 * |best.h - 1| * 1 ≤ 3 * (1 : ℝ) := this
  linarith

/-- the two stages: a sediment grid that misses the sediment, a crustal grid with four points -/
example : ∃ r bS bM, SynthAnalysis.hkSeqSynth Sample.env [0, 1, 0, 1, -1, 0, 0, 0, 0, 0] [0, 0, 1, 0, 0, 0, 1, 0, -1, 0]
      (timeAxis 1 0 10) ⟨.py, 0⟩ [1.1] [2] (some ⟨.py, 1⟩) (some 0.6) (some 0.3) (some 0.1) [0.5, 1] [1.5, 2]
      (some ⟨.py, 1⟩) (some 0.6) (some 0.3) (some 0.1) = .ok r ∧
      r.bestmodelSed = some bS ∧ r.bestmodelMoho = some bM ∧ |bM.h - 1| ≤ 3 := by
  have hdiv : Divisor (⟨.py, 1⟩ : Scalar ℝ) := divisor_real (by norm_num)
  have hax : timeAxis (1 : ℝ) 0 10 ≠ [] := by simp [timeAxis]
  obtain ⟨r, hr⟩ := c25_hkSeqSynth_succeeds (env := Sample.env) (dS := [0, 1, 0, 1, -1, 0, 0, 0, 0, 0])
    (dM := [0, 0, 1, 0, 0, 0, 1, 0, -1, 0]) (t := timeAxis 1 0 10) (rp := ⟨.py, 0⟩) (HS := [1.1]) (KS := [2])
    (HM := [0.5, 1]) (KM := [1.5, 2]) (VpSed := ⟨.py, 1⟩) (VpMoho := ⟨.py, 1⟩) (w1S := some 0.6) (w2S := some 0.3)
    (w3S := some 0.1) (w1M := 0.6) (w2M := 0.3) (w3M := 0.1) hax (by simp [timeAxis]) (by simp [timeAxis]) hdiv hdiv
    (by simp) (by simp) (by simp) (by simp) (fun _ _ => rfl)
  have hc : CoversTo 1 0 8.4 10 := ⟨le_rfl, by norm_num⟩
  have hc' : CoversTo 1 0 (4.4 + 4) 10 := ⟨le_rfl, by norm_num⟩
  obtain ⟨_, _, f⟩ := hkSeqSynth_inv hr
  have hfound : ∀ bS, r.bestmodelSed = some bS → bS.h = 1.1 ∧ bS.k = 2 := by
    intro bS hb
    have := gridTable_mem (gridTable_of f.hgridS) (List.mem_of_getElem? hb)
    simpa using this
  obtain ⟨bS, bM, h1, h2, _, _, h3⟩ := c120_hkSeqSynth (dt := 1) (pre := 0) (l := 10) (T1 := 4.4) (T := 4) (S0 := 1)
    (Q0 := 2) (H0 := 1) (K0 := 2) (A := 1) (e := 0) (A' := 1) (e' := 0) hr
    { hdt := one_pos
      hT := by norm_num
      hc := hc'
      hV := by norm_num [Propagates]
      hM := by norm_num [Propagates]
      hst := by norm_num [StandsOut]
      hst' := by norm_num [StandsOut]
      hs0 := by norm_num [Recorded]
      hgridS := by
        intro x hx k hk
        simp only [List.mem_cons, List.not_mem_nil, or_false] at hx hk
        subst hx hk; norm_num [Recorded]
      h0 := by norm_num [Recorded]
      hgrid := by
        intro x hx k hk
        simp only [List.mem_cons, List.not_mem_nil, or_false] at hx hk
        rcases hx with rfl | rfl <;> rcases hk with rfl | rfl <;> norm_num [Recorded]
      hshowS := by
        simp only [tPs, tPpPs, tPsPs, eta_half, eta_unit]
        refine ⟨1, 3, 4, axis_near 1 hc ?_ ?_ ?_ ?_, axis_near 3 hc ?_ ?_ ?_ ?_, axis_near 4 hc ?_ ?_ ?_ ?_, ?_⟩
        any_goals norm_num
        intro j a ha
        match j with
        | 0 | 1 | 2 | 3 | 4 | 5 | 6 | 7 | 8 | 9 => simp at ha; subst ha; norm_num
        | j + 10 => simp at ha
      hinS := by
        refine ⟨1.1, by simp, 2, by simp, ?_⟩
        simp only [SameSamples, tPs, tPpPs, tPsPs, eta_half, eta_unit]
        refine ⟨⟨1, axis_near 1 hc ?_ ?_ ?_ ?_, axis_near 1 hc ?_ ?_ ?_ ?_⟩,
          ⟨3, axis_near 3 hc ?_ ?_ ?_ ?_, axis_near 3 hc ?_ ?_ ?_ ?_⟩,
          ⟨4, axis_near 4 hc ?_ ?_ ?_ ?_, axis_near 4 hc ?_ ?_ ?_ ?_⟩⟩
        all_goals norm_num
      hshow := by
        simp only [tPs, tPpPs, tPsPs, eta_half, eta_unit]
        refine ⟨2, 6, 8, axis_near 2 hc ?_ ?_ ?_ ?_, axis_near 6 hc ?_ ?_ ?_ ?_, axis_near 8 hc ?_ ?_ ?_ ?_, ?_⟩
        any_goals norm_num
        intro j a ha
        match j with
        | 0 | 1 | 2 | 3 | 4 | 5 | 6 | 7 | 8 | 9 => simp at ha; subst ha; norm_num
        | j + 10 => simp at ha
      hin := by
        intro bS hb
        obtain ⟨e1, e2⟩ := hfound bS hb
        refine ⟨1, by simp, 2, by simp, ?_⟩
        rw [e1, e2]
        simp only [tPs, tPpPs, tPsPs, eta_half, eta_unit]
        refine ⟨⟨2, axis_near 2 hc ?_ ?_ ?_ ?_, axis_near 2 hc ?_ ?_ ?_ ?_⟩,
          ⟨6, axis_near 6 hc ?_ ?_ ?_ ?_, axis_near 6 hc ?_ ?_ ?_ ?_⟩,
          ⟨8, axis_near 8 hc ?_ ?_ ?_ ?_, axis_near 8 hc ?_ ?_ ?_ ?_⟩⟩
        all_goals norm_num }
  refine ⟨r, bS, bM, hr, h1, h2, ?_⟩
  simp only [eta_unit] at h3
  linarith

end Rfsed.Props
