import Verif.Props.RecordedNoiseSeq
import Verif.Props.ExperimentHkSeqStack
import Verif.Spec.Average

/-!
# C144: noise in the recorded seismograms and stacking by averaging
-/

namespace Rfsed.Props
open Rfsed HkZhu Spec Synrf ReverbFilter

theorem near_length {e : ℝ} {x y : List ℝ} (h : Near e x y) : x.length = y.length := List.Forall₂.length_eq h

theorem near_getD {e : ℝ} {x y : List ℝ} (h : Near e x y) {i : ℕ} (hi : i < x.length) : |x.getD i 0 - y.getD i 0| ≤ e := by
  have hl := near_length h
  have := (List.forall₂_iff_get.1 h).2 i hi (hl ▸ hi)
  rw [List.getD_eq_getElem _ _ hi, List.getD_eq_getElem _ _ (hl ▸ hi)]
  simpa using this

theorem near_of_getD {e : ℝ} {x y : List ℝ} (hl : x.length = y.length)
    (h : ∀ i < x.length, |x.getD i 0 - y.getD i 0| ≤ e) : Near e x y := by
  refine List.forall₂_iff_get.2 ⟨hl, fun i h1 h2 => ?_⟩
  have := h i h1
  rw [List.getD_eq_getElem _ _ h1, List.getD_eq_getElem _ _ h2] at this
  simpa using this

/-- averages of records that differ by at most `e` -/
theorem sum_near {e : ℝ} {n : ℕ} {ds ds' : List (List ℝ)} (h : List.Forall₂ (Near e) ds ds')
    (hl : ∀ d ∈ ds, d.length = n) {i : ℕ} (hi : i < n) :
    |(ds.map (fun d : List ℝ => d.getD i 0)).sum - (ds'.map (fun d : List ℝ => d.getD i 0)).sum| ≤ ds.length * e := by
  induction h with
  | nil => simp
  | @cons d d' ds ds' h1 _ ih =>
    have a1 := near_getD h1 (i := i) (by rw [hl d (List.mem_cons_self ..)]; exact hi)
    have a2 := ih fun d hd => hl d (List.mem_cons_of_mem _ hd)
    simp only [List.map_cons, List.sum_cons, List.length_cons, Nat.cast_add, Nat.cast_one]
    calc |d.getD i 0 + (ds.map (fun d : List ℝ => d.getD i 0)).sum - (d'.getD i 0 + (ds'.map (fun d : List ℝ => d.getD i 0)).sum)|
        = |(d.getD i 0 - d'.getD i 0) + ((ds.map (fun d : List ℝ => d.getD i 0)).sum - (ds'.map (fun d : List ℝ => d.getD i 0)).sum)| := by
          congr 1; ring
      _ ≤ _ := abs_add_le _ _
      _ ≤ e + ds.length * e := add_le_add a1 a2
      _ = _ := by ring

theorem average_near {e e2 : ℝ} {ds ds' : List (List ℝ)} {sd sd' : List ℝ} (h : List.Forall₂ (Near e) ds ds')
    (h1 : AverageWithin 0 ds sd) (h2 : AverageWithin e2 ds' sd') : Near (e + e2) sd sd' := by
  obtain ⟨hne, hl, ha⟩ := h1
  obtain ⟨-, hl', ha'⟩ := h2
  have hlen : sd.length = sd'.length := by
    cases h with
    | nil => exact absurd rfl hne
    | cons g _ =>
      rw [← hl _ (List.mem_cons_self ..), ← hl' _ (List.mem_cons_self ..)]
      exact near_length g
  have hn := h.length_eq
  have hn0 : (0 : ℝ) < ds.length := by exact_mod_cast List.length_pos_iff.2 hne
  refine near_of_getD hlen fun i hi => ?_
  have b1 := ha i hi
  have b2 := ha' i (hlen ▸ hi)
  have b3 := sum_near h hl hi
  rw [← hn] at b2
  set s := (ds.map (fun d : List ℝ => d.getD i 0)).sum
  set s' := (ds'.map (fun d : List ℝ => d.getD i 0)).sum
  have b4 : |s / ds.length - s' / ds.length| ≤ e := by
    rw [← sub_div, abs_div, abs_of_pos hn0, div_le_iff₀ hn0, mul_comm]
    exact b3
  have e1 : sd.getD i 0 = s / ds.length := by
    have := abs_nonpos_iff.1 b1
    linarith
  rw [e1]
  calc |s / ds.length - sd'.getD i 0| = |(s / ds.length - s' / ds.length) + -(sd'.getD i 0 - s' / ds.length)| := by
        congr 1; ring
    _ ≤ |s / ds.length - s' / ds.length| + |-(sd'.getD i 0 - s' / ds.length)| := abs_add_le _ _
    _ ≤ e + e2 := by rw [abs_neg]; exact add_le_add b4 b2

theorem nearStream_data {R : Rounding} {e : ℝ} {st : List (Trace ℝ)} {st' : List (Trace (FL R))} (h : NearStream e st st') :
    List.Forall₂ (Near e) (st.map Trace.data) (st'.map (fun tr => tr.data.map FL.val)) := by
  rw [List.forall₂_map_left_iff, List.forall₂_map_right_iff]
  exact forall₂_weaken h fun _ _ _ _ ⟨_, _, _, d⟩ => d

section
variable {M : RFMethod} {pre a : ℝ} {env : Env ℝ} {e0 : Recording × Trace ℝ} {es : List (Recording × Trace ℝ)}
  {preonset : ℝ} {Vp : Scalar ℝ} {H K : List ℝ} {w1 w2 w3 : ℝ} {layer : Option String} {r : HKResult ℝ}

/-- **C144** `hk` with `stack=True`: the receiver functions are averaged before they are read. -/
theorem c144_hk {sd : List ℝ} {more : List (List ℝ)} {p C0 : ℝ} (hC0 : 0 ≤ C0)
    (hrf : ∀ q ∈ e0 :: es, M.Gives q.2.delta pre a q.1 q.2.data ∧ M.Clear q.2.delta pre a q.1)
    (h : hk env ((e0 :: es).map Prod.snd) preonset H K (some Vp) (some w1) (some w2) (some w3) layer (some true) = .ok r)
    (hsd : env.stack ((e0 :: es).map Prod.snd) = .ok (sd :: more))
    (havg : AverageWithin 0 ((e0 :: es).map fun q => q.2.data) sd)
    (hp : p = env.km2deg1 * (((e0 :: es).map fun q => slownessOf q.2).sum / (e0 :: es).length))
    (hpos : ∀ q ∈ e0 :: es, 0 ≤ slownessOf q.2)
    (hS : ∀ k ∈ K, p ^ 2 < (k / Vp.val) ^ 2) (hP : p ^ 2 < (1 / Vp.val) ^ 2)
    (hclear : ∀ k ∈ K, ∀ y ∈ H, ClearArrivals (exactAxis e0.2.delta preonset e0.2.data.length) p Vp.val y k 0)
    (hbest : Margin 0 r.stackvalues r.bestIdx) :
    ∃ C > 0, ∃ δ > 0, ∀ e, 0 < e → e ≤ δ → ∀ R : Rounding, R.u ≤ e →
      ∀ (env' : Env (FL R)) (es' : List (Recording × Trace (FL R))) (H' K' sd' : List (FL R)) (more' : List (List (FL R)))
        (pre' v1 v2 v3 : FL R) (Vp' : Scalar (FL R)) (layer' : Option String),
        RecordedStream M pre a e (e0 :: es) es' → env'.stack (es'.map Prod.snd) = .ok (sd' :: more') →
        AverageWithin (C0 * e) (es'.map fun q => q.2.data.map FL.val) (sd'.map FL.val) →
        env'.km2deg1.val = env.km2deg1 → pre'.val = preonset →
        H'.map FL.val = H → K'.map FL.val = K → Vp'.val.val = Vp.val → v1.val = w1 → v2.val = w2 → v3.val = w3 →
        (∀ tb, tb ≠ [] → env'.draw tb = .ok ()) →
        ∃ r', hk env' (es'.map Prod.snd) pre' H' K' (some Vp') (some v1) (some v2) (some v3) layer' (some true) = .ok r' ∧
          NearTable (C * e) r.stackvalues (r'.stackvalues.map exactRow) ∧ r'.bestIdx = r.bestIdx := by
  obtain ⟨C1, hC1, δ1, hδ1, g1⟩ := recorded_near (e0 :: es) hrf
  have hl : ∀ q ∈ e0 :: es, q.2.data.length = sd.length := fun q hq => havg.2.1 _ (List.mem_map_of_mem (f := fun q : Recording × Trace ℝ => q.2.data) hq)
  obtain ⟨C2, hC2, δ2, hδ2, g2⟩ := c140_hk_stacked (tr0 := e0.2) (rest := es.map Prod.snd) (p := p) h hsd
    (hl e0 (List.mem_cons_self ..)).le
    (by rw [hp, ← List.map_cons (f := Prod.snd), List.map_map, List.length_map]; rfl)
    (by
      intro tr ht
      obtain ⟨q, hq, rfl⟩ := List.mem_map.1 (show tr ∈ (e0 :: es).map Prod.snd from ht)
      exact hpos q hq)
    (by
      intro tr ht
      obtain ⟨q, hq, rfl⟩ := List.mem_map.1 ht
      rw [hl e0 (List.mem_cons_self ..), hl q (List.mem_cons_of_mem _ hq)])
    hS hP hclear hbest (C := C1 + C0) (by positivity)
  refine ⟨C2, hC2, min δ1 δ2, lt_min hδ1 hδ2, ?_⟩
  intro e he hed R hR env' es' H' K' sd' more' pre' v1 v2 v3 Vp' layer' hes hst hav
  have hn := g1 e he (hed.trans (min_le_left _ _)) R es' hes
  have hd := nearStream_data hn
  rw [List.map_map, List.map_map] at hd
  have hnear := average_near hd havg hav
  refine g2 e he (hed.trans (min_le_right _ _)) R hR env' (es'.map Prod.snd) H' K' sd' more' pre' v1 v2 v3 Vp' layer'
    (nearStream_mono (by nlinarith) hn) hst ?_
  rw [add_mul]
  exact hnear

end

section
variable {MS MM : RFMethod} {preS aS preM aM : ℝ}

/-- **C144** `hkSeq` with `stack=True` -/
theorem c144_hkSeq {env : Env ℝ} {first : Trace ℝ} {eS eM : List (Recording × Trace ℝ)} {preonset p C0 : ℝ}
    {VpS VpM : Scalar ℝ} {HS KS HM KM : List ℝ} {w1S w2S w3S w1M w2M w3M : ℝ}
    {r : HkSeqYeck.SeqResult ℝ} {b : Row ℝ} {sdS sdM : List ℝ} {moreS moreM : List (List ℝ)} (hC0 : 0 ≤ C0)
    (hrfS : ∀ q ∈ eS, MS.Gives q.2.delta preS aS q.1 q.2.data ∧ MS.Clear q.2.delta preS aS q.1)
    (hrfM : ∀ q ∈ eM, MM.Gives q.2.delta preM aM q.1 q.2.data ∧ MM.Clear q.2.delta preM aM q.1)
    (h : HkSeqYeck.hkSeq env (eS.map Prod.snd) (eM.map Prod.snd) preonset HS KS (some VpS) (some w1S) (some w2S) (some w3S)
      HM KM (some VpM) (some w1M) (some w2M) (some w3M) (some true) = .ok r) (hb : r.bestmodelSed = some b)
    (h0 : (eS.map Prod.snd).head? = some first)
    (hsdS : env.stack (eS.map Prod.snd) = .ok (sdS :: moreS)) (hsdM : env.stack (eM.map Prod.snd) = .ok (sdM :: moreM))
    (havS : AverageWithin 0 (eS.map fun q => q.2.data) sdS) (havM : AverageWithin 0 (eM.map fun q => q.2.data) sdM)
    (hlen : sdS.length ≤ sdM.length) (honset : ∀ q ∈ eM, q.2.onset.isSome)
    (hp : p = env.km2deg1 * ((eM.map fun q => slownessOf q.2).sum / eM.length)) (hpos : ∀ q ∈ eM, 0 ≤ slownessOf q.2)
    (hSS : ∀ k ∈ KS, p ^ 2 < (k / VpS.val) ^ 2) (hPS : p ^ 2 < (1 / VpS.val) ^ 2)
    (hSM : ∀ k ∈ KM, p ^ 2 < (k / VpM.val) ^ 2) (hPM : p ^ 2 < (1 / VpM.val) ^ 2)
    (hclearS : ∀ k ∈ KS, ∀ y ∈ HS, ClearTimes (exactAxis first.delta preonset first.data.length) (tPs p VpS.val y k)
      (tPpPs p VpS.val y k) (tPsPs p VpS.val y k) 0)
    (hclearM : ∀ k ∈ KM, ∀ y ∈ HM, ClearTimes (exactAxis first.delta preonset first.data.length)
      (mohoPs p VpS.val b.h b.k VpM.val y k) (mohoPpPs p VpS.val b.h b.k VpM.val y k)
      (mohoPsPs p VpS.val b.h b.k VpM.val y k) 0)
    (hbestS : Margin 0 r.stackvalueSed r.bestIdxSed) (hbestM : Margin 0 r.stackvalueMoho r.bestIdxMoho) :
    ∃ C > 0, ∃ δ > 0, ∀ e, 0 < e → e ≤ δ → ∀ R : Rounding, R.u ≤ e →
      ∀ (env' : Env (FL R)) (eS' eM' : List (Recording × Trace (FL R))) (HS' KS' HM' KM' : List (FL R)) (pre' : FL R)
        (VpS' VpM' : Scalar (FL R)) (v1S v2S v3S v1M v2M v3M : FL R) (sdS' sdM' : List (FL R))
        (moreS' moreM' : List (List (FL R))),
        RecordedStream MS preS aS e eS eS' → RecordedStream MM preM aM e eM eM' →
        env'.stack (eS'.map Prod.snd) = .ok (sdS' :: moreS') → env'.stack (eM'.map Prod.snd) = .ok (sdM' :: moreM') →
        AverageWithin (C0 * e) (eS'.map fun q => q.2.data.map FL.val) (sdS'.map FL.val) →
        AverageWithin (C0 * e) (eM'.map fun q => q.2.data.map FL.val) (sdM'.map FL.val) →
        env'.km2deg1.val = env.km2deg1 →
        pre'.val = preonset →
        HS'.map FL.val = HS → KS'.map FL.val = KS → HM'.map FL.val = HM → KM'.map FL.val = KM →
        VpS'.val.val = VpS.val → VpM'.val.val = VpM.val → v1S.val = w1S → v2S.val = w2S →
        v3S.val = w3S → v1M.val = w1M → v2M.val = w2M → v3M.val = w3M →
        (∀ tb, tb ≠ [] → env'.draw tb = .ok ()) →
        ∃ r', HkSeqYeck.hkSeq env' (eS'.map Prod.snd) (eM'.map Prod.snd) pre' HS' KS' (some VpS') (some v1S) (some v2S)
            (some v3S) HM' KM' (some VpM') (some v1M) (some v2M) (some v3M) (some true) = .ok r' ∧
          NearTable (C * e) r.stackvalueSed (r'.stackvalueSed.map exactRow) ∧ r'.bestIdxSed = r.bestIdxSed ∧
          NearTable (C * e) r.stackvalueMoho (r'.stackvalueMoho.map exactRow) ∧ r'.bestIdxMoho = r.bestIdxMoho := by
  obtain ⟨C1, hC1, δ1, hδ1, g1⟩ := recorded_near eS hrfS
  obtain ⟨C2, hC2, δ2, hδ2, g2⟩ := recorded_near eM hrfM
  have hlS : ∀ q ∈ eS, q.2.data.length = sdS.length := fun q hq => havS.2.1 _ (List.mem_map_of_mem (f := fun q : Recording × Trace ℝ => q.2.data) hq)
  have hlM : ∀ q ∈ eM, q.2.data.length = sdM.length := fun q hq => havM.2.1 _ (List.mem_map_of_mem (f := fun q : Recording × Trace ℝ => q.2.data) hq)
  have hf : first.data.length = sdS.length := by
    obtain ⟨q, hq, rfl⟩ := List.mem_map.1 (List.mem_of_mem_head? h0)
    exact hlS q hq
  obtain ⟨C, hC, δ, hδ, g⟩ := c140_hkSeq_stacked (p := p) h hb h0 hsdS hsdM hf.le (hf.le.trans hlen)
    (by intro tr ht; obtain ⟨q, hq, rfl⟩ := List.mem_map.1 ht; exact honset q hq)
    (by
      intro tr ht
      rw [← List.map_append] at ht
      obtain ⟨q, hq, rfl⟩ := List.mem_map.1 ht
      rcases List.mem_append.1 hq with hq | hq
      · rw [hf, hlS q hq]
      · rw [hf, hlM q hq]; exact hlen)
    (by rw [hp, List.map_map, List.length_map]; rfl)
    (by intro tr ht; obtain ⟨q, hq, rfl⟩ := List.mem_map.1 ht; exact hpos q hq)
    hSS hPS hSM hPM hclearS hclearM hbestS hbestM (C := C1 + C2 + C0) (by positivity)
  refine ⟨C, hC, min δ (min δ1 δ2), lt_min hδ (lt_min hδ1 hδ2), ?_⟩
  intro e he hed R hR env' eS' eM' HS' KS' HM' KM' pre' VpS' VpM' v1S v2S v3S v1M v2M v3M sdS' sdM' moreS' moreM' nS nM sS sM aS' aM'
  have n1 := g1 e he (hed.trans ((min_le_right _ _).trans (min_le_left _ _))) R eS' nS
  have n2 := g2 e he (hed.trans ((min_le_right _ _).trans (min_le_right _ _))) R eM' nM
  have d1 := nearStream_data n1
  have d2 := nearStream_data n2
  rw [List.map_map, List.map_map] at d1 d2
  have k1 := average_near d1 havS aS'
  have k2 := average_near d2 havM aM'
  exact g e he (hed.trans (min_le_left _ _)) R hR env' _ _ HS' KS' HM' KM' pre' VpS' VpM' v1S v2S v3S v1M v2M v3M sdS' sdM'
    moreS' moreM' (nearStream_mono (by nlinarith) n1) (nearStream_mono (by nlinarith) n2) sS sM
    (forall₂_weaken k1 fun _ _ _ _ z => z.trans (by nlinarith)) (forall₂_weaken k2 fun _ _ _ _ z => z.trans (by nlinarith))

end

end Rfsed.Props
