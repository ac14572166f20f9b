import Verif.Props.RecordedNoise
import Verif.Props.ExperimentHkSeq
import Verif.Props.ExperimentSeq

/-!
# C143: noise in the recorded seismograms and the sequential stacking
-/

namespace Rfsed.Props
open Rfsed HkZhu Spec Synrf ReverbFilter

/-- `es'` are recordings within `e` of the recordings of `es`, with the same headers and with receiver functions computed in
arithmetic of tolerance `e` or better. -/
def RecordedStream (M : RFMethod) (pre a e : ℝ) {R : Rounding} (es : List (Recording × Trace ℝ))
    (es' : List (Recording × Trace (FL R))) : Prop :=
  List.Forall₂ (fun p p' => p.1.Within e p'.1 ∧ SameHeader p.2 (exactTrace p'.2) ∧
    ∃ ε, 0 ≤ ε ∧ ε ≤ e ∧ M.Computes ε p.2.delta pre a p'.1 (p'.2.data.map FL.val)) es es'

/-- the receiver functions of noisy recordings, computed with rounding, are near the exact ones -/
theorem recorded_near {M : RFMethod} {pre a : ℝ} (es : List (Recording × Trace ℝ))
    (h : ∀ p ∈ es, M.Gives p.2.delta pre a p.1 p.2.data ∧ M.Clear p.2.delta pre a p.1) :
    ∃ C > 0, ∃ δ > 0, ∀ e, 0 < e → e ≤ δ → ∀ (R : Rounding) (es' : List (Recording × Trace (FL R))),
      RecordedStream M pre a e es es' → NearStream (C * e) (es.map Prod.snd) (es'.map Prod.snd) := by
  obtain ⟨C, hC, δ, hδ, g⟩ := recordings_rate es h
  refine ⟨C, hC, δ, hδ, fun e he hed R es' hes => ?_⟩
  show List.Forall₂ _ (es.map Prod.snd) (es'.map Prod.snd)
  rw [List.forall₂_map_left_iff, List.forall₂_map_right_iff]
  refine forall₂_weaken hes fun p p' hp _ ⟨k1, ⟨k2, k3, k4⟩, ε, k5, k6, k7⟩ => ⟨k2, k3, k4, ?_⟩
  exact near_of_within ((g e he hed p hp p'.1 k1).1 ε k5 k6 _ k7)

theorem nearStream_mono {R : Rounding} {e e' : ℝ} (h : e ≤ e') {st : List (Trace ℝ)} {st' : List (Trace (FL R))}
    (hn : NearStream e st st') : NearStream e' st st' :=
  forall₂_weaken hn fun _ _ _ _ ⟨a, b, c, d⟩ => ⟨a, b, c, forall₂_weaken d fun _ _ _ _ k => k.trans h⟩

section
variable {MS MM : RFMethod} {preS aS preM aM : ℝ}

/-- **C143** `hkSeq` (stack not `True`) on recorded events: one stream of receiver functions for the sediment, one for the
Moho, each made with its own method and parameters. -/
theorem c143_hkSeq {env : Env ℝ} {first lastS lastM : Trace ℝ} {eS eM : List (Recording × Trace ℝ)} {preonset pS pM : ℝ}
    {VpS VpM : Scalar ℝ} {HS KS HM KM : List ℝ} {w1S w2S w3S w1M w2M w3M : ℝ} {stack : Option Bool}
    {r : HkSeqYeck.SeqResult ℝ} {b : Row ℝ} (hs : stack ≠ some true)
    (hrfS : ∀ p ∈ eS, MS.Gives p.2.delta preS aS p.1 p.2.data ∧ MS.Clear p.2.delta preS aS p.1)
    (hrfM : ∀ p ∈ eM, MM.Gives p.2.delta preM aM p.1 p.2.data ∧ MM.Clear p.2.delta preM aM p.1)
    (h : HkSeqYeck.hkSeq env (eS.map Prod.snd) (eM.map Prod.snd) preonset HS KS (some VpS) (some w1S) (some w2S) (some w3S)
      HM KM (some VpM) (some w1M) (some w2M) (some w3M) stack = .ok r) (hb : r.bestmodelSed = some b)
    (h0 : (eS.map Prod.snd).head? = some first) (hlS : (eS.map Prod.snd).getLast? = some lastS)
    (hlM : (eM.map Prod.snd).getLast? = some lastM) (honset : ∀ p ∈ eM, p.2.onset.isSome)
    (hlen : ∀ p ∈ eS ++ eM, first.data.length ≤ p.2.data.length)
    (hpS : pS = env.km2deg1 * slownessOf lastS) (hpM : pM = env.km2deg1 * slownessOf lastM)
    (hSS : ∀ k ∈ KS, pS ^ 2 < (k / VpS.val) ^ 2) (hPS : pS ^ 2 < (1 / VpS.val) ^ 2)
    (hSS2 : ∀ k ∈ KS, pM ^ 2 < (k / VpS.val) ^ 2) (hPS2 : pM ^ 2 < (1 / VpS.val) ^ 2)
    (hSM : ∀ k ∈ KM, pM ^ 2 < (k / VpM.val) ^ 2) (hPM : pM ^ 2 < (1 / VpM.val) ^ 2)
    (hclearS : ∀ k ∈ KS, ∀ y ∈ HS, ClearTimes (exactAxis first.delta preonset first.data.length) (tPs pS VpS.val y k)
      (tPpPs pS VpS.val y k) (tPsPs pS VpS.val y k) 0)
    (hclearM : ∀ k ∈ KM, ∀ y ∈ HM, ClearTimes (exactAxis first.delta preonset first.data.length)
      (mohoPs pM VpS.val b.h b.k VpM.val y k) (mohoPpPs pM VpS.val b.h b.k VpM.val y k)
      (mohoPsPs pM VpS.val b.h b.k VpM.val y k) 0)
    (hbestS : Margin 0 r.stackvalueSed r.bestIdxSed) (hbestM : Margin 0 r.stackvalueMoho r.bestIdxMoho) :
    ∃ C > 0, ∃ δ > 0, ∀ e, 0 < e → e ≤ δ → ∀ R : Rounding, R.u ≤ e →
      ∀ (env' : Env (FL R)) (eS' eM' : List (Recording × Trace (FL R))) (HS' KS' HM' KM' : List (FL R)) (pre' : FL R)
        (VpS' VpM' : Scalar (FL R)) (v1S v2S v3S v1M v2M v3M : FL R) (stack' : Option Bool),
        RecordedStream MS preS aS e eS eS' → RecordedStream MM preM aM e eM eM' → env'.km2deg1.val = env.km2deg1 →
        pre'.val = preonset →
        HS'.map FL.val = HS → KS'.map FL.val = KS → HM'.map FL.val = HM → KM'.map FL.val = KM →
        VpS'.val.val = VpS.val → VpM'.val.val = VpM.val → v1S.val = w1S → v2S.val = w2S →
        v3S.val = w3S → v1M.val = w1M → v2M.val = w2M → v3M.val = w3M → stack' ≠ some true →
        (∃ d more, env'.stack (eS'.map Prod.snd) = .ok (d :: more) ∧ first.data.length ≤ d.length) →
        (∃ d more, env'.stack (eM'.map Prod.snd) = .ok (d :: more) ∧ first.data.length ≤ d.length) →
        (∀ tb, tb ≠ [] → env'.draw tb = .ok ()) →
        ∃ r', HkSeqYeck.hkSeq env' (eS'.map Prod.snd) (eM'.map Prod.snd) pre' HS' KS' (some VpS') (some v1S) (some v2S)
            (some v3S) HM' KM' (some VpM') (some v1M) (some v2M) (some v3M) stack' = .ok r' ∧
          NearTable (C * e) r.stackvalueSed (r'.stackvalueSed.map exactRow) ∧ r'.bestIdxSed = r.bestIdxSed ∧
          NearTable (C * e) r.stackvalueMoho (r'.stackvalueMoho.map exactRow) ∧ r'.bestIdxMoho = r.bestIdxMoho := by
  obtain ⟨C1, hC1, δ1, hδ1, g1⟩ := recorded_near eS hrfS
  obtain ⟨C2, hC2, δ2, hδ2, g2⟩ := recorded_near eM hrfM
  obtain ⟨C, hC, δ, hδ, g⟩ := c140_hkSeq hs h hb h0 hlS hlM
    (by intro tr ht; obtain ⟨p, hp, rfl⟩ := List.mem_map.1 ht; exact honset p hp)
    (by
      intro tr ht
      rw [← List.map_append] at ht
      obtain ⟨p, hp, rfl⟩ := List.mem_map.1 ht
      exact hlen p hp)
    hpS hpM hSS hPS hSS2 hPS2 hSM hPM hclearS hclearM hbestS hbestM (C := C1 + C2) (by positivity)
  refine ⟨C, hC, min δ (min δ1 δ2), lt_min hδ (lt_min hδ1 hδ2), ?_⟩
  intro e he hed R hR env' eS' eM' HS' KS' HM' KM' pre' VpS' VpM' v1S v2S v3S v1M v2M v3M stack' nS nM
  exact g e he (hed.trans (min_le_left _ _)) R hR env' _ _ HS' KS' HM' KM' pre' VpS' VpM' v1S v2S v3S v1M v2M v3M stack'
    (nearStream_mono (by nlinarith) (g1 e he (hed.trans ((min_le_right _ _).trans (min_le_left _ _))) R eS' nS))
    (nearStream_mono (by nlinarith) (g2 e he (hed.trans ((min_le_right _ _).trans (min_le_right _ _))) R eM' nM))

/-- **C143** `hkSeqSynth` on two receiver functions, e.g. of one recording with two different Gaussian filters. -/
theorem c143_hkSeqSynth {env : Env ℝ} {dtS dtM : ℝ} {qS qM : Recording} {xS xM τ : List ℝ} {p VpS VpM : Scalar ℝ}
    {HS KS HM KM : List ℝ} {w1S w2S w3S w1M w2M w3M : ℝ} {r : SynthAnalysis.SeqSynthResult ℝ} {b : Row ℝ}
    (hgS : MS.Gives dtS preS aS qS xS) (hcS : MS.Clear dtS preS aS qS)
    (hgM : MM.Gives dtM preM aM qM xM) (hcM : MM.Clear dtM preM aM qM)
    (h : SynthAnalysis.hkSeqSynth env xS xM τ p HS KS (some VpS) (some w1S) (some w2S) (some w3S) HM KM (some VpM)
      (some w1M) (some w2M) (some w3M) = .ok r) (hb : r.bestmodelSed = some b)
    (hlenS : τ.length ≤ xS.length) (hlenM : τ.length ≤ xM.length)
    (hSS : ∀ k ∈ KS, p.val ^ 2 < (k / VpS.val) ^ 2) (hPS : p.val ^ 2 < (1 / VpS.val) ^ 2)
    (hSM : ∀ k ∈ KM, p.val ^ 2 < (k / VpM.val) ^ 2) (hPM : p.val ^ 2 < (1 / VpM.val) ^ 2)
    (hclearS : ∀ k ∈ KS, ∀ y ∈ HS, ClearTimes τ (tPs p.val VpS.val y k) (tPpPs p.val VpS.val y k)
      (tPsPs p.val VpS.val y k) 0)
    (hclearM : ∀ k ∈ KM, ∀ y ∈ HM, ClearTimes τ (mohoPs p.val VpS.val b.h b.k VpM.val y k)
      (mohoPpPs p.val VpS.val b.h b.k VpM.val y k) (mohoPsPs p.val VpS.val b.h b.k VpM.val y k) 0)
    (hbestS : Margin 0 r.stackvalueSed r.bestIdxSed) (hbestM : Margin 0 r.stackvalueMoho r.bestIdxMoho) :
    ∃ C > 0, ∃ δ > 0, ∀ e, 0 < e → e ≤ δ → ∀ qS' qM', qS.Within e qS' → qM.Within e qM' → ∀ R : Rounding, R.u ≤ e →
      ∀ (env' : Env (FL R)) (dS dM t HS' KS' HM' KM' : List (FL R)) (p' VpS' VpM' : Scalar (FL R))
        (v1S v2S v3S v1M v2M v3M : FL R) ε, 0 ≤ ε → ε ≤ e → MS.Computes ε dtS preS aS qS' (dS.map FL.val) →
        MM.Computes ε dtM preM aM qM' (dM.map FL.val) → t.map FL.val = τ →
        HS'.map FL.val = HS → KS'.map FL.val = KS → HM'.map FL.val = HM → KM'.map FL.val = KM →
        p'.val.val = p.val → VpS'.val.val = VpS.val → VpM'.val.val = VpM.val → v1S.val = w1S → v2S.val = w2S →
        v3S.val = w3S → v1M.val = w1M → v2M.val = w2M → v3M.val = w3M →
        (∀ tb, tb ≠ [] → env'.draw tb = .ok ()) →
        ∃ r', SynthAnalysis.hkSeqSynth env' dS dM t p' HS' KS' (some VpS') (some v1S) (some v2S) (some v3S) HM' KM'
            (some VpM') (some v1M) (some v2M) (some v3M) = .ok r' ∧
          NearTable (C * e) r.stackvalueSed (r'.stackvalueSed.map exactRow) ∧ r'.bestIdxSed = r.bestIdxSed ∧
          NearTable (C * e) r.stackvalueMoho (r'.stackvalueMoho.map exactRow) ∧ r'.bestIdxMoho = r.bestIdxMoho := by
  obtain ⟨C1, hC1, δ1, hδ1, g1⟩ := c143_receiver_function hgS hcS
  obtain ⟨C2, hC2, δ2, hδ2, g2⟩ := c143_receiver_function hgM hcM
  obtain ⟨C, hC, δ, hδ, g⟩ := c140_hkSeqSynth h hb hlenS hlenM hSS hPS hSM hPM hclearS hclearM hbestS hbestM
    (C := C1 + C2) (by positivity)
  refine ⟨C, hC, min δ (min δ1 δ2), lt_min hδ (lt_min hδ1 hδ2), ?_⟩
  intro e he hed qS' qM' hqS hqM R hR env' dS dM t HS' KS' HM' KM' p' VpS' VpM' v1S v2S v3S v1M v2M v3M ε k0 k1 kS kM
  exact g e he (hed.trans (min_le_left _ _)) R hR env' dS dM t HS' KS' HM' KM' p' VpS' VpM' v1S v2S v3S v1M v2M v3M
    (samplesWithin_mono (by nlinarith) ((g1 e he (hed.trans ((min_le_right _ _).trans (min_le_left _ _))) qS' hqS).1 ε k0 k1 _ kS))
    (samplesWithin_mono (by nlinarith) ((g2 e he (hed.trans ((min_le_right _ _).trans (min_le_right _ _))) qM' hqM).1 ε k0 k1 _ kM))

end

end Rfsed.Props
