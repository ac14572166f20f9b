import Verif.Props.RecordedNoiseStack
import Verif.Props.ExperimentSediment

/-!
# C146: noise in the recorded seismograms and the modified H-k method on a stack
-/

namespace Rfsed.Props
open Rfsed HkZhu Spec Synrf ReverbFilter

section
variable {M : RFMethod} {pre a C0 : ℝ} {es : List (Recording × Trace ℝ)} {sd : List ℝ} {Q : FltResults} {L : ℕ} {env : Env ℝ}
  {preonset : ℝ} {p VpM VpS VsS : Scalar ℝ} {H K : List ℝ} {w1 w2 w3 : ℝ} {res : HkYu.YuResult ℝ} {more : List (List ℝ)}

/-- the filter keeps the stack it was given -/
theorem reverb_stack (hsd : env.stack (es.map Prod.snd) = .ok (sd :: more))
    (hQ : ReverbFilter.ResonanceFilt env (es.map Prod.snd) preonset = .ok Q) : Q.rf = sd := by
  obtain ⟨tr0, S, data, -, h2, h3, -, -, rfl⟩ := resRev_of hQ
  rw [hsd] at h2
  cases h2
  cases h3
  rfl

/-- **C146** Recorded events `(recording, trace with its receiver function)` over a sedimentary basin: their receiver functions
are averaged, the average goes through the resonance filter and into `hkYu`.  If in exact arithmetic the deconvolutions are
clear, the filter finds one clear trough and the table is decided, then noise of less than `e` in the recordings and arithmetic
of precision `e` or better, with a stack within `C0 e` of the average, change the P delay and every stack value by at most
`C e` and do not change the best model, for every `e` small enough. -/
theorem c146_hkYu (hC0 : 0 ≤ C0)
    (hrf : ∀ q ∈ es, M.Gives q.2.delta pre a q.1 q.2.data ∧ M.Clear q.2.delta pre a q.1)
    (hsd : env.stack (es.map Prod.snd) = .ok (sd :: more))
    (havg : AverageWithin 0 (es.map fun q => q.2.data) sd)
    (hQ : ReverbFilter.ResonanceFilt env (es.map Prod.snd) preonset = .ok Q)
    (hd : DecidedYu Q L env p VpM VpS VsS H K w1 w2 w3 res) :
    ∃ C > 0, ∃ δ > 0, ∀ e, 0 < e → e ≤ δ → ∀ R : Rounding, R.u ≤ e →
      ∀ (env' : Env (FL R)) (es' : List (Recording × Trace (FL R))) (sd' : List (FL R))
        (flt' : HkYu.FltInput (FL R)) (H' K' : List (FL R)) (p' VpM' VpS' VsS' : Scalar (FL R)) (v1 v2 v3 : FL R) ac s,
        RecordedStream M pre a e es es' →
        AverageWithin (C0 * e) (es'.map fun q => q.2.data.map FL.val) (sd'.map FL.val) →
        Nonempty (ResonanceRun e (sd'.map FL.val) Q.delta ac s flt'.tlag.val.val (flt'.filteredrf.map FL.val)) →
        flt'.time.map FL.val = Q.time → H'.map FL.val = H → K'.map FL.val = K →
        p'.val.val = p.val → VpM'.val.val = VpM.val → VpS'.val.val = VpS.val → VsS'.val.val = VsS.val →
        v1.val = w1 → v2.val = w2 → v3.val = w3 → (∀ tb, tb ≠ [] → env'.draw tb = .ok ()) →
        ∃ res', HkYu.hkYu env' flt' p' H' K' (some VpM') (some VpS') (some VsS') (some v1) (some v2) (some v3) = .ok res' ∧
          |res'.Pdelay.val - res.Pdelay| ≤ C * e ∧
          NearTable (C * e) res.stackvaluesSubSed (res'.stackvaluesSubSed.map exactRow) ∧ res'.bestIdx = res.bestIdx := by
  obtain ⟨C1, hC1, δ1, hδ1, g1⟩ := recorded_near es hrf
  obtain ⟨C', hC', δ', hδ', h4⟩ := c140_resonance hd.filtered hd.varies hd.trough hd.run hd.long hd.shearVel hd.compVel hd.shear
    hd.compression hd.clear hd.unique (C := C1 + C0 + 1) (by positivity)
  refine ⟨C', hC', min δ1 δ', lt_min hδ1 hδ', ?_⟩
  intro e he hed R hR env' es' sd' flt' H' K' p' VpM' VpS' VsS' v1 v2 v3 ac s hes hav
  have hn := nearStream_data (g1 e he (hed.trans (min_le_left _ _)) R es' hes)
  rw [List.map_map, List.map_map] at hn
  have hx : SamplesWithin ((C1 + C0 + 1) * e) Q.rf (sd'.map FL.val) := by
    rw [reverb_stack hsd hQ]
    refine forall₂_weaken (average_near hn havg hav) fun x y _ _ k => lt_of_le_of_lt ((abs_sub_comm ..).trans_le k) ?_
    nlinarith
  exact h4 e he (hed.trans (min_le_right _ _)) _ ac s hx R hR env' flt' H' K' p' VpM' VpS' VsS' v1 v2 v3

end

end Rfsed.Props
