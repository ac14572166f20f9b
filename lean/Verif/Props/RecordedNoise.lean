import Verif.Props.ExperimentSediment
import Verif.Props.ExperimentHk
import Verif.Spec.Recording

/-!
# C143: noise in the recorded seismograms, together with rounding, cannot change a clear answer
-/

namespace Rfsed.Props
open Rfsed HkZhu Spec Synrf ReverbFilter

section
variable {M : RFMethod} {dt pre a : ℝ} {q : Recording} {rf : List ℝ}

/-- **C143** The receiver function of a recording whose samples are changed by less than `e`, computed in arithmetic of
tolerance `e` or better: every sample within `C e`. -/
theorem c143_receiver_function (hg : M.Gives dt pre a q rf) (hc : M.Clear dt pre a q) :
    ∃ C > 0, ∃ δ > 0, ∀ e, 0 < e → e ≤ δ → ∀ q', q.Within e q' →
      (∀ ε, 0 ≤ ε → ε ≤ e → ∀ out, M.Computes ε dt pre a q' out → SamplesWithin (C * e) rf out) ∧
      (∃ rf', M.Gives dt pre a q' rf') ∧ ∀ rf', M.Gives dt pre a q' rf' → SamplesWithin (C * e) rf rf' := by
  cases M with
  | iterative itmax minderr phase =>
    obtain ⟨R, hR, hrf⟩ := hg
    obtain ⟨hm, hcos, k, hk, P, hP⟩ := hc
    have hit := steady_it hR (Or.inl rfl) hP hk
    subst hit
    obtain ⟨x, hx, C1, hC1, δ1, hδ1, h1⟩ := c139_deconvolution hR (Or.inl rfl) hm ⟨P, hP⟩ hcos
    obtain ⟨x2, hx2, C2, hC2, δ2, hδ2, h2⟩ := c137_proportional hR (Or.inl rfl) hm ⟨P, hP⟩ hcos
    obtain rfl : rf = x := Option.some.inj (hrf.symm.trans hx)
    obtain rfl : rf = x2 := Option.some.inj (hrf.symm.trans hx2)
    refine ⟨C1 + C2, by positivity, min δ1 δ2, lt_min hδ1 hδ2, fun e he hed q' ⟨hr, hv⟩ => ⟨?_, ?_⟩⟩
    · intro ε h0 hle out ⟨k, rms, hrun⟩
      exact samplesWithin_mono (by nlinarith) (h1 e he (hed.trans (min_le_left _ _)) ε h0 hle _ _ out k rms hr hv hrun).2.1
    · obtain ⟨R', rf', a1, -, a2, a3⟩ := h2 e he (hed.trans (min_le_right _ _)) _ _ hr hv
      refine ⟨⟨rf', R', a1, a2⟩, fun rf2 ⟨R2, b1, b2⟩ => ?_⟩
      obtain rfl : R' = R2 := Except.ok.inj (a1.symm.trans b1)
      obtain rfl : rf' = rf2 := Option.some.inj (a2.symm.trans b2)
      exact samplesWithin_mono (by nlinarith) a3
  | water wlevel normalize =>
    obtain ⟨rms, hR⟩ := hg
    obtain ⟨hw, hw1, hv0⟩ := hc
    obtain ⟨C1, hC1, δ1, hδ1, h1⟩ := water_rounded_rate hR hw hw1 hv0
    obtain ⟨C2, hC2, δ2, hδ2, h2⟩ := water_near_rate hR hw hw1 hv0
    refine ⟨C1 + C2, by positivity, min δ1 δ2, lt_min hδ1 hδ2, fun e he hed q' ⟨hr, hv⟩ => ⟨?_, ?_⟩⟩
    · intro ε h0 hle out hrun
      exact samplesWithin_mono (by nlinarith) (h1 e he (hed.trans (min_le_left _ _)) ε h0 hle _ _ out hr hv hrun)
    · obtain ⟨rf', rms', a1, a3⟩ := h2 e he (hed.trans (min_le_right _ _)) _ _ hr hv
      refine ⟨⟨rf', rms', a1⟩, fun rf2 ⟨rms2, b1⟩ => ?_⟩
      have hpair := Except.ok.inj (a1.symm.trans b1)
      obtain rfl : rf' = rf2 := congrArg Prod.fst hpair
      exact samplesWithin_mono (by nlinarith) a3

end

/-- one bound for all events of a list -/
theorem recordings_rate {M : RFMethod} {pre a : ℝ} (es : List (Recording × Trace ℝ))
    (h : ∀ p ∈ es, M.Gives p.2.delta pre a p.1 p.2.data ∧ M.Clear p.2.delta pre a p.1) :
    ∃ C > 0, ∃ δ > 0, ∀ e, 0 < e → e ≤ δ → ∀ p ∈ es, ∀ q', p.1.Within e q' →
      (∀ ε, 0 ≤ ε → ε ≤ e → ∀ out, M.Computes ε p.2.delta pre a q' out → SamplesWithin (C * e) p.2.data out) ∧
      ∀ rf', M.Gives p.2.delta pre a q' rf' → SamplesWithin (C * e) p.2.data rf' := by
  induction es with
  | nil => exact ⟨1, one_pos, 1, one_pos, fun e _ _ p hp => absurd hp List.not_mem_nil⟩
  | cons p0 es ih =>
    obtain ⟨C1, hC1, δ1, hδ1, g1⟩ := ih (fun p hp => h p (List.mem_cons_of_mem _ hp))
    obtain ⟨h1, h2⟩ := h p0 (List.mem_cons_self ..)
    obtain ⟨C2, hC2, δ2, hδ2, g2⟩ := c143_receiver_function h1 h2
    refine ⟨C1 + C2, by positivity, min δ1 δ2, lt_min hδ1 hδ2, fun e he hed p hp q' hq => ?_⟩
    rcases List.mem_cons.1 hp with rfl | hp
    · obtain ⟨g3, -, g4⟩ := g2 e he (hed.trans (min_le_right _ _)) q' hq
      exact ⟨fun ε a1 a2 out a3 => samplesWithin_mono (by nlinarith) (g3 ε a1 a2 out a3),
        fun rf' a1 => samplesWithin_mono (by nlinarith) (g4 rf' a1)⟩
    · obtain ⟨g3, g4⟩ := g1 e he (hed.trans (min_le_left _ _)) p hp q' hq
      exact ⟨fun ε a1 a2 out a3 => samplesWithin_mono (by nlinarith) (g3 ε a1 a2 out a3),
        fun rf' a1 => samplesWithin_mono (by nlinarith) (g4 rf' a1)⟩

theorem forall₂_weaken {α β : Type*} {R S : α → β → Prop} {xs : List α} {ys : List β} (h : List.Forall₂ R xs ys)
    (f : ∀ x y, x ∈ xs → y ∈ ys → R x y → S x y) : List.Forall₂ S xs ys := by
  induction h with
  | nil => exact .nil
  | cons hxy _ ih =>
    exact .cons (f _ _ (List.mem_cons_self ..) (List.mem_cons_self ..) hxy)
      (ih fun x y hx hy => f x y (List.mem_cons_of_mem _ hx) (List.mem_cons_of_mem _ hy))

/-- the same header, as far as the stacking reads it -/
def SameHeader (tr tr' : Trace ℝ) : Prop := tr'.slowness = tr.slowness ∧ tr'.onset = tr.onset ∧ tr'.delta = tr.delta

section
variable {M : RFMethod} {pre a : ℝ} {env : Env ℝ} {e0 : Recording × Trace ℝ} {es : List (Recording × Trace ℝ)}
  {preonset : ℝ} {Vp : Scalar ℝ} {H K : List ℝ} {w1 w2 w3 : ℝ} {layer : Option String} {stack : Option Bool}
  {r : HKResult ℝ}

/-- **C143** Events `(recording, trace with its receiver function)`.  If the exact deconvolutions are clear, and the exact `hk`
on the receiver functions has one best model and one nearest sample for every arrival, then noise of less than `e` in the
recordings and arithmetic of precision `e` or better in the deconvolution and the stacking change the stack values by at most
`C e` and do not change the best model, for every `e` small enough. -/
theorem c143_hk (hs : stack ≠ some true)
    (hrf : ∀ p ∈ e0 :: es, M.Gives p.2.delta pre a p.1 p.2.data ∧ M.Clear p.2.delta pre a p.1)
    (h : hk env ((e0 :: es).map Prod.snd) preonset H K (some Vp) (some w1) (some w2) (some w3) layer stack = .ok r)
    (hlen : ∀ p ∈ es, e0.2.data.length ≤ p.2.data.length)
    (hS : ∀ k ∈ K, ∀ p ∈ e0 :: es, (env.km2deg1 * slownessOf p.2) ^ 2 < (k / Vp.val) ^ 2)
    (hP : ∀ p ∈ e0 :: es, (env.km2deg1 * slownessOf p.2) ^ 2 < (1 / Vp.val) ^ 2)
    (hclear : ∀ k ∈ K, ∀ y ∈ H, ∀ p ∈ e0 :: es,
      ClearArrivals (exactAxis e0.2.delta preonset e0.2.data.length) (env.km2deg1 * slownessOf p.2) Vp.val y k 0)
    (hbest : Margin 0 r.stackvalues r.bestIdx) :
    ∃ C > 0, ∃ δ > 0, ∀ e, 0 < e → e ≤ δ → ∀ R : Rounding, R.u ≤ e →
      ∀ (env' : Env (FL R)) (es' : List (Recording × Trace (FL R))) (H' K' : List (FL R)) (pre' v1 v2 v3 : FL R)
        (Vp' : Scalar (FL R)) (layer' : Option String) (stack' : Option Bool),
        List.Forall₂ (fun p p' => p.1.Within e p'.1 ∧ SameHeader p.2 (exactTrace p'.2) ∧
          ∃ ε, 0 ≤ ε ∧ ε ≤ e ∧ M.Computes ε p.2.delta pre a p'.1 (p'.2.data.map FL.val)) (e0 :: es) es' →
        env'.km2deg1.val = env.km2deg1 → pre'.val = preonset →
        H'.map FL.val = H → K'.map FL.val = K → Vp'.val.val = Vp.val → v1.val = w1 → v2.val = w2 → v3.val = w3 →
        stack' ≠ some true → (∃ sd more, env'.stack (es'.map Prod.snd) = .ok (sd :: more)) →
        (∀ tb, tb ≠ [] → env'.draw tb = .ok ()) →
        ∃ r', hk env' (es'.map Prod.snd) pre' H' K' (some Vp') (some v1) (some v2) (some v3) layer' stack' = .ok r' ∧
          NearTable (C * e) r.stackvalues (r'.stackvalues.map exactRow) ∧ r'.bestIdx = r.bestIdx := by
  obtain ⟨C1, hC1, δ1, hδ1, g1⟩ := recordings_rate (e0 :: es) hrf
  obtain ⟨C2, hC2, δ2, hδ2, g2⟩ := c140_hk (tr0 := e0.2) (rest := es.map Prod.snd) hs h
    (by intro tr ht; obtain ⟨p, hp, rfl⟩ := List.mem_map.1 ht; exact hlen p hp)
    (by
      intro k hk tr ht
      obtain ⟨p, hp, rfl⟩ := List.mem_map.1 (show tr ∈ (e0 :: es).map Prod.snd from ht)
      exact hS k hk p hp)
    (by
      intro tr ht
      obtain ⟨p, hp, rfl⟩ := List.mem_map.1 (show tr ∈ (e0 :: es).map Prod.snd from ht)
      exact hP p hp)
    (by
      intro k hk y hy tr ht
      obtain ⟨p, hp, rfl⟩ := List.mem_map.1 (show tr ∈ (e0 :: es).map Prod.snd from ht)
      exact hclear k hk y hy p hp) hbest hC1.le
  refine ⟨C2, hC2, min δ1 δ2, lt_min hδ1 hδ2, ?_⟩
  intro e he hed R hR env' es' H' K' pre' v1 v2 v3 Vp' layer' stack' hes
  refine g2 e he (hed.trans (min_le_right _ _)) R hR env' (es'.map Prod.snd) H' K' pre' v1 v2 v3 Vp' layer' stack' ?_
  show List.Forall₂ _ ((e0 :: es).map Prod.snd) (es'.map Prod.snd)
  rw [List.forall₂_map_left_iff, List.forall₂_map_right_iff]
  refine forall₂_weaken hes fun p p' hp _ ⟨k1, ⟨k2, k3, k4⟩, ε, k5, k6, k7⟩ => ⟨k2, k3, k4, ?_⟩
  exact near_of_within ((g1 e he (hed.trans (min_le_left _ _)) p hp p'.1 k1).1 ε k5 k6 _ k7)

/-- **C143** noise alone, in exact arithmetic -/
theorem c143_noise (hs : stack ≠ some true)
    (hrf : ∀ p ∈ e0 :: es, M.Gives p.2.delta pre a p.1 p.2.data ∧ M.Clear p.2.delta pre a p.1)
    (h : hk env ((e0 :: es).map Prod.snd) preonset H K (some Vp) (some w1) (some w2) (some w3) layer stack = .ok r)
    (hbest : Margin 0 r.stackvalues r.bestIdx) :
    ∃ C > 0, ∃ δ > 0, ∀ e, 0 < e → e ≤ δ → ∀ (env' : Env ℝ) (es' : List (Recording × Trace ℝ)) (r' : HKResult ℝ),
        List.Forall₂ (fun p p' => p.1.Within e p'.1 ∧ SameHeader p.2 p'.2 ∧
          M.Gives p.2.delta pre a p'.1 p'.2.data) (e0 :: es) es' → env'.km2deg1 = env.km2deg1 →
        hk env' (es'.map Prod.snd) preonset H K (some Vp) (some w1) (some w2) (some w3) layer stack = .ok r' →
        NearTable (C * e) r.stackvalues r'.stackvalues ∧ r'.bestIdx = r.bestIdx := by
  obtain ⟨C1, hC1, δ1, hδ1, g1⟩ := recordings_rate (e0 :: es) hrf
  set B : ℝ := ((e0 :: es).map Prod.snd).length * ((|w1| + |w2| + |w3|) * C1) with hB
  have hB0 : 0 ≤ B := by positivity
  obtain ⟨δ2, hδ2, g2⟩ := exists_radius (margin_eventually hbest (2 * B))
  refine ⟨B + 1, by positivity, min δ1 δ2, lt_min hδ1 hδ2, ?_⟩
  intro e he hed env' es' r' hes hkm h'
  have hn : List.Forall₂ (NearTrace (C1 * e)) ((e0 :: es).map Prod.snd) (es'.map Prod.snd) := by
    rw [List.forall₂_map_left_iff, List.forall₂_map_right_iff]
    refine forall₂_weaken hes fun p p' hp _ ⟨k1, ⟨k2, k3, k4⟩, k5⟩ => ⟨k2, k3, k4, ?_⟩
    exact near_of_within ((g1 e he (hed.trans (min_le_left _ _)) p hp p'.1 k1).2 _ k5)
  obtain ⟨a1, a2⟩ := c95_hk hs hkm hn h h'
  have e1 : (((e0 :: es).map Prod.snd).length : ℝ) * ((|w1| + |w2| + |w3|) * (C1 * e)) = B * e := by rw [hB]; ring
  rw [e1] at a1 a2
  refine ⟨nearTable_mono (by nlinarith) a1, a2 ?_⟩
  rw [← mul_assoc]
  exact g2 e he.le (hed.trans (min_le_right _ _))

/-- **C143** one event, `hkSynth` -/
theorem c143_hkSynth {dt : ℝ} {q : Recording} {x : List ℝ} {S : Search ℝ} {env : Env ℝ} {res : SynthAnalysis.SynthResult ℝ}
    (hg : M.Gives dt pre a q x) (hc : M.Clear dt pre a q) (hd : Decided S env x res) :
    ∃ C > 0, ∃ δ > 0, ∀ e, 0 < e → e ≤ δ → ∀ q', q.Within e q' → ∀ R : Rounding, R.u ≤ e →
      ∀ (S' : Search (FL R)) (env' : Env (FL R)) (d : List (FL R)) ε, 0 ≤ ε → ε ≤ e →
        M.Computes ε dt pre a q' (d.map FL.val) → S'.exact = S → (∀ tb, tb ≠ [] → env'.draw tb = .ok ()) →
        ∃ res', S'.run env' d = .ok res' ∧ NearTable (C * e) res.stackvalues (res'.stackvalues.map exactRow) ∧
          res'.bestIdx = res.bestIdx := by
  obtain ⟨C1, hC1, δ1, hδ1, g1⟩ := c143_receiver_function hg hc
  obtain ⟨C2, hC2, δ2, hδ2, g2⟩ := c140_search hd hC1.le
  refine ⟨C2, hC2, min δ1 δ2, lt_min hδ1 hδ2, fun e he hed q' hq R hR S' env' d ε h0 h1 hrun hS hdraw => ?_⟩
  exact g2 e he (hed.trans (min_le_right _ _)) R hR S' env' d hS
    ((g1 e he (hed.trans (min_le_left _ _)) q' hq).1 ε h0 h1 _ hrun) hdraw

/-- **C143** one event recorded in a sedimentary basin: receiver function, resonance filter, `hkYu` -/
theorem c143_hkYu {dt : ℝ} {q : Recording} {Q : FltResults} {L : ℕ} {env : Env ℝ} {p VpM VpS VsS : Scalar ℝ} {H K : List ℝ}
    {w1 w2 w3 : ℝ} {res : HkYu.YuResult ℝ} (hg : M.Gives dt pre a q Q.rf) (hc : M.Clear dt pre a q)
    (hd : DecidedYu Q L env p VpM VpS VsS H K w1 w2 w3 res) :
    ∃ C > 0, ∃ δ > 0, ∀ e, 0 < e → e ≤ δ → ∀ q', q.Within e q' → ∀ R : Rounding, R.u ≤ e →
      ∀ (env' : Env (FL R)) (flt' : HkYu.FltInput (FL R)) (H' K' : List (FL R)) (p' VpM' VpS' VsS' : Scalar (FL R))
        (v1 v2 v3 : FL R) (x' : List ℝ) ε ac s, 0 ≤ ε → ε ≤ e → M.Computes ε dt pre a q' x' →
        Nonempty (ResonanceRun e x' Q.delta ac s flt'.tlag.val.val (flt'.filteredrf.map FL.val)) →
        flt'.time.map FL.val = Q.time → H'.map FL.val = H → K'.map FL.val = K →
        p'.val.val = p.val → VpM'.val.val = VpM.val → VpS'.val.val = VpS.val → VsS'.val.val = VsS.val →
        v1.val = w1 → v2.val = w2 → v3.val = w3 → (∀ tb, tb ≠ [] → env'.draw tb = .ok ()) →
        ∃ res', HkYu.hkYu env' flt' p' H' K' (some VpM') (some VpS') (some VsS') (some v1) (some v2) (some v3) = .ok res' ∧
          |res'.Pdelay.val - res.Pdelay| ≤ C * e ∧
          NearTable (C * e) res.stackvaluesSubSed (res'.stackvaluesSubSed.map exactRow) ∧ res'.bestIdx = res.bestIdx := by
  obtain ⟨C1, hC1, δ1, hδ1, g1⟩ := c143_receiver_function hg hc
  obtain ⟨C', hC', δ', hδ', h4⟩ := c140_resonance hd.filtered hd.varies hd.trough hd.run hd.long hd.shearVel hd.compVel hd.shear
    hd.compression hd.clear hd.unique hC1.le
  refine ⟨C', hC', min δ1 δ', lt_min hδ1 hδ', ?_⟩
  intro e he hed q' hq R hR env' flt' H' K' p' VpM' VpS' VsS' v1 v2 v3 x' ε ac s h0 h1 hrun
  exact h4 e he (hed.trans (min_le_right _ _)) x' ac s ((g1 e he (hed.trans (min_le_left _ _)) q' hq).1 ε h0 h1 _ hrun)
    R hR env' flt' H' K' p' VpM' VpS' VsS' v1 v2 v3

end

end Rfsed.Props
