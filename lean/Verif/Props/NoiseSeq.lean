import Verif.Props.Noise
import Verif.Props.Seq
import Verif.Proofs.Variants2

/-!
# Property C95 for the sequential functions

The Moho stage uses the sediment model found first, so it is stable only if that is; its table is clipped at zero before
it is returned.
-/

namespace Rfsed.Props
open Rfsed PyFloat Spec HkZhu

theorem near_clip {e : ℝ} {tb tb' : List (Row ℝ)} (h : NearTable e tb tb') : NearTable e (clipLoop tb) (clipLoop tb') := by
  rw [clipLoop_eq, clipLoop_eq]
  unfold NearTable at h ⊢
  rw [List.forall₂_map_left_iff, List.forall₂_map_right_iff]
  refine h.imp ?_
  rintro a b ⟨h1, h2, h3⟩
  rw [clipRow_real, clipRow_real]
  exact ⟨h1, h2, (abs_max_sub_max_le_abs _ _ _).trans h3⟩

/-- a margin in the clipped table is one in the table itself -/
theorem margin_of_clip {m : ℝ} (hm : 0 ≤ m) {tb : List (Row ℝ)} {n : Nat} (h : Margin m (clipLoop tb) n)
    : Margin m tb n := by
  intro best hb j row hj hrow
  rw [clipLoop_eq] at h
  have := h (clipRow best) (by rw [List.getElem?_map, hb]; rfl) j (clipRow row) hj (by rw [List.getElem?_map, hrow]; rfl)
  rw [clipRow_real, clipRow_real] at this
  simp only at this
  rcases le_total best.s 0 with h0 | h0
  · rw [max_eq_right h0] at this
    have := le_max_right row.s 0
    linarith
  · rw [max_eq_left h0] at this
    have := le_max_left row.s 0
    linarith

theorem wsum_nonneg {w1 w2 w3 e : ℝ} (he : 0 ≤ e) : 0 ≤ 2 * ((|w1| + |w2| + |w3|) * e) := by positivity

/-- **C95** `hkSeqSynth`: the sediment table changes by at most `(|w1| + |w2| + |w3|) eS`.  If the best sediment model wins
by more than twice this, it stays, and then the same holds for the Moho stage. -/
theorem c95_hkSeqSynth {env env' : Env ℝ} {dS dS' dM dM' t : List ℝ} {rp : Scalar ℝ} {HS KS : List ℝ}
    {VpS : Option (Scalar ℝ)} {w1S w2S w3S eS eM : ℝ} {HM KM : List ℝ} {vm : Scalar ℝ} {w1M w2M w3M : ℝ}
    {r r' : SynthAnalysis.SeqSynthResult ℝ} (hS : Near eS dS dS') (hM : Near eM dM dM') (h0 : 0 ≤ eM)
    (h : SynthAnalysis.hkSeqSynth env dS dM t rp HS KS VpS (some w1S) (some w2S) (some w3S) HM KM (some vm) (some w1M)
      (some w2M) (some w3M) = .ok r)
    (h' : SynthAnalysis.hkSeqSynth env' dS' dM' t rp HS KS VpS (some w1S) (some w2S) (some w3S) HM KM (some vm)
      (some w1M) (some w2M) (some w3M) = .ok r') :
    let BS := (|w1S| + |w2S| + |w3S|) * eS
    let BM := (|w1M| + |w2M| + |w3M|) * eM
    NearTable BS r.stackvalueSed r'.stackvalueSed ∧
    (Margin (2 * BS) r.stackvalueSed r.bestIdxSed → r'.bestIdxSed = r.bestIdxSed ∧
      NearTable BM r.stackvalueMoho r'.stackvalueMoho ∧
      (Margin (2 * BM) r.stackvalueMoho r.bestIdxMoho → r'.bestIdxMoho = r.bestIdxMoho)) := by
  intro BS BM
  obtain ⟨bm, raw, f⟩ := hkSeqSynth_inv h
  obtain ⟨bm', raw', f'⟩ := hkSeqSynth_inv h'
  have hT : NearTable BS r.stackvalueSed r'.stackvalueSed := by
    have g' := f'.hgridS
    rw [f'.hVpSed, ← f.hVpSed] at g'
    refine nearTable_of f.hgridS g' ?_
    intro k _ x _ a b ha hb
    rw [seqSedCell_eq, synthCell_eq] at ha hb
    exact near_times hS ha hb
  refine ⟨hT, fun hm => ?_⟩
  have hbest := nearTable_best hT f.hbestS f'.hbestS hm
  have hbm : bm'.h = bm.h ∧ bm'.k = bm.k := by
    have h1 := f.hrowS
    have h2 := f'.hrowS
    rw [hbest] at h2
    obtain ⟨l1, e1⟩ := List.getElem?_eq_some_iff.1 h1
    obtain ⟨l2, e2⟩ := List.getElem?_eq_some_iff.1 h2
    have := (List.forall₂_iff_get.1 hT).2 _ l1 l2
    simp only [List.get_eq_getElem, e1, e2] at this
    exact ⟨this.1, this.2.1⟩
  have hR : NearTable BM raw raw' := by
    have g' := f'.hgridM
    rw [f'.hVpSed, ← f.hVpSed, hbm.1, hbm.2] at g'
    refine nearTable_of f.hgridM g' ?_
    intro k _ x _ a b ha hb
    rw [seqMohoCell_eq] at ha hb
    exact near_times hM ha hb
  refine ⟨hbest, ?_, fun hm2 => ?_⟩
  · rw [f.hclip, f'.hclip]
    exact near_clip hR
  · rw [f.hclip] at hm2
    exact nearTable_best hR f.hbestM f'.hbestM (margin_of_clip (wsum_nonneg h0) hm2)

/-- the last traces of two streams that differ by noise -/
theorem near_last {P : Trace ℝ → Trace ℝ → Prop} {st st' : List (Trace ℝ)} (hn : List.Forall₂ P st st')
    {f f' : Trace ℝ → Except PyErr ℝ} {a b : ℝ} (h : HkSeqYeck.lastTrace f st = .ok a)
    (h' : HkSeqYeck.lastTrace f' st' = .ok b) : ∃ tr tr', P tr tr' ∧ f tr = .ok a ∧ f' tr' = .ok b := by
  obtain ⟨i, l, rfl, -, h1⟩ := lastTrace_ok.1 h
  obtain ⟨i', l', rfl, -, h1'⟩ := lastTrace_ok.1 h'
  refine ⟨l, l', ?_, h1, h1'⟩
  have hr := List.rel_reverse hn
  rw [List.reverse_append, List.reverse_append] at hr
  cases hr with
  | cons a _ => exact a

/-- **C95** `hkSeq` (without pre-stacking) -/
theorem c95_hkSeq {env env' : Env ℝ} {stS stS' stM stM' : List (Trace ℝ)} {preonset : ℝ} {HS KS : List ℝ}
    {VpS : Option (Scalar ℝ)} {w1S w2S w3S eS eM : ℝ} {HM KM : List ℝ} {vm : Scalar ℝ} {w1M w2M w3M : ℝ}
    {stack : Option Bool} {r r' : HkSeqYeck.SeqResult ℝ} (hs : stack ≠ some true) (hkm : env'.km2deg1 = env.km2deg1)
    (hS : List.Forall₂ (NearTrace eS) stS stS') (hM : List.Forall₂ (NearTrace eM) stM stM') (h0 : 0 ≤ eM)
    (h : HkSeqYeck.hkSeq env stS stM preonset HS KS VpS (some w1S) (some w2S) (some w3S) HM KM (some vm) (some w1M)
      (some w2M) (some w3M) stack = .ok r)
    (h' : HkSeqYeck.hkSeq env' stS' stM' preonset HS KS VpS (some w1S) (some w2S) (some w3S) HM KM (some vm)
      (some w1M) (some w2M) (some w3M) stack = .ok r') :
    let BS := (|w1S| + |w2S| + |w3S|) * eS
    let BM := (|w1M| + |w2M| + |w3M|) * eM
    NearTable BS r.stackvalueSed r'.stackvalueSed ∧
    (Margin (2 * BS) r.stackvalueSed r.bestIdxSed → r'.bestIdxSed = r.bestIdxSed ∧
      NearTable BM r.stackvalueMoho r'.stackvalueMoho ∧
      (Margin (2 * BM) r.stackvalueMoho r.bestIdxMoho → r'.bestIdxMoho = r.bestIdxMoho)) := by
  intro BS BM
  obtain ⟨tr0, rest, slows, bm, raw, f⟩ := hkSeq_inv h
  obtain ⟨tr0', rest', slows', bm', raw', f'⟩ := hkSeq_inv h'
  have hsf : stack.getD false = false := by
    cases stack with
    | none => rfl
    | some b => cases b with
      | false => rfl
      | true => exact absurd rfl hs
  have hh : NearTrace eS tr0 tr0' := by
    have := hS
    rw [f.hst, f'.hst] at this
    cases this with
    | cons a _ => exact a
  have ht : r'.time = r.time := by
    rw [f'.htime, f.htime, hh.2.2.1, hh.2.2.2.length_eq]
  have hT : NearTable BS r.stackvalueSed r'.stackvalueSed := by
    have g := f.hgridS
    have g' := f'.hgridS
    rw [f.hstk, hsf] at g
    rw [f'.hstk, hsf, f'.hVpSed, ← f.hVpSed, ht] at g'
    refine nearTable_of g g' ?_
    intro k _ x _ a b ha hb
    obtain ⟨tr, tr', hn, q, q'⟩ := near_last hS ha hb
    rw [sedTerm_eq] at q q'
    obtain ⟨_, -, q⟩ := bind_eq_ok.1 q
    obtain ⟨_, -, q'⟩ := bind_eq_ok.1 q'
    obtain ⟨sl, s1, q⟩ := bind_eq_ok.1 q
    obtain ⟨sl', s1', q'⟩ := bind_eq_ok.1 q'
    have : sl' = sl := by
      unfold Trace.getSlowness at s1 s1'
      rw [hn.1] at s1'
      exact Except.ok.inj (s1'.symm.trans s1)
    subst this
    simp only [Bool.false_eq_true, if_false, hkm] at q q'
    exact near_times hn.2.2.2 q q'
  refine ⟨hT, fun hm => ?_⟩
  have hbest := nearTable_best hT f.hbestS f'.hbestS hm
  have hbm : bm'.h = bm.h ∧ bm'.k = bm.k := by
    have h1 := f.hrowS
    have h2 := f'.hrowS
    rw [hbest] at h2
    obtain ⟨l1, e1⟩ := List.getElem?_eq_some_iff.1 h1
    obtain ⟨l2, e2⟩ := List.getElem?_eq_some_iff.1 h2
    have := (List.forall₂_iff_get.1 hT).2 _ l1 l2
    simp only [List.get_eq_getElem, e1, e2] at this
    exact ⟨this.1, this.2.1⟩
  have hR : NearTable BM raw raw' := by
    have g := f.hgridM
    have g' := f'.hgridM
    rw [f.hstk, hsf] at g
    rw [f'.hstk, hsf, f'.hVpSed, ← f.hVpSed, hbm.1, hbm.2, ht] at g'
    refine nearTable_of g g' ?_
    intro k _ x _ a b ha hb
    obtain ⟨tr, tr', hn, q, q'⟩ := near_last hM ha hb
    rw [mohoTerm_eq] at q q'
    obtain ⟨_, -, q⟩ := bind_eq_ok.1 q
    obtain ⟨_, -, q'⟩ := bind_eq_ok.1 q'
    obtain ⟨_, -, q⟩ := bind_eq_ok.1 q
    obtain ⟨_, -, q'⟩ := bind_eq_ok.1 q'
    obtain ⟨sl, s1, q⟩ := bind_eq_ok.1 q
    obtain ⟨sl', s1', q'⟩ := bind_eq_ok.1 q'
    have : sl' = sl := by
      unfold Trace.getSlowness at s1 s1'
      rw [hn.1] at s1'
      exact Except.ok.inj (s1'.symm.trans s1)
    subst this
    simp only [Bool.false_eq_true, if_false, hkm] at q q'
    exact near_times hn.2.2.2 q q'
  refine ⟨hbest, ?_, fun hm2 => ?_⟩
  · rw [f.hclip, f'.hclip]
    exact near_clip hR
  · rw [f.hclip] at hm2
    exact nearTable_best hR f.hbestM f'.hbestM (margin_of_clip (wsum_nonneg h0) hm2)

theorem margin_single {m : ℝ} {tb : List (Row ℝ)} {n : Nat} (h : tb.length = 1) : Margin m tb n := by
  intro best hb j row hj hrow
  have h1 := (List.getElem?_eq_some_iff.1 hb).1
  have h2 := (List.getElem?_eq_some_iff.1 hrow).1
  omega

/-- the hypotheses are met: any six samples per record and any noise below 0.1, one candidate for the sediment, one for the
crust; both searches run, and both tables move by at most 0.1 -/
example (d d' : Fin 6 → ℝ) (hn : Near 0.1 (List.ofFn d) (List.ofFn d')) :
    ∃ r r', HkSeqYeck.hkSeq Sample.env [Sample.trace (List.ofFn d) 6] [Sample.trace (List.ofFn d) 5] 0 [2] [3]
        (some ⟨.py, 3⟩) (some 0.6) (some 0.3) (some 0.1) [30] [2] (some ⟨.py, 6⟩) (some 0.6) (some 0.3) (some 0.1)
        (some false) = .ok r ∧
      HkSeqYeck.hkSeq Sample.env [Sample.trace (List.ofFn d') 6] [Sample.trace (List.ofFn d') 5] 0 [2] [3]
        (some ⟨.py, 3⟩) (some 0.6) (some 0.3) (some 0.1) [30] [2] (some ⟨.py, 6⟩) (some 0.6) (some 0.3) (some 0.1)
        (some false) = .ok r' ∧
      NearTable 0.1 r.stackvalueSed r'.stackvalueSed ∧ NearTable 0.1 r.stackvalueMoho r'.stackvalueMoho := by
  have run : ∀ d : Fin 6 → ℝ, ∃ r, HkSeqYeck.hkSeq Sample.env [Sample.trace (List.ofFn d) 6]
      [Sample.trace (List.ofFn d) 5] 0 [2] [3]
        (some ⟨.py, 3⟩) (some 0.6) (some 0.3) (some 0.1) [30] [2] (some ⟨.py, 6⟩) (some 0.6) (some 0.3) (some 0.1)
        (some false) = .ok r := by
    intro d
    refine sample_hkSeq (Sample.trace (List.ofFn d) 6) [] (Sample.trace (List.ofFn d) 5) [] (by simp [Sample.trace]) ?_
      (by simp) (by simp) (by simp) (by simp) (by norm_num) (by norm_num) 0 _ _ _ _ _ _ _
    intro tr htr
    have : tr = Sample.trace (List.ofFn d) 6 ∨ tr = Sample.trace (List.ofFn d) 5 := by simpa using htr
    rcases this with rfl | rfl
    · exact ⟨⟨2, rfl⟩, ⟨_, rfl⟩, rfl⟩
    · exact ⟨⟨2, rfl⟩, ⟨_, rfl⟩, rfl⟩
  obtain ⟨r, h⟩ := run d
  obtain ⟨r', h'⟩ := run d'
  have nt : ∀ p : ℝ, NearTrace 0.1 (Sample.trace (List.ofFn d) p) (Sample.trace (List.ofFn d') p) :=
    fun p => ⟨rfl, rfl, rfl, hn⟩
  have q := c95_hkSeq (by simp) rfl (List.Forall₂.cons (nt 6) .nil) (List.Forall₂.cons (nt 5) .nil) (by norm_num) h h'
  have hw : (|(0.6 : ℝ)| + |(0.3 : ℝ)| + |(0.1 : ℝ)|) * 0.1 = 0.1 := by
    rw [abs_of_pos (by norm_num), abs_of_pos (by norm_num), abs_of_pos (by norm_num)]
    norm_num
  simp only [hw] at q
  exact ⟨r, r', h, h', q.1, (q.2 (margin_single (by rw [(c25_hkSeq_grid h).1.1]; rfl))).2.1⟩

end Rfsed.Props
