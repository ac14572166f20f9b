import Verif.Props.Window
import Verif.Proofs.Seq
import Verif.Proofs.PostCritical
import Verif.Props.Variants
import Verif.Props.Seq

/-!
# Property C94, the other stacking functions
-/

namespace Rfsed.Props
open Spec HkZhu
open PyFloat

theorem weigh_window {dt pre pre' T w1 w2 w3 v t1 t2 t3 : ℝ} {l l' : Nat} {d d' : List ℝ} (hdt : 0 < dt)
    (hc : CoversTo dt pre T l) (hc' : CoversTo dt pre' T l') (hal : Aligned dt pre pre')
    (hd : SameWindow dt pre pre' T d d') (h1 : 0 ≤ t1 ∧ t1 ≤ T) (h2 : 0 ≤ t2 ∧ t2 ≤ T) (h3 : 0 ≤ t3 ∧ t3 ≤ T)
    (h : weigh w1 w2 w3 d (timeAxis dt pre l) (.real t1, .real t2, .real t3) = .ok v) :
    weigh w1 w2 w3 d' (timeAxis dt pre' l') (.real t1, .real t2, .real t3) = .ok v := by
  rw [weigh_real] at h ⊢
  obtain ⟨y1, y2, y3, g1, g2, g3, e⟩ := h
  exact ⟨y1, y2, y3, readsNearest_window hdt hc hc' hal hd h1.1 h1.2 g1,
    readsNearest_window hdt hc hc' hal hd h2.1 h2.2 g2, readsNearest_window hdt hc hc' hal hd h3.1 h3.2 g3, e⟩

theorem gridLoop_same {K H : List ℝ} {v v' : ℝ → ℝ → Except PyErr ℝ} {tb tb' : List (Row ℝ)}
    (h : gridLoop K H v = .ok tb) (h' : gridLoop K H v' = .ok tb')
    (hv : ∀ k ∈ K, ∀ x ∈ H, ∀ s, v k x = .ok s → v' k x = .ok s) : tb' = tb := by
  have := gridLoop_map (g := id) h hv
  rw [h'] at this
  have e := Except.ok.inj this
  rw [e]
  exact List.map_id tb

/-- **C94** `hkYu`: two versions of a filtered receiver function with the same two-way time `tlag`, agreeing from half
a sample before P to half a sample after the largest possible delay time plus `tlag`, give the same table, best
model, sediment thickness and delay. -/
theorem c94_hkYu {env env' : Env ℝ} {flt flt' : HkYu.FltInput ℝ} {dt pre pre' T : ℝ} {l l' : Nat} {rp : Scalar ℝ}
    {H K : List ℝ} {Vp VpS VsS : Scalar ℝ} {w1 w2 w3 : ℝ} {r r' : HkYu.YuResult ℝ}
    (h : HkYu.hkYu env flt rp H K (some Vp) (some VpS) (some VsS) (some w1) (some w2) (some w3) = .ok r)
    (h' : HkYu.hkYu env' flt' rp H K (some Vp) (some VpS) (some VsS) (some w1) (some w2) (some w3) = .ok r')
    (ht : flt.time = timeAxis dt pre l) (ht' : flt'.time = timeAxis dt pre' l') (htlag : flt'.tlag = flt.tlag)
    (hdt : 0 < dt) (hal : Aligned dt pre pre') (hc : CoversTo dt pre T l) (hc' : CoversTo dt pre' T l')
    (hsame : SameWindow dt pre pre' T flt.filteredrf flt'.filteredrf)
    (hVp : 0 < Vp.val) (hH : ∀ x ∈ H, 0 ≤ x) (hK : ∀ k ∈ K, 1 ≤ k) (hlag : 0 ≤ flt.tlag.val)
    (hsed : 0 < VsS.val ∧ VsS.val ≤ VpS.val)
    (hT : ∀ k ∈ K, ∀ x ∈ H, 2 * x * k / Vp.val + flt.tlag.val ≤ T) (hpre : rp.val ^ 2 ≤ (1 / Vp.val) ^ 2) :
    r'.stackvaluesSubSed = r.stackvaluesSubSed ∧ r'.bestIdx = r.bestIdx ∧ r'.bestmodel = r.bestmodel ∧
      r'.SedThick = r.SedThick ∧ r'.Pdelay = r.Pdelay := by
  obtain ⟨vs, a, b, bm, f⟩ := hkYu_inv h
  obtain ⟨vs', a', b', bm', f'⟩ := hkYu_inv h'
  have e1 := f.hvs; cases e1
  have e2 := f'.hvs; cases e2
  have hS : r'.SedThick = r.SedThick := by rw [f'.hSed, f.hSed, htlag]
  have hV : r'.VpSed = r.VpSed := by rw [f'.hVpSed, f.hVpSed]
  have hP : r'.Pdelay = r.Pdelay := by
    have ha := f'.ha
    have hb := f'.hb
    rw [htlag, hS] at ha hb
    rw [hV] at hb
    rw [f.ha] at ha
    rw [f.hb] at hb
    rw [f'.hPd, f.hPd, Except.ok.inj ha, Except.ok.inj hb]
  have hPd := (c23_thickness_delay h hsed.1 hsed.2).2.2 hlag
  have g := f.hgrid
  have g' := f'.hgrid
  rw [f.hVp] at g
  rw [f'.hVp, hP] at g'
  simp only [Option.getD_some] at g g'
  have hT' : r'.stackvaluesSubSed = r.stackvaluesSubSed := by
    refine gridLoop_same g g' ?_
    intro k hk x hx s hv
    rw [yuCell_eq, bestTimes_real hVp.ne' hpre, except_ok_bind] at hv ⊢
    obtain ⟨v, hw, hv⟩ := bind_eq_ok.1 hv
    refine bind_eq_ok.2 ⟨v, ?_, hv⟩
    rw [htlag, ht']
    rw [ht] at hw
    obtain ⟨⟨a1, a2⟩, ⟨b1, b2⟩, c1, c2⟩ := delay_range (p := rp.val) (T := T - flt.tlag.val) hVp (hH x hx) (hK k hk)
      (by linarith [hT k hk x hx])
    simp only [yuShift, zkMarks, PyNum.addr, PyNum.subr] at hw ⊢
    exact weigh_window hdt hc hc' hal hsame ⟨by linarith, by linarith⟩ ⟨by linarith, by linarith⟩
      ⟨by linarith, by linarith⟩ hw
  have hb : r'.bestIdx = r.bestIdx := by
    have := f'.hbest
    rw [hT', f.hbest] at this
    exact (Except.ok.inj this).symm
  refine ⟨hT', hb, ?_, hS, hP⟩
  unfold HkYu.YuResult.bestmodel
  rw [hT', hb]

/-- **C94** `hkSeqSynth`: what the two receiver functions contain before P and after the latest possible multiple does
not matter. -/
theorem c94_hkSeqSynth {env env' : Env ℝ} {dS dS' dM dM' : List ℝ} {dt pre pre' TS TM : ℝ} {l l' : Nat}
    {rp : Scalar ℝ} {HS KS : List ℝ} {VpS vm : Scalar ℝ} {w1S w2S w3S : Option ℝ} {HM KM : List ℝ} {w1M w2M w3M : ℝ}
    {r r' : SynthAnalysis.SeqSynthResult ℝ}
    (h : SynthAnalysis.hkSeqSynth env dS dM (timeAxis dt pre l) rp HS KS (some VpS) w1S w2S w3S HM KM (some vm)
      (some w1M) (some w2M) (some w3M) = .ok r)
    (h' : SynthAnalysis.hkSeqSynth env' dS' dM' (timeAxis dt pre' l') rp HS KS (some VpS) w1S w2S w3S HM KM (some vm)
      (some w1M) (some w2M) (some w3M) = .ok r')
    (hdt : 0 < dt) (hal : Aligned dt pre pre')
    (hcS : CoversTo dt pre TS l) (hcS' : CoversTo dt pre' TS l') (hS : SameWindow dt pre pre' TS dS dS')
    (hcM : CoversTo dt pre TM l) (hcM' : CoversTo dt pre' TM l') (hM : SameWindow dt pre pre' TM dM dM')
    (hVp : 0 < VpS.val) (hvm : 0 < vm.val) (hHS : ∀ x ∈ HS, 0 ≤ x) (hKS : ∀ k ∈ KS, 1 ≤ k)
    (hHM : ∀ x ∈ HM, 0 ≤ x) (hKM : ∀ k ∈ KM, 1 ≤ k)
    (hTS : ∀ k ∈ KS, ∀ x ∈ HS, 2 * x * k / VpS.val ≤ TS)
    (hTM : ∀ k ∈ KS, ∀ x ∈ HS, ∀ k' ∈ KM, ∀ x' ∈ HM, 2 * x * k / VpS.val + 2 * x' * k' / vm.val ≤ TM)
    (hpS : rp.val ^ 2 ≤ (1 / VpS.val) ^ 2) (hpM : rp.val ^ 2 ≤ (1 / vm.val) ^ 2) :
    r'.stackvalueSed = r.stackvalueSed ∧ r'.bestIdxSed = r.bestIdxSed ∧
      r'.stackvalueMoho = r.stackvalueMoho ∧ r'.bestIdxMoho = r.bestIdxMoho := by
  obtain ⟨bm, raw, f⟩ := hkSeqSynth_inv h
  obtain ⟨bm', raw', f'⟩ := hkSeqSynth_inv h'
  have g := f.hgridS
  have g' := f'.hgridS
  rw [f.hVpSed] at g
  rw [f'.hVpSed] at g'
  simp only [Option.getD_some] at g g'
  have hT : r'.stackvalueSed = r.stackvalueSed := by
    refine gridLoop_same g g' ?_
    intro k hk x hx s hv
    rw [seqSedCell_eq, synthCell_eq, bestTimes_real hVp.ne' hpS, except_ok_bind] at hv ⊢
    obtain ⟨v, hw, hv⟩ := bind_eq_ok.1 hv
    refine bind_eq_ok.2 ⟨v, ?_, hv⟩
    obtain ⟨a, b, c⟩ := delay_range (p := rp.val) hVp (hHS x hx) (hKS k hk) (hTS k hk x hx)
    exact weigh_window hdt hcS hcS' hal hS a b c hw
  have hbS : r'.bestIdxSed = r.bestIdxSed := by
    have := f'.hbestS
    rw [hT, f.hbestS] at this
    exact (Except.ok.inj this).symm
  have hbm : bm' = bm := by
    have := f'.hrowS
    rw [hT, hbS, f.hrowS] at this
    exact (Option.some.inj this).symm
  subst hbm
  obtain ⟨hk1, hh1, -⟩ := gridLoop_row g (List.mem_of_getElem? f.hrowS)
  have gm := f.hgridM
  have gm' := f'.hgridM
  rw [f.hVpSed] at gm
  rw [f'.hVpSed] at gm'
  simp only [Option.getD_some] at gm gm'
  have hR : raw' = raw := by
    refine gridLoop_same gm gm' ?_
    intro k hk x hx s hv
    rw [seqMohoCell_eq, mohoTimes_real hVp.ne' hvm.ne' hpS hpM, except_ok_bind] at hv ⊢
    obtain ⟨v, hw, hv⟩ := bind_eq_ok.1 hv
    refine bind_eq_ok.2 ⟨v, ?_, hv⟩
    have hb := hTM _ hk1 _ hh1 k hk x hx
    obtain ⟨⟨a1, a2⟩, ⟨a3, a4⟩, a5, a6⟩ := delay_range (p := rp.val) hVp (hHS _ hh1) (hKS _ hk1) (le_refl _)
    obtain ⟨⟨b1, b2⟩, ⟨b3, b4⟩, b5, b6⟩ := delay_range (p := rp.val) hvm (hHM x hx) (hKM k hk) (le_refl _)
    exact weigh_window hdt hcM hcM' hal hM ⟨by linarith, by linarith⟩ ⟨by linarith, by linarith⟩
      ⟨by linarith, by linarith⟩ hw
  refine ⟨hT, hbS, by rw [f'.hclip, f.hclip, hR], ?_⟩
  have := f'.hbestM
  rw [hR, f.hbestM] at this
  exact (Except.ok.inj this).symm

theorem forall2_append {α β : Type} {R : α → β → Prop} : ∀ {a b : List α} {c : List β}, List.Forall₂ R (a ++ b) c →
    ∃ c1 c2, List.Forall₂ R a c1 ∧ List.Forall₂ R b c2 ∧ c = c1 ++ c2
  | [], _, c, h => ⟨[], c, .nil, h, rfl⟩
  | x :: a, b, c, h => by
    cases h with
    | cons h1 h2 =>
      obtain ⟨c1, c2, p, q, rfl⟩ := forall2_append h2
      exact ⟨_ :: c1, c2, .cons h1 p, q, rfl⟩

theorem sameRF_last {dt pre pre' T : ℝ} {st st' : List (Trace ℝ)} {term term' : Trace ℝ → Except PyErr ℝ} {v : ℝ}
    (hs : List.Forall₂ (SameRF dt pre pre' T) st st')
    (ht : ∀ tr ∈ st, ∀ tr', SameRF dt pre pre' T tr tr' → ∀ w, term tr = .ok w → term' tr' = .ok w)
    (h : HkSeqYeck.lastTrace term st = .ok v) : HkSeqYeck.lastTrace term' st' = .ok v := by
  rw [lastTrace_ok] at h ⊢
  obtain ⟨init, last, rfl, h1, h2⟩ := h
  obtain ⟨a, b, ha, hb, rfl⟩ := forall2_append hs
  cases hb with
  | cons hl hn =>
    rename_i last' rest'
    cases hn
    refine ⟨a, last', rfl, ?_, ht last (by simp) last' hl _ h2⟩
    intro tr' htr'
    have key : ∀ {u u' : List (Trace ℝ)}, List.Forall₂ (SameRF dt pre pre' T) u u' → (∀ x ∈ u, x ∈ init ++ [last]) →
        (∀ tr ∈ u, ∃ w, term tr = .ok w) → ∀ x ∈ u', ∃ w, term' x = .ok w := by
      intro u u' hu
      induction hu with
      | nil => intro _ _ x hx; cases hx
      | cons e _ ih =>
        intro hin ho x hx
        rcases List.mem_cons.1 hx with rfl | hx
        · obtain ⟨w, hw⟩ := ho _ (List.mem_cons_self ..)
          exact ⟨w, ht _ (hin _ (List.mem_cons_self ..)) _ e w hw⟩
        · exact ih (fun y hy => hin y (List.mem_cons_of_mem _ hy)) (fun y hy => ho y (List.mem_cons_of_mem _ hy)) x hx
    exact key ha (fun x hx => List.mem_append_left _ hx) h1 tr' htr'

/-- **C94** `hkSeq`: two versions of both streams that agree from half a sample before P to half a sample after the
latest possible multiple of their stage give the same tables and best models. -/
theorem c94_hkSeq {env env' : Env ℝ} {tr0 tr0' : Trace ℝ} {rest rest' stM stM' : List (Trace ℝ)}
    {pre pre' TS TM : ℝ} {HS KS : List ℝ} {VpS vm : Scalar ℝ} {w1S w2S w3S : Option ℝ} {HM KM : List ℝ}
    {w1M w2M w3M : ℝ} {stack : Option Bool} {r r' : HkSeqYeck.SeqResult ℝ} (hs : stack ≠ some true)
    (h : HkSeqYeck.hkSeq env (tr0 :: rest) stM pre HS KS (some VpS) w1S w2S w3S HM KM (some vm)
      (some w1M) (some w2M) (some w3M) stack = .ok r)
    (h' : HkSeqYeck.hkSeq env' (tr0' :: rest') stM' pre' HS KS (some VpS) w1S w2S w3S HM KM (some vm)
      (some w1M) (some w2M) (some w3M) stack = .ok r')
    (hkm : env'.km2deg1 = env.km2deg1) (hdt : 0 < tr0.delta) (hdelta : tr0'.delta = tr0.delta)
    (hal : Aligned tr0.delta pre pre')
    (hcS : CoversTo tr0.delta pre TS tr0.data.length) (hcS' : CoversTo tr0.delta pre' TS tr0'.data.length)
    (hcM : CoversTo tr0.delta pre TM tr0.data.length) (hcM' : CoversTo tr0.delta pre' TM tr0'.data.length)
    (hS : List.Forall₂ (SameRF tr0.delta pre pre' TS) (tr0 :: rest) (tr0' :: rest'))
    (hM : List.Forall₂ (SameRF tr0.delta pre pre' TM) stM stM')
    (hVp : 0 < VpS.val) (hvm : 0 < vm.val) (hHS : ∀ x ∈ HS, 0 ≤ x) (hKS : ∀ k ∈ KS, 1 ≤ k)
    (hHM : ∀ x ∈ HM, 0 ≤ x) (hKM : ∀ k ∈ KM, 1 ≤ k)
    (hTS : ∀ k ∈ KS, ∀ x ∈ HS, 2 * x * k / VpS.val ≤ TS)
    (hTM : ∀ k ∈ KS, ∀ x ∈ HS, ∀ k' ∈ KM, ∀ x' ∈ HM, 2 * x * k / VpS.val + 2 * x' * k' / vm.val ≤ TM)
    (hpre : ∀ tr ∈ tr0 :: rest ++ stM, ∀ sl, tr.slowness = some sl →
      (env.km2deg1 * sl.val) ^ 2 ≤ (1 / VpS.val) ^ 2 ∧ (env.km2deg1 * sl.val) ^ 2 ≤ (1 / vm.val) ^ 2) :
    r'.stackvalueSed = r.stackvalueSed ∧ r'.bestIdxSed = r.bestIdxSed ∧
      r'.stackvalueMoho = r.stackvalueMoho ∧ r'.bestIdxMoho = r.bestIdxMoho := by
  obtain ⟨t0, rs, slows, bm, raw, f⟩ := hkSeq_inv h
  obtain ⟨t0', rs', slows', bm', raw', f'⟩ := hkSeq_inv h'
  have e1 := f.hst
  have e2 := f'.hst
  simp only [List.cons.injEq] at e1 e2
  obtain ⟨rfl, rfl⟩ := e1
  obtain ⟨rfl, rfl⟩ := e2
  have hsf : stack.getD false = false := by
    cases stack with
    | none => rfl
    | some b => cases b with
      | false => rfl
      | true => exact absurd rfl hs
  have slow_ok : ∀ tr : Trace ℝ, ∀ sl, tr.getSlowness = .ok sl → tr.slowness = some sl := by
    intro tr sl h
    unfold Trace.getSlowness at h
    split at h
    · rename_i e; rw [e, Except.ok.inj h]
    · cases h
  have slow_of : ∀ tr : Trace ℝ, ∀ sl, tr.slowness = some sl → tr.getSlowness = .ok sl := by
    intro tr sl h
    unfold Trace.getSlowness
    rw [h]
  have onset_of : ∀ tr : Trace ℝ, tr.onset.isSome → ∃ o, tr.getOnset = .ok o := by
    intro tr h
    obtain ⟨o, ho⟩ := Option.isSome_iff_exists.1 h
    exact ⟨o, by unfold Trace.getOnset; rw [ho]⟩
  have g := f.hgridS
  have g' := f'.hgridS
  rw [f.hVpSed, f.hstk, hsf, f.htime] at g
  rw [f'.hVpSed, f'.hstk, hsf, f'.htime, hdelta] at g'
  simp only [Option.getD_some] at g g'
  have hT : r'.stackvalueSed = r.stackvalueSed := by
    refine gridLoop_same g g' ?_
    intro k hk x hx s hv
    refine sameRF_last hS ?_ hv
    rintro tr htr tr' ⟨q1, q2, q3, q4⟩ w hw
    rw [sedTerm_eq] at hw ⊢
    obtain ⟨o, -, hw⟩ := bind_eq_ok.1 hw
    obtain ⟨sl, hsl, hw⟩ := bind_eq_ok.1 hw
    obtain ⟨o', ho'⟩ := onset_of tr' q3
    rw [ho', except_ok_bind, slow_of tr' sl (by rw [q1]; exact slow_ok tr sl hsl), except_ok_bind, hkm]
    simp only [Bool.false_eq_true, if_false] at hw ⊢
    have hp := (hpre tr (List.mem_append_left _ htr) sl (slow_ok tr sl hsl)).1
    rw [bestTimes_real hVp.ne' hp, except_ok_bind] at hw ⊢
    obtain ⟨v, hw, hv⟩ := bind_eq_ok.1 hw
    refine bind_eq_ok.2 ⟨v, ?_, hv⟩
    obtain ⟨a, b, c⟩ := delay_range (p := env.km2deg1 * sl.val) hVp (hHS x hx) (hKS k hk) (hTS k hk x hx)
    exact weigh_window hdt hcS hcS' hal q4 a b c hw
  have hbS : r'.bestIdxSed = r.bestIdxSed := by
    have := f'.hbestS
    rw [hT, f.hbestS] at this
    exact (Except.ok.inj this).symm
  have hbm : bm' = bm := by
    have := f'.hrowS
    rw [hT, hbS, f.hrowS] at this
    exact (Option.some.inj this).symm
  subst hbm
  obtain ⟨hk1, hh1, -⟩ := gridLoop_row g (List.mem_of_getElem? f.hrowS)
  have gm := f.hgridM
  have gm' := f'.hgridM
  rw [f.hVpSed, f.hstk, hsf, f.htime] at gm
  rw [f'.hVpSed, f'.hstk, hsf, f'.htime, hdelta] at gm'
  simp only [Option.getD_some] at gm gm'
  have hhead : ∀ o t, item stM 0 = .ok t → t.getOnset = .ok o → ∃ t' o', item stM' 0 = .ok t' ∧ t'.getOnset = .ok o' := by
    intro o t h1 _
    obtain ⟨more, rfl⟩ := item_zero_ok h1
    cases hM with
    | cons a _ =>
      obtain ⟨o', ho'⟩ := onset_of _ a.2.2.1
      exact ⟨_, o', rfl, ho'⟩
  have hR : raw' = raw := by
    refine gridLoop_same gm gm' ?_
    intro k hk x hx s hv
    refine sameRF_last hM ?_ hv
    rintro tr htr tr' ⟨q1, q2, q3, q4⟩ w hw
    rw [mohoTerm_eq] at hw ⊢
    obtain ⟨t, ht, hw⟩ := bind_eq_ok.1 hw
    obtain ⟨o, ho, hw⟩ := bind_eq_ok.1 hw
    obtain ⟨sl, hsl, hw⟩ := bind_eq_ok.1 hw
    obtain ⟨t', o', ht', ho'⟩ := hhead o t ht ho
    rw [ht', except_ok_bind, ho', except_ok_bind, slow_of tr' sl (by rw [q1]; exact slow_ok tr sl hsl),
      except_ok_bind, hkm]
    simp only [Bool.false_eq_true, if_false] at hw ⊢
    obtain ⟨p1, p2⟩ := hpre tr (List.mem_append_right _ htr) sl (slow_ok tr sl hsl)
    rw [mohoTimes_real hVp.ne' hvm.ne' p1 p2, except_ok_bind] at hw ⊢
    obtain ⟨v, hw, hv⟩ := bind_eq_ok.1 hw
    refine bind_eq_ok.2 ⟨v, ?_, hv⟩
    have hb := hTM _ hk1 _ hh1 k hk x hx
    obtain ⟨⟨a1, a2⟩, ⟨a3, a4⟩, a5, a6⟩ := delay_range (p := env.km2deg1 * sl.val) hVp (hHS _ hh1) (hKS _ hk1) (le_refl _)
    obtain ⟨⟨b1, b2⟩, ⟨b3, b4⟩, b5, b6⟩ := delay_range (p := env.km2deg1 * sl.val) hvm (hHM x hx) (hKM k hk) (le_refl _)
    exact weigh_window hdt hcM hcM' hal q4 ⟨by linarith, by linarith⟩ ⟨by linarith, by linarith⟩
      ⟨by linarith, by linarith⟩ hw
  refine ⟨hT, hbS, by rw [f'.hclip, f.hclip, hR], ?_⟩
  have := f'.hbestM
  rw [hR, f.hbestM] at this
  exact (Except.ok.inj this).symm

/-- all hypotheses of `c94_hkYu` are met -/
example : ∃ (flt flt' : HkYu.FltInput ℝ) (r r' : HkYu.YuResult ℝ), flt'.filteredrf ≠ flt.filteredrf ∧
    HkYu.hkYu Sample.env flt ⟨.py, 1 / 2⟩ [0.5] [2, 1.5] (some ⟨.py, 1⟩) (some ⟨.py, 2⟩) (some ⟨.py, 1⟩)
      (some 0.6) (some 0.3) (some 0.1) = .ok r ∧
    HkYu.hkYu Sample.env flt' ⟨.py, 1 / 2⟩ [0.5] [2, 1.5] (some ⟨.py, 1⟩) (some ⟨.py, 2⟩) (some ⟨.py, 1⟩)
      (some 0.6) (some 0.3) (some 0.1) = .ok r' ∧ r'.bestmodel = r.bestmodel := by
  have run : ∀ flt : HkYu.FltInput ℝ, flt.time ≠ [] → flt.time.length ≤ flt.filteredrf.length →
      ∃ r, HkYu.hkYu Sample.env flt ⟨.py, 1 / 2⟩ [0.5] [2, 1.5] (some ⟨.py, 1⟩) (some ⟨.py, 2⟩) (some ⟨.py, 1⟩)
      (some 0.6) (some 0.3) (some 0.1) = .ok r := fun flt h1 h2 =>
    c25_hkYu_succeeds h1 h2 (divisor_real (by norm_num)) (divisor_real (by norm_num)) (divisor_real (by norm_num))
      (by simp) (by simp) (fun _ _ => rfl)
  obtain ⟨r, hr⟩ := run ⟨[0, 1, 3, 2, 1], timeAxis 1 0 5, ⟨.np, 1⟩⟩ (by simp [timeAxis]) (by simp [timeAxis])
  obtain ⟨r', hr'⟩ := run ⟨[7, -7] ++ [0, 1, 3, 2, 1] ++ [9], timeAxis 1 2 8, ⟨.np, 1⟩⟩ (by simp [timeAxis])
    (by simp [timeAxis])
  obtain ⟨h1, h2⟩ := c94_padding 1 0 4 [7, -7] [0, 1, 3, 2, 1] [9] (by norm_num) (by norm_num)
  norm_num at h1 h2
  refine ⟨_, _, r, r', ?_, hr, hr', ?_⟩
  · simp
  · exact (c94_hkYu (T := 4) hr hr' rfl rfl rfl (by norm_num) h2 (by norm_num [CoversTo]) (by norm_num [CoversTo])
      (by simpa using h1) (by norm_num)
      (by intro x hx; simp at hx; subst hx; norm_num)
      (by intro x hx; simp at hx; rcases hx with rfl | rfl <;> norm_num) (by norm_num)
      ⟨by norm_num, by norm_num⟩
      (by
        intro k hk x hx
        simp at hk hx
        subst hx
        rcases hk with rfl | rfl <;> norm_num)
      (by norm_num)).2.2.1

/-- all hypotheses of `c94_hkSeq` are met -/
example : ∃ r r', HkSeqYeck.hkSeq Sample.env [idealTrace] [idealTrace] 0 [0.5] [1.5] (some ⟨.py, 1⟩) none none none
      [0.5] [2, 1.5] (some ⟨.py, 1⟩) (some 0.6) (some 0.3) (some 0.1) none = .ok r ∧
    HkSeqYeck.hkSeq Sample.env [longTrace] [longTrace] 2 [0.5] [1.5] (some ⟨.py, 1⟩) none none none
      [0.5] [2, 1.5] (some ⟨.py, 1⟩) (some 0.6) (some 0.3) (some 0.1) none = .ok r' ∧
    r'.stackvalueMoho = r.stackvalueMoho ∧ r'.bestIdxMoho = r.bestIdxMoho := by
  have run : ∀ (tr : Trace ℝ) (pre : ℝ), tr.data ≠ [] → (∃ o, tr.onset = some o) → (∃ s, tr.slowness = some s) →
      ∃ r, HkSeqYeck.hkSeq Sample.env [tr] [tr] pre [0.5] [1.5] (some ⟨.py, 1⟩) none none none
      [0.5] [2, 1.5] (some ⟨.py, 1⟩) (some 0.6) (some 0.3) (some 0.1) none = .ok r := by
    intro tr pre h1 h2 h3
    refine sample_hkSeq tr [] tr [] h1 ?_ (by simp) (by simp) (by simp) (by simp) one_ne_zero one_ne_zero pre _ _ _ _ _ _ _
    intro tr' h
    simp at h
    subst h
    exact ⟨h2, h3, rfl⟩
  have hd : idealTrace.delta = 1 := rfl
  have hl : idealTrace.data.length = 5 := rfl
  have hl' : longTrace.data.length = 8 := rfl
  obtain ⟨r, hr⟩ := run idealTrace 0 (by intro h; rw [h] at hl; cases hl) ⟨_, rfl⟩ ⟨_, rfl⟩
  obtain ⟨r', hr'⟩ := run longTrace 2 (by intro h; rw [h] at hl'; cases hl') ⟨_, rfl⟩ ⟨_, rfl⟩
  obtain ⟨h1, h2⟩ := c94_padding 1 0 4 [7, -7] idealTrace.data [9] (by norm_num) (by rw [hl]; norm_num)
  norm_num at h1 h2
  have hsame : List.Forall₂ (SameRF idealTrace.delta 0 2 4) [idealTrace] [longTrace] :=
    .cons ⟨rfl, rfl, rfl, by rw [hd]; simpa [longTrace] using h1⟩ .nil
  have hc : CoversTo idealTrace.delta 0 4 idealTrace.data.length := by rw [hd, hl]; norm_num [CoversTo]
  have hc' : CoversTo idealTrace.delta 2 4 longTrace.data.length := by rw [hd, hl']; norm_num [CoversTo]
  have := c94_hkSeq (TS := 4) (TM := 4) (by simp) hr hr' rfl (by rw [hd]; norm_num) rfl (by rw [hd]; exact h2)
    hc hc' hc hc' hsame hsame (by norm_num) (by norm_num)
    (by intro x hx; simp at hx; subst hx; norm_num)
    (by intro x hx; simp at hx; subst hx; norm_num)
    (by intro x hx; simp at hx; subst hx; norm_num)
    (by intro x hx; simp at hx; rcases hx with rfl | rfl <;> norm_num)
    (by
      intro k hk x hx
      simp at hk hx
      subst hk hx; norm_num)
    (by
      intro k hk x hx k' hk' x' hx'
      simp at hk hx hk' hx'
      subst hk hx hx'
      rcases hk' with rfl | rfl <;> norm_num)
    (by
      intro tr htr sl hsl
      simp at htr; subst htr
      simp [idealTrace, Sample.trace] at hsl
      subst hsl; norm_num)
  exact ⟨r, r', hr, hr', this.2.2⟩

end Rfsed.Props
