import Verif.Proofs.Variants
import Verif.Spec.Clip

namespace Rfsed
open PyFloat Spec
set_option linter.unusedSectionVars false
variable {F : Type} [PyFloat F]

theorem clipRow_eq (row : Row F) :
    clipRow row = ⟨row.h, row.k, if le row.s zero then zero else row.s⟩ := by
  unfold clipRow
  split <;> rfl

theorem clippedFrom_iff {old new : List (Row F)} : ClippedFrom old new ↔ new = clipLoop old := by
  rw [clipLoop_eq]
  constructor
  · rintro ⟨hl, h⟩
    apply List.ext_getElem?
    intro i
    rw [List.getElem?_map]
    cases ho : old[i]? with
    | none =>
      rw [List.getElem?_eq_none_iff] at ho
      simp [hl, ho]
    | some row => rw [h i row ho]; simp [clipRow_eq]
  · rintro rfl
    refine ⟨by simp, ?_⟩
    intro i row h
    simp [h, clipRow_eq]

theorem clipLoop_idem (tb : List (Row F)) : clipLoop (clipLoop tb) = clipLoop tb := by
  simp only [clipLoop_eq, List.map_map]
  congr 1
  funext row
  exact clipRow_idem row

theorem clipLoop_getElem? {tb : List (Row F)} {i : Nat} {row : Row F} (h : tb[i]? = some row) :
    (clipLoop tb)[i]? = some (clipRow row) := by
  rw [clipLoop_eq]; simp [h]

namespace HkZhu

/-- header of a trace plus three more entries -/
def stamp (k1 k2 k3 : String) (ts : PyNum F × PyNum F × PyNum F) (tr : Trace F) : Trace F :=
  ((tr.setStat k1 ts.1).setStat k2 ts.2.1).setStat k3 ts.2.2

/-- the times the annotation loop computes for a trace -/
def timesOf (env : Env F) (Vp : Scalar F) (x k : F) (tr : Trace F) :
    Except PyErr (PyNum F × PyNum F × PyNum F) := do
  let slow ← tr.getSlowness
  bestTimes Vp slow.kind (env.km2deg1 * slow.val) x k

theorem annotate_ok {env : Env F} {Vp : Scalar F} {x k : F} (hVp : VpOk Vp)
    (st : List (Trace F)) (h : ∀ tr ∈ st, tr.slowness.isSome) :
    (annotate env Vp x k st).2 = .ok () ∧
    List.Forall₂ (fun tr tr' => ∃ ts, timesOf env Vp x k tr = .ok ts ∧
      tr' = stamp "tps" "tppps" "tpsps" ts tr) st (annotate env Vp x k st).1 := by
  obtain ⟨v, hv⟩ := hVp
  induction st with
  | nil => exact ⟨rfl, .nil⟩
  | cons tr st ih =>
    obtain ⟨sl, hsl⟩ := Option.isSome_iff_exists.1 (h tr (by simp))
    have ih := ih (fun a ha => h a (by simp [ha]))
    have ht : ∃ ts, timesOf env Vp x k tr = .ok ts := by
      unfold timesOf bestTimes
      simp [getSlowness_ok.2 hsl, hv]
    obtain ⟨ts, hts⟩ := ht
    have hts' := hts
    unfold timesOf at hts'
    have e : annotate env Vp x k (tr :: st)
        = (stamp "tps" "tppps" "tpsps" ts tr :: (annotate env Vp x k st).1,
           (annotate env Vp x k st).2) := by
      rw [annotate, hts']; rfl
    rw [e]
    exact ⟨ih.1, .cons ⟨ts, hts, rfl⟩ ih.2⟩

theorem stamp_slowness (k1 k2 k3 : String) (ts : PyNum F × PyNum F × PyNum F) (tr : Trace F) :
    (stamp k1 k2 k3 ts tr).slowness = tr.slowness := rfl

theorem bestTimes_total {Vp : Scalar F} (hVp : VpOk Vp) (kd : Kind) (rp x k : F) :
    ∃ ts, bestTimes Vp kd rp x k = .ok ts := by
  obtain ⟨v, hv⟩ := hVp
  unfold bestTimes
  rw [hv]; exact ⟨_, rfl⟩

/-- what `plothk` needs of a result in order to get past the annotation -/
structure Plottable (r : HKResult F) : Prop where
  best : r.bestmodel.isSome
  vp : VpOk r.Vp
  slow : ∀ tr ∈ r.RF, tr.slowness.isSome

/-- `min` and `max` of a non-empty sequence exist -/
theorem axisLimits_total {xs : List F} {x : F} (h : x ∈ xs) : ∃ l, axisLimits xs = .ok l := by
  cases xs with
  | nil => cases h
  | cons y ys => exact ⟨_, rfl⟩

theorem gridLoop_ne {K H : List F} {v : F → F → Except PyErr F} {tb : List (Row F)} {i : Nat}
    (h : gridLoop K H v = .ok tb) (hb : argmax (tb.map Row.s) = .ok i) :
    ∃ k x s, k ∈ K ∧ x ∈ H ∧ v k x = .ok s := by
  have hne : tb ≠ [] := by rintro rfl; simp [argmax] at hb
  cases tb with
  | nil => exact absurd rfl hne
  | cons row tb =>
    obtain ⟨i, j, _, hi, hj, hv⟩ := (gridLoop_ok h).2.2 0 row (by simp)
    exact ⟨_, _, _, List.mem_of_getElem? hi, List.mem_of_getElem? hj, hv⟩

theorem argmaxGo_lt (xs : List F) : ∀ (mp : F) (idx i : Nat), idx < i →
    argmaxGo mp idx i xs < i + xs.length := by
  induction xs with
  | nil => intro mp idx i h; simpa [argmaxGo] using h
  | cons x xs ih =>
    intro mp idx i h
    unfold argmaxGo
    rw [List.length_cons]
    split
    · split
      · omega
      · have := ih x i (i + 1) (by omega); omega
    · have := ih mp idx (i + 1) (by omega); omega

theorem argmax_lt' {xs : List F} {i : Nat} (h : argmax xs = .ok i) : i < xs.length := by
  cases xs with
  | nil => simp [argmax] at h
  | cons x xs =>
    have := Except.ok.inj h
    rw [List.length_cons, ← this]
    split
    · omega
    · have := argmaxGo_lt xs x 0 1 (by omega); omega

theorem argmax_bestmodel {tb : List (Row F)} {i : Nat} (hb : argmax (tb.map Row.s) = .ok i) :
    ∃ row, tb[i]? = some row := by
  have := argmax_lt' hb
  simp at this
  exact ⟨tb[i], by simp [this]⟩

theorem hk_plottable {env : Env F} {st : List (Trace F)} {preonset : F} {H K : List F}
    {Vp : Option (Scalar F)} {w1 w2 w3 : Option F} {layer : Option String}
    {stack : Option Bool} {r : HKResult F}
    (h : hk env st preonset H K Vp w1 w2 w3 layer stack = .ok r) : Plottable r := by
  obtain ⟨tr0, rest, slows, f⟩ := hk_inv h
  obtain ⟨k, x, s, _, _, hv⟩ := gridLoop_ne f.hgrid f.hbest
  rw [cell_eq] at hv
  obtain ⟨xs, hxs, _⟩ := bind_eq_ok.1 hv
  have hall : ∀ tr ∈ st, ∃ o sl, tr.onset = some o ∧ tr.slowness = some sl ∧ VpOk r.Vp := by
    intro tr htr
    obtain ⟨m, hm, rfl⟩ := List.getElem_of_mem htr
    obtain ⟨y, _, hy⟩ := mapM_getElem hxs (i := m) (x := st[m]) (by simp [hm])
    exact traceTerm_ok_header hy
  obtain ⟨row, hrow⟩ := argmax_bestmodel f.hbest
  refine ⟨by simp [HKResult.bestmodel, hrow], ?_, ?_⟩
  · obtain ⟨_, _, _, _, hvp⟩ := hall tr0 (by simp [f.hst])
    exact hvp
  · intro tr htr
    rw [f.hRF] at htr
    obtain ⟨_, sl, _, hsl, _⟩ := hall tr htr
    simp [hsl]

/-- `plothk` in closed form for a plottable result -/
theorem plothk_eq (env : Env F) (r : HKResult F) (hp : Plottable r) (savepath : String)
    (g : Option (List F)) (rmneg : Option Bool) (format : Option String) :
    ∃ b times, r.bestmodel = some b ∧
      bestTimes r.Vp .np (env.km2deg1 * r.AvgSlow) b.h b.k = .ok times ∧
      plothk env r savepath g rmneg format =
        (let r' : HKResult F := { r with
          RF := if r.stack then r.RF else (annotate env r.Vp b.h b.k r.RF).1,
          stackvalues := if rmneg.getD true then clipLoop r.stackvalues else r.stackvalues }
        (r', figure env r' b (if r.stack then some times else none) savepath
          (g.getD [ofNat 75, ofNat 10, ofNat 15, dec 25 1]) (format.getD "pdf"))) := by
  obtain ⟨b, hb⟩ := Option.isSome_iff_exists.1 hp.best
  obtain ⟨times, ht⟩ := bestTimes_total hp.vp .np (env.km2deg1 * r.AvgSlow) b.h b.k
  refine ⟨b, times, hb, ht, ?_⟩
  unfold plothk
  simp only [hb]
  cases hs : r.stack
  · have ha := (annotate_ok (env := env) (x := b.h) (k := b.k) hp.vp r.RF hp.slow).1
    simp only [Bool.false_eq_true, if_false, ha, except_map_ok]
    cases rmneg.getD true <;> simp
  · simp only [if_true, ht, except_map_ok]
    cases rmneg.getD true
    · have : r = { r with RF := r.RF, stackvalues := r.stackvalues, stack := true } := by
        rw [← hs]
      simp only [Bool.false_eq_true, if_false]
      rw [← this]
    · simp [hs]

end HkZhu
end Rfsed

/-! ## the other plotting functions: effect on the tables -/

namespace Rfsed
open PyFloat Spec HkZhu
set_option linter.unusedSectionVars false
variable {F : Type} [PyFloat F]

theorem yu_vpOk {env : Env F} {flt : HkYu.FltInput F} {rp : Scalar F} {H K : List F}
    {VpMoho VpSed VsSed : Option (Scalar F)} {w1 w2 w3 : Option F} {r : HkYu.YuResult F}
    (h : HkYu.hkYu env flt rp H K VpMoho VpSed VsSed w1 w2 w3 = .ok r) :
    VpOk r.VpMoho ∧ r.bestmodel.isSome := by
  obtain ⟨vs, a, b, bmod, f⟩ := hkYu_inv h
  obtain ⟨k, x, s, _, _, hv⟩ := gridLoop_ne f.hgrid f.hbest
  refine ⟨?_, by simp [HkYu.YuResult.bestmodel, f.hrow]⟩
  unfold HkYu.cell at hv
  obtain ⟨v, hv, _⟩ := bind_eq_ok.1 hv
  exact ⟨v, hv⟩

theorem synth_vpOk {env : Env F} {d t : List F} {rp : Scalar F} {H K : List F}
    {Vp : Option (Scalar F)} {w1 w2 w3 : Option F} {layer : Option String}
    {r : SynthAnalysis.SynthResult F}
    (h : SynthAnalysis.hkSynth env d t rp H K Vp w1 w2 w3 layer = .ok r) :
    VpOk r.Vp ∧ r.bestmodel.isSome := by
  have f := hkSynth_inv h
  obtain ⟨k, x, s, _, _, hv⟩ := gridLoop_ne f.hgrid f.hbest
  obtain ⟨row, hrow⟩ := argmax_bestmodel f.hbest
  refine ⟨?_, by simp [SynthAnalysis.SynthResult.bestmodel, hrow]⟩
  unfold SynthAnalysis.cell at hv
  obtain ⟨v, hv, _⟩ := bind_eq_ok.1 hv
  exact ⟨v, by rw [f.hVp]; exact hv⟩

theorem plothkYu_fst (env : Env F) (r : HkYu.YuResult F) (hv : VpOk r.VpMoho)
    (hb : r.bestmodel.isSome) (savepath : String)
    (g : Option (List F)) (rmneg : Option Bool) (format : Option String) :
    (HkYu.plothkYu env r savepath g rmneg format).1 = { r with
      stackvaluesSubSed :=
        if rmneg.getD false then clipLoop r.stackvaluesSubSed else r.stackvaluesSubSed } := by
  obtain ⟨b, hb⟩ := Option.isSome_iff_exists.1 hb
  obtain ⟨v, hv⟩ := hv
  unfold HkYu.plothkYu
  simp only [hb, hv]
  cases rmneg.getD false <;> rfl

theorem plothkSynth_fst (env : Env F) (r : SynthAnalysis.SynthResult F) (hv : VpOk r.Vp)
    (hb : r.bestmodel.isSome) (savepath : String)
    (g : Option (List F)) (rmneg : Option Bool) (format : Option String) :
    (SynthAnalysis.plothkSynth env r savepath g rmneg format).1 = { r with
      stackvalues := if rmneg.getD false then clipLoop r.stackvalues else r.stackvalues } := by
  obtain ⟨b, hb⟩ := Option.isSome_iff_exists.1 hb
  obtain ⟨v, hv⟩ := hv
  unfold SynthAnalysis.plothkSynth
  simp only [hb, hv]
  cases rmneg.getD false <;> rfl

theorem seqSynth_facts {env : Env F} {dS dM t : List F} {rp : Scalar F}
    {HS KS : List F} {VpSed : Option (Scalar F)} {w1S w2S w3S : Option F}
    {HM KM : List F} {VpMoho : Option (Scalar F)} {w1M w2M w3M : Option F}
    {r : SynthAnalysis.SeqSynthResult F}
    (h : SynthAnalysis.hkSeqSynth env dS dM t rp HS KS VpSed w1S w2S w3S HM KM VpMoho w1M w2M w3M
      = .ok r) :
    VpOk r.VpSed ∧ (∃ vm, r.VpMoho = some vm ∧ VpOk vm) ∧ r.bestmodelSed.isSome ∧
      r.bestmodelMoho.isSome ∧ clipLoop r.stackvalueMoho = r.stackvalueMoho := by
  obtain ⟨bmod, raw, f⟩ := hkSeqSynth_inv h
  obtain ⟨k, x, s, _, _, hv⟩ := gridLoop_ne f.hgridS f.hbestS
  obtain ⟨k', x', s', _, _, hm⟩ := gridLoop_ne f.hgridM f.hbestM
  obtain ⟨row, hrow⟩ := argmax_bestmodel f.hbestM
  refine ⟨?_, ?_, by simp [SynthAnalysis.SeqSynthResult.bestmodelSed, f.hrowS], ?_, ?_⟩
  · unfold SynthAnalysis.seqSedCell at hv
    obtain ⟨v, hv, _⟩ := bind_eq_ok.1 hv
    exact ⟨v, hv⟩
  · rw [f.hVpMoho]
    unfold SynthAnalysis.seqMohoCell at hm
    obtain ⟨v, _, hm⟩ := bind_eq_ok.1 hm
    obtain ⟨vm, hvm, hm⟩ := bind_eq_ok.1 hm
    obtain ⟨v', hv', _⟩ := bind_eq_ok.1 hm
    refine ⟨vm, ?_, v', hv'⟩
    cases VpMoho with
    | none => cases hvm
    | some w => cases hvm; rfl
  · simp [SynthAnalysis.SeqSynthResult.bestmodelMoho, f.hclip, clipLoop_getElem? hrow]
  · rw [f.hclip, clipLoop_idem]

theorem plothkSeqSynth_fst (env : Env F) (r : SynthAnalysis.SeqSynthResult F) (hv : VpOk r.VpSed)
    (hb : r.bestmodelSed.isSome) (hb2 : r.bestmodelMoho.isSome)
    (hcl : clipLoop r.stackvalueMoho = r.stackvalueMoho) (savepath : String)
    (g : Option (List F)) (rmneg : Option Bool) (format : Option String) :
    (SynthAnalysis.plothkSeqSynth env r savepath g rmneg format).1 = { r with
      stackvalueSed := if rmneg.getD false then clipLoop r.stackvalueSed else r.stackvalueSed } := by
  obtain ⟨b, hb⟩ := Option.isSome_iff_exists.1 hb
  obtain ⟨b2, hb2⟩ := Option.isSome_iff_exists.1 hb2
  obtain ⟨v, hv⟩ := hv
  unfold SynthAnalysis.plothkSeqSynth SynthAnalysis.seqSedTimes
  simp only [hb, hb2, hv, except_ok_bind, except_pure]
  cases rmneg.getD false
  · simp only [Bool.false_eq_true, if_false]
    split
    · rfl
    · split
      · rfl
      · split <;> rfl
  · simp only [if_true]
    split
    · rfl
    · split
      · rfl
      · split <;> simp only [hcl]

theorem seq_annotate_snd {env : Env F} {times : Kind → F → Except PyErr (HkSeqYeck.Times F)}
    {k1 k2 k3 : String} (st : List (Trace F))
    (h : ∀ tr ∈ st, ∃ sl ts, tr.slowness = some sl ∧ times sl.kind (env.km2deg1 * sl.val) = .ok ts) :
    (HkSeqYeck.annotate env times k1 k2 k3 st).2 = .ok () ∧
    List.Forall₂ (fun tr tr' => ∃ sl ts, tr.slowness = some sl ∧
      times sl.kind (env.km2deg1 * sl.val) = .ok ts ∧ tr' = stamp k1 k2 k3 ts tr) st
      (HkSeqYeck.annotate env times k1 k2 k3 st).1 := by
  induction st with
  | nil => exact ⟨rfl, .nil⟩
  | cons tr st ih =>
    obtain ⟨sl, ts, hsl, hts⟩ := h tr (by simp)
    have ih := ih (fun a ha => h a (by simp [ha]))
    have e : HkSeqYeck.annotate env times k1 k2 k3 (tr :: st)
        = (stamp k1 k2 k3 ts tr :: (HkSeqYeck.annotate env times k1 k2 k3 st).1,
           (HkSeqYeck.annotate env times k1 k2 k3 st).2) := by
      rw [HkSeqYeck.annotate, getSlowness_ok.2 hsl, except_ok_bind, hts]; rfl
    rw [e]
    exact ⟨ih.1, .cons ⟨sl, ts, hsl, hts, rfl⟩ ih.2⟩

/-- what `plotSeqhk` relies on -/
structure SeqPlottable (r : HkSeqYeck.SeqResult F) : Prop where
  bestS : r.bestmodelSed.isSome
  bestM : r.bestmodelMoho.isSome
  vpS : VpOk r.VpSed
  vpM : ∃ vm, r.VpMoho = some vm ∧ VpOk vm
  slowS : ∀ tr ∈ r.RFSed, tr.slowness.isSome
  slowM : ∀ tr ∈ r.RFMoho, tr.slowness.isSome
  clip : clipLoop r.stackvalueMoho = r.stackvalueMoho

theorem lastTrace_all {term : Trace F → Except PyErr F} {st : List (Trace F)} {v : F}
    (h : HkSeqYeck.lastTrace term st = .ok v) :
    ∃ tr, st.getLast? = some tr ∧ term tr = .ok v ∧ ∀ tr ∈ st, ∃ w, term tr = .ok w := by
  unfold HkSeqYeck.lastTrace at h
  obtain ⟨acc, hacc, h⟩ := bind_eq_ok.1 h
  have key : ∀ (st : List (Trace F)) (a0 : Option F) (acc : Option F),
      st.foldlM (fun (_ : Option F) tr => do let v ← term tr; pure (some v)) a0 = .ok acc →
      (∀ tr ∈ st, ∃ w, term tr = .ok w) ∧
      (match st.getLast? with
        | none => acc = a0
        | some tr => ∃ w, term tr = .ok w ∧ acc = some w) := by
    intro st
    induction st with
    | nil => intro a0 acc h; cases h; exact ⟨by simp, rfl⟩
    | cons tr st ih =>
      intro a0 acc h
      rw [List.foldlM_cons] at h
      obtain ⟨b, hb, h⟩ := bind_eq_ok.1 h
      obtain ⟨w, hw, hb⟩ := bind_eq_ok.1 hb
      cases hb
      obtain ⟨h1, h2⟩ := ih _ _ h
      refine ⟨by simpa using ⟨⟨w, hw⟩, h1⟩, ?_⟩
      cases st with
      | nil => simp at h2 ⊢; exact ⟨w, hw, h2⟩
      | cons a st => rw [List.getLast?_cons_cons]; exact h2
  obtain ⟨h1, h2⟩ := key st none acc hacc
  cases hl : st.getLast? with
  | none => rw [hl] at h2; simp only at h2; rw [h2] at h; cases h
  | some tr =>
    rw [hl] at h2
    obtain ⟨w, hw, rfl⟩ := h2
    cases h
    exact ⟨tr, rfl, hw, h1⟩

theorem sedTerm_header {env : Env F} {t sd : List F} {avg : F} {Vp : Scalar F}
    {w1 w2 w3 : F} {stack : Bool} {k x : F} {tr : Trace F} {v : F}
    (h : HkSeqYeck.sedTerm env t sd avg Vp w1 w2 w3 stack k x tr = .ok v) :
    tr.slowness.isSome ∧ VpOk Vp := by
  unfold HkSeqYeck.sedTerm at h
  obtain ⟨o, h1, h⟩ := bind_eq_ok.1 h
  obtain ⟨sl, h2, h⟩ := bind_eq_ok.1 h
  obtain ⟨v, h3, h⟩ := bind_eq_ok.1 h
  exact ⟨by simp [getSlowness_ok.1 h2], v, h3⟩

theorem mohoTerm_header {env : Env F} {stM : List (Trace F)} {t sd : List F} {avg : F}
    {VpSed : Scalar F} {H1 K1 : F} {VpMoho : Option (Scalar F)}
    {w1 w2 w3 : Option F} {stack : Bool} {k x : F} {tr : Trace F} {v : F}
    (h : HkSeqYeck.mohoTerm env stM t sd avg VpSed H1 K1 VpMoho w1 w2 w3 stack k x tr = .ok v) :
    tr.slowness.isSome ∧ ∃ vm, VpMoho = some vm ∧ VpOk vm := by
  unfold HkSeqYeck.mohoTerm at h
  obtain ⟨o, h1, h⟩ := bind_eq_ok.1 h
  obtain ⟨o, h1, h⟩ := bind_eq_ok.1 h
  obtain ⟨sl, h2, h⟩ := bind_eq_ok.1 h
  obtain ⟨v, h3, h⟩ := bind_eq_ok.1 h
  obtain ⟨vm, h4, h⟩ := bind_eq_ok.1 h
  obtain ⟨v', h5, h⟩ := bind_eq_ok.1 h
  refine ⟨by simp [getSlowness_ok.1 h2], vm, ?_, v', h5⟩
  cases VpMoho with
  | none => cases h4
  | some w => cases h4; rfl

theorem hkSeq_plottable {env : Env F} {stS stM : List (Trace F)} {preonset : F}
    {HS KS : List F} {VpSed : Option (Scalar F)} {w1S w2S w3S : Option F}
    {HM KM : List F} {VpMoho : Option (Scalar F)} {w1M w2M w3M : Option F} {stack : Option Bool}
    {r : HkSeqYeck.SeqResult F}
    (h : HkSeqYeck.hkSeq env stS stM preonset HS KS VpSed w1S w2S w3S HM KM VpMoho w1M w2M w3M stack
      = .ok r) : SeqPlottable r := by
  obtain ⟨tr0, rest, slows, bmod, raw, f⟩ := hkSeq_inv h
  obtain ⟨k, x, s, _, _, hv⟩ := gridLoop_ne f.hgridS f.hbestS
  obtain ⟨k', x', s', _, _, hm⟩ := gridLoop_ne f.hgridM f.hbestM
  obtain ⟨row, hrow⟩ := argmax_bestmodel f.hbestM
  obtain ⟨trS, _, htS, haS⟩ := lastTrace_all hv
  obtain ⟨trM, _, htM, haM⟩ := lastTrace_all hm
  refine ⟨by simp [HkSeqYeck.SeqResult.bestmodelSed, f.hrowS], ?_, (sedTerm_header htS).2, ?_, ?_, ?_, ?_⟩
  · simp [HkSeqYeck.SeqResult.bestmodelMoho, f.hclip, clipLoop_getElem? hrow]
  · rw [f.hVpMoho]; exact (mohoTerm_header htM).2
  · intro tr htr
    rw [f.hRFS] at htr
    obtain ⟨w, hw⟩ := haS tr htr
    exact (sedTerm_header hw).1
  · intro tr htr
    rw [f.hRFM] at htr
    obtain ⟨w, hw⟩ := haM tr htr
    exact (mohoTerm_header hw).1
  · rw [f.hclip, clipLoop_idem]

theorem sedTimes_total {Vp : Scalar F} (hVp : VpOk Vp) (kd : Kind) (rp x k : F) :
    ∃ ts, HkSeqYeck.sedTimes Vp kd rp x k = .ok ts := by
  obtain ⟨v, hv⟩ := hVp
  unfold HkSeqYeck.sedTimes
  rw [hv]; exact ⟨_, rfl⟩

theorem mohoTimes_total {VpS vm : Scalar F} (hVp : VpOk VpS) (hVm : VpOk vm) (kd : Kind)
    (rp x k x2 k2 : F) :
    ∃ ts, HkSeqYeck.mohoTimes VpS (some vm) kd rp x k x2 k2 = .ok ts := by
  obtain ⟨v, hv⟩ := hVp
  obtain ⟨v2, hv2⟩ := hVm
  unfold HkSeqYeck.mohoTimes
  rw [hv, except_ok_bind]
  simp only [HkSeqYeck.need, except_ok_bind, hv2]
  exact ⟨_, rfl⟩

/-- the mutated result of the sediment stage -/
theorem plotSed_fst (env : Env F) (r : HkSeqYeck.SeqResult F) (b : Row F) (hp : SeqPlottable r)
    (savepath : String) (g : List F) (rmneg : Bool) (format : String) :
    (HkSeqYeck.plotSed env r b savepath g rmneg format).1 = { r with
      RFSed := if r.stack then r.RFSed else
        (HkSeqYeck.annotate env (fun kd rp => HkSeqYeck.sedTimes r.VpSed kd rp b.h b.k)
          "tpsSed" "tpppsSed" "tpspsSed" r.RFSed).1,
      stackvalueSed := if rmneg then clipLoop r.stackvalueSed else r.stackvalueSed } := by
  unfold HkSeqYeck.plotSed
  cases hs : r.stack
  · have ha := (seq_annotate_snd (env := env)
      (times := fun kd rp => HkSeqYeck.sedTimes r.VpSed kd rp b.h b.k)
      (k1 := "tpsSed") (k2 := "tpppsSed") (k3 := "tpspsSed") r.RFSed (by
        intro tr htr
        obtain ⟨sl, hsl⟩ := Option.isSome_iff_exists.1 (hp.slowS tr htr)
        obtain ⟨ts, hts⟩ := sedTimes_total hp.vpS sl.kind (env.km2deg1 * sl.val) b.h b.k
        exact ⟨sl, ts, hsl, hts⟩)).1
    simp only [Bool.false_eq_true, if_false, ha, except_map_ok]
    cases rmneg <;> simp
  · obtain ⟨ts, hts⟩ := sedTimes_total hp.vpS .np (env.km2deg1 * r.AvgSlow) b.h b.k
    simp only [if_true, hts, except_map_ok]
    cases rmneg
    · simp only [Bool.false_eq_true, if_false]; rw [← hs]
    · simp [hs]

theorem plotMoho_fst (env : Env F) (r : HkSeqYeck.SeqResult F) (b b2 : Row F) (hp : SeqPlottable r)
    (savepath : String) (g : List F) (rmneg : Bool) (format : String) :
    (HkSeqYeck.plotMoho env r b b2 savepath g rmneg format).1 = { r with
      RFMoho := if r.stack then r.RFMoho else
        (HkSeqYeck.annotate env (fun kd rp => HkSeqYeck.mohoTimes r.VpSed r.VpMoho kd rp b.h b.k
          b2.h b2.k) "tpsMoho" "tpppsMoho" "tpspsMoho" r.RFMoho).1 } := by
  unfold HkSeqYeck.plotMoho
  obtain ⟨vm, hvm, hvok⟩ := hp.vpM
  cases hs : r.stack
  · have ha := (seq_annotate_snd (env := env)
      (times := fun kd rp => HkSeqYeck.mohoTimes r.VpSed r.VpMoho kd rp b.h b.k b2.h b2.k)
      (k1 := "tpsMoho") (k2 := "tpppsMoho") (k3 := "tpspsMoho") r.RFMoho (by
        intro tr htr
        obtain ⟨sl, hsl⟩ := Option.isSome_iff_exists.1 (hp.slowM tr htr)
        obtain ⟨ts, hts⟩ := mohoTimes_total hp.vpS hvok sl.kind (env.km2deg1 * sl.val) b.h b.k b2.h b2.k
        exact ⟨sl, ts, hsl, by rw [hvm]; exact hts⟩)).1
    simp only [Bool.false_eq_true, if_false, ha, except_map_ok]
    cases rmneg <;> simp [hp.clip]
  · obtain ⟨ts, hts⟩ := mohoTimes_total hp.vpS hvok .np (env.km2deg1 * r.AvgSlow) b.h b.k b2.h b2.k
    rw [← hvm] at hts
    simp only [if_true, hts, except_map_ok]
    cases rmneg
    · simp only [Bool.false_eq_true, if_false]; rw [← hs]
    · simp [hp.clip, hs]

end Rfsed
