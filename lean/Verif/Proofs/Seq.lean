import Verif.Proofs.Variants2
import Verif.Props.Variants

/-! Sequential stacking: lemmas. -/

namespace Rfsed
open PyFloat Spec HkZhu Props
set_option linter.unusedSectionVars false
variable {F : Type} [PyFloat F]

theorem lastTrace_snoc (term : Trace F → Except PyErr F) (init : List (Trace F)) (last : Trace F) :
    HkSeqYeck.lastTrace term (init ++ [last]) = (do
      let _ ← init.foldlM (fun (_ : Option F) tr => do let v ← term tr; pure (some v)) none
      term last) := by
  unfold HkSeqYeck.lastTrace
  rw [List.foldlM_append, except_bind_assoc]
  congr 1
  funext a
  simp only [List.foldlM_cons, List.foldlM_nil]
  cases term last <;> rfl

theorem foldlM_last_ok {term : Trace F → Except PyErr F} {init : List (Trace F)} :
    ∀ {a b : Option F},
    init.foldlM (fun (_ : Option F) tr => do let v ← term tr; pure (some v)) a = .ok b →
    ∀ tr ∈ init, ∃ w, term tr = .ok w := by
  induction init with
  | nil => intro a b _ tr htr; simp at htr
  | cons x xs ih =>
    intro a b h tr htr
    rw [List.foldlM_cons] at h
    obtain ⟨c, h1, h2⟩ := bind_eq_ok.1 h
    obtain ⟨w, hw, _⟩ := bind_eq_ok.1 h1
    rcases List.mem_cons.1 htr with rfl | htr
    · exact ⟨w, hw⟩
    · exact ih h2 tr htr

theorem foldlM_last_total {term : Trace F → Except PyErr F} {init : List (Trace F)}
    (h : ∀ tr ∈ init, ∃ w, term tr = .ok w) : ∀ a : Option F, ∃ b,
    init.foldlM (fun (_ : Option F) tr => do let v ← term tr; pure (some v)) a = .ok b := by
  induction init with
  | nil => intro a; exact ⟨a, rfl⟩
  | cons x xs ih =>
    intro a
    obtain ⟨w, hw⟩ := h x (List.mem_cons_self ..)
    obtain ⟨b, hb⟩ := ih (fun tr htr => h tr (List.mem_cons_of_mem _ htr)) (some w)
    exact ⟨b, by rw [List.foldlM_cons, hw]; exact hb⟩

theorem lastTrace_ok {term : Trace F → Except PyErr F} {st : List (Trace F)} {v : F} :
    HkSeqYeck.lastTrace term st = .ok v ↔
      ∃ init last, st = init ++ [last] ∧ (∀ tr ∈ init, ∃ w, term tr = .ok w) ∧
        term last = .ok v := by
  constructor
  · intro h
    rcases List.eq_nil_or_concat st with rfl | ⟨init, last, rfl⟩
    · cases h
    · rw [List.concat_eq_append] at h
      rw [lastTrace_snoc] at h
      obtain ⟨_, h1, h2⟩ := bind_eq_ok.1 h
      exact ⟨init, last, by rw [List.concat_eq_append], foldlM_last_ok h1, h2⟩
  · rintro ⟨init, last, rfl, h1, h2⟩
    rw [lastTrace_snoc]
    obtain ⟨b, hb⟩ := foldlM_last_total h1 none
    rw [hb]; exact h2

theorem lastTrace_last {term : Trace F → Except PyErr F} {init : List (Trace F)} {last : Trace F}
    {v : F} (h : HkSeqYeck.lastTrace term (init ++ [last]) = .ok v) : term last = .ok v := by
  rw [lastTrace_snoc] at h
  obtain ⟨_, _, h⟩ := bind_eq_ok.1 h
  exact h

/-- sum of the single-layer times of sediment and crust -/
theorem mohoTimes_real {VpS vm : Scalar ℝ} {kd : Kind} {p H1 K1 x k : ℝ} (h1 : VpS.val ≠ 0)
    (h2 : vm.val ≠ 0) (p1 : p ^ 2 ≤ (1 / VpS.val) ^ 2) (p2 : p ^ 2 ≤ (1 / vm.val) ^ 2) :
    HkSeqYeck.mohoTimes VpS (some vm) kd p H1 K1 x k = .ok
      (.real (tPs p VpS.val H1 K1 + tPs p vm.val x k),
       .real (tPpPs p VpS.val H1 K1 + tPpPs p vm.val x k),
       .real (tPsPs p VpS.val H1 K1 + tPsPs p vm.val x k)) := by
  unfold HkSeqYeck.mohoTimes
  simp only [oneOver_real h1, oneOver_real h2, HkSeqYeck.need, except_ok_bind, real_square,
    powHalfK_real_nonneg (sub_nonneg.2 p1), powHalfK_real_nonneg (sub_nonneg.2 p2), PyNum.rsub,
    PyNum.radd, PyNum.rmul, PyNum.add, real_powHalf, real_two, except_pure, tPs, tPpPs, tPsPs,
    eta_ratio, eta_one _ VpS.val, eta_one _ vm.val]

theorem sedTerm_real {env : Env ℝ} {t sd : List ℝ} {avg : ℝ} {Vp : Scalar ℝ} {w1 w2 w3 : ℝ}
    {stack : Bool} {k x : ℝ} {tr : Trace ℝ} {o : ℝ} {sl : Scalar ℝ} {v : ℝ} {p : ℝ}
    (ho : tr.onset = some o) (hsl : tr.slowness = some sl) (hVp : Vp.val ≠ 0)
    (hp : p = if stack then env.km2deg1 * avg else env.km2deg1 * sl.val)
    (hpre : p ^ 2 ≤ (1 / Vp.val) ^ 2) :
    HkSeqYeck.sedTerm env t sd avg Vp w1 w2 w3 stack k x tr = .ok v ↔
      StackValue w1 w2 w3 (if stack then sd else tr.data) t (tPs p Vp.val x k)
        (tPpPs p Vp.val x k) (tPsPs p Vp.val x k) v := by
  rw [sedTerm_eq, ← weigh_real]
  simp only [Trace.getOnset, ho, getSlowness_ok.2 hsl, except_ok_bind, ← hp,
    bestTimes_real hVp hpre, zkMarks]
  cases weigh w1 w2 w3 (if stack then sd else tr.data) t
      (.real (tPs p Vp.val x k), .real (tPpPs p Vp.val x k), .real (tPsPs p Vp.val x k)) with
  | error e => simp
  | ok u => simp

theorem mohoTerm_real {env : Env ℝ} {stM : List (Trace ℝ)} {t sd : List ℝ} {avg : ℝ}
    {VpS vm : Scalar ℝ} {H1 K1 w1 w2 w3 : ℝ}
    {stack : Bool} {k x : ℝ} {tr tr0 : Trace ℝ} {o : ℝ} {sl : Scalar ℝ} {v : ℝ} {p : ℝ}
    (h0 : stM[0]? = some tr0)
    (ho : tr0.onset = some o) (hsl : tr.slowness = some sl) (hVp : VpS.val ≠ 0) (hvm : vm.val ≠ 0)
    (hp : p = if stack then env.km2deg1 * avg else env.km2deg1 * sl.val)
    (hpre : p ^ 2 ≤ (1 / VpS.val) ^ 2) (hpre2 : p ^ 2 ≤ (1 / vm.val) ^ 2) :
    HkSeqYeck.mohoTerm env stM t sd avg VpS H1 K1 (some vm) (some w1) (some w2) (some w3) stack k x tr
      = .ok v ↔
      StackValue w1 w2 w3 (if stack then sd else tr.data) t
        (tPs p VpS.val H1 K1 + tPs p vm.val x k)
        (tPpPs p VpS.val H1 K1 + tPpPs p vm.val x k)
        (tPsPs p VpS.val H1 K1 + tPsPs p vm.val x k) v := by
  rw [mohoTerm_eq, ← weigh_real]
  simp only [item_ok.2 h0, Trace.getOnset, ho, getSlowness_ok.2 hsl, except_ok_bind, ← hp,
    mohoTimes_real hVp hvm hpre hpre2]
  generalize weigh w1 w2 w3 (if stack then sd else tr.data) t _ = y
  cases y with
  | error e => simp
  | ok u => simp

theorem npMean_real (xs : List ℝ) : npMean xs = xs.sum / xs.length := by
  unfold npMean
  rw [real_zero, real_ofNat]
  have : ∀ (xs : List ℝ) (a : ℝ), xs.foldl (· + ·) a = a + xs.sum := by
    intro xs
    induction xs with
    | nil => intro a; simp
    | cons x xs ih => intro a; rw [List.foldl_cons, ih, List.sum_cons]; ring
  rw [this, zero_add]

theorem hkSeq_of {env : Env F} {tr0 : Trace F} {rest stM : List (Trace F)} {preonset : F}
    {HS KS : List F} {VpSed : Option (Scalar F)} {w1S w2S w3S : Option F}
    {HM KM : List F} {VpMoho : Option (Scalar F)} {w1M w2M w3M : Option F} {stack : Option Bool}
    {dS dM : List F} {moreS moreM : List (List F)} {slows : List (Scalar F)}
    {tb raw : List (Row F)} {best bestM : Nat} {bmod : Row F}
    (hS : env.stack (tr0 :: rest) = .ok (dS :: moreS)) (hM : env.stack stM = .ok (dM :: moreM))
    (hsl : stM.mapM Trace.getSlowness = .ok slows)
    (h1 : gridLoop KS HS (fun k x => HkSeqYeck.lastTrace (HkSeqYeck.sedTerm env
      (timeAxis tr0.delta preonset tr0.data.length) dS (npMean (slows.map Scalar.val))
      (VpSed.getD ⟨.py, dec 30 1⟩) (w1S.getD (dec 6 1)) (w2S.getD (dec 3 1)) (w3S.getD (dec 1 1))
      (stack.getD false) k x) (tr0 :: rest)) = .ok tb)
    (h2 : argmax (tb.map Row.s) = .ok best) (h3 : env.draw tb = .ok ())
    (h4 : tb[best]? = some bmod)
    (h5 : gridLoop KM HM (fun k x => HkSeqYeck.lastTrace (HkSeqYeck.mohoTerm env stM
      (timeAxis tr0.delta preonset tr0.data.length) dM (npMean (slows.map Scalar.val))
      (VpSed.getD ⟨.py, dec 30 1⟩) bmod.h bmod.k VpMoho w1M w2M w3M (stack.getD false) k x) stM)
      = .ok raw)
    (h6 : argmax (raw.map Row.s) = .ok bestM) (h7 : env.draw (clipLoop raw) = .ok ()) :
    HkSeqYeck.hkSeq env (tr0 :: rest) stM preonset HS KS VpSed w1S w2S w3S HM KM VpMoho w1M w2M w3M
      stack = .ok
      { RFSed := tr0 :: rest, RFSedStack := dS, RFMoho := stM,
        RFMohoStack := dM, time := timeAxis tr0.delta preonset tr0.data.length,
        bestIdxSed := best, stackvalueSed := tb, bestIdxMoho := bestM,
        stackvalueMoho := clipLoop raw, stack := stack.getD false, comp := tr0.channel,
        AvgSlow := npMean (slows.map Scalar.val), VpSed := VpSed.getD ⟨.py, dec 30 1⟩,
        VpMoho := VpMoho, HSed := HS, KSed := KS, HMoho := HM, KMoho := KM,
        staname := tr0.station } := by
  unfold HkSeqYeck.hkSeq
  simp only [hS, hM, hsl, item, List.getElem?_cons_zero, except_ok_bind, h1, h2, h3]
  simp only [h4, except_ok_bind, h5, h6, h7, except_pure]

end Rfsed
