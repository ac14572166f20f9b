import Verif.Proofs.Plot
import Verif.Spec.Grid

namespace Rfsed
open PyFloat Spec HkZhu
set_option linter.unusedSectionVars false
variable {F : Type} [PyFloat F]

theorem gridTable_of {K H : List F} {v : F → F → Except PyErr F} {tb : List (Row F)}
    (h : gridLoop K H v = .ok tb) : GridTable K H tb := by
  obtain ⟨h1, h2, _⟩ := gridLoop_ok h
  refine ⟨h1, ?_⟩
  intro i j k x hk hx
  obtain ⟨s, _, hs⟩ := h2 i j k x hk hx
  exact ⟨s, hs⟩

theorem gridTable_clip {K H : List F} {tb : List (Row F)} (h : GridTable K H tb) :
    GridTable K H (clipLoop tb) := by
  refine ⟨by rw [clipLoop_eq, List.length_map, h.1], ?_⟩
  intro i j k x hk hx
  obtain ⟨s, hs⟩ := h.2 i j k x hk hx
  exact ⟨_, by rw [clipLoop_getElem? hs, clipRow_eq]⟩

theorem bestRow_of [IEEEOrder F] {tb : List (Row F)} {n : Nat}
    (h : argmax (tb.map Row.s) = .ok n) (hn : ∀ row ∈ tb, isNaN row.s = false) :
    ∃ best, BestRow tb n best := by
  have hm := argmax_firstMax (by
    intro s hs
    obtain ⟨row, hrow, rfl⟩ := List.mem_map.1 hs
    exact hn row hrow) h
  obtain ⟨s, hs, h1, h2⟩ := hm
  rw [List.getElem?_map, Option.map_eq_some_iff] at hs
  obtain ⟨best, hb, rfl⟩ := hs
  refine ⟨best, hb, ?_, ?_⟩
  · intro n row hrow
    exact h1 n row.s (by rw [List.getElem?_map, hrow]; rfl)
  · intro n row hn hrow
    exact h2 n row.s hn (by rw [List.getElem?_map, hrow]; rfl)

/-- value at every row -/
theorem gridLoop_row {K H : List F} {v : F → F → Except PyErr F} {tb : List (Row F)}
    (h : gridLoop K H v = .ok tb) {row : Row F} (hrow : row ∈ tb) :
    row.k ∈ K ∧ row.h ∈ H ∧ v row.k row.h = .ok row.s := by
  obtain ⟨n, hn, rfl⟩ := List.getElem_of_mem hrow
  obtain ⟨i, j, _, h1, h2, h3⟩ := (gridLoop_ok h).2.2 n tb[n] (by simp [hn])
  exact ⟨List.mem_of_getElem? h1, List.mem_of_getElem? h2, h3⟩

theorem sedTerm_eq (env : Env F) (t sd : List F) (avg : F) (Vp : Scalar F)
    (w1 w2 w3 : F) (stack : Bool) (k x : F) (tr : Trace F) :
    HkSeqYeck.sedTerm env t sd avg Vp w1 w2 w3 stack k x tr = (do
      let _ ← tr.getOnset
      let slow ← tr.getSlowness
      let ts ← bestTimes Vp (if stack then Kind.np else slow.kind)
        (if stack then env.km2deg1 * avg else env.km2deg1 * slow.val) x k
      let v ← weigh w1 w2 w3 (if stack then sd else tr.data) t ts
      pure (v + zero)) := by
  unfold HkSeqYeck.sedTerm bestTimes weigh
  cases tr.getOnset with
  | error e => rfl
  | ok o =>
    cases tr.getSlowness with
    | error e => rfl
    | ok s =>
      cases oneOver Vp with
      | error e => rfl
      | ok v => simp only [except_ok_bind, except_pure, seq_getamp_eq, except_bind_assoc]

theorem seqSedCell_eq (d t : List F) (rp Vp : Scalar F) (w1 w2 w3 : F) (k x : F) :
    SynthAnalysis.seqSedCell d t rp Vp w1 w2 w3 k x = SynthAnalysis.cell d t rp Vp w1 w2 w3 k x :=
  rfl

theorem mohoTerm_eq (env : Env F) (stM : List (Trace F)) (t sd : List F) (avg : F)
    (VpS vm : Scalar F) (H1 K1 w1 w2 w3 : F) (stack : Bool) (k x : F) (tr : Trace F) :
    HkSeqYeck.mohoTerm env stM t sd avg VpS H1 K1 (some vm) (some w1) (some w2) (some w3) stack k x tr
      = (do
      let tr0 ← item stM 0
      let _ ← tr0.getOnset
      let slow ← tr.getSlowness
      let ts ← HkSeqYeck.mohoTimes VpS (some vm) (if stack then Kind.np else slow.kind)
        (if stack then env.km2deg1 * avg else env.km2deg1 * slow.val) H1 K1 x k
      let v ← weigh w1 w2 w3 (if stack then sd else tr.data) t ts
      pure (v + zero)) := by
  unfold HkSeqYeck.mohoTerm HkSeqYeck.mohoTimes weigh
  cases item stM 0 with
  | error e => rfl
  | ok tr0 =>
  simp only [except_ok_bind]
  cases tr0.getOnset with
  | error e => rfl
  | ok o =>
    cases tr.getSlowness with
    | error e => rfl
    | ok s =>
      cases oneOver VpS with
      | error e => rfl
      | ok v =>
        simp only [except_ok_bind, HkSeqYeck.need]
        cases oneOver vm with
        | error e => rfl
        | ok v' =>
          simp only [except_ok_bind, except_pure, seq_getamp_eq, except_bind_assoc]

theorem seqMohoCell_eq (d t : List F) (rp VpS vm : Scalar F) (H1 K1 w1 w2 w3 : F) (k x : F) :
    SynthAnalysis.seqMohoCell d t rp VpS H1 K1 (some vm) (some w1) (some w2) (some w3) k x = (do
      let ts ← HkSeqYeck.mohoTimes VpS (some vm) rp.kind rp.val H1 K1 x k
      let v ← weigh w1 w2 w3 d t ts
      pure (v + zero)) := by
  unfold SynthAnalysis.seqMohoCell HkSeqYeck.mohoTimes weigh
  cases oneOver VpS with
  | error e => rfl
  | ok v =>
    simp only [except_ok_bind, HkSeqYeck.need, SynthAnalysis.need]
    cases oneOver vm with
    | error e => rfl
    | ok v' =>
      simp only [except_ok_bind, except_pure, synth_getamp_eq, except_bind_assoc]

theorem mohoTimes_synth (VpS : Scalar F) (vm : Option (Scalar F)) (rp : Scalar F)
    (H1 K1 H2 K2 : F) :
    SynthAnalysis.seqMohoTimes VpS vm rp H1 K1 H2 K2
      = HkSeqYeck.mohoTimes VpS vm rp.kind rp.val H1 K1 H2 K2 := by
  cases vm <;> rfl

theorem weigh_total [IEEEOrder F] {w1 w2 w3 : F} {d t : List F} (hne : t ≠ [])
    (hd : t.length ≤ d.length) (ts : PyNum F × PyNum F × PyNum F) :
    ∃ v, weigh w1 w2 w3 d t ts = .ok v := by
  obtain ⟨_, a1, _, _, h1⟩ := getamp_total (t := ts.1) hne hd
  obtain ⟨_, a2, _, _, h2⟩ := getamp_total (t := ts.2.1) hne hd
  obtain ⟨_, a3, _, _, h3⟩ := getamp_total (t := ts.2.2) hne hd
  unfold weigh
  rw [h1, h2, h3]
  exact ⟨_, rfl⟩

theorem weigh_real {w1 w2 w3 : ℝ} {d t : List ℝ} {t1 t2 t3 v : ℝ} :
    weigh w1 w2 w3 d t (.real t1, .real t2, .real t3) = .ok v ↔
      StackValue w1 w2 w3 d t t1 t2 t3 v := by
  rw [weigh_ok]
  unfold StackValue
  simp only [getamp_ok_iff (distOk_real _ _)]

theorem vpOk_real {Vp : Scalar ℝ} (h : Vp.val ≠ 0) : VpOk Vp := ⟨_, oneOver_real h⟩

theorem mohoTimes_ok {VpS vm : Scalar F} {kd : Kind} {rp H1 K1 x k : F}
    {ts : PyNum F × PyNum F × PyNum F}
    (h : HkSeqYeck.mohoTimes VpS (some vm) kd rp H1 K1 x k = .ok ts) :
    ∃ s m, bestTimes VpS kd rp H1 K1 = .ok s ∧ bestTimes vm kd rp x k = .ok m := by
  unfold HkSeqYeck.mohoTimes at h
  obtain ⟨v, h1, h⟩ := bind_eq_ok.1 h
  obtain ⟨vm', h2, h⟩ := bind_eq_ok.1 h
  cases h2
  obtain ⟨v', h3, h⟩ := bind_eq_ok.1 h
  unfold bestTimes
  rw [h1, h3]
  exact ⟨_, _, rfl, rfl⟩

end Rfsed
