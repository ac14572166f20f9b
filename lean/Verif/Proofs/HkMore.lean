import Verif.Proofs.HkZhu
import Mathlib.Algebra.BigOperators.Group.List.Basic
import Mathlib.Algebra.Order.BigOperators.Group.List
import Mathlib.Algebra.BigOperators.Ring.List

namespace Rfsed
open PyFloat Spec
set_option linter.unusedSectionVars false
variable {F : Type} [PyFloat F]

namespace HkZhu

/-- reading the three arrivals and weighting them -/
def weigh (w1 w2 w3 : F) (d t : List F) (ts : PyNum F × PyNum F × PyNum F) : Except PyErr F := do
  let a1 ← getamp d t ts.1
  let a2 ← getamp d t ts.2.1
  let a3 ← getamp d t ts.2.2
  pure (w1 * a1 + w2 * a2 - w3 * a3)

theorem traceTerm_eq (env : Env F) (t sd : List F) (avg : F) (Vp : Scalar F)
    (w1 w2 w3 : F) (stack : Bool) (k x : F) (tr : Trace F) :
    traceTerm env t sd avg Vp w1 w2 w3 stack k x tr = (do
      let _ ← tr.getOnset
      let slow ← tr.getSlowness
      let ts ← bestTimes Vp (if stack then Kind.np else slow.kind)
        (if stack then env.km2deg1 * avg else env.km2deg1 * slow.val) x k
      weigh w1 w2 w3 (if stack then sd else tr.data) t ts) := by
  unfold traceTerm bestTimes weigh
  cases tr.getOnset with
  | error e => rfl
  | ok o =>
    cases tr.getSlowness with
    | error e => rfl
    | ok s =>
      cases oneOver Vp with
      | error e => rfl
      | ok v => rfl

theorem synthCell_eq (d t : List F) (rp Vp : Scalar F) (w1 w2 w3 : F) (k x : F) :
    SynthAnalysis.cell d t rp Vp w1 w2 w3 k x = (do
      let ts ← bestTimes Vp rp.kind rp.val x k
      let v ← weigh w1 w2 w3 d t ts
      pure (v + zero)) := by
  unfold SynthAnalysis.cell bestTimes weigh
  cases oneOver Vp with
  | error e => rfl
  | ok v =>
    simp only [except_ok_bind, except_pure, synth_getamp_eq, except_bind_assoc]

/-- every amplitude is an entry of the data -/
theorem getamp_mem {d t : List F} {x : PyNum F} {a : F} (h : getamp d t x = .ok a) : a ∈ d := by
  unfold getamp at h
  obtain ⟨i, _, h⟩ := bind_eq_ok.1 h
  exact List.mem_of_getElem? (item_ok.1 h)

theorem weigh_ok {w1 w2 w3 : F} {d t : List F} {ts : PyNum F × PyNum F × PyNum F} {v : F} :
    weigh w1 w2 w3 d t ts = .ok v ↔ ∃ a1 a2 a3, getamp d t ts.1 = .ok a1 ∧
      getamp d t ts.2.1 = .ok a2 ∧ getamp d t ts.2.2 = .ok a3 ∧
      v = w1 * a1 + w2 * a2 - w3 * a3 := by
  unfold weigh
  simp only [bind_eq_ok, except_pure, Except.ok.injEq]
  constructor
  · rintro ⟨a1, h1, a2, h2, a3, h3, rfl⟩; exact ⟨a1, a2, a3, h1, h2, h3, rfl⟩
  · rintro ⟨a1, a2, a3, h1, h2, h3, rfl⟩; exact ⟨a1, h1, a2, h2, a3, h3, rfl⟩

theorem traceTerm_ok {env : Env F} {t sd : List F} {avg : F} {Vp : Scalar F}
    {w1 w2 w3 : F} {stack : Bool} {k x : F} {tr : Trace F} {v : F} :
    traceTerm env t sd avg Vp w1 w2 w3 stack k x tr = .ok v ↔
    ∃ o slow ts, tr.onset = some o ∧ tr.slowness = some slow ∧
      bestTimes Vp (if stack then Kind.np else slow.kind)
        (if stack then env.km2deg1 * avg else env.km2deg1 * slow.val) x k = .ok ts ∧
      weigh w1 w2 w3 (if stack then sd else tr.data) t ts = .ok v := by
  rw [traceTerm_eq]
  simp only [bind_eq_ok, getSlowness_ok]
  constructor
  · rintro ⟨o, h1, s, h2, ts, h3, h4⟩
    refine ⟨o, s, ts, ?_, h2, h3, h4⟩
    unfold Trace.getOnset at h1; split at h1 <;> simp_all
  · rintro ⟨o, s, ts, h1, h2, h3, h4⟩
    exact ⟨o, by simp [Trace.getOnset, h1], s, h2, ts, h3, h4⟩

end HkZhu

/-- argmax of a list scaled by a positive factor -/
theorem argmax_scale {c : ℝ} (hc : 0 < c) {xs : List ℝ} {i : Nat} (h : argmax xs = .ok i) :
    argmax (xs.map (fun x => c * x)) = .ok i := by
  have hm := argmax_firstMax (fun _ _ => rfl) h
  apply argmax_eq_of_firstMax (fun _ _ => rfl)
  obtain ⟨x, hx, h1, h2⟩ := hm
  refine ⟨c * x, by simp [hx], ?_, ?_⟩
  · intro j y hy
    rw [List.getElem?_map, Option.map_eq_some_iff] at hy
    obtain ⟨z, hz, rfl⟩ := hy
    have := h1 j z hz
    rw [real_le] at *
    exact mul_le_mul_of_nonneg_left this hc.le
  · intro j y hj hy
    rw [List.getElem?_map, Option.map_eq_some_iff] at hy
    obtain ⟨z, hz, rfl⟩ := hy
    have := h2 j z hj hz
    rw [real_lt] at *
    exact mul_lt_mul_of_pos_left this hc

/-- mapping a function over a successful grid -/
theorem gridLoop_map {K H : List F} {v v' : F → F → Except PyErr F} {tb : List (Row F)} {g : F → F}
    (h : gridLoop K H v = .ok tb)
    (hv : ∀ k ∈ K, ∀ x ∈ H, ∀ s, v k x = .ok s → v' k x = .ok (g s)) :
    gridLoop K H v' = .ok (tb.map (fun r => ⟨r.h, r.k, g r.s⟩)) := by
  rw [gridLoop_eq] at h ⊢
  have hmem : ∀ p ∈ gridPoints K H, p.1 ∈ K ∧ p.2 ∈ H := fun p hp => mem_gridPoints.1 hp
  generalize gridPoints K H = ps at h hmem
  rw [mapM_ok_iff] at h ⊢
  induction h with
  | nil => exact .nil
  | @cons p r ps rs h1 h2 ih =>
    refine .cons ?_ (ih (fun q hq => hmem q (by simp [hq])))
    obtain ⟨s, hs, h⟩ := bind_eq_ok.1 h1
    cases h
    have hp := hmem p (by simp)
    rw [hv _ hp.1 _ hp.2 _ hs]; rfl

theorem hkSynth_of {env : Env F} {d t : List F} {rp : Scalar F} {H K : List F}
    {Vp : Option (Scalar F)} {w1 w2 w3 : Option F} {layer : Option String} {tb : List (Row F)}
    {best : Nat}
    (h1 : gridLoop K H (SynthAnalysis.cell d t rp (Vp.getD ⟨.py, dec 65 1⟩) (w1.getD (dec 6 1))
      (w2.getD (dec 3 1)) (w3.getD (dec 1 1))) = .ok tb)
    (h2 : argmax (tb.map Row.s) = .ok best) (h3 : env.draw tb = .ok ()) :
    SynthAnalysis.hkSynth env d t rp H K Vp w1 w2 w3 layer = .ok
      { SynthRF := d, time := t, bestIdx := best, Vp := Vp.getD ⟨.py, dec 65 1⟩,
        stackvalues := tb, layer := layer.getD "Moho", rayp := rp, H := H, K := K } := by
  unfold SynthAnalysis.hkSynth
  simp only [h1, h2, h3, except_ok_bind, except_pure]

/-- everything a successful call of `hkSynth` tells -/
structure SynthFacts (env : Env F) (d t : List F) (rp : Scalar F) (H K : List F)
    (Vp : Option (Scalar F)) (w1 w2 w3 : Option F) (layer : Option String)
    (r : SynthAnalysis.SynthResult F) : Prop where
  hgrid : gridLoop K H (SynthAnalysis.cell d t rp (Vp.getD ⟨.py, dec 65 1⟩) (w1.getD (dec 6 1))
      (w2.getD (dec 3 1)) (w3.getD (dec 1 1))) = .ok r.stackvalues
  hbest : argmax (r.stackvalues.map Row.s) = .ok r.bestIdx
  hdraw : env.draw r.stackvalues = .ok ()
  hVp : r.Vp = Vp.getD ⟨.py, dec 65 1⟩
  hlayer : r.layer = layer.getD "Moho"
  hrp : r.rayp = rp
  hH : r.H = H
  hK : r.K = K
  hrf : r.SynthRF = d
  htime : r.time = t

theorem hkSynth_inv {env : Env F} {d t : List F} {rp : Scalar F} {H K : List F}
    {Vp : Option (Scalar F)} {w1 w2 w3 : Option F} {layer : Option String}
    {r : SynthAnalysis.SynthResult F}
    (h : SynthAnalysis.hkSynth env d t rp H K Vp w1 w2 w3 layer = .ok r) :
    SynthFacts env d t rp H K Vp w1 w2 w3 layer r := by
  unfold SynthAnalysis.hkSynth at h
  obtain ⟨tb, h1, h⟩ := bind_eq_ok.1 h
  obtain ⟨b, h2, h⟩ := bind_eq_ok.1 h
  obtain ⟨u, h3, h⟩ := bind_eq_ok.1 h
  cases h
  exact ⟨h1, h2, h3, rfl, rfl, rfl, rfl, rfl, rfl, rfl⟩

end Rfsed
