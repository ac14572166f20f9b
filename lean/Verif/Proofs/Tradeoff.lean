import Verif.Spec.Tradeoff
import Verif.Proofs.Units
import Verif.Proofs.Seq
import Verif.Proofs.PostCritical
import Verif.Props.Plot

/-!
# Lemmas for C118: the assumed P velocity
-/

namespace Rfsed.Proofs
open PyFloat Rfsed.Spec Rfsed.HkZhu Rfsed.Props

theorem eta_pos {p V : ℝ} (h : Propagates p V) : 0 < eta p V := by
  rw [eta_one]; exact Real.sqrt_pos.2 (by linarith [h.2])

theorem etaS_trade {p V V' : ℝ} (h' : Propagates p V') (K : ℝ) :
    eta p (V' / tradeK p V V' K) = |eta p (V / K) * (eta p V' / eta p V)| := by
  have e : (tradeK p V V' K / V') ^ 2 - p ^ 2 = (eta p (V / K) * (eta p V' / eta p V)) ^ 2 := by
    have h0 := h'.1.ne'
    have : tradeK p V V' K / V' = Real.sqrt (p ^ 2 + (eta p (V / K) * (eta p V' / eta p V)) ^ 2) := by
      unfold tradeK; field_simp
    rw [this, Real.sq_sqrt (by positivity)]; ring
  rw [eta_ratio, e, Real.sqrt_sq_eq_abs]

theorem eta_nonneg (p V : ℝ) : 0 ≤ eta p V := Real.sqrt_nonneg _

theorem etaS_trade' {p V V' : ℝ} (h' : Propagates p V') (K : ℝ) :
    eta p (V' / tradeK p V V' K) = eta p (V / K) * (eta p V' / eta p V) := by
  rw [etaS_trade h', abs_of_nonneg]
  have := eta_nonneg p (V / K)
  have := eta_nonneg p V
  have := eta_nonneg p V'
  positivity

theorem trade_S {p V V' : ℝ} (h : Propagates p V) (h' : Propagates p V') (H K : ℝ) :
    tradeH p V V' H * eta p (V' / tradeK p V V' K) = H * eta p (V / K) := by
  rw [etaS_trade' h', tradeH]
  have := (eta_pos h).ne'
  have := (eta_pos h').ne'
  field_simp

theorem trade_P {p V V' : ℝ} (h' : Propagates p V') (H : ℝ) :
    tradeH p V V' H * eta p V' = H * eta p V := by
  rw [tradeH]
  have := (eta_pos h').ne'
  field_simp

theorem trade_times {p V V' : ℝ} (h : Propagates p V) (h' : Propagates p V') (H K : ℝ) :
    tPs p V' (tradeH p V V' H) (tradeK p V V' K) = tPs p V H K ∧
    tPpPs p V' (tradeH p V V' H) (tradeK p V V' K) = tPpPs p V H K ∧
    tPsPs p V' (tradeH p V V' H) (tradeK p V V' K) = tPsPs p V H K := by
  have hS := trade_S h h' H K
  have hP := trade_P (V := V) h' H
  unfold tPs tPpPs tPsPs
  refine ⟨?_, ?_, ?_⟩
  · rw [mul_sub, mul_sub, hS, hP]
  · rw [mul_add, mul_add, hS, hP]
  · rw [mul_assoc, mul_assoc, hS]

theorem gridLoop_relabel {f g : ℝ → ℝ} {K H : List ℝ} {v v' : ℝ → ℝ → Except PyErr ℝ} {tb : List (Row ℝ)}
    (h : gridLoop K H v = .ok tb) (hv : ∀ k ∈ K, ∀ x ∈ H, v' (g k) (f x) = v k x) :
    gridLoop (K.map g) (H.map f) v' = .ok (relabelled f g tb) := by
  rw [gridLoop_eq, mapM_ok_iff] at h ⊢
  have hmem : ∀ p ∈ gridPoints K H, p.1 ∈ K ∧ p.2 ∈ H := fun p hp => mem_gridPoints.1 hp
  have e : gridPoints (K.map g) (H.map f) = (gridPoints K H).map (fun p => (g p.1, f p.2)) := by
    unfold gridPoints
    rw [List.map_flatMap, List.flatMap_map]
    congr 1
    funext k
    rw [List.map_map, List.map_map]; rfl
  rw [e]
  unfold relabelled
  rw [List.forall₂_map_left_iff, List.forall₂_map_right_iff]
  generalize gridPoints K H = ps at h hmem
  induction h with
  | nil => exact .nil
  | @cons p r ps rs h1 h2 ih =>
    refine .cons ?_ (ih (fun q hq => hmem q (by simp [hq])))
    obtain ⟨s, hs, h⟩ := bind_eq_ok.1 h1
    cases h
    have hp := hmem p (by simp)
    rw [hv _ hp.1 _ hp.2, hs]; rfl

theorem relabelled_s (f g : ℝ → ℝ) (tb : List (Row ℝ)) : (relabelled f g tb).map Row.s = tb.map Row.s := by
  unfold relabelled; rw [List.map_map]; rfl

theorem relabelled_get (f g : ℝ → ℝ) (tb : List (Row ℝ)) (n : Nat) :
    (relabelled f g tb)[n]? = tb[n]?.map (fun x : Row ℝ => (⟨f x.h, g x.k, x.s⟩ : Row ℝ)) := by
  unfold relabelled; rw [List.getElem?_map]

theorem relabelled_clip (f g : ℝ → ℝ) (tb : List (Row ℝ)) :
    clipLoop (relabelled f g tb) = relabelled f g (clipLoop tb) := by
  rw [clipLoop_eq, clipLoop_eq]
  unfold relabelled
  rw [List.map_map, List.map_map]
  apply List.map_congr_left
  intro row _
  simp only [Function.comp, clipRow_real]

theorem bestTimes_trade {Vp Vp' : Scalar ℝ} {kd kd' : Kind} {p : ℝ} (h : Propagates p Vp.val)
    (h' : Propagates p Vp'.val) (x k : ℝ) :
    bestTimes Vp' kd' p (tradeH p Vp.val Vp'.val x) (tradeK p Vp.val Vp'.val k) = bestTimes Vp kd p x k := by
  rw [bestTimes_real h.1.ne' h.2.le, bestTimes_real h'.1.ne' h'.2.le]
  obtain ⟨e1, e2, e3⟩ := trade_times h h' x k
  unfold zkMarks
  rw [e1, e2, e3]

/-- other velocities in both layers -/
theorem mohoTimes_trade {VS VM VS' VM' : Scalar ℝ} {kd kd' : Kind} {p : ℝ} (hS : Propagates p VS.val)
    (hM : Propagates p VM.val) (hS' : Propagates p VS'.val) (hM' : Propagates p VM'.val) (H1 K1 x k : ℝ) :
    HkSeqYeck.mohoTimes VS' (some VM') kd' p (tradeH p VS.val VS'.val H1) (tradeK p VS.val VS'.val K1)
      (tradeH p VM.val VM'.val x) (tradeK p VM.val VM'.val k) = HkSeqYeck.mohoTimes VS (some VM) kd p H1 K1 x k := by
  rw [mohoTimes_real hS.1.ne' hM.1.ne' hS.2.le hM.2.le, mohoTimes_real hS'.1.ne' hM'.1.ne' hS'.2.le hM'.2.le]
  obtain ⟨e1, e2, e3⟩ := trade_times hS hS' H1 K1
  obtain ⟨g1, g2, g3⟩ := trade_times hM hM' x k
  rw [e1, e2, e3, g1, g2, g3]

end Rfsed.Proofs
