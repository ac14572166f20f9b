import Verif.Proofs.DeconvScale
import Verif.Props.Deconv

/-!
# Property C90: receiver functions do not depend on gains or on the unit of time

All equalities include failures: the scaled call raises exactly when the original one does, and the same
exception.
-/

namespace Rfsed.Props
open Synrf PyFloat

/-- **C90** `deconv_iterative`: multiplying the numerator by `a` and the denominator by `b` and measuring
time in another unit (`dt`, `preonset` times `s`, the width parameter of the Gaussian, a frequency, divided
by `s`) multiplies the receiver function by `a / (b s)` and changes neither the misfits nor the number of
iterations. -/
theorem c90_iterative {a b s : ℝ} (ha : a ≠ 0) (hb : b ≠ 0) (hs : s ≠ 0) (u w : List ℝ) (dt : ℝ)
    (nt : Option Nat) (pre g : ℝ) (itmax : Nat) (minderr : ℝ) (phase : String) :
    deconv_iterative (u.map (fun x : ℝ => a * x)) (w.map (fun x : ℝ => b * x)) (s * dt) nt (s * pre) (g / s)
        itmax minderr phase =
      (deconv_iterative u w dt nt pre g itmax minderr phase).map
        (fun R => ⟨R.rf.map (fun rf => rf.map (fun x : ℝ => a / (b * s) * x)), R.rms, R.it⟩) :=
  deconv_iterative_scale ha hb hs u w dt nt pre g itmax minderr phase

/-- **C90** `deconv_waterlevel`: the same; a normalised receiver function does not even depend on the unit
of time. -/
theorem c90_waterlevel {a b s : ℝ} (ha : a ≠ 0) (hb : b ≠ 0) (hs : s ≠ 0) (u w : List ℝ)
    (dt pre wlevel g : ℝ) (normalize : Bool) :
    deconv_waterlevel (u.map (fun x : ℝ => a * x)) (w.map (fun x : ℝ => b * x)) (s * dt) (s * pre) wlevel (g / s)
        normalize =
      (deconv_waterlevel u w dt pre wlevel g normalize).map
        (fun r => (r.1.map (fun x : ℝ => (if normalize then a / b else a / (b * s)) * x), r.2)) :=
  deconv_waterlevel_scale ha hb hs u w dt pre wlevel g normalize

theorem callIter_gain {a b : ℝ} (ha : a ≠ 0) (hb : b ≠ 0) (u w : List ℝ) (dt : ℝ) (kw : KwArgs) :
    callIter (u.map (fun x : ℝ => a * x)) (w.map (fun x : ℝ => b * x)) dt kw =
      (callIter u w dt kw).map
        (fun R => ⟨R.rf.map (fun rf => rf.map (fun x : ℝ => a / b * x)), R.rms, R.it⟩) := by
  unfold callIter
  split_ifs
  · rfl
  · have := c90_iterative ha hb one_ne_zero u w dt kw.nt (kw.preonset.getD 10) (kw.gaussian.getD 2)
      (kw.itmax.getD 400) (kw.minderr.getD 0.001) (kw.phase.getD "P")
    simpa only [one_mul, mul_one, div_one] using this

theorem callWater_gain {a b : ℝ} (ha : a ≠ 0) (hb : b ≠ 0) (u w : List ℝ) (dt : ℝ) (kw : KwArgs) :
    callWater (u.map (fun x : ℝ => a * x)) (w.map (fun x : ℝ => b * x)) dt kw =
      (callWater u w dt kw).map (fun r => (r.1.map (fun x : ℝ => a / b * x), r.2)) := by
  unfold callWater
  split_ifs
  · rfl
  · have := c90_waterlevel ha hb one_ne_zero u w dt (kw.preonset.getD 10) (kw.wlevel.getD 0.05)
      (kw.gaussian.getD 2) (kw.normalize.getD false)
    simpa only [one_mul, mul_one, div_one, ite_self] using this

/-- **C90** the receiver-function trace, for every method name and all keyword arguments: gains `a` of the
numerator and `b` of the denominator multiply the data by `a / b`; sampling interval, keyword arguments,
misfits and number of iterations in the header stay.  In particular a gain common to both components
(`a = b`) changes nothing. -/
theorem c90_gain {a b : ℝ} (ha : a ≠ 0) (hb : b ≠ 0) (u w : Tr) (method : Option String) (kw : KwArgs) :
    RFTrace_deconvolve { u with data := u.data.map (fun x : ℝ => a * x) }
        { w with data := w.data.map (fun x : ℝ => b * x) } method kw =
      (RFTrace_deconvolve u w method kw).map
        (fun R => { R with data := R.data.map (fun rf => rf.map (fun x : ℝ => a / b * x)) }) := by
  unfold RFTrace_deconvolve
  simp only [callIter_gain ha hb, callWater_gain ha hb]
  split_ifs
  · cases callIter u.data w.data u.delta kw <;> rfl
  · cases callWater u.data w.data u.delta kw <;> rfl
  · rfl

/-- **C90** a gain common to both components does not matter at all. -/
theorem c90_common_gain {a : ℝ} (ha : a ≠ 0) (u w : Tr) (method : Option String) (kw : KwArgs) :
    RFTrace_deconvolve { u with data := u.data.map (fun x : ℝ => a * x) }
        { w with data := w.data.map (fun x : ℝ => a * x) } method kw = RFTrace_deconvolve u w method kw := by
  rw [c90_gain ha ha, div_self ha]
  cases RFTrace_deconvolve u w method kw with
  | error e => rfl
  | ok R =>
    show Except.ok _ = Except.ok _
    congr 1
    cases h : R.data <;> simp [h] <;> cases R <;> simp_all

/-- a call that succeeds: counts (`10⁶` per unit) on one component, a polarity reversal on the other, time in
milliseconds -/
example : ∃ R, deconv_iterative [1, 2, 0] [1, 0, 0] (1/10) none 10 2 400 (1/1000) "P" = .ok R ∧ 1 ≤ R.it ∧
    deconv_iterative [1000000, 2000000, 0] [-1, 0, 0] 100 none 10000 (1/500) 400 (1/1000) "P" =
      .ok ⟨R.rf.map (fun rf => rf.map (fun x : ℝ => -1000 * x)), R.rms, R.it⟩ := by
  obtain ⟨R, hR⟩ := c53_total (uin := [1, 2, 0]) (win := [1, 0, 0]) (dt := 1/10) (preonset := 10)
    (a := 2) (itmax := 400) (minderr := 1/1000) (phase := "P") rfl (by simp) (by norm_num)
  refine ⟨R, hR, ?_, ?_⟩
  · by_contra h0
    rcases (c53_dead_numerator hR (Or.inl rfl) (by norm_num)).1 (by omega) with h | h
    · omega
    · have := h 1 (by simp)
      norm_num at this
  · have := c90_iterative (a := 1000000) (b := -1) (s := 1000) (by norm_num) (by norm_num) (by norm_num)
      [1, 2, 0] [1, 0, 0] (1/10) none 10 2 400 (1/1000) "P"
    rw [hR] at this
    norm_num [Except.map] at this ⊢
    exact this

end Rfsed.Props
