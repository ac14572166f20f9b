import Verif.Spec.Missing
import Verif.Props.PostCritical
import Verif.Proofs.Seq
import Verif.Proofs.Plot

/-!
# Missing samples (NaN) in the stacking functions
-/

namespace Rfsed.Proofs
open Rfsed.Spec Rfsed.HkZhu PyFloat
open NReal hiding isNaN powHalf

theorem firstMissing_of {F : Type} [PyFloat F] [IEEEOrder F] {tb : List (Row F)} {n : Nat}
    (hb : argmax (tb.map Row.s) = .ok n) (hnan : ∃ row ∈ tb, isNaN row.s = true) :
    ∃ best, FirstMissing tb n best := by
  obtain ⟨_, hm | hm⟩ := argmax_spec hb
  · obtain ⟨row, hrow, hr⟩ := hnan
    have := hm.1 row.s (List.mem_map_of_mem hrow)
    rw [hr] at this; cases this
  · obtain ⟨s, hs, h1, h2⟩ := hm
    rw [List.getElem?_map, Option.map_eq_some_iff] at hs
    obtain ⟨best, hb, rfl⟩ := hs
    refine ⟨best, hb, h1, ?_⟩
    intro m row hm hrow
    exact h2 m row.s hm (by rw [List.getElem?_map, hrow]; rfl)

theorem isNaN_num {a : NReal} : isNaN a = true ↔ a = nan := by
  cases a <;> simp

theorem term_missing {w1 w2 w3 a1 a2 a3 : NReal} (h1 : IsNum w1) (h2 : IsNum w2) (h3 : IsNum w3) :
    isNaN (w1 * a1 + w2 * a2 - w3 * a3) = true ↔ a1 = nan ∨ a2 = nan ∨ a3 = nan := by
  obtain ⟨u1, rfl⟩ := isNum_iff.1 h1
  obtain ⟨u2, rfl⟩ := isNum_iff.1 h2
  obtain ⟨u3, rfl⟩ := isNum_iff.1 h3
  cases a1 <;> cases a2 <;> cases a3 <;> simp

/-- a weighted sum is NaN exactly if one of the samples read is -/
theorem weigh_missing {w1 w2 w3 v : NReal} {d t : List NReal} {t1 t2 t3 : ℝ}
    (hax : ∀ a ∈ t, IsNum a) (h1 : IsNum w1) (h2 : IsNum w2) (h3 : IsNum w3)
    (hw : weigh w1 w2 w3 d t (.real (num t1), .real (num t2), .real (num t3)) = .ok v) :
    isNaN v = true ↔ ReadsMissing d t t1 t2 t3 := by
  obtain ⟨a1, a2, a3, e1, e2, e3, rfl⟩ := weigh_ok.1 hw
  have r1 := getamp_num hax e1
  have r2 := getamp_num hax e2
  have r3 := getamp_num hax e3
  rw [term_missing h1 h2 h3]
  constructor
  · rintro (rfl | rfl | rfl)
    · exact .inl r1
    · exact .inr (.inl r2)
    · exact .inr (.inr r3)
  · rintro (h | h | h)
    · exact .inl (ReadsNearest.unique r1 h)
    · exact .inr (.inl (ReadsNearest.unique r2 h))
    · exact .inr (.inr (ReadsNearest.unique r3 h))

theorem add_zero_missing {v : NReal} : isNaN (v + zero) = true ↔ isNaN v = true := by
  cases v <;> simp

theorem foldl_missing (xs : List NReal) : ∀ z : NReal,
    isNaN (xs.foldl (fun s x => x + s) z) = true ↔ isNaN z = true ∨ ∃ x ∈ xs, isNaN x = true := by
  induction xs with
  | nil => intro z; simp
  | cons x xs ih =>
    intro z
    rw [List.foldl_cons, ih]
    have : isNaN (x + z) = true ↔ isNaN x = true ∨ isNaN z = true := by cases x <;> cases z <;> simp
    rw [this]
    simp only [List.mem_cons, exists_eq_or_imp]
    tauto

/-- the delay times of numbers below the critical slownesses -/
theorem bestTimes_num {Vp : Scalar NReal} {kd : Kind} {p vp x k : ℝ}
    {ts : PyNum NReal × PyNum NReal × PyNum NReal} (hvp : Vp.val = num vp) (h0 : vp ≠ 0)
    (hts : bestTimes Vp kd (num p) (num x) (num k) = .ok ts) (hp : PreCritical p vp k) :
    ts = (.real (num (tPs p vp x k)), .real (num (tPpPs p vp x k)), .real (num (tPsPs p vp x k))) := by
  have he := bestTimes_ok hts
  obtain ⟨hS, hP⟩ := hp
  have hge : PyFloat.lt (num ((1 / vp) ^ 2 - p ^ 2)) (PyFloat.zero : NReal) = false := by
    rw [← Bool.not_eq_true, nreal_zero, nreal_lt]; linarith
  have hpk : ∀ kd' : Kind, powHalfK kd' (num ((1 / vp) ^ 2 - p ^ 2) : NReal)
      = .real (num (Real.sqrt ((1 / vp) ^ 2 - p ^ 2))) := by
    intro kd'
    have h := nreal_powHalf _ (show 0 ≤ (1 / vp) ^ 2 - p ^ 2 by linarith)
    cases kd' <;> simp only [powHalfK, hge, Bool.false_eq_true, if_false, h]
  rw [hvp, nreal_one, nreal_div _ _ h0, nreal_div _ _ h0, nreal_square, nreal_square,
    nreal_square, nreal_sub, nreal_sub, nreal_powHalf _ (by linarith), hpk] at he
  simp only [PyNum.rsub, PyNum.radd, PyNum.rmul, nreal_sub, nreal_add, nreal_mul, nreal_two] at he
  rw [he, tPs, tPpPs, tPsPs, eta_ratio, eta_one _ vp]
  simp only [mul_comm x 2]

theorem mohoTimes_num {VpS vm : Scalar NReal} {kd : Kind} {p vs v H1 K1 x k : ℝ}
    {ts : PyNum NReal × PyNum NReal × PyNum NReal} (hvs : VpS.val = num vs) (h0 : vs ≠ 0)
    (hvm : vm.val = num v) (h0' : v ≠ 0)
    (hts : HkSeqYeck.mohoTimes VpS (some vm) kd (num p) (num H1) (num K1) (num x) (num k) = .ok ts)
    (hp : PreCritical p vs K1) (hp' : PreCritical p v k) :
    ts = (.real (num (tPs p vs H1 K1 + tPs p v x k)), .real (num (tPpPs p vs H1 K1 + tPpPs p v x k)),
      .real (num (tPsPs p vs H1 K1 + tPsPs p v x k))) := by
  obtain ⟨hS, hP⟩ := hp
  obtain ⟨hS', hP'⟩ := hp'
  have hpk : ∀ (kd' : Kind) (u : ℝ), p ^ 2 ≤ u → powHalfK kd' (num (u - p ^ 2) : NReal)
      = .real (num (Real.sqrt (u - p ^ 2))) := by
    intro kd' u hu
    have hge : PyFloat.lt (num (u - p ^ 2)) (PyFloat.zero : NReal) = false := by
      rw [← Bool.not_eq_true, nreal_zero, nreal_lt]; linarith
    have h := nreal_powHalf _ (show 0 ≤ u - p ^ 2 by linarith)
    cases kd' <;> simp only [powHalfK, hge, Bool.false_eq_true, if_false, h]
  have one1 : ∀ {V : Scalar NReal} {w : NReal} {u : ℝ}, V.val = num u → u ≠ 0 → oneOver V = .ok w → w = num (1 / u) := by
    intro V w u hV hu hw
    rw [oneOver_ok hw, hV, nreal_one, nreal_div _ _ hu]
  unfold HkSeqYeck.mohoTimes at hts
  obtain ⟨a, ha, hts⟩ := bind_eq_ok.1 hts
  simp only [HkSeqYeck.need, except_ok_bind] at hts
  obtain ⟨b, hb, hts⟩ := bind_eq_ok.1 hts
  rw [one1 hvs h0 ha, one1 hvm h0' hb, hvs, hvm, nreal_div _ _ h0, nreal_div _ _ h0', nreal_square, nreal_square,
    nreal_square, nreal_square, nreal_square, nreal_sub, nreal_sub, nreal_sub, nreal_sub,
    nreal_powHalf _ (by linarith), nreal_powHalf _ (by linarith), hpk _ _ hP, hpk _ _ hP'] at hts
  simp only [PyNum.rsub, PyNum.radd, PyNum.rmul, PyNum.add, nreal_sub, nreal_add, nreal_mul, nreal_two, except_pure,
    Except.ok.injEq] at hts
  rw [← hts]
  simp only [tPs, tPpPs, tPsPs, eta_ratio, eta_one _ vs, eta_one _ v]

end Rfsed.Proofs
