import Verif.Proofs.Rounded2
import Verif.Props.NoiseSeq

/-!
# Property C116: rounding errors of the stacking with sediment corrections

`FL R` is floating-point arithmetic with unit roundoff `R.u`, as in C105.
-/

namespace Rfsed.Props
open Rfsed PyFloat Spec HkZhu

variable {R : Rounding}

/-! ## `hkYu` -/

/-- the resonance-filter result with its numbers taken as exact real numbers -/
def exactFlt (flt : HkYu.FltInput (FL R)) : HkYu.FltInput ℝ where
  filteredrf := flt.filteredrf.map FL.val
  time := flt.time.map FL.val
  tlag := ⟨flt.tlag.kind, flt.tlag.val.val⟩

theorem yuCell_almost (hu : R.u ≤ 1 / 1000) {flt : HkYu.FltInput (FL R)} {rp Vp : Scalar (FL R)}
    {pd w1 w2 w3 k x s : FL R} {L δ D : ℝ} (hL : ∀ τ ∈ flt.time, |τ.val| ≤ L)
    (hw : WellConditioned R.u rp.val.val Vp.val.val k.val) (hd : |pd.val - δ| ≤ 4.1 * R.u * D) (hδ : |δ| ≤ D)
    (htl : |flt.tlag.val.val| ≤ 2 * D)
    (h : HkYu.cell flt rp Vp pd (some w1) (some w2) (some w3) k x = .ok s) :
    AlmostStack w1.val w2.val w3.val (flt.filteredrf.map FL.val) (flt.time.map FL.val)
      (tPs rp.val.val Vp.val.val x.val k.val + δ)
      (tPpPs rp.val.val Vp.val.val x.val k.val + flt.tlag.val.val - δ)
      (tPsPs rp.val.val Vp.val.val x.val k.val + flt.tlag.val.val)
      (60 * R.u * (L + (timeScale rp.val.val Vp.val.val x.val k.val + D))) (accumulated R.u 4) s.val := by
  rw [yuCell_eq] at h
  obtain ⟨ts, hts, h⟩ := bind_eq_ok.1 h
  obtain ⟨v, hv, h⟩ := bind_eq_ok.1 h
  have h := Except.ok.inj h
  rw [← h]
  have hu0 := R.u_nonneg
  have hp : |rp.val.val - rp.val.val| ≤ R.u * |rp.val.val| := by
    rw [sub_self, abs_zero]; positivity
  obtain ⟨t1, t2, t3, rfl, e1, e2, e3, f1, f2, f3⟩ := bestTimes_approx hu hp hw hts
  have hT := timeScale_nonneg rp.val.val Vp.val.val x.val k.val
  have hD : 0 ≤ D := (abs_nonneg _).trans hδ
  obtain ⟨g1, g2, g3, k1, k2, k3⟩ := shift_approx hu hT e1 e2 e3 f1 f2 f3 hd hδ htl
  have hne : flt.time ≠ [] := by
    rintro h0
    obtain ⟨a1, a2, a3, q, -⟩ := weigh_ok.1 hv
    obtain ⟨i, ⟨y, hy, -⟩, -⟩ := (getamp_ok_iff (fun _ _ => rfl)).1 q
    rw [h0] at hy
    simp at hy
  have hL0 : 0 ≤ L := by
    obtain ⟨y, t', hy⟩ := List.exists_cons_of_ne_nil hne
    exact (abs_nonneg _).trans (hL y (by rw [hy]; simp))
  exact weigh_almost hu (axisApprox_self hL) (by positivity) g1 g2 g3 k1 k2 k3
    (scale_le hu0 hL0 (add_nonneg hT hD) (by norm_num) (by norm_num)) hv

theorem yu_delay (hu : R.u ≤ 1 / 1000) {env : Env (FL R)} {flt : HkYu.FltInput (FL R)} {rp : Scalar (FL R)}
    {H K : List (FL R)} {VpMoho : Option (Scalar (FL R))} {VpSed VsSed : Scalar (FL R)} {w1 w2 w3 : Option (FL R)}
    {r : HkYu.YuResult (FL R)} (hvs : VsSed.val.val ≠ 0)
    (h : HkYu.hkYu env flt rp H K VpMoho (some VpSed) (some VsSed) w1 w2 w3 = .ok r) :
    |r.Pdelay.val - sedimentDelay flt.tlag.val.val VpSed.val.val VsSed.val.val| ≤
      4.1 * R.u * shiftScale flt.tlag.val.val VpSed.val.val VsSed.val.val ∧
    |sedimentDelay flt.tlag.val.val VpSed.val.val VsSed.val.val| ≤
      shiftScale flt.tlag.val.val VpSed.val.val VsSed.val.val ∧
    |flt.tlag.val.val| ≤ 2 * shiftScale flt.tlag.val.val VpSed.val.val VsSed.val.val := by
  obtain ⟨vs, a, b, bmod, f⟩ := hkYu_inv h
  have e := Option.some.inj f.hvs
  subst e
  have hV : r.VpSed = VpSed := f.hVpSed
  have ha := scalarDiv_val f.ha
  have hb := scalarDiv_val f.hb
  simp only [f.hSed, hV] at ha hb
  have key := delay_approx hu (tl := flt.tlag.val.val) (V := VpSed.val.val) hvs
  refine ⟨?_, key.2.1, key.2.2⟩
  refine le_trans (le_of_eq ?_) key.1
  congr 2
  rw [f.hPd, ha, hb]
  simp only [FL.val_sub, FL.val_div, FL.val_mul, FL.val_two]

/-- **C116** `hkYu` in floating-point arithmetic: the reported delay is the exact one up to a few roundings, and every stack
value is, up to the relative error of four operations, the weighted sum of samples nearest to the exact shifted delay
times up to `60 u` times the times involved. -/
theorem c116_hkYu (hu : R.u ≤ 1 / 1000) {env : Env (FL R)} {flt : HkYu.FltInput (FL R)} {rp : Scalar (FL R)}
    {H K : List (FL R)} {VpMoho VpSed VsSed : Scalar (FL R)} {w1 w2 w3 : FL R} {r : HkYu.YuResult (FL R)} {L : ℝ}
    (h : HkYu.hkYu env flt rp H K (some VpMoho) (some VpSed) (some VsSed) (some w1) (some w2) (some w3) = .ok r)
    (hvs : VsSed.val.val ≠ 0) (hL : ∀ τ ∈ flt.time, |τ.val| ≤ L) :
    let δ := sedimentDelay flt.tlag.val.val VpSed.val.val VsSed.val.val
    let D := shiftScale flt.tlag.val.val VpSed.val.val VsSed.val.val
    |r.Pdelay.val - δ| ≤ 4.1 * R.u * D ∧
    ∀ row ∈ r.stackvaluesSubSed, WellConditioned R.u rp.val.val VpMoho.val.val row.k.val →
      AlmostStack w1.val w2.val w3.val (flt.filteredrf.map FL.val) (flt.time.map FL.val)
        (tPs rp.val.val VpMoho.val.val row.h.val row.k.val + δ)
        (tPpPs rp.val.val VpMoho.val.val row.h.val row.k.val + flt.tlag.val.val - δ)
        (tPsPs rp.val.val VpMoho.val.val row.h.val row.k.val + flt.tlag.val.val)
        (60 * R.u * (L + (timeScale rp.val.val VpMoho.val.val row.h.val row.k.val + D))) (accumulated R.u 4)
        row.s.val := by
  intro δ D
  obtain ⟨h1, h2, h3⟩ := yu_delay hu hvs h
  refine ⟨h1, fun row hrow hw => ?_⟩
  obtain ⟨vs, a, b, bmod, f⟩ := hkYu_inv h
  have hc := ((gridLoop_mem f.hgrid row).1 hrow).2.2
  rw [f.hVp] at hc
  exact yuCell_almost hu hL hw h1 h2 h3 hc

/-- **C116** `hkYu` in floating-point and in exact arithmetic on the same numbers: if the exact times of every grid point have
clearly nearest samples, the stack values differ by at most `accumulated 4 · (|w1| + |w2| + |w3|) max|data|`, and a best
model that wins by more than twice this amount in exact arithmetic is the one reported in floating point. -/
theorem c116_hkYu_exact (hu : R.u ≤ 1 / 1000) {env : Env (FL R)} {env' : Env ℝ} {flt : HkYu.FltInput (FL R)}
    {rp : Scalar (FL R)} {H K : List (FL R)} {VpMoho VpSed VsSed : Scalar (FL R)} {w1 w2 w3 : FL R}
    {r : HkYu.YuResult (FL R)} {r' : HkYu.YuResult ℝ} {kr k1 k2 k3 : Kind} {A L : ℝ}
    (h : HkYu.hkYu env flt rp H K (some VpMoho) (some VpSed) (some VsSed) (some w1) (some w2) (some w3) = .ok r)
    (h' : HkYu.hkYu env' (exactFlt flt) ⟨kr, rp.val.val⟩ (H.map FL.val) (K.map FL.val) (some ⟨k1, VpMoho.val.val⟩)
      (some ⟨k2, VpSed.val.val⟩) (some ⟨k3, VsSed.val.val⟩) (some w1.val) (some w2.val) (some w3.val) = .ok r')
    (hvs : VsSed.val.val ≠ 0) (hL : ∀ τ ∈ flt.time, |τ.val| ≤ L) (hL0 : 0 ≤ L) (hA : ∀ a ∈ flt.filteredrf, |a.val| ≤ A)
    (hw : ∀ k ∈ K, WellConditioned R.u rp.val.val VpMoho.val.val k.val)
    (hclear : ∀ k ∈ K, ∀ x ∈ H, ClearTimes (flt.time.map FL.val)
      (tPs rp.val.val VpMoho.val.val x.val k.val + sedimentDelay flt.tlag.val.val VpSed.val.val VsSed.val.val)
      (tPpPs rp.val.val VpMoho.val.val x.val k.val + flt.tlag.val.val -
        sedimentDelay flt.tlag.val.val VpSed.val.val VsSed.val.val)
      (tPsPs rp.val.val VpMoho.val.val x.val k.val + flt.tlag.val.val)
      (60 * R.u * (L + (timeScale rp.val.val VpMoho.val.val x.val k.val +
        shiftScale flt.tlag.val.val VpSed.val.val VsSed.val.val)))) :
    let B := accumulated R.u 4 * ((|w1.val| + |w2.val| + |w3.val|) * A)
    NearTable B r'.stackvaluesSubSed (r.stackvaluesSubSed.map exactRow) ∧
      (Margin (2 * B) r'.stackvaluesSubSed r'.bestIdx → r.bestIdx = r'.bestIdx) := by
  intro B
  obtain ⟨h1, h2, h3⟩ := yu_delay hu hvs h
  obtain ⟨vs, a, b, bmod, f⟩ := hkYu_inv h
  obtain ⟨vs', a', b', bmod', f'⟩ := hkYu_inv h'
  have e' := Option.some.inj f'.hvs
  subst e'
  have hd : r'.Pdelay = sedimentDelay flt.tlag.val.val VpSed.val.val VsSed.val.val := by
    have hV : r'.VpSed = ⟨k2, VpSed.val.val⟩ := f'.hVpSed
    rw [f'.hPd, scalarDiv_val f'.ha, scalarDiv_val f'.hb, f'.hSed, hV, real_two]
    unfold sedimentDelay exactFlt
    simp only
    field_simp
  have hT : NearTable B r'.stackvaluesSubSed (r.stackvaluesSubSed.map exactRow) := by
    have g := f.hgrid
    have g' := f'.hgrid
    rw [f.hVp] at g
    rw [f'.hVp] at g'
    simp only [Option.getD_some] at g g'
    refine nearTable_fl g g' ?_
    intro k hk x hx s s' hs hs'
    have hwc := hw k hk
    obtain ⟨hV, hp⟩ := well_pre R.u_nonneg hwc
    have q := yuCell_almost hu hL hwc h1 h2 h3 hs
    rw [yuCell_eq, bestTimes_real (Vp := ⟨k1, VpMoho.val.val⟩) (p := rp.val.val) hV hp, except_ok_bind] at hs'
    obtain ⟨v, hv, hs'⟩ := bind_eq_ok.1 hs'
    have hs' := Except.ok.inj hs'
    rw [real_zero, add_zero] at hs'
    subst hs'
    rw [yuShift_zk, weigh_real, hd] at hv
    have hT := timeScale_nonneg rp.val.val VpMoho.val.val x.val k.val
    have hD : 0 ≤ shiftScale flt.tlag.val.val VpSed.val.val VsSed.val.val := (abs_nonneg _).trans h2
    have hu0 := R.u_nonneg
    refine almost_exact (by positivity) (accumulated_nonneg _) q (hclear k hk x hx) hv ?_
    intro z hz
    obtain ⟨y, hy, rfl⟩ := List.mem_map.1 hz
    exact hA y hy
  exact ⟨hT, nearTable_best hT f'.hbest (best_fl f.hbest)⟩

/-! ## The sequential methods -/

theorem clip_exact (tb : List (Row (FL R))) : (clipLoop tb).map exactRow = clipLoop (tb.map exactRow) := by
  rw [clipLoop_eq, clipLoop_eq, List.map_map, List.map_map]
  apply List.map_congr_left
  intro row _
  simp only [Function.comp]
  rw [clipRow_eq, clipRow_real]
  unfold exactRow
  by_cases h : row.s.val ≤ 0
  · have : le row.s zero = true := by simp [h]
    rw [this]
    simp [max_eq_right h]
  · have : le row.s zero = false := by
      rw [FL.le_false, FL.val_zero]; exact not_le.1 h
    rw [this]
    simp [max_eq_left (not_le.1 h).le]

/-- one stack value of a single layer, with the final `+ 0` -/
theorem single_almost (hu : R.u ≤ 1 / 1000) {Vp : Scalar (FL R)} {kd : Kind} {rp x k w1 w2 w3 v : FL R} {p L : ℝ}
    {ts : PyNum (FL R) × PyNum (FL R) × PyNum (FL R)} {axis d : List (FL R)} {axis' : List ℝ}
    (hp : |rp.val - p| ≤ R.u * |p|) (hax : AxisApprox R L axis axis')
    (hw : WellConditioned R.u p Vp.val.val k.val) (h : bestTimes Vp kd rp x k = .ok ts)
    (hv : weigh w1 w2 w3 d axis ts = .ok v) :
    AlmostStack w1.val w2.val w3.val (d.map FL.val) axis' (tPs p Vp.val.val x.val k.val)
      (tPpPs p Vp.val.val x.val k.val) (tPsPs p Vp.val.val x.val k.val)
      (40 * R.u * (L + timeScale p Vp.val.val x.val k.val)) (accumulated R.u 4) (v + zero).val := by
  obtain ⟨t1, t2, t3, rfl, e1, e2, e3, f1, f2, f3⟩ := bestTimes_approx hu hp hw h
  exact weigh_almost hu hax (timeScale_nonneg _ _ _ _) e1 e2 e3 f1 f2 f3 le_rfl hv

/-- one stack value of the Moho below a sediment, with the final `+ 0` -/
theorem moho_almost (hu : R.u ≤ 1 / 1000) {VpS vm : Scalar (FL R)} {kd : Kind} {rp H1 K1 x k w1 w2 w3 v : FL R}
    {p L : ℝ} {ts : PyNum (FL R) × PyNum (FL R) × PyNum (FL R)} {axis d : List (FL R)} {axis' : List ℝ} (hL : 0 ≤ L)
    (hp : |rp.val - p| ≤ R.u * |p|) (hax : AxisApprox R L axis axis')
    (hw1 : WellConditioned R.u p VpS.val.val K1.val) (hw2 : WellConditioned R.u p vm.val.val k.val)
    (h : HkSeqYeck.mohoTimes VpS (some vm) kd rp H1 K1 x k = .ok ts) (hv : weigh w1 w2 w3 d axis ts = .ok v) :
    AlmostStack w1.val w2.val w3.val (d.map FL.val) axis'
      (mohoPs p VpS.val.val H1.val K1.val vm.val.val x.val k.val)
      (mohoPpPs p VpS.val.val H1.val K1.val vm.val.val x.val k.val)
      (mohoPsPs p VpS.val.val H1.val K1.val vm.val.val x.val k.val)
      (50 * R.u * (L + (timeScale p VpS.val.val H1.val K1.val + timeScale p vm.val.val x.val k.val)))
      (accumulated R.u 4) (v + zero).val := by
  have hS := timeScale_nonneg p VpS.val.val H1.val K1.val
  have hT := timeScale_nonneg p vm.val.val x.val k.val
  obtain ⟨t1, t2, t3, rfl, e1, e2, e3, f1, f2, f3⟩ := mohoTimes_approx hu hp hw1 hw2 h
  exact weigh_almost hu hax (by positivity) e1 e2 e3 f1 f2 f3
    (scale_le R.u_nonneg hL (add_nonneg hS hT) (by norm_num) (by norm_num)) hv

theorem self_approx (x : ℝ) : |x - x| ≤ R.u * |x| := by
  have := R.u_nonneg
  rw [sub_self, abs_zero]; positivity

theorem seqSed_almost (hu : R.u ≤ 1 / 1000) {d t : List (FL R)} {rp Vp : Scalar (FL R)} {w1 w2 w3 k x s : FL R} {L : ℝ}
    (hL : ∀ τ ∈ t, |τ.val| ≤ L) (hw : WellConditioned R.u rp.val.val Vp.val.val k.val)
    (h : SynthAnalysis.seqSedCell d t rp Vp w1 w2 w3 k x = .ok s) :
    AlmostStack w1.val w2.val w3.val (d.map FL.val) (t.map FL.val) (tPs rp.val.val Vp.val.val x.val k.val)
      (tPpPs rp.val.val Vp.val.val x.val k.val) (tPsPs rp.val.val Vp.val.val x.val k.val)
      (40 * R.u * (L + timeScale rp.val.val Vp.val.val x.val k.val)) (accumulated R.u 4) s.val := by
  rw [seqSedCell_eq, synthCell_eq] at h
  obtain ⟨ts, hts, h⟩ := bind_eq_ok.1 h
  obtain ⟨v, hv, h⟩ := bind_eq_ok.1 h
  rw [← Except.ok.inj h]
  exact single_almost hu (self_approx _) (axisApprox_self hL) hw hts hv

theorem seqMoho_almost (hu : R.u ≤ 1 / 1000) {d t : List (FL R)} {rp VpS vm : Scalar (FL R)}
    {H1 K1 w1 w2 w3 k x s : FL R} {L : ℝ} (hL0 : 0 ≤ L)
    (hL : ∀ τ ∈ t, |τ.val| ≤ L) (hw1 : WellConditioned R.u rp.val.val VpS.val.val K1.val)
    (hw2 : WellConditioned R.u rp.val.val vm.val.val k.val)
    (h : SynthAnalysis.seqMohoCell d t rp VpS H1 K1 (some vm) (some w1) (some w2) (some w3) k x = .ok s) :
    AlmostStack w1.val w2.val w3.val (d.map FL.val) (t.map FL.val)
      (mohoPs rp.val.val VpS.val.val H1.val K1.val vm.val.val x.val k.val)
      (mohoPpPs rp.val.val VpS.val.val H1.val K1.val vm.val.val x.val k.val)
      (mohoPsPs rp.val.val VpS.val.val H1.val K1.val vm.val.val x.val k.val)
      (50 * R.u * (L + (timeScale rp.val.val VpS.val.val H1.val K1.val + timeScale rp.val.val vm.val.val x.val k.val)))
      (accumulated R.u 4) s.val := by
  rw [seqMohoCell_eq] at h
  obtain ⟨ts, hts, h⟩ := bind_eq_ok.1 h
  obtain ⟨v, hv, h⟩ := bind_eq_ok.1 h
  rw [← Except.ok.inj h]
  exact moho_almost hu hL0 (self_approx _) (axisApprox_self hL) hw1 hw2 hts hv

/-- the rows of a clipped table -/
theorem clip_row {raw : List (Row (FL R))} {row : Row (FL R)} (h : row ∈ clipLoop raw) :
    ∃ s, (⟨row.h, row.k, s⟩ : Row (FL R)) ∈ raw ∧ row.s.val = max s.val 0 := by
  rw [clipLoop_eq] at h
  obtain ⟨⟨x, k, s⟩, h1, rfl⟩ := List.mem_map.1 h
  refine ⟨s, ?_, ?_⟩
  · rw [clipRow_eq]; exact h1
  · rw [clipRow_eq]
    by_cases h : s.val ≤ 0
    · have : le s zero = true := by simp [h]
      simp [this, max_eq_right h]
    · have : le s zero = false := by
        rw [FL.le_false, FL.val_zero]; exact not_le.1 h
      simp [this, max_eq_left (not_le.1 h).le]

/-- **C116** `hkSeqSynth` in floating-point arithmetic: sediment values are weighted sums of samples nearest to the exact
single-layer delay times, Moho values (before clipping) of samples nearest to the sums of the exact delay times of the best
sediment and the candidate crust. -/
theorem c116_hkSeqSynth (hu : R.u ≤ 1 / 1000) {env : Env (FL R)} {dS dM t : List (FL R)} {rp : Scalar (FL R)}
    {HS KS HM KM : List (FL R)} {VpS vm : Scalar (FL R)} {w1S w2S w3S w1M w2M w3M : FL R}
    {r : SynthAnalysis.SeqSynthResult (FL R)} {L : ℝ}
    (h : SynthAnalysis.hkSeqSynth env dS dM t rp HS KS (some VpS) (some w1S) (some w2S) (some w3S) HM KM (some vm)
      (some w1M) (some w2M) (some w3M) = .ok r) (hL0 : 0 ≤ L) (hL : ∀ τ ∈ t, |τ.val| ≤ L)
    (hwS : ∀ k ∈ KS, WellConditioned R.u rp.val.val VpS.val.val k.val)
    (hwM : ∀ k ∈ KM, WellConditioned R.u rp.val.val vm.val.val k.val) :
    (∀ row ∈ r.stackvalueSed, AlmostStack w1S.val w2S.val w3S.val (dS.map FL.val) (t.map FL.val)
      (tPs rp.val.val VpS.val.val row.h.val row.k.val) (tPpPs rp.val.val VpS.val.val row.h.val row.k.val)
      (tPsPs rp.val.val VpS.val.val row.h.val row.k.val)
      (40 * R.u * (L + timeScale rp.val.val VpS.val.val row.h.val row.k.val)) (accumulated R.u 4) row.s.val) ∧
    ∃ b, r.bestmodelSed = some b ∧ ∀ row ∈ r.stackvalueMoho, ∃ s : ℝ, row.s.val = max s 0 ∧
      AlmostStack w1M.val w2M.val w3M.val (dM.map FL.val) (t.map FL.val)
        (mohoPs rp.val.val VpS.val.val b.h.val b.k.val vm.val.val row.h.val row.k.val)
        (mohoPpPs rp.val.val VpS.val.val b.h.val b.k.val vm.val.val row.h.val row.k.val)
        (mohoPsPs rp.val.val VpS.val.val b.h.val b.k.val vm.val.val row.h.val row.k.val)
        (50 * R.u * (L + (timeScale rp.val.val VpS.val.val b.h.val b.k.val +
          timeScale rp.val.val vm.val.val row.h.val row.k.val))) (accumulated R.u 4) s := by
  obtain ⟨bm, raw, f⟩ := hkSeqSynth_inv h
  have gS := f.hgridS
  have gM := f.hgridM
  rw [f.hVpSed] at gS gM
  simp only [Option.getD_some] at gS gM
  refine ⟨fun row hrow => ?_, bm, f.hrowS, fun row hrow => ?_⟩
  · obtain ⟨hk, -, hv⟩ := gridLoop_row gS hrow
    exact seqSed_almost hu hL (hwS _ hk) hv
  · rw [f.hclip] at hrow
    obtain ⟨s, h1, h2⟩ := clip_row hrow
    obtain ⟨hk, -, hv⟩ := gridLoop_row gM h1
    have hb := (gridLoop_row gS (List.mem_of_getElem? f.hrowS)).1
    exact ⟨s.val, h2, seqMoho_almost hu hL0 hL (hwS _ hb) (hwM _ hk) hv⟩

/-- same best row in both arithmetics -/
theorem best_same {B : ℝ} {tb : List (Row (FL R))} {tb' : List (Row ℝ)} {n n' : Nat} {b : Row (FL R)} {b' : Row ℝ}
    (hT : NearTable B tb' (tb.map exactRow)) (hn : n = n') (h : tb[n]? = some b) (h' : tb'[n']? = some b') :
    b'.h = b.h.val ∧ b'.k = b.k.val := by
  subst hn
  obtain ⟨l1, e1⟩ := List.getElem?_eq_some_iff.1 h'
  have h2 : (tb.map exactRow)[n]? = some (exactRow b) := by rw [List.getElem?_map, h]; rfl
  obtain ⟨l2, e2⟩ := List.getElem?_eq_some_iff.1 h2
  have := (List.forall₂_iff_get.1 hT).2 _ l1 l2
  simp only [List.get_eq_getElem, e1, e2] at this
  exact ⟨this.1.symm, this.2.1.symm⟩

/-- **C116** `hkSeqSynth` in floating-point and in exact arithmetic on the same numbers: the sediment tables differ by at
most `BS`; if the exact sediment model wins by more than `2 BS`, floating point reports the same one, the Moho tables
differ by at most `BM`, and a Moho model that wins by more than `2 BM` is reported too. -/
theorem c116_hkSeqSynth_exact (hu : R.u ≤ 1 / 1000) {env : Env (FL R)} {env' : Env ℝ} {dS dM t : List (FL R)}
    {rp : Scalar (FL R)} {HS KS HM KM : List (FL R)} {VpS vm : Scalar (FL R)} {w1S w2S w3S w1M w2M w3M : FL R}
    {r : SynthAnalysis.SeqSynthResult (FL R)} {r' : SynthAnalysis.SeqSynthResult ℝ} {kr k1 k2 : Kind} {L AS AM : ℝ}
    (h : SynthAnalysis.hkSeqSynth env dS dM t rp HS KS (some VpS) (some w1S) (some w2S) (some w3S) HM KM (some vm)
      (some w1M) (some w2M) (some w3M) = .ok r)
    (h' : SynthAnalysis.hkSeqSynth env' (dS.map FL.val) (dM.map FL.val) (t.map FL.val) ⟨kr, rp.val.val⟩ (HS.map FL.val)
      (KS.map FL.val) (some ⟨k1, VpS.val.val⟩) (some w1S.val) (some w2S.val) (some w3S.val) (HM.map FL.val)
      (KM.map FL.val) (some ⟨k2, vm.val.val⟩) (some w1M.val) (some w2M.val) (some w3M.val) = .ok r')
    (hL0 : 0 ≤ L) (hL : ∀ τ ∈ t, |τ.val| ≤ L) (hAS : ∀ a ∈ dS, |a.val| ≤ AS) (hAM : ∀ a ∈ dM, |a.val| ≤ AM)
    (hAM0 : 0 ≤ AM)
    (hwS : ∀ k ∈ KS, WellConditioned R.u rp.val.val VpS.val.val k.val)
    (hwM : ∀ k ∈ KM, WellConditioned R.u rp.val.val vm.val.val k.val)
    (hcS : ∀ k ∈ KS, ∀ x ∈ HS, ClearTimes (t.map FL.val) (tPs rp.val.val VpS.val.val x.val k.val)
      (tPpPs rp.val.val VpS.val.val x.val k.val) (tPsPs rp.val.val VpS.val.val x.val k.val)
      (40 * R.u * (L + timeScale rp.val.val VpS.val.val x.val k.val)))
    (hcM : ∀ b, r.bestmodelSed = some b → ∀ k ∈ KM, ∀ x ∈ HM, ClearTimes (t.map FL.val)
      (mohoPs rp.val.val VpS.val.val b.h.val b.k.val vm.val.val x.val k.val)
      (mohoPpPs rp.val.val VpS.val.val b.h.val b.k.val vm.val.val x.val k.val)
      (mohoPsPs rp.val.val VpS.val.val b.h.val b.k.val vm.val.val x.val k.val)
      (50 * R.u * (L + (timeScale rp.val.val VpS.val.val b.h.val b.k.val +
        timeScale rp.val.val vm.val.val x.val k.val)))) :
    let BS := accumulated R.u 4 * ((|w1S.val| + |w2S.val| + |w3S.val|) * AS)
    let BM := accumulated R.u 4 * ((|w1M.val| + |w2M.val| + |w3M.val|) * AM)
    NearTable BS r'.stackvalueSed (r.stackvalueSed.map exactRow) ∧
    (Margin (2 * BS) r'.stackvalueSed r'.bestIdxSed → r.bestIdxSed = r'.bestIdxSed ∧
      NearTable BM r'.stackvalueMoho (r.stackvalueMoho.map exactRow) ∧
      (Margin (2 * BM) r'.stackvalueMoho r'.bestIdxMoho → r.bestIdxMoho = r'.bestIdxMoho)) := by
  intro BS BM
  obtain ⟨bm, raw, f⟩ := hkSeqSynth_inv h
  obtain ⟨bm', raw', f'⟩ := hkSeqSynth_inv h'
  have hu0 := R.u_nonneg
  have gS := f.hgridS
  have gM := f.hgridM
  rw [f.hVpSed] at gS gM
  have gS' := f'.hgridS
  have gM' := f'.hgridM
  rw [f'.hVpSed] at gS' gM'
  simp only [Option.getD_some] at gS gM gS' gM'
  have hmem : ∀ {d : List (FL R)} {A : ℝ}, (∀ a ∈ d, |a.val| ≤ A) → ∀ a ∈ d.map FL.val, |a| ≤ A := by
    intro d A hA z hz
    obtain ⟨y, hy, rfl⟩ := List.mem_map.1 hz
    exact hA y hy
  have hT : NearTable BS r'.stackvalueSed (r.stackvalueSed.map exactRow) := by
    refine nearTable_fl gS gS' ?_
    intro k hk x hx s s' hs hs'
    have hwc := hwS k hk
    obtain ⟨hV, hp⟩ := well_pre hu0 hwc
    have q := seqSed_almost hu hL hwc hs
    rw [seqSedCell_eq, synthCell_eq, bestTimes_real (Vp := ⟨k1, VpS.val.val⟩) (p := rp.val.val) hV hp,
      except_ok_bind] at hs'
    obtain ⟨v, hv, hs'⟩ := bind_eq_ok.1 hs'
    have hs' := Except.ok.inj hs'
    rw [real_zero, add_zero] at hs'
    subst hs'
    have hT := timeScale_nonneg rp.val.val VpS.val.val x.val k.val
    exact almost_exact (by positivity) (accumulated_nonneg _) q (hcS k hk x hx) (weigh_real.1 hv) (hmem hAS)
  refine ⟨hT, fun hm => ?_⟩
  have hbest := nearTable_best hT f'.hbestS (best_fl f.hbestS) hm
  obtain ⟨e1, e2⟩ := best_same hT hbest f.hrowS f'.hrowS
  have hR : NearTable BM raw' (raw.map exactRow) := by
    rw [e1, e2] at gM'
    refine nearTable_fl gM gM' ?_
    intro k hk x hx s s' hs hs'
    have hb := (gridLoop_row gS (List.mem_of_getElem? f.hrowS)).1
    have hwc := hwS _ hb
    have hwc2 := hwM k hk
    obtain ⟨hV, hp⟩ := well_pre hu0 hwc
    obtain ⟨hV2, hp2⟩ := well_pre hu0 hwc2
    have q := seqMoho_almost hu hL0 hL hwc hwc2 hs
    rw [seqMohoCell_eq, mohoTimes_real (VpS := ⟨k1, VpS.val.val⟩) (vm := ⟨k2, vm.val.val⟩) hV hV2 hp hp2,
      except_ok_bind] at hs'
    obtain ⟨v, hv, hs'⟩ := bind_eq_ok.1 hs'
    have hs' := Except.ok.inj hs'
    rw [real_zero, add_zero] at hs'
    subst hs'
    have hS := timeScale_nonneg rp.val.val VpS.val.val bm.h.val bm.k.val
    have hT := timeScale_nonneg rp.val.val vm.val.val x.val k.val
    exact almost_exact (by positivity) (accumulated_nonneg _) q (hcM bm f.hrowS k hk x hx) (weigh_real.1 hv) (hmem hAM)
  refine ⟨hbest, ?_, fun hm2 => ?_⟩
  · rw [f.hclip, f'.hclip, clip_exact]
    exact near_clip hR
  · rw [f'.hclip] at hm2
    have hB : 0 ≤ 2 * BM := by
      have := accumulated_nonneg (R := R) 4
      positivity
    exact nearTable_best hR f'.hbestM (best_fl f.hbestM) (margin_of_clip hB hm2)

theorem lastTrace_getLast {F : Type} [PyFloat F] {term : Trace F → Except PyErr F} {st : List (Trace F)} {v : F} {last : Trace F}
    (hl : st.getLast? = some last) (h : HkSeqYeck.lastTrace term st = .ok v) : term last = .ok v := by
  obtain ⟨i, l, rfl, -, h1⟩ := lastTrace_ok.1 h
  rw [List.getLast?_concat] at hl
  cases hl
  exact h1

theorem sedTerm_almost (hu : R.u ≤ 1 / 1000) {env : Env (FL R)} {t sd : List (FL R)} {avg : FL R} {Vp : Scalar (FL R)}
    {w1 w2 w3 k x s : FL R} {tr : Trace (FL R)} {sl : Scalar (FL R)} {L : ℝ} {axis' : List ℝ}
    (hax : AxisApprox R L t axis') (hsl : tr.slowness = some sl)
    (hw : WellConditioned R.u (env.km2deg1.val * sl.val.val) Vp.val.val k.val)
    (h : HkSeqYeck.sedTerm env t sd avg Vp w1 w2 w3 false k x tr = .ok s) :
    AlmostStack w1.val w2.val w3.val (tr.data.map FL.val) axis' (tPs (env.km2deg1.val * sl.val.val) Vp.val.val x.val k.val)
      (tPpPs (env.km2deg1.val * sl.val.val) Vp.val.val x.val k.val)
      (tPsPs (env.km2deg1.val * sl.val.val) Vp.val.val x.val k.val)
      (40 * R.u * (L + timeScale (env.km2deg1.val * sl.val.val) Vp.val.val x.val k.val)) (accumulated R.u 4) s.val := by
  rw [sedTerm_eq] at h
  obtain ⟨o, -, h⟩ := bind_eq_ok.1 h
  obtain ⟨sl', h1, h⟩ := bind_eq_ok.1 h
  rw [getSlowness_ok, hsl] at h1
  cases h1
  obtain ⟨ts, hts, h⟩ := bind_eq_ok.1 h
  obtain ⟨v, hv, h⟩ := bind_eq_ok.1 h
  rw [← Except.ok.inj h]
  exact single_almost hu (R.err _) hax hw hts hv

theorem mohoTerm_almost (hu : R.u ≤ 1 / 1000) {env : Env (FL R)} {stM : List (Trace (FL R))} {t sd : List (FL R)}
    {avg : FL R} {VpS vm : Scalar (FL R)} {H1 K1 w1 w2 w3 k x s : FL R} {tr : Trace (FL R)} {sl : Scalar (FL R)} {L : ℝ}
    {axis' : List ℝ} (hL : 0 ≤ L) (hax : AxisApprox R L t axis') (hsl : tr.slowness = some sl)
    (hw1 : WellConditioned R.u (env.km2deg1.val * sl.val.val) VpS.val.val K1.val)
    (hw2 : WellConditioned R.u (env.km2deg1.val * sl.val.val) vm.val.val k.val)
    (h : HkSeqYeck.mohoTerm env stM t sd avg VpS H1 K1 (some vm) (some w1) (some w2) (some w3) false k x tr = .ok s) :
    AlmostStack w1.val w2.val w3.val (tr.data.map FL.val) axis'
      (mohoPs (env.km2deg1.val * sl.val.val) VpS.val.val H1.val K1.val vm.val.val x.val k.val)
      (mohoPpPs (env.km2deg1.val * sl.val.val) VpS.val.val H1.val K1.val vm.val.val x.val k.val)
      (mohoPsPs (env.km2deg1.val * sl.val.val) VpS.val.val H1.val K1.val vm.val.val x.val k.val)
      (50 * R.u * (L + (timeScale (env.km2deg1.val * sl.val.val) VpS.val.val H1.val K1.val +
        timeScale (env.km2deg1.val * sl.val.val) vm.val.val x.val k.val)))
      (accumulated R.u 4) s.val := by
  rw [mohoTerm_eq] at h
  obtain ⟨tr0, -, h⟩ := bind_eq_ok.1 h
  obtain ⟨o, -, h⟩ := bind_eq_ok.1 h
  obtain ⟨sl', h1, h⟩ := bind_eq_ok.1 h
  rw [getSlowness_ok, hsl] at h1
  cases h1
  obtain ⟨ts, hts, h⟩ := bind_eq_ok.1 h
  obtain ⟨v, hv, h⟩ := bind_eq_ok.1 h
  rw [← Except.ok.inj h]
  exact moho_almost hu hL (R.err _) hax hw1 hw2 hts hv

/-- **C116** `hkSeq` (no stacking of traces) in floating-point arithmetic: sediment values are weighted sums of samples of
the last sediment trace nearest to the exact single-layer delay times, Moho values (before clipping) of samples of the last
Moho trace nearest to the sums of the exact delay times of the best sediment and the candidate crust. -/
theorem c116_hkSeq (hu : R.u ≤ 1 / 1000) {env : Env (FL R)} {stS stM : List (Trace (FL R))} {preonset : FL R}
    {HS KS HM KM : List (FL R)} {VpS vm : Scalar (FL R)} {w1S w2S w3S w1M w2M w3M : FL R} {stack : Option Bool}
    {r : HkSeqYeck.SeqResult (FL R)} {first lastS lastM : Trace (FL R)} {slS slM : Scalar (FL R)}
    (hs : stack ≠ some true)
    (h : HkSeqYeck.hkSeq env stS stM preonset HS KS (some VpS) (some w1S) (some w2S) (some w3S) HM KM (some vm)
      (some w1M) (some w2M) (some w3M) stack = .ok r)
    (h0 : stS.head? = some first) (h1 : stS.getLast? = some lastS) (h2 : stM.getLast? = some lastM)
    (h3 : lastS.slowness = some slS) (h4 : lastM.slowness = some slM)
    (hwS : ∀ k ∈ KS, WellConditioned R.u (env.km2deg1.val * slS.val.val) VpS.val.val k.val ∧
      WellConditioned R.u (env.km2deg1.val * slM.val.val) VpS.val.val k.val)
    (hwM : ∀ k ∈ KM, WellConditioned R.u (env.km2deg1.val * slM.val.val) vm.val.val k.val) :
    let axis := exactAxis first.delta.val preonset.val first.data.length
    let L := |first.delta.val| * first.data.length + |preonset.val|
    let pS := env.km2deg1.val * slS.val.val
    let pM := env.km2deg1.val * slM.val.val
    (∀ row ∈ r.stackvalueSed, AlmostStack w1S.val w2S.val w3S.val (lastS.data.map FL.val) axis
      (tPs pS VpS.val.val row.h.val row.k.val) (tPpPs pS VpS.val.val row.h.val row.k.val)
      (tPsPs pS VpS.val.val row.h.val row.k.val)
      (40 * R.u * (L + timeScale pS VpS.val.val row.h.val row.k.val)) (accumulated R.u 4) row.s.val) ∧
    ∃ b, r.bestmodelSed = some b ∧ ∀ row ∈ r.stackvalueMoho, ∃ s : ℝ, row.s.val = max s 0 ∧
      AlmostStack w1M.val w2M.val w3M.val (lastM.data.map FL.val) axis
        (mohoPs pM VpS.val.val b.h.val b.k.val vm.val.val row.h.val row.k.val)
        (mohoPpPs pM VpS.val.val b.h.val b.k.val vm.val.val row.h.val row.k.val)
        (mohoPsPs pM VpS.val.val b.h.val b.k.val vm.val.val row.h.val row.k.val)
        (50 * R.u * (L + (timeScale pM VpS.val.val b.h.val b.k.val +
          timeScale pM vm.val.val row.h.val row.k.val))) (accumulated R.u 4) s := by
  intro axis L pS pM
  obtain ⟨tr0, rest, slows, bm, raw, f⟩ := hkSeq_inv h
  have e0 : tr0 = first := by
    rw [f.hst] at h0
    exact Option.some.inj h0
  subst e0
  have hax := axisApprox_timeAxis hu tr0.delta preonset tr0.data.length
  have hL0 : 0 ≤ |tr0.delta.val| * tr0.data.length + |preonset.val| := by positivity
  have gS := f.hgridS
  have gM := f.hgridM
  rw [f.hVpSed, f.hstk, not_true_getD hs, f.htime] at gS gM
  simp only [Option.getD_some] at gS gM
  refine ⟨fun row hrow => ?_, bm, f.hrowS, fun row hrow => ?_⟩
  · obtain ⟨hk, -, hv⟩ := gridLoop_row gS hrow
    exact sedTerm_almost hu hax h3 (hwS _ hk).1 (lastTrace_getLast h1 hv)
  · rw [f.hclip] at hrow
    obtain ⟨s, q1, q2⟩ := clip_row hrow
    obtain ⟨hk, -, hv⟩ := gridLoop_row gM q1
    have hb := (gridLoop_row gS (List.mem_of_getElem? f.hrowS)).1
    exact ⟨s.val, q2, mohoTerm_almost hu hL0 hax h4 (hwS _ hb).2 (hwM _ hk) (lastTrace_getLast h2 hv)⟩

/-- **C116** `hkSeq` in floating-point and in exact arithmetic on the same numbers -/
theorem c116_hkSeq_exact (hu : R.u ≤ 1 / 1000) {env : Env (FL R)} {env' : Env ℝ} {stS stM : List (Trace (FL R))}
    {preonset : FL R} {HS KS HM KM : List (FL R)} {VpS vm : Scalar (FL R)} {w1S w2S w3S w1M w2M w3M : FL R}
    {stack stack' : Option Bool} {r : HkSeqYeck.SeqResult (FL R)} {r' : HkSeqYeck.SeqResult ℝ}
    {first lastS lastM : Trace (FL R)} {slS slM : Scalar (FL R)} {k1 k2 : Kind} {AS AM : ℝ}
    (hs : stack ≠ some true) (hs' : stack' ≠ some true) (hkm : env'.km2deg1 = env.km2deg1.val)
    (h : HkSeqYeck.hkSeq env stS stM preonset HS KS (some VpS) (some w1S) (some w2S) (some w3S) HM KM (some vm)
      (some w1M) (some w2M) (some w3M) stack = .ok r)
    (h' : HkSeqYeck.hkSeq env' (stS.map exactTrace) (stM.map exactTrace) preonset.val (HS.map FL.val) (KS.map FL.val)
      (some ⟨k1, VpS.val.val⟩) (some w1S.val) (some w2S.val) (some w3S.val) (HM.map FL.val) (KM.map FL.val)
      (some ⟨k2, vm.val.val⟩) (some w1M.val) (some w2M.val) (some w3M.val) stack' = .ok r')
    (h0 : stS.head? = some first) (h1 : stS.getLast? = some lastS) (h2 : stM.getLast? = some lastM)
    (h3 : lastS.slowness = some slS) (h4 : lastM.slowness = some slM)
    (hAS : ∀ a ∈ lastS.data, |a.val| ≤ AS) (hAM : ∀ a ∈ lastM.data, |a.val| ≤ AM) (hAM0 : 0 ≤ AM)
    (hwS : ∀ k ∈ KS, WellConditioned R.u (env.km2deg1.val * slS.val.val) VpS.val.val k.val ∧
      WellConditioned R.u (env.km2deg1.val * slM.val.val) VpS.val.val k.val)
    (hwM : ∀ k ∈ KM, WellConditioned R.u (env.km2deg1.val * slM.val.val) vm.val.val k.val) :
    let axis := exactAxis first.delta.val preonset.val first.data.length
    let L := |first.delta.val| * first.data.length + |preonset.val|
    let pS := env.km2deg1.val * slS.val.val
    let pM := env.km2deg1.val * slM.val.val
    let BS := accumulated R.u 4 * ((|w1S.val| + |w2S.val| + |w3S.val|) * AS)
    let BM := accumulated R.u 4 * ((|w1M.val| + |w2M.val| + |w3M.val|) * AM)
    (∀ k ∈ KS, ∀ x ∈ HS, ClearTimes axis (tPs pS VpS.val.val x.val k.val) (tPpPs pS VpS.val.val x.val k.val)
      (tPsPs pS VpS.val.val x.val k.val) (40 * R.u * (L + timeScale pS VpS.val.val x.val k.val))) →
    (∀ b, r.bestmodelSed = some b → ∀ k ∈ KM, ∀ x ∈ HM, ClearTimes axis
      (mohoPs pM VpS.val.val b.h.val b.k.val vm.val.val x.val k.val)
      (mohoPpPs pM VpS.val.val b.h.val b.k.val vm.val.val x.val k.val)
      (mohoPsPs pM VpS.val.val b.h.val b.k.val vm.val.val x.val k.val)
      (50 * R.u * (L + (timeScale pM VpS.val.val b.h.val b.k.val + timeScale pM vm.val.val x.val k.val)))) →
    NearTable BS r'.stackvalueSed (r.stackvalueSed.map exactRow) ∧
    (Margin (2 * BS) r'.stackvalueSed r'.bestIdxSed → r.bestIdxSed = r'.bestIdxSed ∧
      NearTable BM r'.stackvalueMoho (r.stackvalueMoho.map exactRow) ∧
      (Margin (2 * BM) r'.stackvalueMoho r'.bestIdxMoho → r.bestIdxMoho = r'.bestIdxMoho)) := by
  intro axis L pS pM BS BM hcS hcM
  obtain ⟨tr0, rest, slows, bm, raw, f⟩ := hkSeq_inv h
  obtain ⟨tr0', rest', slows', bm', raw', f'⟩ := hkSeq_inv h'
  have e0 : tr0 = first := by
    rw [f.hst] at h0
    exact Option.some.inj h0
  subst e0
  have ht' : r'.time = axis := by
    have hst' := f'.hst
    rw [f.hst, List.map_cons] at hst'
    injection hst' with e1 e2
    rw [f'.htime, ← e1]
    unfold axis timeAxis exactAxis exactTrace
    simp only [real_ofNat, List.length_map]
  have hu0 := R.u_nonneg
  have hax := axisApprox_timeAxis hu tr0.delta preonset tr0.data.length
  have hL0 : 0 ≤ L := by positivity
  have gS := f.hgridS
  have gM := f.hgridM
  rw [f.hVpSed, f.hstk, not_true_getD hs, f.htime] at gS gM
  have gS' := f'.hgridS
  have gM' := f'.hgridM
  rw [f'.hVpSed, f'.hstk, not_true_getD hs', ht'] at gS' gM'
  simp only [Option.getD_some] at gS gM gS' gM'
  have hmem : ∀ {d : List (FL R)} {A : ℝ}, (∀ a ∈ d, |a.val| ≤ A) → ∀ a ∈ d.map FL.val, |a| ≤ A := by
    intro d A hA z hz
    obtain ⟨y, hy, rfl⟩ := List.mem_map.1 hz
    exact hA y hy
  have hl1 : (stS.map exactTrace).getLast? = some (exactTrace lastS) := by rw [List.getLast?_map, h1]; rfl
  have hl2 : (stM.map exactTrace).getLast? = some (exactTrace lastM) := by rw [List.getLast?_map, h2]; rfl
  have hq1 : (exactTrace lastS).slowness = some ⟨slS.kind, slS.val.val⟩ := by
    show lastS.slowness.map _ = _
    rw [h3]; rfl
  have hq2 : (exactTrace lastM).slowness = some ⟨slM.kind, slM.val.val⟩ := by
    show lastM.slowness.map _ = _
    rw [h4]; rfl
  have hT : NearTable BS r'.stackvalueSed (r.stackvalueSed.map exactRow) := by
    refine nearTable_fl gS gS' ?_
    intro k hk x hx s s' hs hs'
    have hwc := (hwS k hk).1
    obtain ⟨hV, hp⟩ := well_pre hu0 hwc
    have q := sedTerm_almost hu hax h3 hwc (lastTrace_getLast h1 hs)
    have hs' := lastTrace_getLast hl1 hs'
    rw [sedTerm_eq] at hs'
    obtain ⟨o, -, hs'⟩ := bind_eq_ok.1 hs'
    obtain ⟨sl', g1, hs'⟩ := bind_eq_ok.1 hs'
    rw [getSlowness_ok, hq1] at g1
    cases g1
    simp only [Bool.false_eq_true, if_false] at hs'
    rw [hkm, bestTimes_real (Vp := ⟨k1, VpS.val.val⟩) (p := pS) hV hp, except_ok_bind] at hs'
    obtain ⟨v, hv, hs'⟩ := bind_eq_ok.1 hs'
    have hs' := Except.ok.inj hs'
    rw [real_zero, add_zero] at hs'
    subst hs'
    have hT := timeScale_nonneg pS VpS.val.val x.val k.val
    exact almost_exact (by positivity) (accumulated_nonneg _) q (hcS k hk x hx) (weigh_real.1 hv) (hmem hAS)
  refine ⟨hT, fun hm => ?_⟩
  have hbest := nearTable_best hT f'.hbestS (best_fl f.hbestS) hm
  obtain ⟨e1, e2⟩ := best_same hT hbest f.hrowS f'.hrowS
  have hR : NearTable BM raw' (raw.map exactRow) := by
    rw [e1, e2] at gM'
    refine nearTable_fl gM gM' ?_
    intro k hk x hx s s' hs hs'
    have hb := (gridLoop_row gS (List.mem_of_getElem? f.hrowS)).1
    have hwc := (hwS _ hb).2
    have hwc2 := hwM k hk
    obtain ⟨hV, hp⟩ := well_pre hu0 hwc
    obtain ⟨hV2, hp2⟩ := well_pre hu0 hwc2
    have q := mohoTerm_almost hu hL0 hax h4 hwc hwc2 (lastTrace_getLast h2 hs)
    have hs' := lastTrace_getLast hl2 hs'
    rw [mohoTerm_eq] at hs'
    obtain ⟨m0, -, hs'⟩ := bind_eq_ok.1 hs'
    obtain ⟨o, -, hs'⟩ := bind_eq_ok.1 hs'
    obtain ⟨sl', g1, hs'⟩ := bind_eq_ok.1 hs'
    rw [getSlowness_ok, hq2] at g1
    cases g1
    simp only [Bool.false_eq_true, if_false] at hs'
    rw [hkm, mohoTimes_real (VpS := ⟨k1, VpS.val.val⟩) (vm := ⟨k2, vm.val.val⟩) (p := pM) hV hV2 hp hp2,
      except_ok_bind] at hs'
    obtain ⟨v, hv, hs'⟩ := bind_eq_ok.1 hs'
    have hs' := Except.ok.inj hs'
    rw [real_zero, add_zero] at hs'
    subst hs'
    have hS := timeScale_nonneg pM VpS.val.val bm.h.val bm.k.val
    have hT := timeScale_nonneg pM vm.val.val x.val k.val
    exact almost_exact (by positivity) (accumulated_nonneg _) q (hcM bm f.hrowS k hk x hx) (weigh_real.1 hv) (hmem hAM)
  refine ⟨hbest, ?_, fun hm2 => ?_⟩
  · rw [f.hclip, f'.hclip, clip_exact]
    exact near_clip hR
  · rw [f'.hclip] at hm2
    have hB : 0 ≤ 2 * BM := by
      have := accumulated_nonneg (R := R) 4
      positivity
    exact nearTable_best hR f'.hbestM (best_fl f.hbestM) (margin_of_clip hB hm2)

/-! ## Concrete cases

Double precision, the sixteen samples of C105. `hkYu`: reverberation period 4 s, sediment velocities 4 and 2, candidate
crusts of 12 km and no crust. The sequential methods: a sediment with `Vp` = 50/13 and `K` = 101/52, 4 km or nothing, above
the crust of C105. -/

theorem sed_slow : Real.sqrt (((101 / 52 : ℝ) / (50 / 13)) ^ 2 - (0.1 : ℝ) ^ 2) = 0.495 ∧
    Real.sqrt ((1 / (50 / 13) : ℝ) ^ 2 - (0.1 : ℝ) ^ 2) = 0.24 := by
  constructor
  · rw [show ((101 / 52 : ℝ) / (50 / 13)) ^ 2 - (0.1 : ℝ) ^ 2 = 0.495 ^ 2 by norm_num, Real.sqrt_sq (by norm_num)]
  · rw [show ((1 : ℝ) / (50 / 13)) ^ 2 - (0.1 : ℝ) ^ 2 = 0.24 ^ 2 by norm_num, Real.sqrt_sq (by norm_num)]

theorem sed_well : WellConditioned Dbl.u 0.1 (50 / 13) (101 / 52) := by
  rw [dbl_u]
  unfold WellConditioned
  norm_num

theorem sed_scale {x : ℝ} (h0 : 0 ≤ x) (hx : x ≤ 4) : timeScale 0.1 (50 / 13) x (101 / 52) ≤ 4 := by
  obtain ⟨e1, e2⟩ := sed_slow
  unfold timeScale sensitivity
  rw [e1, e2, abs_of_nonneg h0]
  norm_num
  linarith

theorem sed_times {x : ℝ} : tPs 0.1 (50 / 13) x (101 / 52) = x * 0.255 ∧ tPpPs 0.1 (50 / 13) x (101 / 52) = x * 0.735 ∧
    tPsPs 0.1 (50 / 13) x (101 / 52) = x * 0.99 := by
  obtain ⟨e1, e2⟩ := sed_slow
  have a1 : eta 0.1 (50 / 13 / (101 / 52)) = 0.495 := by rw [← e1]; unfold eta; norm_num
  have a2 : eta 0.1 (50 / 13) = 0.24 := by rw [← e2]; unfold eta; norm_num
  unfold tPs tPpPs tPsPs
  rw [a1, a2]
  refine ⟨by ring, by ring, by ring⟩

theorem sed_clear {x E : ℝ} (hx : x = 4 ∨ x = 0) (hE : E ≤ 0.1) :
    ClearTimes axis16 (tPs 0.1 (50 / 13) x (101 / 52)) (tPpPs 0.1 (50 / 13) x (101 / 52))
      (tPsPs 0.1 (50 / 13) x (101 / 52)) E := by
  obtain ⟨e1, e2, e3⟩ := sed_times (x := x)
  rw [e1, e2, e3]
  rcases hx with rfl | rfl
  · refine ⟨clear16 1 (by norm_num) ?_ hE, clear16 3 (by norm_num) ?_ hE, clear16 4 (by norm_num) ?_ hE⟩
    all_goals rw [abs_le]; norm_num
  · refine ⟨clear16 0 (by norm_num) ?_ hE, clear16 0 (by norm_num) ?_ hE, clear16 0 (by norm_num) ?_ hE⟩
    all_goals rw [abs_le]; norm_num

theorem moho_clear {h x E : ℝ} (hh : h = 4 ∨ h = 0) (hx : x = 12 ∨ x = 0) (hE : E ≤ 0.1) :
    ClearTimes axis16 (mohoPs 0.1 (50 / 13) h (101 / 52) 6 x 1.85) (mohoPpPs 0.1 (50 / 13) h (101 / 52) 6 x 1.85)
      (mohoPsPs 0.1 (50 / 13) h (101 / 52) 6 x 1.85) E := by
  obtain ⟨e1, e2, e3⟩ := sed_times (x := h)
  obtain ⟨f1, f2, f3⟩ := dbl_times (x := x)
  unfold mohoPs mohoPpPs mohoPsPs
  rw [e1, e2, e3, f1, f2, f3]
  rcases hh with rfl | rfl <;> rcases hx with rfl | rfl
  · refine ⟨clear16 3 (by norm_num) ?_ hE, clear16 8 (by norm_num) ?_ hE, clear16 11 (by norm_num) ?_ hE⟩
    all_goals rw [abs_le]; norm_num
  · refine ⟨clear16 1 (by norm_num) ?_ hE, clear16 3 (by norm_num) ?_ hE, clear16 4 (by norm_num) ?_ hE⟩
    all_goals rw [abs_le]; norm_num
  · refine ⟨clear16 2 (by norm_num) ?_ hE, clear16 5 (by norm_num) ?_ hE, clear16 7 (by norm_num) ?_ hE⟩
    all_goals rw [abs_le]; norm_num
  · refine ⟨clear16 0 (by norm_num) ?_ hE, clear16 0 (by norm_num) ?_ hE, clear16 0 (by norm_num) ?_ hE⟩
    all_goals rw [abs_le]; norm_num

theorem small16 {c T : ℝ} (hc : c ≤ 60) (hc0 : 0 ≤ c) (hT : T ≤ 100) : c * Dbl.u * (16 + T) ≤ 0.1 := by
  have h : c * Dbl.u * (16 + T) ≤ 60 * Dbl.u * 116 := by
    have h0 := Dbl.u_nonneg
    have a : c * Dbl.u ≤ 60 * Dbl.u := mul_le_mul_of_nonneg_right hc h0
    have b : c * Dbl.u * (16 + T) ≤ c * Dbl.u * 116 := mul_le_mul_of_nonneg_left (by linarith) (mul_nonneg hc0 h0)
    linarith
  refine h.trans ?_
  rw [dbl_u]; norm_num

/-- the time axis of the examples -/
noncomputable def dblTime : List (FL Dbl) := (List.range 16).map (fun i : Nat => ⟨i⟩)

theorem dblTime_val : dblTime.map FL.val = axis16 := by
  unfold dblTime
  rw [List.map_map]; rfl

theorem dblTime_le : ∀ τ ∈ dblTime, |τ.val| ≤ 16 := by
  intro τ hτ
  obtain ⟨i, hi, rfl⟩ := List.mem_map.1 hτ
  have := List.mem_range.1 hi
  have h : (i : ℝ) ≤ 16 := by exact_mod_cast this.le
  simpa using h

theorem dbl_amp : ∀ a ∈ dblTrace.data, |a.val| ≤ 3 := by
  intro a ha
  have ha := List.mem_map_of_mem (f := FL.val) ha
  rw [dbl_data] at ha
  obtain ⟨i, -, hi⟩ := List.mem_map.1 ha
  rw [← hi]
  split
  · norm_num
  · split <;> norm_num

/-- `hkYu`: both runs exist and meet every hypothesis, so the stack values differ by less than 10⁻¹⁴ -/
example : let flt : HkYu.FltInput (FL Dbl) := ⟨dblTrace.data, dblTime, ⟨.np, ⟨4⟩⟩⟩
    ∃ r r', HkYu.hkYu (dblEnv (FL Dbl) ⟨0.01⟩) flt ⟨.py, ⟨0.1⟩⟩ [⟨12⟩, ⟨0⟩] [⟨1.85⟩] (some ⟨.py, ⟨6⟩⟩) (some ⟨.py, ⟨4⟩⟩)
        (some ⟨.py, ⟨2⟩⟩) (some ⟨1⟩) (some ⟨1⟩) (some ⟨1⟩) = .ok r ∧
      HkYu.hkYu (dblEnv ℝ 0.01) (exactFlt flt) ⟨.py, 0.1⟩ [12, 0] [1.85] (some ⟨.py, 6⟩) (some ⟨.py, 4⟩)
        (some ⟨.py, 2⟩) (some 1) (some 1) (some 1) = .ok r' ∧
      NearTable (1 / 10 ^ 14) r'.stackvaluesSubSed (r.stackvaluesSubSed.map exactRow) := by
  intro flt
  have hlen : dblTrace.data.length = 16 := by simp [dblTrace]
  have hlen2 : dblTime.length = 16 := by simp [dblTime]
  obtain ⟨r, hr⟩ := (c104_hkYu (env := dblEnv (FL Dbl) ⟨0.01⟩) (flt := flt) (rp := ⟨.py, ⟨0.1⟩⟩) (H := [⟨12⟩, ⟨0⟩])
    (K := [⟨1.85⟩]) (VpMoho := some ⟨.py, ⟨6⟩⟩) (VpSed := some ⟨.py, ⟨4⟩⟩) (VsSed := some ⟨.py, ⟨2⟩⟩) (w1 := some ⟨1⟩)
    (w2 := some ⟨1⟩) (w3 := some ⟨1⟩) (by show dblTime.length ≤ dblTrace.data.length; rw [hlen, hlen2])
    (fun _ _ => rfl)).2 ⟨by
      show dblTime ≠ []
      rw [← List.length_pos_iff, hlen2]; norm_num, Or.inr (by simp [PyFloat.eq]), ⟨_, rfl, Or.inl rfl, Or.inl rfl⟩, rfl,
      rfl, rfl, by simp, by simp⟩
  obtain ⟨r', hr'⟩ := (c104_hkYu (env := dblEnv ℝ 0.01) (flt := exactFlt flt) (rp := ⟨.py, 0.1⟩) (H := [12, 0])
    (K := [1.85]) (VpMoho := some ⟨.py, 6⟩) (VpSed := some ⟨.py, 4⟩) (VsSed := some ⟨.py, 2⟩) (w1 := some 1)
    (w2 := some 1) (w3 := some 1) (by
      show (dblTime.map FL.val).length ≤ (dblTrace.data.map FL.val).length
      rw [List.length_map, List.length_map, hlen, hlen2])
    (fun _ _ => rfl)).2 ⟨by
      show dblTime.map FL.val ≠ []
      rw [← List.length_pos_iff, List.length_map, hlen2]; norm_num, divisor_real (by norm_num),
      ⟨_, rfl, Or.inl rfl, Or.inl rfl⟩, rfl, rfl, rfl, by simp, by simp⟩
  refine ⟨r, r', hr, hr', ?_⟩
  have key := (c116_hkYu_exact (L := 16) (A := 3) (by rw [dbl_u]; norm_num) hr hr' (by norm_num) dblTime_le (by norm_num)
    dbl_amp (by
      intro k hk
      rw [List.mem_singleton.1 hk]
      exact dbl_well) (by
      intro k hk x hx
      rw [List.mem_singleton.1 hk]
      show ClearTimes (dblTime.map FL.val) (tPs 0.1 6 x.val 1.85 + sedimentDelay 4 4 2)
        (tPpPs 0.1 6 x.val 1.85 + 4 - sedimentDelay 4 4 2) (tPsPs 0.1 6 x.val 1.85 + 4)
        (60 * Dbl.u * (16 + (timeScale 0.1 6 x.val 1.85 + shiftScale 4 4 2)))
      have e : sedimentDelay 4 4 2 = 1 := by unfold sedimentDelay; norm_num
      have e' : shiftScale 4 4 2 = 3 := by unfold shiftScale; norm_num
      have hx2 : x.val = 12 ∨ x.val = 0 := by
        simp only [List.mem_cons, List.not_mem_nil, or_false] at hx
        rcases hx with rfl | rfl <;> simp
      obtain ⟨f1, f2, f3⟩ := dbl_times (x := x.val)
      have hE : 60 * Dbl.u * (16 + (timeScale 0.1 6 x.val 1.85 + 3)) ≤ 0.1 := by
        refine small16 le_rfl (by norm_num) ?_
        have := dbl_scale (x := x.val) (by rcases hx2 with h | h <;> rw [h] <;> norm_num)
          (by rcases hx2 with h | h <;> rw [h] <;> norm_num)
        linarith
      rw [dblTime_val, e, e', f1, f2, f3]
      rcases hx2 with h | h
      · rw [h] at hE ⊢
        refine ⟨clear16 3 (by norm_num) ?_ hE, clear16 8 (by norm_num) ?_ hE, clear16 11 (by norm_num) ?_ hE⟩
        all_goals rw [abs_le]; norm_num
      · rw [h] at hE ⊢
        refine ⟨clear16 1 (by norm_num) ?_ hE, clear16 3 (by norm_num) ?_ hE, clear16 4 (by norm_num) ?_ hE⟩
        all_goals rw [abs_le]; norm_num)).1
  have hB : accumulated Dbl.u 4 * ((|(1 : ℝ)| + |(1 : ℝ)| + |(1 : ℝ)|) * 3) ≤ 1 / 10 ^ 14 := by
    rw [dbl_u]
    unfold accumulated
    norm_num
  unfold NearTable at key ⊢
  exact key.imp (fun a b h => ⟨h.1, h.2.1, h.2.2.trans hB⟩)

theorem seq_well : (∀ k ∈ [(⟨101 / 52⟩ : FL Dbl)], WellConditioned Dbl.u 0.1 (50 / 13) k.val) ∧
    (∀ k ∈ [(⟨1.85⟩ : FL Dbl)], WellConditioned Dbl.u 0.1 6 k.val) := by
  constructor
  · intro k hk
    rw [List.mem_singleton.1 hk]
    exact sed_well
  · intro k hk
    rw [List.mem_singleton.1 hk]
    exact dbl_well

theorem seq_clear_sed : ∀ k ∈ [(⟨101 / 52⟩ : FL Dbl)], ∀ x ∈ [(⟨4⟩ : FL Dbl), ⟨0⟩], ClearTimes axis16
    (tPs 0.1 (50 / 13) x.val k.val) (tPpPs 0.1 (50 / 13) x.val k.val) (tPsPs 0.1 (50 / 13) x.val k.val)
    (40 * Dbl.u * (16 + timeScale 0.1 (50 / 13) x.val k.val)) := by
  intro k hk x hx
  rw [List.mem_singleton.1 hk]
  have hx2 : x.val = 4 ∨ x.val = 0 := by
    simp only [List.mem_cons, List.not_mem_nil, or_false] at hx
    rcases hx with rfl | rfl <;> simp
  refine sed_clear hx2 (small16 (by norm_num) (by norm_num) ?_)
  have := sed_scale (x := x.val) (by rcases hx2 with h | h <;> rw [h] <;> norm_num)
    (by rcases hx2 with h | h <;> rw [h] <;> norm_num)
  simp only
  linarith

theorem seq_clear_moho {b : Row (FL Dbl)} (hh : b.h ∈ [(⟨4⟩ : FL Dbl), ⟨0⟩]) (hk : b.k ∈ [(⟨101 / 52⟩ : FL Dbl)]) :
    ∀ k ∈ [(⟨1.85⟩ : FL Dbl)], ∀ x ∈ [(⟨12⟩ : FL Dbl), ⟨0⟩], ClearTimes axis16
      (mohoPs 0.1 (50 / 13) b.h.val b.k.val 6 x.val k.val) (mohoPpPs 0.1 (50 / 13) b.h.val b.k.val 6 x.val k.val)
      (mohoPsPs 0.1 (50 / 13) b.h.val b.k.val 6 x.val k.val)
      (50 * Dbl.u * (16 + (timeScale 0.1 (50 / 13) b.h.val b.k.val + timeScale 0.1 6 x.val k.val))) := by
  intro k hk' x hx
  rw [List.mem_singleton.1 hk, List.mem_singleton.1 hk']
  have hh2 : b.h.val = 4 ∨ b.h.val = 0 := by
    simp only [List.mem_cons, List.not_mem_nil, or_false] at hh
    rcases hh with h | h <;> rw [h] <;> simp
  have hx2 : x.val = 12 ∨ x.val = 0 := by
    simp only [List.mem_cons, List.not_mem_nil, or_false] at hx
    rcases hx with rfl | rfl <;> simp
  refine moho_clear hh2 hx2 (small16 (by norm_num) (by norm_num) ?_)
  have h1 := sed_scale (x := b.h.val) (by rcases hh2 with h | h <;> rw [h] <;> norm_num)
    (by rcases hh2 with h | h <;> rw [h] <;> norm_num)
  have h2 := dbl_scale (x := x.val) (by rcases hx2 with h | h <;> rw [h] <;> norm_num)
    (by rcases hx2 with h | h <;> rw [h] <;> norm_num)
  simp only
  linarith

theorem seq_small : accumulated Dbl.u 4 * ((|(1 : ℝ)| + |(1 : ℝ)| + |(1 : ℝ)|) * 3) ≤ 1 / 10 ^ 14 := by
  rw [dbl_u]
  unfold accumulated
  norm_num

/-- `hkSeqSynth`: both runs exist and meet every hypothesis, so the sediment tables differ by less than 10⁻¹⁴ -/
example : ∃ r r', SynthAnalysis.hkSeqSynth (dblEnv (FL Dbl) ⟨0.01⟩) dblTrace.data dblTrace.data dblTime ⟨.py, ⟨0.1⟩⟩
        [⟨4⟩, ⟨0⟩] [⟨101 / 52⟩] (some ⟨.py, ⟨50 / 13⟩⟩) (some ⟨1⟩) (some ⟨1⟩) (some ⟨1⟩) [⟨12⟩, ⟨0⟩] [⟨1.85⟩]
        (some ⟨.py, ⟨6⟩⟩) (some ⟨1⟩) (some ⟨1⟩) (some ⟨1⟩) = .ok r ∧
      SynthAnalysis.hkSeqSynth (dblEnv ℝ 0.01) (dblTrace.data.map FL.val) (dblTrace.data.map FL.val)
        (dblTime.map FL.val) ⟨.py, 0.1⟩ [4, 0] [101 / 52] (some ⟨.py, 50 / 13⟩) (some 1) (some 1) (some 1) [12, 0] [1.85]
        (some ⟨.py, 6⟩) (some 1) (some 1) (some 1) = .ok r' ∧
      NearTable (1 / 10 ^ 14) r'.stackvalueSed (r.stackvalueSed.map exactRow) := by
  have hlen : dblTrace.data.length = 16 := by simp [dblTrace]
  have hlen2 : dblTime.length = 16 := by simp [dblTime]
  obtain ⟨r, hr⟩ := (c104_hkSeqSynth (env := dblEnv (FL Dbl) ⟨0.01⟩) (dS := dblTrace.data) (dM := dblTrace.data)
    (t := dblTime) (rp := ⟨.py, ⟨0.1⟩⟩) (HS := [⟨4⟩, ⟨0⟩]) (KS := [⟨101 / 52⟩]) (VpSed := some ⟨.py, ⟨50 / 13⟩⟩)
    (w1S := some ⟨1⟩) (w2S := some ⟨1⟩) (w3S := some ⟨1⟩) (HM := [⟨12⟩, ⟨0⟩]) (KM := [⟨1.85⟩])
    (VpMoho := some ⟨.py, ⟨6⟩⟩) (w1M := some ⟨1⟩) (w2M := some ⟨1⟩) (w3M := some ⟨1⟩) (by rw [hlen, hlen2])
    (by rw [hlen, hlen2]) (fun _ _ => rfl)).2 ⟨by rw [← List.length_pos_iff, hlen2]; norm_num,
      Or.inr (by simp [PyFloat.eq]), ⟨_, rfl, Or.inr (by simp [PyFloat.eq])⟩, rfl, rfl, rfl, by simp, by simp, by simp,
      by simp⟩
  obtain ⟨r', hr'⟩ := (c104_hkSeqSynth (env := dblEnv ℝ 0.01) (dS := dblTrace.data.map FL.val)
    (dM := dblTrace.data.map FL.val) (t := dblTime.map FL.val) (rp := ⟨.py, 0.1⟩) (HS := [4, 0]) (KS := [101 / 52])
    (VpSed := some ⟨.py, 50 / 13⟩) (w1S := some 1) (w2S := some 1) (w3S := some 1) (HM := [12, 0]) (KM := [1.85])
    (VpMoho := some ⟨.py, 6⟩) (w1M := some 1) (w2M := some 1) (w3M := some 1)
    (by rw [List.length_map, List.length_map, hlen, hlen2]) (by rw [List.length_map, List.length_map, hlen, hlen2])
    (fun _ _ => rfl)).2 ⟨by rw [← List.length_pos_iff, List.length_map, hlen2]; norm_num,
      divisor_real (by norm_num), ⟨_, rfl, divisor_real (by norm_num)⟩, rfl, rfl, rfl, by simp, by simp, by simp, by simp⟩
  refine ⟨r, r', hr, hr', ?_⟩
  have hb : ∀ b, r.bestmodelSed = some b → b.h ∈ [(⟨4⟩ : FL Dbl), ⟨0⟩] ∧ b.k ∈ [(⟨101 / 52⟩ : FL Dbl)] := by
    intro b hb
    obtain ⟨bm, raw, f⟩ := hkSeqSynth_inv hr
    have := gridLoop_row f.hgridS (List.mem_of_getElem? hb)
    exact ⟨this.2.1, this.1⟩
  have key := (c116_hkSeqSynth_exact (L := 16) (AS := 3) (AM := 3) (by rw [dbl_u]; norm_num) hr hr' (by norm_num)
    dblTime_le dbl_amp dbl_amp (by norm_num) seq_well.1 seq_well.2 (by rw [dblTime_val]; exact seq_clear_sed) (by
      intro b h
      rw [dblTime_val]
      exact seq_clear_moho (hb b h).1 (hb b h).2)).1
  unfold NearTable at key ⊢
  exact key.imp (fun a b h => ⟨h.1, h.2.1, h.2.2.trans seq_small⟩)

/-- `hkSeq` on the same numbers -/
example : ∃ r r', HkSeqYeck.hkSeq (dblEnv (FL Dbl) ⟨0.01⟩) [dblTrace] [dblTrace] ⟨0⟩ [⟨4⟩, ⟨0⟩] [⟨101 / 52⟩]
        (some ⟨.py, ⟨50 / 13⟩⟩) (some ⟨1⟩) (some ⟨1⟩) (some ⟨1⟩) [⟨12⟩, ⟨0⟩] [⟨1.85⟩] (some ⟨.py, ⟨6⟩⟩) (some ⟨1⟩)
        (some ⟨1⟩) (some ⟨1⟩) none = .ok r ∧
      HkSeqYeck.hkSeq (dblEnv ℝ 0.01) ([dblTrace].map exactTrace) ([dblTrace].map exactTrace) 0 [4, 0] [101 / 52]
        (some ⟨.py, 50 / 13⟩) (some 1) (some 1) (some 1) [12, 0] [1.85] (some ⟨.py, 6⟩) (some 1) (some 1) (some 1) none
        = .ok r' ∧
      NearTable (1 / 10 ^ 14) r'.stackvalueSed (r.stackvalueSed.map exactRow) := by
  have hlen : dblTrace.data.length = 16 := by simp [dblTrace]
  obtain ⟨r, hr⟩ := (c104_hkSeq (env := dblEnv (FL Dbl) ⟨0.01⟩) (tr0 := dblTrace) (restS := []) (stM := [dblTrace])
    (preonset := ⟨0⟩) (HS := [⟨4⟩, ⟨0⟩]) (KS := [⟨101 / 52⟩]) (VpSed := some ⟨.py, ⟨50 / 13⟩⟩)
    (w1S := some ⟨1⟩) (w2S := some ⟨1⟩) (w3S := some ⟨1⟩) (HM := [⟨12⟩, ⟨0⟩]) (KM := [⟨1.85⟩])
    (VpMoho := some ⟨.py, ⟨6⟩⟩) (w1M := some ⟨1⟩) (w2M := some ⟨1⟩) (w3M := some ⟨1⟩) (stack := none)
    (by intro tr htr; rw [List.mem_singleton.1 htr]) (by
      intro st hst sd more hsd
      simp only [List.mem_cons, List.not_mem_nil, or_false, or_self] at hst
      rw [hst] at hsd
      have := Except.ok.inj hsd
      injection this with h1 h2
      rw [← h1]) (fun _ _ => rfl)).2 ⟨⟨_, _, rfl⟩, ⟨_, _, rfl⟩, by rw [← List.length_pos_iff, hlen]; norm_num, by
      intro tr htr
      rw [List.mem_singleton.1 htr]
      exact ⟨rfl, rfl⟩, ⟨_, _, rfl, rfl⟩, by
      intro tr htr
      rw [List.mem_singleton.1 htr]
      rfl, Or.inr (by simp [PyFloat.eq]), ⟨_, rfl, Or.inr (by simp [PyFloat.eq])⟩, rfl, rfl, rfl, by simp, by simp, by simp,
      by simp⟩
  obtain ⟨r', hr'⟩ := (c104_hkSeq (env := dblEnv ℝ 0.01) (tr0 := exactTrace dblTrace) (restS := [])
    (stM := [dblTrace].map exactTrace) (preonset := 0) (HS := [4, 0]) (KS := [101 / 52]) (VpSed := some ⟨.py, 50 / 13⟩)
    (w1S := some 1) (w2S := some 1) (w3S := some 1) (HM := [12, 0]) (KM := [1.85]) (VpMoho := some ⟨.py, 6⟩)
    (w1M := some 1) (w2M := some 1) (w3M := some 1) (stack := none)
    (by intro tr htr; rw [List.mem_singleton.1 htr]) (by
      intro st hst sd more hsd
      simp only [List.mem_cons, List.not_mem_nil, or_false, or_self, List.map_cons, List.map_nil] at hst
      rw [hst] at hsd
      have := Except.ok.inj hsd
      injection this with h1 h2
      rw [← h1]) (fun _ _ => rfl)).2 ⟨⟨_, _, rfl⟩, ⟨_, _, rfl⟩, by
      rw [← List.length_pos_iff]
      show 0 < (dblTrace.data.map FL.val).length
      rw [List.length_map, hlen]; norm_num, by
      intro tr htr
      rw [List.mem_singleton.1 htr]
      exact ⟨rfl, rfl⟩, ⟨_, _, rfl, rfl⟩, by
      intro tr htr
      rw [List.mem_singleton.1 htr]
      rfl, divisor_real (by norm_num), ⟨_, rfl, divisor_real (by norm_num)⟩, rfl, rfl, rfl, by simp, by simp, by simp,
      by simp⟩
  refine ⟨r, r', hr, hr', ?_⟩
  have hb : ∀ b, r.bestmodelSed = some b → b.h ∈ [(⟨4⟩ : FL Dbl), ⟨0⟩] ∧ b.k ∈ [(⟨101 / 52⟩ : FL Dbl)] := by
    intro b hb
    obtain ⟨_, _, _, bm, raw, f⟩ := hkSeq_inv hr
    have := gridLoop_row f.hgridS (List.mem_of_getElem? hb)
    exact ⟨this.2.1, this.1⟩
  have ep : (0.01 : ℝ) * 10 = 0.1 := by norm_num
  have eL : |(1 : ℝ)| * (16 : ℕ) + |(0 : ℝ)| = 16 := by norm_num
  have key := c116_hkSeq_exact (AS := 3) (AM := 3) (first := dblTrace) (lastS := dblTrace) (lastM := dblTrace)
    (slS := ⟨.np, ⟨10⟩⟩) (slM := ⟨.np, ⟨10⟩⟩) (by rw [dbl_u]; norm_num) (by simp) (by simp) rfl hr hr' rfl rfl rfl rfl rfl
    dbl_amp dbl_amp (by norm_num)
    (by
      show ∀ k ∈ [(⟨101 / 52⟩ : FL Dbl)], WellConditioned Dbl.u (0.01 * 10) (50 / 13) k.val ∧
        WellConditioned Dbl.u (0.01 * 10) (50 / 13) k.val
      rw [ep]
      exact fun k hk => ⟨seq_well.1 k hk, seq_well.1 k hk⟩)
    (by
      show ∀ k ∈ [(⟨1.85⟩ : FL Dbl)], WellConditioned Dbl.u (0.01 * 10) 6 k.val
      rw [ep]
      exact seq_well.2)
  have key2 := key (by
      show ∀ k ∈ [(⟨101 / 52⟩ : FL Dbl)], ∀ x ∈ [(⟨4⟩ : FL Dbl), ⟨0⟩], ClearTimes (exactAxis 1 0 dblTrace.data.length)
        (tPs (0.01 * 10) (50 / 13) x.val k.val) (tPpPs (0.01 * 10) (50 / 13) x.val k.val)
        (tPsPs (0.01 * 10) (50 / 13) x.val k.val)
        (40 * Dbl.u * (|(1 : ℝ)| * dblTrace.data.length + |(0 : ℝ)| + timeScale (0.01 * 10) (50 / 13) x.val k.val))
      rw [hlen, dbl_axis, ep, eL]
      exact seq_clear_sed) (by
      intro b h
      have := seq_clear_moho (hb b h).1 (hb b h).2
      rw [← eL, ← dbl_axis, ← hlen, ← ep] at this
      exact this)
  have key3 := key2.1
  unfold NearTable at key3 ⊢
  exact key3.imp (fun a b h => ⟨h.1, h.2.1, h.2.2.trans seq_small⟩)

end Rfsed.Props
