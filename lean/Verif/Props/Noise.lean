import Verif.Proofs.Superpose
import Verif.Props.HkZhu2

/-!
# Property C95: noise in the data
-/

namespace Rfsed.Props
open Spec PyFloat HkZhu

/-- two records of equal length that differ by at most `e` at every sample -/
def Near (e : ℝ) (d d' : List ℝ) : Prop := List.Forall₂ (fun a b : ℝ => |a - b| ≤ e) d d'

/-- same headers, data that differ by at most `e` -/
def NearTrace (e : ℝ) (tr tr' : Trace ℝ) : Prop :=
  tr'.slowness = tr.slowness ∧ tr'.onset = tr.onset ∧ tr'.delta = tr.delta ∧ Near e tr.data tr'.data

/-- tables over the same grid whose stack values differ by at most `e` -/
def NearTable (e : ℝ) (tb tb' : List (Row ℝ)) : Prop :=
  List.Forall₂ (fun a b : Row ℝ => b.h = a.h ∧ b.k = a.k ∧ |a.s - b.s| ≤ e) tb tb'

/-- row `n` of the table is better than all others by more than `m` -/
def Margin (m : ℝ) (tb : List (Row ℝ)) (n : Nat) : Prop :=
  ∀ best, tb[n]? = some best → ∀ (j : Nat) (row : Row ℝ), j ≠ n → tb[j]? = some row → row.s + m < best.s

theorem near_getamp {e a b : ℝ} {d d' t : List ℝ} {x : PyNum ℝ} (hn : Near e d d') (h : getamp d t x = .ok a)
    (h' : getamp d' t x = .ok b) : |a - b| ≤ e := by
  unfold getamp at h h'
  obtain ⟨i, hi, h⟩ := bind_eq_ok.1 h
  obtain ⟨j, hj, h'⟩ := bind_eq_ok.1 h'
  have : j = i := Except.ok.inj (hj.symm.trans hi)
  subst this
  obtain ⟨hlt, ha⟩ := List.getElem?_eq_some_iff.1 (item_ok.1 h)
  obtain ⟨hlt', hb⟩ := List.getElem?_eq_some_iff.1 (item_ok.1 h')
  have := List.forall₂_iff_get.1 hn |>.2 j hlt hlt'
  simpa [ha, hb] using this

theorem near_weigh {e a b w1 w2 w3 : ℝ} {d d' t : List ℝ} {ts : PyNum ℝ × PyNum ℝ × PyNum ℝ} (hn : Near e d d')
    (h : weigh w1 w2 w3 d t ts = .ok a) (h' : weigh w1 w2 w3 d' t ts = .ok b) :
    |a - b| ≤ (|w1| + |w2| + |w3|) * e := by
  obtain ⟨a1, a2, a3, e1, e2, e3, rfl⟩ := weigh_ok.1 h
  obtain ⟨b1, b2, b3, g1, g2, g3, rfl⟩ := weigh_ok.1 h'
  have q1 := near_getamp hn e1 g1
  have q2 := near_getamp hn e2 g2
  have q3 := near_getamp hn e3 g3
  have : w1 * a1 + w2 * a2 - w3 * a3 - (w1 * b1 + w2 * b2 - w3 * b3) =
      w1 * (a1 - b1) + w2 * (a2 - b2) - w3 * (a3 - b3) := by ring
  rw [this]
  calc _ ≤ |w1 * (a1 - b1)| + |w2 * (a2 - b2)| + |w3 * (a3 - b3)| :=
        (abs_sub _ _).trans (add_le_add (abs_add_le _ _) le_rfl)
    _ ≤ |w1| * e + |w2| * e + |w3| * e := by
        rw [abs_mul, abs_mul, abs_mul]
        gcongr
    _ = _ := by ring

theorem near_times {e a b w1 w2 w3 : ℝ} {d d' t : List ℝ} {ts : Except PyErr (PyNum ℝ × PyNum ℝ × PyNum ℝ)}
    (hn : Near e d d')
    (h : (do let u ← ts; let v ← weigh w1 w2 w3 d t u; pure (v + zero)) = .ok a)
    (h' : (do let u ← ts; let v ← weigh w1 w2 w3 d' t u; pure (v + zero)) = .ok b) :
    |a - b| ≤ (|w1| + |w2| + |w3|) * e := by
  cases ts with
  | error e => cases h
  | ok u =>
    rw [except_ok_bind] at h h'
    obtain ⟨v1, g1, q1⟩ := bind_eq_ok.1 h
    obtain ⟨v2, g2, q2⟩ := bind_eq_ok.1 h'
    cases q1; cases q2
    simpa using near_weigh hn g1 g2

theorem near_cell {env : Env ℝ} {st st' : List (Trace ℝ)} {t sd sd' : List ℝ} {avg avg' : ℝ} {Vp : Scalar ℝ}
    {w1 w2 w3 k x e a b : ℝ} (hn : List.Forall₂ (NearTrace e) st st')
    (h : cell env st t sd avg Vp w1 w2 w3 false k x = .ok a)
    (h' : cell env st' t sd' avg' Vp w1 w2 w3 false k x = .ok b) :
    |a - b| ≤ st.length * ((|w1| + |w2| + |w3|) * e) := by
  obtain ⟨xs, hxs, rfl⟩ := cell_real_ok.1 h
  obtain ⟨ys, hys, rfl⟩ := cell_real_ok.1 h'
  clear h h'
  rw [mapM_ok_iff] at hxs hys
  induction hn generalizing xs ys with
  | nil => cases hxs; cases hys; simp
  | @cons tr tr' st st' h1 _ ih =>
    cases hxs with
    | cons p1 q1 =>
    cases hys with
    | cons p2 q2 =>
    have := ih _ q1 _ q2
    obtain ⟨o, sl, ts, e1, e2, e3, e4⟩ := traceTerm_ok.1 p1
    obtain ⟨o', sl', ts', f1, f2, f3, f4⟩ := traceTerm_ok.1 p2
    have s1 : sl' = sl := Option.some.inj (f2.symm.trans (h1.1.trans e2))
    subst s1
    have t1 : ts' = ts := Except.ok.inj (f3.symm.trans e3)
    subst t1
    have q := near_weigh h1.2.2.2 e4 f4
    rw [List.sum_cons, List.sum_cons, List.length_cons]
    push_cast
    refine le_trans (le_of_eq ?_) (le_trans (abs_add_le _ _) (le_trans (add_le_add q this) (le_of_eq ?_)))
    · congr 1; ring
    · ring

theorem nearTable_of {K H : List ℝ} {v v' : ℝ → ℝ → Except PyErr ℝ} {tb tb' : List (Row ℝ)} {e : ℝ}
    (h : gridLoop K H v = .ok tb) (h' : gridLoop K H v' = .ok tb')
    (hv : ∀ k ∈ K, ∀ x ∈ H, ∀ a b, v k x = .ok a → v' k x = .ok b → |a - b| ≤ e) : NearTable e tb tb' := by
  obtain ⟨f, hf, rfl⟩ := gridLoop_fun.1 h
  obtain ⟨g, hg, rfl⟩ := gridLoop_fun.1 h'
  unfold NearTable gridTab
  rw [List.forall₂_map_left_iff, List.forall₂_map_right_iff, List.forall₂_same]
  intro p hp
  obtain ⟨a, b⟩ := mem_gridPoints.1 hp
  exact ⟨rfl, rfl, hv _ a _ b _ _ (hf _ a _ b) (hg _ a _ b)⟩

/-- a margin of twice the deviation fixes the best row -/
theorem nearTable_best {tb tb' : List (Row ℝ)} {e : ℝ} {n n' : Nat} (hn : NearTable e tb tb')
    (hb : argmax (tb.map Row.s) = .ok n) (hb' : argmax (tb'.map Row.s) = .ok n') (hm : Margin (2 * e) tb n) :
    n' = n := by
  by_contra hne
  have hlen := hn.length_eq
  have h1 : n < tb.length := by simpa using argmax_lt hb
  have h2 : n' < tb'.length := by simpa using argmax_lt hb'
  have near : ∀ (j : Nat) (hj : j < tb.length) (hj' : j < tb'.length), |tb[j].s - tb'[j].s| ≤ e := by
    intro j hj hj'
    have := (List.forall₂_iff_get.1 hn).2 j hj hj'
    simpa using this.2.2
  have q1 := hm tb[n] (List.getElem?_eq_getElem h1) n' tb[n'] hne (List.getElem?_eq_getElem (by omega))
  obtain ⟨y, hy, hmax, _⟩ := argmax_firstMax (fun _ _ => rfl) hb'
  have q2 := hmax n tb'[n].s (by simp [hlen ▸ h1])
  rw [real_le] at q2
  rw [List.getElem?_map, List.getElem?_eq_getElem h2] at hy
  cases hy
  have q3 := abs_le.1 (near n h1 (by omega))
  have q4 := abs_le.1 (near n' (by omega) h2)
  linarith [q3.1, q3.2, q4.1, q4.2]

/-- **C95** `hk` (without pre-stacking): noise of at most `e` per sample changes every stack value by at most
`N (|w1| + |w2| + |w3|) e`; a best model that wins by more than twice this amount stays the best model. -/
theorem c95_hk {env env' : Env ℝ} {st st' : List (Trace ℝ)} {preonset : ℝ} {H K : List ℝ} {Vp : Option (Scalar ℝ)}
    {w1 w2 w3 e : ℝ} {layer : Option String} {stack : Option Bool} {r r' : HKResult ℝ} (hs : stack ≠ some true)
    (hkm : env'.km2deg1 = env.km2deg1) (hn : List.Forall₂ (NearTrace e) st st')
    (h : hk env st preonset H K Vp (some w1) (some w2) (some w3) layer stack = .ok r)
    (h' : hk env' st' preonset H K Vp (some w1) (some w2) (some w3) layer stack = .ok r') :
    NearTable (st.length * ((|w1| + |w2| + |w3|) * e)) r.stackvalues r'.stackvalues ∧
    (Margin (2 * (st.length * ((|w1| + |w2| + |w3|) * e))) r.stackvalues r.bestIdx → r'.bestIdx = r.bestIdx) := by
  obtain ⟨tr0, rest, slows, f⟩ := hk_inv h
  obtain ⟨tr0', rest', slows', f'⟩ := hk_inv h'
  have hsf : stack.getD false = false := by
    cases stack with
    | none => rfl
    | some b => cases b with
      | false => rfl
      | true => exact absurd rfl hs
  have h0 : NearTrace e tr0 tr0' := by
    have := hn
    rw [f.hst, f'.hst] at this
    cases this with
    | cons a _ => exact a
  have ht : r'.time = r.time := by
    rw [f'.htime, f.htime, h0.2.2.1, h0.2.2.2.length_eq]
  have g := f.hgrid
  have g' := f'.hgrid
  rw [f.hVp, f.hstk, hsf] at g
  rw [f'.hVp, f'.hstk, hsf, ht] at g'
  have ht' : NearTable (st.length * ((|w1| + |w2| + |w3|) * e)) r.stackvalues r'.stackvalues := by
    refine nearTable_of g g' ?_
    intro k _ x _ a b ha hb
    refine near_cell (env := env) (sd' := r'.RFStack) (avg' := r'.AvgSlow) hn ha ?_
    rw [← hb]
    unfold cell traceTerm
    simp only [hkm]
    rfl
  exact ⟨ht', nearTable_best ht' f.hbest f'.hbest⟩

/-- **C95** `hkSynth`. -/
theorem c95_hkSynth {env env' : Env ℝ} {d d' t : List ℝ} {rp : Scalar ℝ} {H K : List ℝ} {Vp : Option (Scalar ℝ)}
    {w1 w2 w3 e : ℝ} {layer : Option String} {r r' : SynthAnalysis.SynthResult ℝ} (hn : Near e d d')
    (h : SynthAnalysis.hkSynth env d t rp H K Vp (some w1) (some w2) (some w3) layer = .ok r)
    (h' : SynthAnalysis.hkSynth env' d' t rp H K Vp (some w1) (some w2) (some w3) layer = .ok r') :
    NearTable ((|w1| + |w2| + |w3|) * e) r.stackvalues r'.stackvalues ∧
    (Margin (2 * ((|w1| + |w2| + |w3|) * e)) r.stackvalues r.bestIdx → r'.bestIdx = r.bestIdx) := by
  have f := hkSynth_inv h
  have f' := hkSynth_inv h'
  have ht : NearTable ((|w1| + |w2| + |w3|) * e) r.stackvalues r'.stackvalues := by
    refine nearTable_of f.hgrid f'.hgrid ?_
    intro k _ x _ a b ha hb
    rw [synthCell_eq] at ha hb
    exact near_times hn ha hb
  exact ⟨ht, nearTable_best ht f.hbest f'.hbest⟩

/-- **C95** `hkYu`. -/
theorem c95_hkYu {env env' : Env ℝ} {flt flt' : HkYu.FltInput ℝ} {rp : Scalar ℝ} {H K : List ℝ}
    {VpMoho VpSed VsSed : Option (Scalar ℝ)} {w1 w2 w3 e : ℝ} {r r' : HkYu.YuResult ℝ}
    (hn : Near e flt.filteredrf flt'.filteredrf) (ht : flt'.time = flt.time) (hl : flt'.tlag = flt.tlag)
    (h : HkYu.hkYu env flt rp H K VpMoho VpSed VsSed (some w1) (some w2) (some w3) = .ok r)
    (h' : HkYu.hkYu env' flt' rp H K VpMoho VpSed VsSed (some w1) (some w2) (some w3) = .ok r') :
    NearTable ((|w1| + |w2| + |w3|) * e) r.stackvaluesSubSed r'.stackvaluesSubSed ∧
    (Margin (2 * ((|w1| + |w2| + |w3|) * e)) r.stackvaluesSubSed r.bestIdx → r'.bestIdx = r.bestIdx) := by
  obtain ⟨vs, a, b, bmod, f⟩ := hkYu_inv h
  obtain ⟨vs', a', b', bmod', f'⟩ := hkYu_inv h'
  have e0 : vs' = vs := Option.some.inj (f'.hvs.symm.trans f.hvs)
  subst e0
  have e1 : r'.SedThick = r.SedThick := by rw [f'.hSed, f.hSed, hl]
  have e2 : r'.VpSed = r.VpSed := f'.hVpSed.trans f.hVpSed.symm
  have e3 : r'.VpMoho = r.VpMoho := f'.hVp.trans f.hVp.symm
  have ea : a' = a := by
    have := f'.ha; rw [e1, hl] at this
    exact Except.ok.inj (this.symm.trans f.ha)
  have eb : b' = b := by
    have := f'.hb; rw [e1, e2, hl] at this
    exact Except.ok.inj (this.symm.trans f.hb)
  have e4 : r'.Pdelay = r.Pdelay := by rw [f'.hPd, f.hPd, ea, eb]
  have g' := f'.hgrid
  rw [e3, e4] at g'
  have hT : NearTable ((|w1| + |w2| + |w3|) * e) r.stackvaluesSubSed r'.stackvaluesSubSed := by
    refine nearTable_of f.hgrid g' ?_
    intro k _ x _ u v hu hv
    rw [yuCell_eq] at hu hv
    rw [ht, hl] at hv
    obtain ⟨ts, h1, hu⟩ := bind_eq_ok.1 hu
    obtain ⟨ts', h1', hv⟩ := bind_eq_ok.1 hv
    have : ts' = ts := Except.ok.inj (h1'.symm.trans h1)
    subst this
    obtain ⟨p, h2, hu⟩ := bind_eq_ok.1 hu
    obtain ⟨q, h2', hv⟩ := bind_eq_ok.1 hv
    cases hu; cases hv
    simpa using near_weigh hn h2 h2'
  exact ⟨hT, nearTable_best hT f.hbest f'.hbest⟩

/-! ## A concrete case: an ideal receiver function with noise up to 0.1 -/

theorem axis5_last (t : ℝ) (ht : 4 ≤ t) : NearestSample [(0 : ℝ), 1, 2, 3, 4] t 4 := by
  have hget : ∀ (j : Nat) (y : ℝ), [(0 : ℝ), 1, 2, 3, 4][j]? = some y → y ≤ 4 ∧ (j < 4 → y < 4) := by
    intro j y hy
    match j with
    | 0 | 1 | 2 | 3 | 4 => simp at hy; subst hy; norm_num
    | j + 5 => simp at hy
  refine ⟨4, rfl, ?_, ?_⟩
  · intro j y hy
    obtain ⟨h1, _⟩ := hget j y hy
    rw [real_le, real_abs, real_abs, abs_of_nonpos (by linarith), abs_of_nonpos (by linarith)]
    linarith
  · intro j y hj hy
    obtain ⟨h1, h2⟩ := hget j y hy
    have := h2 hj
    rw [real_lt, real_abs, real_abs, abs_of_nonpos (by linarith), abs_of_nonpos (by linarith)]
    linarith

/-- value of one grid point for a record of five samples -/
theorem cell5 {d : List ℝ} {x a1 a2 a3 : ℝ} {i1 i2 i3 : Nat} (h1 : NearestSample [(0 : ℝ), 1, 2, 3, 4] x i1)
    (h2 : NearestSample [(0 : ℝ), 1, 2, 3, 4] (3 * x) i2) (h3 : NearestSample [(0 : ℝ), 1, 2, 3, 4] (4 * x) i3)
    (g1 : d[i1]? = some a1) (g2 : d[i2]? = some a2) (g3 : d[i3]? = some a3) (w1 w2 w3 : ℝ) :
    SynthAnalysis.cell d [0, 1, 2, 3, 4] ⟨.py, 0⟩ ⟨.py, 1⟩ w1 w2 w3 2 x = .ok (w1 * a1 + w2 * a2 - w3 * a3) := by
  rw [synthCell_eq, bestTimes_real (by norm_num) (by norm_num), except_ok_bind]
  refine bind_eq_ok.2 ⟨w1 * a1 + w2 * a2 - w3 * a3, weigh_real.2 ⟨a1, a2, a3, ?_, ?_, ?_, rfl⟩, by simp⟩
  · refine ⟨i1, ?_, g1⟩
    simp only [tPs, eta_half, eta_unit]
    convert h1 using 1; ring
  · refine ⟨i2, ?_, g2⟩
    simp only [tPpPs, eta_half, eta_unit]
    convert h2 using 1; ring
  · refine ⟨i3, ?_, g3⟩
    simp only [tPsPs, eta_half]
    convert h3 using 1; ring

theorem table5 (d0 d1 d2 d3 d4 : ℝ) :
    gridLoop [2] [3, 1] (SynthAnalysis.cell [d0, d1, d2, d3, d4] [0, 1, 2, 3, 4] ⟨.py, 0⟩ ⟨.py, 1⟩ 0.6 0.3 0.1) =
      .ok [⟨3, 2, 0.6 * d3 + 0.3 * d4 - 0.1 * d4⟩, ⟨1, 2, 0.6 * d1 + 0.3 * d3 - 0.1 * d4⟩] := by
  have n1 : NearestSample [(0 : ℝ), 1, 2, 3, 4] 1 1 := by have := axis5_nearest 1 (by norm_num); simpa using this
  have n3 : NearestSample [(0 : ℝ), 1, 2, 3, 4] 3 3 := by have := axis5_nearest 3 (by norm_num); simpa using this
  have n4 := axis5_last 4 (by norm_num)
  refine gridLoop_fun.2 ⟨fun _ x => if x = 1 then 0.6 * d1 + 0.3 * d3 - 0.1 * d4
    else 0.6 * d3 + 0.3 * d4 - 0.1 * d4, ?_, ?_⟩
  · intro k hk x hx
    simp at hk hx
    subst hk
    rcases hx with rfl | rfl
    · norm_num only [if_neg]
      exact cell5 (i1 := 3) (i2 := 4) (i3 := 4) n3 (axis5_last _ (by norm_num)) (axis5_last _ (by norm_num)) rfl rfl
        rfl _ _ _
    · norm_num only [if_true]
      refine cell5 (i1 := 1) (i2 := 3) (i3 := 4) n1 ?_ ?_ rfl rfl rfl _ _ _
      · simpa using n3
      · simpa using n4
  · simp [gridTab, gridPoints]

theorem search5 (d0 d1 d2 d3 d4 : ℝ) :
    ∃ r, SynthAnalysis.hkSynth Sample.env [d0, d1, d2, d3, d4] [0, 1, 2, 3, 4] ⟨.py, 0⟩ [3, 1] [2]
      (some ⟨.py, 1⟩) (some 0.6) (some 0.3) (some 0.1) none = .ok r ∧
      r.stackvalues = [⟨3, 2, 0.6 * d3 + 0.3 * d4 - 0.1 * d4⟩, ⟨1, 2, 0.6 * d1 + 0.3 * d3 - 0.1 * d4⟩] := by
  obtain ⟨n, hn⟩ := argmax_of_length
    (tb := [⟨3, 2, 0.6 * d3 + 0.3 * d4 - 0.1 * d4⟩, ⟨1, 2, 0.6 * d1 + 0.3 * d3 - 0.1 * d4⟩]) (by simp)
  exact ⟨_, hkSynth_of (w1 := some 0.6) (w2 := some 0.3) (w3 := some 0.1) (table5 d0 d1 d2 d3 d4) hn rfl, rfl⟩

/-- the noise-free table is `0.4` and `1`; noise up to `0.1` cannot move the best model -/
example (d0 d1 d2 d3 d4 : ℝ) (hn : Near 0.1 [0, 1, 0, 1, -1] [d0, d1, d2, d3, d4]) :
    ∃ r, SynthAnalysis.hkSynth Sample.env [d0, d1, d2, d3, d4] [0, 1, 2, 3, 4] ⟨.py, 0⟩ [3, 1] [2]
      (some ⟨.py, 1⟩) (some 0.6) (some 0.3) (some 0.1) none = .ok r ∧ r.bestIdx = 1 := by
  obtain ⟨r, h, e⟩ := search5 0 1 0 1 (-1)
  obtain ⟨r', h', _⟩ := search5 d0 d1 d2 d3 d4
  have hb : r.bestIdx = 1 := by
    have := (hkSynth_inv h).hbest
    rw [e] at this
    have q : argmax (([⟨3, 2, 0.6 * 1 + 0.3 * -1 - 0.1 * -1⟩,
        ⟨1, 2, 0.6 * 1 + 0.3 * 1 - 0.1 * -1⟩] : List (Row ℝ)).map Row.s) = .ok 1 := by
      apply argmax_eq_of_firstMax (fun _ _ => rfl)
      refine ⟨0.6 * 1 + 0.3 * 1 - 0.1 * -1, rfl, ?_, ?_⟩
      · intro j y hy
        match j with
        | 0 | 1 => simp at hy; subst hy; rw [real_le]; norm_num
        | j + 2 => simp at hy
      · intro j y hj hy
        match j with
        | 0 => simp at hy; subst hy; rw [real_lt]; norm_num
        | j + 1 => omega
    exact Except.ok.inj (this.symm.trans q)
  have := (c95_hkSynth hn h h').2 (by
    rw [hb, e]
    intro best hbest j row hj hrow
    cases hbest
    match j with
    | 0 =>
      cases hrow
      rw [abs_of_pos (by norm_num), abs_of_pos (by norm_num), abs_of_pos (by norm_num)]
      norm_num
    | 1 => exact absurd rfl hj
    | j + 2 => simp at hrow)
  exact ⟨r', h', this.trans hb⟩

end Rfsed.Props
