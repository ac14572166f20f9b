import Verif.Props.WaveformRecovery

/-!
# Property C99: what the waveform fit does not look at
-/

namespace Rfsed.Props
open Rfsed PyFloat Spec Waveform

/-! ## samples outside the fitted window -/

theorem filter_zipIdx_congr (P : ℕ → Bool) : ∀ (x y : List ℝ) (k : ℕ), x.length = y.length →
    (∀ i, P (k + i) = true → x[i]? = y[i]?) →
    ((x.zipIdx k).filter (fun p : ℝ × ℕ => P p.2)).map Prod.fst =
      ((y.zipIdx k).filter (fun p : ℝ × ℕ => P p.2)).map Prod.fst := by
  intro x
  induction x with
  | nil =>
    intro y k hl _
    have : y = [] := List.length_eq_zero_iff.1 hl.symm
    rw [this]
  | cons a x ih =>
    intro y k hl h
    cases y with
    | nil => simp at hl
    | cons b y =>
      have := ih y (k + 1) (by simpa using hl) (fun i hi => by
        have := h (i + 1) (by rwa [show k + (i + 1) = k + 1 + i by omega])
        simpa using this)
      rw [List.zipIdx_cons, List.zipIdx_cons]
      by_cases hp : P k = true
      · have e := h 0 hp
        simp at e
        rw [List.filter_cons_of_pos (by exact hp), List.filter_cons_of_pos (by exact hp), List.map_cons,
          List.map_cons, this, e]
      · rw [List.filter_cons_of_neg (by exact hp), List.filter_cons_of_neg (by exact hp), this]

/-- two traces of the same length that agree at all times between `0` and `25 s - delta` -/
def SameFitted (delta preonset : ℝ) (x y : List ℝ) : Prop :=
  x.length = y.length ∧ ∀ i : ℕ, 0 ≤ delta * (i : ℝ) - preonset → delta * (i : ℝ) - preonset ≤ 25 - delta →
    x[i]? = y[i]?

theorem window_congr {delta preonset : ℝ} {x y : List ℝ} (h : SameFitted delta preonset x y) :
    window delta preonset x = window delta preonset y := by
  unfold window
  refine filter_zipIdx_congr (fun i : ℕ => @decide (0 ≤ delta * (i : ℝ) - preonset ∧
    delta * (i : ℝ) - preonset ≤ 25 - delta) (Classical.propDecidable _)) x y 0 h.1 (fun i hi => ?_)
  have := @of_decide_eq_true _ (Classical.propDecidable _) hi
  rw [Nat.zero_add] at this
  exact h.2 i this.1 this.2

section
variable {env : WEnv ℝ} {rfs rfs' : List (Trace ℝ)}
  {preonset HSed VpSed VpCrust rayp gaussian : ℝ} {KMoho HMoho : List ℝ}

/-- two streams whose first traces have the same sampling and whose stacks agree in the fitted window -/
def SameForFit (env : WEnv ℝ) (preonset : ℝ) (rfs rfs' : List (Trace ℝ)) : Prop :=
  ∃ tr0 tr0' S S' sd sd', rfs[0]? = some tr0 ∧ rfs'[0]? = some tr0' ∧ 0 < tr0.delta ∧
    tr0'.delta = tr0.delta ∧ tr0'.data.length = tr0.data.length ∧ tr0'.station = tr0.station ∧
    env.stackR rfs = .ok S ∧ env.stackR rfs' = .ok S' ∧ S[0]? = some sd ∧ S'[0]? = some sd' ∧
    SameFitted tr0.delta preonset sd sd'

/-- preparing two such streams: the same error, or parameters differing only in stream and stack -/
theorem prepare_same (h : SameForFit env preonset rfs rfs') :
    (∃ e, prepare env rfs preonset HSed VpSed VpCrust rayp KMoho HMoho gaussian = .error e ∧
      prepare env rfs' preonset HSed VpSed VpCrust rayp KMoho HMoho gaussian = .error e) ∨
    ∃ P P', prepare env rfs preonset HSed VpSed VpCrust rayp KMoho HMoho gaussian = .ok P ∧
      prepare env rfs' preonset HSed VpSed VpCrust rayp KMoho HMoho gaussian = .ok P' ∧
      P' = { P with rfstream := rfs', StackedData := P'.StackedData } ∧
      pySlice P'.StackedData P.tstart P.tend = pySlice P.StackedData P.tstart P.tend := by
  obtain ⟨tr0, tr0', S, S', sd, sd', h0, h0', hd, ed, el, es, hS, hS', hsd, hsd', hsf⟩ := h
  have i0 : item rfs 0 = .ok tr0 := item_ok.2 h0
  have i0' : item rfs' 0 = .ok tr0' := item_ok.2 h0'
  have i1 : item S 0 = .ok sd := item_ok.2 hsd
  have i1' : item S' 0 = .ok sd' := item_ok.2 hsd'
  cases hP : prepare env rfs preonset HSed VpSed VpCrust rayp KMoho HMoho gaussian with
  | error e =>
    left
    refine ⟨e, rfl, ?_⟩
    unfold prepare at hP ⊢
    rw [i0, except_ok_bind] at hP
    rw [i0', except_ok_bind]
    simp only [hS, hS', except_ok_bind, i1, i1', ed, el, es] at hP ⊢
    cases h1 : item (timeAxis tr0.delta preonset tr0.data.length) 0 with
    | error e => rw [h1] at hP; exact hP
    | ok t0 =>
      rw [h1, except_ok_bind] at hP
      rw [except_ok_bind]
      cases h2 : item (whereEq (timeAxis tr0.delta preonset tr0.data.length) (zero : ℝ)) 0 with
      | error e => rw [h2] at hP; exact hP
      | ok z =>
        rw [h2, except_ok_bind] at hP
        rw [except_ok_bind]
        split at hP
        · rename_i hc
          rw [if_pos hc]; exact hP
        · rename_i hc
          rw [if_neg hc]
          cases hP
  | ok P =>
    right
    obtain ⟨a, b, c, z, e, k0, kS, ksd, hl, hz, hd0, he, rfl⟩ := prepare_ok hP
    rw [h0] at k0; cases k0
    rw [hS] at kS; cases Except.ok.inj kS
    rw [hsd] at ksd; cases ksd
    obtain ⟨hzl, hzt⟩ := whereEq_first hz
    have he' : e = truncR (25 / tr0.delta) := by
      have := Except.ok.inj he
      rw [← this, real_ofNat]; norm_num
    let P' : Para ℝ :=
      { rfstream := rfs', rayp := rayp, gaussian := gaussian, HSed := HSed, VpSed := VpSed,
        VpCrust := VpCrust, VsSed := vsOf VpSed, SedDen := rhoOf VpSed,
        CrustDen := rhoOf VpCrust, HMoho := HMoho, KMoho := KMoho, delta := tr0.delta,
        time := timeAxis tr0.delta preonset tr0.data.length, staname := tr0.station,
        StackedData := sd', preonset := PyFloat.abs (tr0.delta * ofNat 0 - preonset),
        n := sd.length, tstart := z, tend := (z : Int) + e }
    refine ⟨_, P', rfl, ?_, rfl, ?_⟩
    · unfold prepare
      rw [i0', except_ok_bind]
      simp only [hS', except_ok_bind, i1', ed, el, es]
      have h1 : item (timeAxis tr0.delta preonset tr0.data.length) 0 = .ok (tr0.delta * ofNat 0 - preonset) := by
        rw [item_ok, timeAxis, List.getElem?_map, List.getElem?_range hl]; rfl
      rw [h1, except_ok_bind, item_ok.2 hz, except_ok_bind, if_neg (by rw [hd0]; simp), he, except_ok_bind]
      rw [← hsf.1]
      rfl
    · simp only
      rw [he', slice_window hd hzt, slice_window hd hzt]
      exact (window_congr hsf).symm

theorem gridPoint_same {P P' : Para ℝ} {rfs' : List (Trace ℝ)}
    (h : P' = { P with rfstream := rfs', StackedData := P'.StackedData })
    (hs : pySlice P'.StackedData P.tstart P.tend = pySlice P.StackedData P.tstart P.tend) (H K : ℝ) :
    gridPoint env P' H K = gridPoint env P H K := by
  rw [h]
  simp only [gridPoint, criteria, hs]

/-- **C99** (serial): the fit reads the stack at the times from 0 to 25 s only: two streams with the same
sampling whose stacks have the same length and agree there give the same table, the same printed best
models or the same exception. -/
theorem c99_window (wc wr wp : ℝ) (h : SameForFit env preonset rfs rfs') :
    (WaveformFitting env rfs preonset HSed VpSed VpCrust rayp KMoho HMoho gaussian wc wr wp).map
        (fun R => (R.WaveformSolutions, R.printed)) =
      (WaveformFitting env rfs' preonset HSed VpSed VpCrust rayp KMoho HMoho gaussian wc wr wp).map
        (fun R => (R.WaveformSolutions, R.printed)) := by
  rcases prepare_same (HSed := HSed) (VpSed := VpSed) (VpCrust := VpCrust) (rayp := rayp)
    (gaussian := gaussian) (KMoho := KMoho) (HMoho := HMoho) h with ⟨e, h1, h2⟩ | ⟨P, P', h1, h2, h3, h4⟩
  · unfold WaveformFitting
    rw [h1, h2]
    rfl
  · unfold WaveformFitting
    rw [h1, h2, except_ok_bind, except_ok_bind, moho_loop (fun h k => gridPoint env P h k),
      moho_loop (fun h k => gridPoint env P' h k)]
    have : (fun p : ℝ × ℝ => gridPoint env P' p.1 p.2) = fun p : ℝ × ℝ => gridPoint env P p.1 p.2 := by
      funext p
      exact gridPoint_same h3 h4 _ _
    rw [this]
    cases (KMoho.flatMap (fun k => HMoho.map (fun h => (h, k)))).mapM
        (fun p : ℝ × ℝ => gridPoint env P p.1 p.2) with
    | error e => rfl
    | ok all =>
      rw [except_ok_bind, except_ok_bind]
      cases fillRows Crit.zero all.length all with
      | error e => rfl
      | ok al =>
        rw [except_ok_bind, except_ok_bind]
        cases normalise al wc wr wp with
        | error e => rfl
        | ok sols =>
          rw [except_ok_bind, except_ok_bind]
          cases bestModels sols <;> rfl

/-- **C99** (parallel): the same for the results of the worker processes. -/
theorem c99_window_parallel {P P' : Para ℝ} (h : SameForFit env preonset rfs rfs')
    (hP : WaveformPara env rfs preonset HSed VpSed VpCrust rayp KMoho HMoho gaussian = .ok P)
    (hP' : WaveformPara env rfs' preonset HSed VpSed VpCrust rayp KMoho HMoho gaussian = .ok P')
    (nproc : ℕ) (Hs : List ℝ) (out : Except PyErr (List (Option (List (Crit ℝ))))) :
    RunWaveformfitting env nproc Hs P out ↔ RunWaveformfitting env nproc Hs P' out := by
  rw [WaveformPara_eq] at hP hP'
  rcases prepare_same (HSed := HSed) (VpSed := VpSed) (VpCrust := VpCrust) (rayp := rayp)
    (gaussian := gaussian) (KMoho := KMoho) (HMoho := HMoho) h with ⟨e, h1, h2⟩ | ⟨Q, Q', h1, h2, h3, h4⟩
  · rw [h1] at hP; cases hP
  · rw [hP] at h1; cases Except.ok.inj h1
    rw [hP'] at h2; cases Except.ok.inj h2
    have e : WaveformFit_multiproc env P' = WaveformFit_multiproc env P := by
      funext H
      have hk : P'.KMoho = P.KMoho := by rw [h3]
      unfold WaveformFit_multiproc
      rw [hk]
      congr 1
      funext sol K
      rw [fitPoint_eq, fitPoint_eq, gridPoint_same h3 h4]
    unfold RunWaveformfitting
    rw [e]
end

/-! ## gain and baseline of the data -/

theorem window_map {delta preonset : ℝ} (f : ℝ → ℝ) (x : List ℝ) :
    window delta preonset (x.map f) = (window delta preonset x).map f := by
  unfold window
  rw [List.zipIdx_map, List.filter_map, List.map_map, List.map_map]
  rfl

theorem constant_affine {x : List ℝ} {a b : ℝ} (ha : a ≠ 0) :
    Constant (x.map (fun t => a * t + b)) ↔ Constant x := by
  constructor
  · intro h u hu v hv
    have := h _ (List.mem_map_of_mem (f := fun t => a * t + b) hu) _
      (List.mem_map_of_mem (f := fun t => a * t + b) hv)
    simpa [ha] using this
  · intro h u hu v hv
    obtain ⟨u', hu', rfl⟩ := List.mem_map.1 hu
    obtain ⟨v', hv', rfl⟩ := List.mem_map.1 hv
    rw [h u' hu' v' hv']

/-- correlation with amplified, possibly reversed data -/
theorem pearson_affine {x y : List ℝ} (h : x.length = y.length) (hx : x ≠ []) {a : ℝ} (ha : a ≠ 0) (b : ℝ) :
    pearson (x.map (fun t => a * t + b)) y = SignType.sign a * pearson x y := by
  have hy : y.map (fun t => (1 : ℝ) * t + 0) = y := by simp
  have e := comoment_affine h hx a b 1 0
  rw [hy] at e
  rw [pearson, e, comoment_affine rfl hx, pearson, Real.sqrt_mul (mul_self_nonneg a), Real.sqrt_mul_self_eq_abs]
  rcases lt_or_gt_of_ne ha with h | h
  · rw [sign_neg h, abs_of_neg h]
    have : a * 1 * comoment x y / (-a * √(comoment x x) * √(comoment y y)) =
        (-a) * (-comoment x y) / ((-a) * (√(comoment x x) * √(comoment y y))) := by ring_nf
    rw [this, mul_div_mul_left _ _ (by simpa using ha)]
    simp only [SignType.coe_neg, SignType.coe_one]
    ring
  · rw [sign_pos h, abs_of_pos h, mul_one, mul_assoc, mul_div_mul_left _ _ ha]
    simp

section
variable {env : WEnv ℝ} {rfs rfs' : List (Trace ℝ)} {tr0 tr0' : Trace ℝ}
  {preonset HSed VpSed VpCrust rayp gaussian wc wr wp wc' wr' wp' : ℝ} {KMoho HMoho : List ℝ}
  {S S' : List (List ℝ)} {sd sd' : List ℝ} {R R' : WResult ℝ}

/-- the rows of two tables over the same grid, in step -/
theorem rows_zip
    (h : WaveformFitting env rfs preonset HSed VpSed VpCrust rayp KMoho HMoho gaussian wc wr wp = .ok R)
    {env' : WEnv ℝ}
    (h' : WaveformFitting env' rfs' preonset HSed VpSed VpCrust rayp KMoho HMoho gaussian wc' wr' wp' = .ok R') :
    List.Forall₂ (fun s s' : Sol ℝ => s ∈ R.WaveformSolutions ∧ s' ∈ R'.WaveformSolutions ∧ s'.h = s.h ∧
      s'.k = s.k) R.WaveformSolutions R'.WaveformSolutions := by
  obtain ⟨g1, g2⟩ := c71_grid h
  obtain ⟨g1', g2'⟩ := c71_grid h'
  rw [List.forall₂_iff_get]
  refine ⟨by rw [g1, g1'], fun n hn hn' => ?_⟩
  have hlt : n < KMoho.length * HMoho.length := by rw [← g1]; exact hn
  have hpos : 0 < HMoho.length := by
    rcases Nat.eq_zero_or_pos HMoho.length with e | e
    · rw [e] at hlt; simp at hlt
    · exact e
  have hi : n / HMoho.length < KMoho.length := (Nat.div_lt_iff_lt_mul hpos).2 hlt
  have hj : n % HMoho.length < HMoho.length := Nat.mod_lt _ hpos
  obtain ⟨s, hs, e1, e2⟩ := g2 _ _ _ _ (List.getElem?_eq_getElem hi) (List.getElem?_eq_getElem hj)
  obtain ⟨s', hs', e1', e2'⟩ := g2' _ _ _ _ (List.getElem?_eq_getElem hi) (List.getElem?_eq_getElem hj)
  rw [Nat.div_add_mod' n HMoho.length] at hs hs'
  have q := List.getElem?_eq_getElem hn
  have q' := List.getElem?_eq_getElem hn'
  rw [hs] at q; rw [hs'] at q'
  have q := Option.some.inj q
  have q' := Option.some.inj q'
  rw [List.get_eq_getElem, List.get_eq_getElem, ← q, ← q', e1, e2, e1', e2']
  exact ⟨List.mem_of_getElem? hs, List.mem_of_getElem? hs', rfl, rfl⟩

/-- no synthetic of the grid is constant in the fitted window -/
def Wiggles (env : WEnv ℝ) (HSed VpSed VpCrust rayp delta preonset gaussian : ℝ) (n : ℕ)
    (KMoho HMoho : List ℝ) : Prop :=
  ∀ H ∈ HMoho, ∀ K ∈ KMoho, ∀ syn,
    env.synthRF (modelOf HSed VpSed VpCrust rayp delta preonset gaussian n H K) = .ok syn →
    ¬ Constant (window delta preonset syn)

/-- **C99** (gain): replace the stacked data `d` by `a * d + b` with `a ≠ 0`.  Every correlation
is multiplied by the sign of `a`. -/
theorem c99_gain {a b : ℝ} (ha : a ≠ 0)
    (h0 : rfs[0]? = some tr0) (h0' : rfs'[0]? = some tr0') (hd : 0 < tr0.delta) (hdd : tr0'.delta = tr0.delta)
    (hS : env.stackR rfs = .ok S) (hS' : env.stackR rfs' = .ok S') (hsd : S[0]? = some sd)
    (hsd' : S'[0]? = some (sd.map (fun t => a * t + b)))
    (hvar : ¬ Constant (window tr0.delta preonset sd))
    (hw : Wiggles env HSed VpSed VpCrust rayp tr0.delta preonset gaussian sd.length KMoho HMoho)
    (h : WaveformFitting env rfs preonset HSed VpSed VpCrust rayp KMoho HMoho gaussian wc wr wp = .ok R)
    (h' : WaveformFitting env rfs' preonset HSed VpSed VpCrust rayp KMoho HMoho gaussian wc' wr' wp' = .ok R') :
    R'.WaveformSolutions.map (fun s => (s.h, s.k, s.corr)) =
      R.WaveformSolutions.map (fun s => (s.h, s.k, (SignType.sign a : ℝ) * s.corr)) := by
  obtain ⟨S1, sd1, e1, e2, hcrit⟩ := c36_serial_window h0 hd h
  obtain ⟨S1', sd1', e1', e2', hcrit'⟩ := c36_serial_window h0' (by rw [hdd]; exact hd) h'
  rw [hS] at e1; cases Except.ok.inj e1
  rw [hS'] at e1'; cases Except.ok.inj e1'
  rw [hsd] at e2; cases e2
  rw [hsd'] at e2'; cases e2'
  have hg := row_in_grid h
  have hz := rows_zip h h'
  rw [← List.forall₂_eq_eq_eq, List.forall₂_map_left_iff, List.forall₂_map_right_iff]
  refine List.Forall₂.flip (List.Forall₂.imp ?_ hz)
  rintro s s' ⟨hs, hs', eh, ek⟩
  obtain ⟨syn, hm, hl, hne, _, _, _, hc, _⟩ := hcrit s hs
  obtain ⟨syn', hm', hl', hne', _, _, _, hc', _⟩ := hcrit' s' hs'
  rw [List.length_map, hdd, eh, ek, hm] at hm'
  cases Except.ok.inj hm'
  have w := hw _ (hg s hs).1 _ (hg s hs).2 _ hm
  have c1 := hc hvar w
  rw [hdd, window_map] at hc'
  have c2 := hc' (by rw [constant_affine ha]; exact hvar) w
  rw [pearson_affine hl hne ha, ← c1] at c2
  show (s'.h, s'.k, s'.corr) = _
  rw [eh, ek, c2]

/-- equal columns have their best entry in the same place -/
theorem best_same_column {col : Sol ℝ → ℝ} {sols sols' : List (Sol ℝ)} {i j : ℕ} {s s' : Sol ℝ}
    (e : sols'.map (fun s => (s.h, s.k, col s)) = sols.map (fun s => (s.h, s.k, col s)))
    (hi : argmax (sols.map col) = .ok i) (hs : sols[i]? = some s)
    (hj : argmax (sols'.map col) = .ok j) (hs' : sols'[j]? = some s') :
    s'.h = s.h ∧ s'.k = s.k ∧ col s' = col s := by
  have ec : sols'.map col = sols.map col := by
    have := congrArg (List.map (fun p : ℝ × ℝ × ℝ => p.2.2)) e
    rw [List.map_map, List.map_map] at this
    exact this
  rw [ec, hi] at hj
  cases Except.ok.inj hj
  have := congrArg (fun l => l[i]?) e
  simp only [List.getElem?_map, hs, hs'] at this
  simpa using this

/-- **C99** (gain): hence amplifying the stacked data or moving their baseline leaves the best model by
correlation where it is. -/
theorem c99_gain_best {a b : ℝ} (ha : 0 < a)
    (h0 : rfs[0]? = some tr0) (h0' : rfs'[0]? = some tr0') (hd : 0 < tr0.delta) (hdd : tr0'.delta = tr0.delta)
    (hS : env.stackR rfs = .ok S) (hS' : env.stackR rfs' = .ok S') (hsd : S[0]? = some sd)
    (hsd' : S'[0]? = some (sd.map (fun t => a * t + b)))
    (hvar : ¬ Constant (window tr0.delta preonset sd))
    (hw : Wiggles env HSed VpSed VpCrust rayp tr0.delta preonset gaussian sd.length KMoho HMoho)
    (h : WaveformFitting env rfs preonset HSed VpSed VpCrust rayp KMoho HMoho gaussian wc wr wp = .ok R)
    (h' : WaveformFitting env rfs' preonset HSed VpSed VpCrust rayp KMoho HMoho gaussian wc' wr' wp' = .ok R') :
    R'.printed.corr.h = R.printed.corr.h ∧ R'.printed.corr.k = R.printed.corr.k ∧
    R'.printed.corr.corr = R.printed.corr.corr := by
  have e := c99_gain ha.ne' h0 h0' hd hdd hS hS' hsd hsd' hvar hw h h'
  rw [sign_pos ha] at e
  simp only [SignType.coe_one, one_mul] at e
  obtain ⟨P, all, sols, best, hP, hall, hs, hb, rfl⟩ := WaveformFitting_ok h
  obtain ⟨P', all', sols', best', hP', hall', hs', hb', rfl⟩ := WaveformFitting_ok h'
  obtain ⟨i, _, _, _, a1, a2, _⟩ := bestModels_ok hb
  obtain ⟨i', _, _, _, b1, b2, _⟩ := bestModels_ok hb'
  exact best_same_column (col := Sol.corr) e a1 a2 b1 b2

/-- **C99** (gain): and amplifying the data (even by a positive factor of its own for every sample) leaves
the best model by the phase criterion where it is. -/
theorem c99_phase_best
    (h0 : rfs[0]? = some tr0) (h0' : rfs'[0]? = some tr0') (hd : 0 < tr0.delta) (hdd : tr0'.delta = tr0.delta)
    (hS : env.stackR rfs = .ok S) (hS' : env.stackR rfs' = .ok S') (hsd : S[0]? = some sd)
    (hsd' : S'[0]? = some sd') (hresc : PosRescaled sd sd')
    (h : WaveformFitting env rfs preonset HSed VpSed VpCrust rayp KMoho HMoho gaussian wc wr wp = .ok R)
    (h' : WaveformFitting env rfs' preonset HSed VpSed VpCrust rayp KMoho HMoho gaussian wc' wr' wp' = .ok R') :
    R'.printed.pg.h = R.printed.pg.h ∧ R'.printed.pg.k = R.printed.pg.k ∧
    R'.printed.pg.pg = R.printed.pg.pg := by
  have e := c43_rescaling h0 h0' hd hdd hS hS' hsd hsd' hresc (by
    intro m x x' h1 h2
    rw [h1] at h2
    cases Except.ok.inj h2
    exact List.forall₂_same.2 (fun y _ => ⟨1, one_pos, by ring⟩)) rfl h h'
  obtain ⟨P, all, sols, best, hP, hall, hs, hb, rfl⟩ := WaveformFitting_ok h
  obtain ⟨P', all', sols', best', hP', hall', hs', hb', rfl⟩ := WaveformFitting_ok h'
  obtain ⟨_, _, k, _, _, _, _, _, a1, a2, _⟩ := bestModels_ok hb
  obtain ⟨_, _, k', _, _, _, _, _, b1, b2, _⟩ := bestModels_ok hb'
  exact best_same_column (col := Sol.pg) e.symm a1 a2 b1 b2
end

end Rfsed.Props
