import Verif.Model.WaveformFittingMultiproc
import Verif.Proofs.Stats
import Verif.Proofs.Pool
import Mathlib.Tactic.NormNum

/-! Helper lemmas about waveform fitting. -/

namespace Rfsed.Waveform
open Rfsed PyFloat Spec

section
variable {F : Type} [PyFloat F]

theorem WaveformPara_eq [PyTrunc F] (env : WEnv F) (rfs : List (Trace F))
    (preonset HSed VpSed VpCrust rayp : F) (KMoho HMoho : List F) (gaussian : F) :
    WaveformPara env rfs preonset HSed VpSed VpCrust rayp KMoho HMoho gaussian =
    prepare env rfs preonset HSed VpSed VpCrust rayp KMoho HMoho gaussian := rfl

theorem fitPoint_eq (env : WEnv F) (P : Para F) (h k : F) :
    fitPoint env P h k = gridPoint env P h k := rfl

/-- what `prepare` computes when it succeeds -/
theorem prepare_ok [PyTrunc F] {env : WEnv F} {rfs : List (Trace F)}
    {preonset HSed VpSed VpCrust rayp : F} {KMoho HMoho : List F} {gaussian : F} {P : Para F}
    (h : prepare env rfs preonset HSed VpSed VpCrust rayp KMoho HMoho gaussian = .ok P) :
    ∃ tr0 S sd z e, rfs[0]? = some tr0 ∧ env.stackR rfs = .ok S ∧ S[0]? = some sd ∧
      0 < tr0.data.length ∧
      (whereEq (timeAxis tr0.delta preonset tr0.data.length) zero)[0]? = some z ∧
      eq tr0.delta zero = false ∧ PyTrunc.trunc (ofNat 25 / tr0.delta) = .ok e ∧
      P = { rfstream := rfs, rayp := rayp, gaussian := gaussian, HSed := HSed, VpSed := VpSed,
            VpCrust := VpCrust, VsSed := vsOf VpSed, SedDen := rhoOf VpSed,
            CrustDen := rhoOf VpCrust, HMoho := HMoho, KMoho := KMoho, delta := tr0.delta,
            time := timeAxis tr0.delta preonset tr0.data.length, staname := tr0.station,
            StackedData := sd, preonset := PyFloat.abs (tr0.delta * ofNat 0 - preonset),
            n := sd.length, tstart := z, tend := (z : Int) + e } := by
  unfold prepare at h
  simp only [bind_eq_ok] at h
  obtain ⟨tr0, h0, S, hS, sd, hsd, t0, ht0, z, hz, h⟩ := h
  rw [item_ok] at h0 hsd ht0 hz
  split at h
  · cases h
  rename_i hd
  obtain ⟨e, he, h⟩ := bind_eq_ok.1 h
  have h := Except.ok.inj h
  have hlen : 0 < tr0.data.length := by
    by_contra hc
    have : tr0.data.length = 0 := by omega
    rw [this] at ht0
    simp [timeAxis] at ht0
  have ht : t0 = tr0.delta * ofNat 0 - preonset := by
    rw [timeAxis, List.getElem?_map, List.getElem?_range hlen] at ht0
    simpa using ht0.symm
  refine ⟨tr0, S, sd, z, e, h0, hS, hsd, hlen, hz, by simpa using hd, he, ?_⟩
  rw [← h, ht]

/-- the criteria of every grid point, K in the outer loop -/
theorem moho_loop (f : F → F → Except PyErr (Crit F)) (K H : List F) :
    K.foldlM (fun sol Ktemp => H.foldlM (fun (sol : List (Crit F)) Htemp => do
      let c ← f Htemp Ktemp
      pure (sol ++ [c])) sol) [] =
    (K.flatMap (fun k => H.map (fun h => (h, k)))).mapM (fun p : F × F => f p.1 p.2) := by
  suffices ∀ acc : List (Crit F),
      K.foldlM (fun sol Ktemp => H.foldlM (fun (sol : List (Crit F)) Htemp => do
        let c ← f Htemp Ktemp
        pure (sol ++ [c])) sol) acc =
      ((K.flatMap (fun k => H.map (fun h => (h, k)))).mapM (fun p : F × F => f p.1 p.2)).map
        (acc ++ ·) by
    rw [this []]
    cases List.mapM (fun p : F × F => f p.1 p.2) (K.flatMap (fun k => H.map (fun h => (h, k)))) <;>
      simp
  induction K with
  | nil => intro acc; simp
  | cons k K ih =>
    intro acc
    rw [List.foldlM_cons, appendLoop (fun h => f h k) H acc, List.flatMap_cons, List.mapM_append]
    have hm : List.mapM (fun p : F × F => f p.1 p.2) (H.map (fun h => (h, k))) =
        H.mapM (fun h => f h k) := by
      rw [List.mapM_map]; rfl
    rw [hm]
    cases H.mapM (fun h => f h k) with
    | error e => rfl
    | ok cs =>
      simp only [except_map_ok, except_ok_bind]
      rw [ih]
      cases List.mapM (fun p : F × F => f p.1 p.2) (K.flatMap (fun k => H.map (fun h => (h, k)))) <;>
        simp

/-- normalisation in closed form -/
theorem normalise_ok {all : List (Crit F)} {wc wr wp : F} {sols : List (Sol F)}
    (h : normalise all wc wr wp = .ok sols) :
    ∃ mc mr mp, pyMax (all.map Crit.corr) = .ok mc ∧ pyMax (all.map Crit.rmse) = .ok mr ∧
      pyMax (all.map Crit.pg) = .ok mp ∧
      sols = all.map (fun c => ⟨c.corr, c.rmse, c.pg,
        wc * (c.corr / mc) + wr * (one - c.rmse / mr) + wp * (c.pg / mp), c.h, c.k⟩) := by
  unfold normalise at h
  simp only [bind_eq_ok] at h
  obtain ⟨mc, hc, mr, hr, mp, hp, h⟩ := h
  rw [fillRows_self] at h
  exact ⟨mc, mr, mp, hc, hr, hp, (Except.ok.inj h).symm⟩

theorem normalise_total {all : List (Crit F)} (wc wr wp : F) (h : all ≠ []) :
    ∃ sols, normalise all wc wr wp = .ok sols := by
  obtain ⟨mc, hc⟩ := pyMax_ok (F := F) (xs := all.map Crit.corr) (by simpa using h)
  obtain ⟨mr, hr⟩ := pyMax_ok (F := F) (xs := all.map Crit.rmse) (by simpa using h)
  obtain ⟨mp, hp⟩ := pyMax_ok (F := F) (xs := all.map Crit.pg) (by simpa using h)
  unfold normalise
  simp only [hc, hr, hp, except_ok_bind, fillRows_self]
  exact ⟨_, rfl⟩

theorem normalise_nil (wc wr wp : F) : normalise ([] : List (Crit F)) wc wr wp =
    .error .valueError := rfl

/-- the row picked by an index-returning search on a column -/
theorem pick_ok {col : Sol F → F} {sols : List (Sol F)} {arg : List F → Except PyErr Nat}
    {i : Nat} {s : Sol F} (_h1 : arg (sols.map col) = .ok i) (h2 : item sols i = .ok s) :
    sols[i]? = some s ∧ (sols.map col)[i]? = some (col s) := by
  rw [item_ok] at h2
  exact ⟨h2, by rw [List.getElem?_map, h2]; rfl⟩

theorem bestModels_ok {sols : List (Sol F)} {b : Best F} (h : bestModels sols = .ok b) :
    ∃ i j k l, argmax (sols.map Sol.corr) = .ok i ∧ sols[i]? = some b.corr ∧
      argmin (sols.map Sol.rmse) = .ok j ∧ sols[j]? = some b.rmse ∧
      argmax (sols.map Sol.pg) = .ok k ∧ sols[k]? = some b.pg ∧
      argmax (sols.map Sol.gof) = .ok l ∧ sols[l]? = some b.gof := by
  unfold bestModels at h
  simp only [bind_eq_ok, item_ok] at h
  obtain ⟨i, hi, c, hc, j, hj, r, hr, k, hk, p, hp, l, hl, g, hg, h⟩ := h
  have h := Except.ok.inj h
  subst h
  exact ⟨i, j, k, l, hi, hc, hj, hr, hk, hp, hl, hg⟩

theorem bestModels_total [IEEEOrder F] {sols : List (Sol F)} (h : sols ≠ []) :
    ∃ b, bestModels sols = .ok b := by
  have pick : ∀ (col : Sol F → F) (i : Nat), argmax (sols.map col) = .ok i ∨
      argmin (sols.map col) = .ok i → ∃ s, item sols i = .ok s := by
    intro col i hi
    have : i < sols.length := by
      rcases hi with hi | hi
      · simpa using argmax_lt hi
      · simpa using argmin_lt hi
    exact ⟨_, item_lt this⟩
  obtain ⟨i, hi⟩ := argmax_ok (xs := sols.map Sol.corr) (by simpa using h)
  obtain ⟨j, hj⟩ := argmin_ok (xs := sols.map Sol.rmse) (by simpa using h)
  obtain ⟨k, hk⟩ := argmax_ok (xs := sols.map Sol.pg) (by simpa using h)
  obtain ⟨l, hl⟩ := argmax_ok (xs := sols.map Sol.gof) (by simpa using h)
  obtain ⟨c, hc⟩ := pick _ i (.inl hi)
  obtain ⟨r, hr⟩ := pick _ j (.inr hj)
  obtain ⟨p, hp⟩ := pick _ k (.inl hk)
  obtain ⟨g, hg⟩ := pick _ l (.inl hl)
  unfold bestModels
  simp only [hi, hj, hk, hl, hc, hr, hp, hg, except_ok_bind, except_pure]
  exact ⟨_, rfl⟩

/-- the whole serial function -/
theorem WaveformFitting_ok [PyTrunc F] {env : WEnv F} {rfs : List (Trace F)}
    {preonset HSed VpSed VpCrust rayp : F} {KMoho HMoho : List F} {gaussian wc wr wp : F}
    {R : WResult F}
    (h : WaveformFitting env rfs preonset HSed VpSed VpCrust rayp KMoho HMoho gaussian wc wr wp
      = .ok R) :
    ∃ P all sols best,
      prepare env rfs preonset HSed VpSed VpCrust rayp KMoho HMoho gaussian = .ok P ∧
      (KMoho.flatMap (fun k => HMoho.map (fun h => (h, k)))).mapM
        (fun p : F × F => gridPoint env P p.1 p.2) = .ok all ∧
      normalise all wc wr wp = .ok sols ∧ bestModels sols = .ok best ∧
      R = { WaveformSolutions := sols, rfstream := rfs, HSed := HSed, VpSed := VpSed,
            VpCrust := VpCrust, rayp := rayp, KMoho := KMoho, HMoho := HMoho,
            gaussian := gaussian, wtCorr := wc, wtRMSE := wr, wtPG := wp, printed := best } := by
  unfold WaveformFitting at h
  obtain ⟨P, hP, h⟩ := bind_eq_ok.1 h
  rw [moho_loop (fun h k => gridPoint env P h k)] at h
  obtain ⟨all, ha, h⟩ := bind_eq_ok.1 h
  rw [fillRows_self, except_ok_bind] at h
  obtain ⟨sols, hs, h⟩ := bind_eq_ok.1 h
  obtain ⟨best, hb, h⟩ := bind_eq_ok.1 h
  exact ⟨P, all, sols, best, hP, ha, hs, hb, (Except.ok.inj h).symm⟩

theorem WaveformFitting_of [PyTrunc F] {env : WEnv F} {rfs : List (Trace F)}
    {preonset HSed VpSed VpCrust rayp : F} {KMoho HMoho : List F} {gaussian wc wr wp : F}
    {P : Para F} {all : List (Crit F)} {sols : List (Sol F)} {best : Best F}
    (hP : prepare env rfs preonset HSed VpSed VpCrust rayp KMoho HMoho gaussian = .ok P)
    (ha : (KMoho.flatMap (fun k => HMoho.map (fun h => (h, k)))).mapM
        (fun p : F × F => gridPoint env P p.1 p.2) = Except.ok all)
    (hs : normalise all wc wr wp = .ok sols) (hb : bestModels sols = .ok best) :
    WaveformFitting env rfs preonset HSed VpSed VpCrust rayp KMoho HMoho gaussian wc wr wp
      = .ok { WaveformSolutions := sols, rfstream := rfs, HSed := HSed, VpSed := VpSed,
              VpCrust := VpCrust, rayp := rayp, KMoho := KMoho, HMoho := HMoho,
              gaussian := gaussian, wtCorr := wc, wtRMSE := wr, wtPG := wp, printed := best } := by
  unfold WaveformFitting
  rw [hP, except_ok_bind, moho_loop (fun h k => gridPoint env P h k), ha, except_ok_bind,
    fillRows_self, except_ok_bind, hs, except_ok_bind, hb, except_ok_bind]
  rfl

/-- the table filled from nested results -/
theorem nested_fill (res : List (List (Crit F))) (n : Nat) :
    res.foldlM (fun st i => i.foldlM (fun (st : List (Crit F) × Nat) j => do
      let t ← setItem st.1 st.2 j
      pure (t, st.2 + 1)) st) (List.replicate n Crit.zero, 0) =
    res.flatten.foldlM (fun (st : List (Crit F) × Nat) j => do
      let t ← setItem st.1 st.2 j
      pure (t, st.2 + 1)) (List.replicate n Crit.zero, 0) := by
  generalize ((List.replicate n Crit.zero : List (Crit F)), 0) = st
  induction res generalizing st with
  | nil => rfl
  | cons r rs ih =>
    rw [List.foldlM_cons, List.flatten_cons, List.foldlM_append]
    congr 1
    funext st'
    exact ih st'

/-- `tabulate` in terms of the pieces of the serial code -/
theorem tabulate_eq (res : List (List (Crit F))) (P : Para F) (wc wr wp : Option F) :
    tabulate res P wc wr wp = (do
      let all ← fillRows Crit.zero (P.HMoho.length * P.KMoho.length) res.flatten
      let sols ← normalise all (wc.getD (dec 4 1)) (wr.getD (dec 4 1)) (wp.getD (dec 2 1))
      let best ← bestModels sols
      pure (sols, best)) := by
  unfold tabulate
  rw [nested_fill]
  have hf : fillRows (Crit.zero : Crit F) (P.HMoho.length * P.KMoho.length) res.flatten =
      (List.foldlM (fun (st : List (Crit F) × Nat) j => do
        let t ← setItem st.1 st.2 j
        pure (t, st.2 + 1)) (List.replicate (P.HMoho.length * P.KMoho.length) Crit.zero, 0)
        res.flatten) >>= fun st => pure st.1 := rfl
  rw [hf]
  cases List.foldlM (fun (st : List (Crit F) × Nat) j => do
      let t ← setItem st.1 st.2 j
      pure (t, st.2 + 1)) (List.replicate (P.HMoho.length * P.KMoho.length) Crit.zero, 0)
      res.flatten with
  | error e => rfl
  | ok st =>
    simp only [except_ok_bind, except_pure, normalise, bestModels, except_bind_assoc]

theorem multiproc_eq (env : WEnv F) (P : Para F) (H : F) :
    WaveformFit_multiproc env P H = P.KMoho.mapM (fun k => gridPoint env P H k) := by
  unfold WaveformFit_multiproc
  have := appendLoop (fun k => fitPoint env P H k) P.KMoho []
  rw [this]
  show _ = P.KMoho.mapM (fun k => fitPoint env P H k)
  cases P.KMoho.mapM (fun k => fitPoint env P H k) <;> simp

/-- swapping the two loops permutes the grid -/
theorem grid_perm {α β γ : Type} (K : List α) (H : List β) (f : β → α → γ) :
    (K.flatMap (fun k => H.map (fun h => f h k))).Perm
      (H.flatMap (fun h => K.map (fun k => f h k))) := by
  induction K with
  | nil => simp
  | cons k K ih =>
    rw [List.flatMap_cons]
    have h2 : (H.flatMap (fun h => (k :: K).map (fun k => f h k))).Perm
        (H.map (fun h => f h k) ++ H.flatMap (fun h => K.map (fun k => f h k))) := by
      clear ih
      induction H with
      | nil => simp
      | cons h H ih =>
        simp only [List.flatMap_cons, List.map_cons, List.cons_append]
        refine List.Perm.cons _ ?_
        refine (List.Perm.append_left _ ih).trans ?_
        simp only [← List.append_assoc]
        refine List.Perm.append_right _ ?_
        simp only [List.map_cons] at *
        exact List.perm_append_comm
    exact (List.Perm.append_left _ ih).trans h2.symm

/-- the index loop behind a window -/
theorem filter_zipIdx {α : Type} (x : List α) (a b k : Nat) :
    (((x.zipIdx k).filter (fun p : α × ℕ => decide (a ≤ p.2 ∧ p.2 < b))).map Prod.fst) =
      (x.take (b - k)).drop (a - k) := by
  induction x generalizing k with
  | nil => simp
  | cons y x ih =>
    rw [List.zipIdx_cons, List.filter_cons]
    by_cases hb : k < b
    · have hb' : b - k = (b - (k + 1)) + 1 := by omega
      by_cases ha : a ≤ k
      · rw [if_pos (by simp [ha, hb]), List.map_cons, ih, hb', List.take_succ_cons]
        have h1 : a - k = 0 := by omega
        have h2 : a - (k + 1) = 0 := by omega
        rw [h1, h2]; simp
      · have ha' : a - k = (a - (k + 1)) + 1 := by omega
        rw [if_neg (by simp; omega), ih, hb', ha', List.take_succ_cons, List.drop_succ_cons]
    · rw [if_neg (by simp; omega), ih]
      have h1 : b - k = 0 := by omega
      have h2 : b - (k + 1) = 0 := by omega
      rw [h1, h2]; simp

end

/-- the Python slice is the window of the specification -/
theorem slice_window {delta preonset : ℝ} (hd : 0 < delta) {z : Nat}
    (hz : delta * (z : ℝ) = preonset) (x : List ℝ) :
    pySlice x z ((z : Int) + truncR (25 / delta)) = window delta preonset x := by
  have hpos : (0 : ℝ) ≤ 25 / delta := by positivity
  have ht : truncR (25 / delta) = ⌊25 / delta⌋ := by rw [truncR, if_pos hpos]
  have hfl : 0 ≤ ⌊25 / delta⌋ := Int.floor_nonneg.2 hpos
  obtain ⟨m, hm⟩ := Int.eq_ofNat_of_zero_le hfl
  rw [ht, hm]
  have hs : pySlice x z ((z : Int) + (m : Int)) = (x.take (z + m)).drop z := by
    rw [pySlice, if_pos (by omega)]
    congr 2
  have := filter_zipIdx x z (z + m) 0
  simp only [Nat.sub_zero] at this
  rw [hs, ← this, window]
  congr 1
  refine List.filter_congr (fun p _ => ?_)
  rw [decide_eq_decide, ← hz]
  have e1 : 0 ≤ delta * (p.2 : ℝ) - delta * (z : ℝ) ↔ z ≤ p.2 := by
    rw [← mul_sub, mul_nonneg_iff_of_pos_left hd, sub_nonneg, Nat.cast_le]
  have e2 : delta * (p.2 : ℝ) - delta * (z : ℝ) ≤ 25 - delta ↔ p.2 < z + m := by
    have : delta * (p.2 : ℝ) - delta * (z : ℝ) ≤ 25 - delta ↔
        (((p.2 : ℤ) + 1 - (z : ℤ) : ℤ) : ℝ) ≤ 25 / delta := by
      rw [le_div_iff₀ hd]
      push_cast
      constructor <;> intro h <;> nlinarith
    rw [this, ← Int.le_floor, hm]
    omega
  rw [e1, e2]

/-- the first sample at time zero -/
theorem whereEq_first {delta preonset : ℝ} {l z : Nat}
    (h : (whereEq (timeAxis delta preonset l) zero)[0]? = some z) :
    z < l ∧ delta * (z : ℝ) = preonset := by
  have hm := List.mem_of_getElem? h
  rw [whereEq, List.mem_filter] at hm
  obtain ⟨h1, h2⟩ := hm
  have hz : z < l := by simpa [timeAxis] using h1
  refine ⟨hz, ?_⟩
  rw [timeAxis, List.getElem?_map, List.getElem?_range hz] at h2
  simp at h2
  linarith

theorem whereEq_none {delta preonset : ℝ} {l : Nat} :
    (whereEq (timeAxis delta preonset l) zero)[0]? = none ↔
      ¬ ∃ i < l, delta * (i : ℝ) = preonset := by
  rw [List.getElem?_eq_none_iff, Nat.le_zero, List.length_eq_zero_iff, whereEq,
    List.filter_eq_nil_iff]
  constructor
  · rintro h ⟨i, hi, he⟩
    apply h i (by simpa [timeAxis] using hi)
    rw [timeAxis, List.getElem?_map, List.getElem?_range hi]
    simp [he]
  · intro h i hi hc
    have hi : i < l := by simpa [timeAxis] using hi
    apply h
    refine ⟨i, hi, ?_⟩
    rw [timeAxis, List.getElem?_map, List.getElem?_range hi] at hc
    simp at hc
    linarith

theorem vsOf_real (v : ℝ) : vsOf v = vsPoly v := by
  simp only [vsOf, vsPoly, powNat, real_dec]; norm_num; ring

theorem rhoOf_real (v : ℝ) : rhoOf v = rhoPoly v := by
  simp only [rhoOf, rhoPoly, powNat, real_dec]; norm_num; ring

/-- the criteria of one grid point -/
theorem criteria_real {env : WEnv ℝ} {sd syn : List ℝ} {a : Nat} {b : Int} {delta h k : ℝ}
    {c : Crit ℝ} (hc : criteria env sd syn a b delta h k = .ok c) :
    let x := pySlice sd a b
    let y := pySlice syn a b
    x.length = y.length ∧ x ≠ [] ∧ c.h = h ∧ c.k = k ∧ c.rmse = rms x y ∧
    -1 ≤ c.corr ∧ c.corr ≤ 1 ∧
    (¬ Constant x → ¬ Constant y → c.corr = pearson x y) ∧
    env.pg (x.map (fun a : ℝ => (SignType.sign a : ℝ))) (y.map (fun a : ℝ => (SignType.sign a : ℝ)))
      delta = .ok c.pg := by
  unfold criteria at hc
  simp only [bind_eq_ok, except_pure] at hc
  obtain ⟨co, h1, m, h2, p, h3, hc⟩ := hc
  have hc := (Except.ok.inj hc).symm
  obtain ⟨hl, hne, hm⟩ := meanSquaredError_real.1 h2
  rw [signs_real, signs_real] at h3
  subst hc
  refine ⟨hl, hne, rfl, rfl, ?_, (corrcoef01_bounds h1).1, (corrcoef01_bounds h1).2, ?_, h3⟩
  · show Real.sqrt m = _
    rw [hm, rms]
  · intro hx hy
    rw [corrcoef01_real hl hx hy] at h1
    exact (Except.ok.inj h1).symm

/-- `criteria` succeeds -/
theorem criteria_total {env : WEnv ℝ} {sd syn : List ℝ} {a : Nat} {b : Int} {delta h k p : ℝ}
    (hl : (pySlice sd a b).length = (pySlice syn a b).length) (hne : pySlice sd a b ≠ [])
    (hp : env.pg ((pySlice sd a b).map (fun a : ℝ => (SignType.sign a : ℝ)))
      ((pySlice syn a b).map (fun a : ℝ => (SignType.sign a : ℝ))) delta = .ok p) :
    ∃ c, criteria env sd syn a b delta h k = .ok c := by
  unfold criteria
  simp only
  rw [corrcoef01, if_neg (by simp [hl]), except_ok_bind, meanSquaredError_real.2 ⟨hl, hne, rfl⟩,
    except_ok_bind, signs_real, signs_real, hp]
  exact ⟨_, rfl⟩

end Rfsed.Waveform
