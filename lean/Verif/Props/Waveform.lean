import Verif.Proofs.Waveform
import Verif.Props.Pool

/-!
# Waveform fitting: window (C36), serial versus parallel (C37), grid and best models (C71)
-/

namespace Rfsed.Props
open Rfsed PyFloat Spec Waveform

/-- The synthetic model the property talks about: sediment of thickness `HSed`, Moho at depth `H`,
crustal Vp/Vs `K`, half-space below. -/
noncomputable def modelOf (HSed VpSed VpCrust rayp delta preonset gaussian : ℝ) (n : ℕ)
    (H K : ℝ) : SynthArgs ℝ where
  depth := [HSed, H, 77.5]
  vp := [VpSed, VpCrust, 8.045]
  vs := [vsPoly VpSed, VpCrust / K, 4.49]
  rho := [rhoPoly VpSed, rhoPoly VpCrust, 3.299]
  rayp := rayp
  dt := delta
  npts := n
  preonset := |preonset|
  gaussian := gaussian

/-- the sign of every sample -/
noncomputable def signOf (x : List ℝ) : List ℝ := x.map (fun a : ℝ => (SignType.sign a : ℝ))

/-- `corr`, `rmse`, `pg` are the three criteria of data `sd` against the synthetic of model
`(H, K)`, evaluated on the samples with `0 ≤ t ≤ 25 s - delta`. -/
def CriteriaOf (env : WEnv ℝ) (HSed VpSed VpCrust rayp delta preonset gaussian : ℝ)
    (sd : List ℝ) (H K corr rmse pg : ℝ) : Prop :=
  ∃ syn, env.synthRF (modelOf HSed VpSed VpCrust rayp delta preonset gaussian sd.length H K)
      = .ok syn ∧
    let x := window delta preonset sd
    let y := window delta preonset syn
    x.length = y.length ∧ x ≠ [] ∧ rmse = rms x y ∧ -1 ≤ corr ∧ corr ≤ 1 ∧
    (¬ Constant x → ¬ Constant y → corr = pearson x y) ∧
    env.pg (signOf x) (signOf y) delta = .ok pg

theorem gridPoint_criteria {env : WEnv ℝ} {rfs : List (Trace ℝ)} {tr0 : Trace ℝ}
    {preonset HSed VpSed VpCrust rayp gaussian : ℝ} {KMoho HMoho : List ℝ} {P : Para ℝ}
    {H K : ℝ} {c : Crit ℝ}
    (h0 : rfs[0]? = some tr0) (hd : 0 < tr0.delta)
    (hP : prepare env rfs preonset HSed VpSed VpCrust rayp KMoho HMoho gaussian = .ok P)
    (hc : gridPoint env P H K = .ok c) :
    ∃ S sd, env.stackR rfs = .ok S ∧ S[0]? = some sd ∧ P.StackedData = sd ∧ c.h = H ∧ c.k = K ∧
      CriteriaOf env HSed VpSed VpCrust rayp tr0.delta preonset gaussian sd H K c.corr c.rmse
        c.pg := by
  obtain ⟨tr0', S, sd, z, e, h0', hS, hsd, hl, hz, hd0, he, rfl⟩ := prepare_ok hP
  rw [h0] at h0'
  cases h0'
  obtain ⟨hzl, hzt⟩ := whereEq_first hz
  have he : e = truncR (25 / tr0.delta) := by
    have := Except.ok.inj he
    rw [← this, real_ofNat]; norm_num
  rw [gridPoint] at hc
  obtain ⟨syn, hsyn, hc⟩ := bind_eq_ok.1 hc
  obtain ⟨c1, c2, c3, c4, c5, c6, c7, c8, c9⟩ := criteria_real hc
  simp only [he, slice_window hd hzt] at c1 c2 c5 c8 c9
  refine ⟨S, sd, hS, hsd, rfl, c3, c4, syn, ?_, c1, c2, c5, c6, c7, c8, c9⟩
  rw [← hsyn]
  congr 1
  rw [modelOf, synthArgs]
  simp only [vsOf_real, rhoOf_real, real_dec, real_abs, real_ofNat]
  congr 1 <;> norm_num

/-- **C36** (serial): every solution in the table `WaveformFitting` returns was judged on exactly
the samples with `0 ≤ t ≤ 25 s - delta` of the stacked data and of the synthetic receiver
function of its model, with `t = delta * i - preonset`. -/
theorem c36_serial_window {env : WEnv ℝ} {rfs : List (Trace ℝ)} {tr0 : Trace ℝ}
    {preonset HSed VpSed VpCrust rayp gaussian wc wr wp : ℝ} {KMoho HMoho : List ℝ}
    {R : WResult ℝ} (h0 : rfs[0]? = some tr0) (hd : 0 < tr0.delta)
    (h : WaveformFitting env rfs preonset HSed VpSed VpCrust rayp KMoho HMoho gaussian wc wr wp
      = .ok R) :
    ∃ S sd, env.stackR rfs = .ok S ∧ S[0]? = some sd ∧ ∀ s ∈ R.WaveformSolutions,
      CriteriaOf env HSed VpSed VpCrust rayp tr0.delta preonset gaussian sd s.h s.k s.corr s.rmse
        s.pg := by
  obtain ⟨P, all, sols, best, hP, ha, hs, hb, rfl⟩ := WaveformFitting_ok h
  obtain ⟨tr0', S, sd, z, e, h0', hS, hsd, hl, hz, hd0, he, hPe⟩ := prepare_ok hP
  refine ⟨S, sd, hS, hsd, ?_⟩
  obtain ⟨mc, mr, mp, _, _, _, rfl⟩ := normalise_ok hs
  intro s hs
  obtain ⟨c, hc, rfl⟩ := List.mem_map.1 hs
  obtain ⟨p, hp, hpc⟩ := mapM_ok_mem_out ha hc
  obtain ⟨S', sd', hS', hsd', _, ch, ck, hcrit⟩ := gridPoint_criteria h0 hd hP hpc
  rw [hS] at hS'
  cases Except.ok.inj hS'
  rw [hsd] at hsd'
  cases hsd'
  simpa [ch, ck] using hcrit

/-- **C36** (parallel): the same for every result of `run_waveformfitting`, for every number of
processes and schedule. -/
theorem c36_parallel_window {env : WEnv ℝ} {rfs : List (Trace ℝ)} {tr0 : Trace ℝ}
    {preonset HSed VpSed VpCrust rayp gaussian : ℝ} {KMoho HMoho Hs : List ℝ} {P : Para ℝ}
    {nproc : ℕ} {out : List (Option (List (Crit ℝ)))}
    (h0 : rfs[0]? = some tr0) (hd : 0 < tr0.delta) (hn : 0 < nproc)
    (hP : WaveformPara env rfs preonset HSed VpSed VpCrust rayp KMoho HMoho gaussian = .ok P)
    (h : RunWaveformfitting env nproc Hs P (.ok out)) :
    ∃ S sd, env.stackR rfs = .ok S ∧ S[0]? = some sd ∧ ∀ r ∈ out, ∃ cs, r = some cs ∧ ∀ c ∈ cs,
      CriteriaOf env HSed VpSed VpCrust rayp tr0.delta preonset gaussian sd c.h c.k c.corr c.rmse
        c.pg := by
  rw [WaveformPara_eq] at hP
  obtain ⟨tr0', S, sd, z, e, h0', hS, hsd, hl, hz, hd0, he, hPe⟩ := prepare_ok hP
  refine ⟨S, sd, hS, hsd, ?_⟩
  obtain ⟨log, h⟩ := h
  by_cases hall : ∃ x ∈ Hs, ∃ e, WaveformFit_multiproc env P x = .error e
  · obtain ⟨⟨e, he, _⟩, _⟩ := c46_raises hn h hall
    cases he
  · push Not at hall
    let g : ℝ → List (Crit ℝ) := fun x => match WaveformFit_multiproc env P x with
      | .ok c => c
      | .error _ => []
    have hg : ∀ x ∈ Hs, WaveformFit_multiproc env P x = .ok (g x) := by
      intro x hx
      cases hc : WaveformFit_multiproc env P x with
      | error e => exact absurd hc (hall x hx e)
      | ok c => simp only [g, hc]
    have hout := Except.ok.inj (c46_results_in_order hn h hg).1
    intro r hr
    rw [hout] at hr
    obtain ⟨x, hx, rfl⟩ := List.mem_map.1 hr
    refine ⟨_, rfl, fun c hc => ?_⟩
    have hgx := hg x hx
    rw [multiproc_eq] at hgx
    obtain ⟨k, _, hk⟩ := mapM_ok_mem_out hgx hc
    obtain ⟨S', sd', hS', hsd', _, ch, ck, hcrit⟩ := gridPoint_criteria h0 hd hP hk
    rw [hS] at hS'
    cases Except.ok.inj hS'
    rw [hsd] at hsd'
    cases hsd'
    rw [ch, ck]
    exact hcrit

/-- **C36** (failure): for a non-empty record whose stacking succeeds and `delta > 0`,
`WaveformPara` succeeds when some sample time `delta * i - preonset` is zero and raises
`IndexError` when none is; `WaveformFitting` raises `IndexError` too in that case. -/
theorem c36_index_error {env : WEnv ℝ} {rfs : List (Trace ℝ)} {tr0 : Trace ℝ} {S : List (List ℝ)}
    {sd : List ℝ} (preonset HSed VpSed VpCrust rayp gaussian wc wr wp : ℝ) (KMoho HMoho : List ℝ)
    (h0 : rfs[0]? = some tr0) (hd : 0 < tr0.delta) (hl : tr0.data ≠ [])
    (hS : env.stackR rfs = .ok S) (hsd : S[0]? = some sd) :
    ((∃ i < tr0.data.length, tr0.delta * (i : ℝ) = preonset) →
      ∃ P, WaveformPara env rfs preonset HSed VpSed VpCrust rayp KMoho HMoho gaussian = .ok P) ∧
    ((¬ ∃ i < tr0.data.length, tr0.delta * (i : ℝ) = preonset) →
      WaveformPara env rfs preonset HSed VpSed VpCrust rayp KMoho HMoho gaussian
        = .error .indexError ∧
      WaveformFitting env rfs preonset HSed VpSed VpCrust rayp KMoho HMoho gaussian wc wr wp
        = .error .indexError) := by
  have hlen : 0 < tr0.data.length := List.length_pos_of_ne_nil hl
  have ht0 : ∃ t0, item (timeAxis tr0.delta preonset tr0.data.length) 0 = .ok t0 :=
    ⟨_, item_lt (by simpa [timeAxis] using hlen)⟩
  obtain ⟨t0, ht0⟩ := ht0
  have hpre : ∀ r, item (whereEq (timeAxis tr0.delta preonset tr0.data.length) zero) 0 = r →
      (∀ e, r = .error e → prepare env rfs preonset HSed VpSed VpCrust rayp KMoho HMoho gaussian
        = .error e) ∧
      (∀ z, r = .ok z → ∃ P, prepare env rfs preonset HSed VpSed VpCrust rayp KMoho HMoho gaussian
        = .ok P) := by
    intro r hr
    unfold prepare
    rw [item_ok.2 h0, except_ok_bind, hS, except_ok_bind, item_ok.2 hsd, except_ok_bind, ht0,
      except_ok_bind, hr]
    constructor
    · rintro e rfl; rfl
    · rintro z rfl
      rw [except_ok_bind, if_neg (by simp [hd.ne'])]
      exact ⟨_, rfl⟩
  constructor
  · intro hex
    rw [WaveformPara_eq]
    have hnn : (whereEq (timeAxis tr0.delta preonset tr0.data.length) zero)[0]? ≠ none :=
      fun hc => (whereEq_none.1 hc) hex
    obtain ⟨z, hz⟩ := Option.ne_none_iff_exists'.1 hnn
    exact (hpre _ (item_ok.2 hz)).2 z rfl
  · intro hex
    have hn := whereEq_none.2 hex
    have hi : item (whereEq (timeAxis tr0.delta preonset tr0.data.length) zero) 0
        = .error .indexError := by rw [item, hn]
    have hp := (hpre _ hi).1 _ rfl
    rw [WaveformPara_eq]
    refine ⟨hp, ?_⟩
    unfold WaveformFitting
    rw [hp]; rfl

/-- **C36**: if `delta` divides 25 s the window is `0 ≤ t < 25`: its last sample comes one sample
before 25 s, and it has at most `25 / delta` samples. -/
theorem c36_window_divides {delta preonset : ℝ} (hd : 0 < delta) {m : ℕ} (hm : delta * m = 25)
    {z : ℕ} (hz : delta * (z : ℝ) = preonset) (x : List ℝ) :
    window delta preonset x = ((x.zipIdx.filter (fun p : ℝ × ℕ =>
      @decide (0 ≤ delta * (p.2 : ℝ) - preonset ∧ delta * (p.2 : ℝ) - preonset < 25)
        (Classical.propDecidable _))).map Prod.fst) ∧
    (window delta preonset x).length ≤ m := by
  constructor
  · rw [window]
    congr 1
    refine List.filter_congr (fun p _ => ?_)
    rw [decide_eq_decide, ← hz]
    refine and_congr_right (fun _ => ?_)
    have key : ∀ a b : ℕ, delta * (a : ℝ) - delta * (b : ℝ) < delta * m ↔ a < b + m := by
      intro a b
      rw [sub_lt_iff_lt_add, ← mul_add, mul_lt_mul_iff_right₀ hd]
      constructor <;> intro h
      · have : (a : ℝ) < ((b + m : ℕ) : ℝ) := by push_cast; linarith
        exact_mod_cast this
      · have : (a : ℝ) < ((b + m : ℕ) : ℝ) := by exact_mod_cast h
        push_cast at this; linarith
    have key2 : ∀ a b : ℕ, delta * (a : ℝ) - delta * (b : ℝ) ≤ delta * m - delta ↔ a < b + m := by
      intro a b
      have : delta * (a : ℝ) - delta * (b : ℝ) ≤ delta * m - delta ↔
          delta * ((a : ℝ) + 1) ≤ delta * ((b : ℝ) + m) := by
        constructor <;> intro h <;> linarith
      rw [this, mul_le_mul_iff_right₀ hd]
      constructor <;> intro h
      · have : ((a + 1 : ℕ) : ℝ) ≤ ((b + m : ℕ) : ℝ) := by push_cast; linarith
        have : a + 1 ≤ b + m := by exact_mod_cast this
        omega
      · have : a + 1 ≤ b + m := h
        have : ((a + 1 : ℕ) : ℝ) ≤ ((b + m : ℕ) : ℝ) := by exact_mod_cast this
        push_cast at this; linarith
    rw [← hm, key, key2]
  · rw [← slice_window hd hz]
    have hmd : (25 : ℝ) / delta = ((m : ℤ) : ℝ) := by
      rw [← hm]; push_cast; field_simp
    have ht : truncR (25 / delta) = (m : ℤ) := by
      rw [truncR, if_pos (by positivity), hmd, Int.floor_intCast]
    rw [ht, pySlice, if_pos (by omega)]
    simp only [List.length_drop, List.length_take]
    omega

/-- drop the combined criterion from a solution -/
def critOf {F : Type} (s : Sol F) : Crit F := ⟨s.corr, s.rmse, s.pg, s.h, s.k⟩

section generic
variable {F : Type} [PyFloat F]

theorem parallel_results {env : WEnv F} {nproc : ℕ} {Hs : List F} {P : Para F}
    {out : Except PyErr (List (Option (List (Crit F))))} (hn : 0 < nproc)
    (h : RunWaveformfitting env nproc Hs P out) :
    (∀ res : List (List (Crit F)), Hs.mapM (fun h => WaveformFit_multiproc env P h) = .ok res →
      out = .ok (res.map some)) ∧
    (∀ e, Hs.mapM (fun h => WaveformFit_multiproc env P h) = .error e → ∃ e', out = .error e') := by
  obtain ⟨log, h⟩ := h
  constructor
  · intro res hres
    let g : F → List (Crit F) := fun x => match WaveformFit_multiproc env P x with
      | .ok c => c
      | .error _ => []
    have hg : ∀ x ∈ Hs, WaveformFit_multiproc env P x = .ok (g x) := by
      intro x hx
      cases hc : WaveformFit_multiproc env P x with
      | error e =>
        have hall := mapM_ok_iff.1 hres
        exfalso
        obtain ⟨i, hi⟩ := List.getElem?_of_mem hx
        have hlen := mapM_length hres
        have hil : i < Hs.length := by
          by_contra hcc; rw [List.getElem?_eq_none (by omega)] at hi; cases hi
        have := List.Forall₂.get hall hil (by omega)
        rw [List.getElem?_eq_getElem hil] at hi
        simp at hi this
        rw [hi, hc] at this
        cases this
      | ok c => simp only [g, hc]
    rw [(c46_results_in_order hn h hg).1]
    have : res = Hs.map g := by
      have h2 : Hs.mapM (fun h => WaveformFit_multiproc env P h) = .ok (Hs.map g) := by
        rw [mapM_congr_mem (g := fun h => .ok (g h)) hg, mapM_pure_eq]
      rw [h2] at hres
      exact (Except.ok.inj hres).symm
    rw [this, List.map_map]
    rfl
  · intro e he
    obtain ⟨x, hx, hxe⟩ := mapM_error_mem he
    exact ⟨_, (c46_raises hn h ⟨x, hx, e, hxe⟩).1.choose_spec.1⟩

/-- all criteria, depth by depth -/
theorem flatten_results {env : WEnv F} {Hs : List F} {P : Para F}
    {res : List (List (Crit F))}
    (h : Hs.mapM (fun h => WaveformFit_multiproc env P h) = .ok res) :
    (Hs.flatMap (fun h => P.KMoho.map (fun k => (h, k)))).mapM
      (fun p : F × F => gridPoint env P p.1 p.2) = .ok res.flatten := by
  induction Hs generalizing res with
  | nil => rw [List.mapM_nil] at h; cases Except.ok.inj h; simp
  | cons x xs ih =>
    rw [List.mapM_cons] at h
    obtain ⟨c, hc, h⟩ := bind_eq_ok.1 h
    obtain ⟨cs, hcs, h⟩ := bind_eq_ok.1 h
    cases Except.ok.inj h
    rw [List.flatMap_cons, List.mapM_append, List.mapM_map]
    rw [multiproc_eq] at hc
    have : List.mapM ((fun p : F × F => gridPoint env P p.1 p.2) ∘ fun k => (x, k)) P.KMoho =
        .ok c := hc
    rw [this, except_ok_bind, ih hcs, except_ok_bind]
    simp

theorem mapM_perm {α β : Type} {f : α → Except PyErr β} {xs ys : List α} (hp : xs.Perm ys)
    {as bs : List β} (ha : xs.mapM f = .ok as) (hb : ys.mapM f = .ok bs) : as.Perm bs := by
  by_cases hxs : xs = []
  · subst hxs
    have := hp.nil_eq
    subst this
    rw [ha] at hb
    cases Except.ok.inj hb
    exact List.Perm.refl _
  obtain ⟨x0, t0, hx0⟩ := List.exists_cons_of_ne_nil hxs
  have hne : as ≠ [] := by
    intro hc
    have := mapM_length ha
    rw [hc, hx0] at this
    simp at this
  obtain ⟨b0, _, _⟩ := List.exists_cons_of_ne_nil hne
  let g : α → β := fun x => match f x with
    | .ok c => c
    | .error _ => b0
  have key : ∀ (l : List α) (r : List β), l.mapM f = .ok r → r = l.map g := by
    intro l r hr
    have := mapM_ok_iff.1 hr
    induction this with
    | nil => rfl
    | cons h1 h2 ih =>
      rw [List.map_cons, ih (mapM_ok_iff.2 h2)]
      congr 1
      simp only [g, h1]
  rw [key _ _ ha, key _ _ hb]
  exact hp.map g

/-- **C37** (no assumption on the arithmetic): if the serial function succeeds then so does the
parallel one, for every number of processes and every schedule; its results, one list per Moho
depth, are together a permutation of the criteria in the serial table. -/
theorem c37_same_criteria [PyTrunc F] {env : WEnv F} {rfs : List (Trace F)}
    {preonset HSed VpSed VpCrust rayp gaussian wc wr wp : F} {KMoho HMoho : List F}
    {R : WResult F} {P : Para F} {nproc : ℕ}
    {out : Except PyErr (List (Option (List (Crit F))))} (hn : 0 < nproc)
    (hs : WaveformFitting env rfs preonset HSed VpSed VpCrust rayp KMoho HMoho gaussian wc wr wp
      = .ok R)
    (hP : WaveformPara env rfs preonset HSed VpSed VpCrust rayp KMoho HMoho gaussian = .ok P)
    (h : RunWaveformfitting env nproc HMoho P out) :
    ∃ res : List (List (Crit F)), out = .ok (res.map some) ∧ res.length = HMoho.length ∧
      res.flatten.Perm (R.WaveformSolutions.map critOf) := by
  obtain ⟨P', all, sols, best, hP', ha, hso, hb, rfl⟩ := WaveformFitting_ok hs
  rw [WaveformPara_eq, hP'] at hP
  cases Except.ok.inj hP
  have hPK : P.KMoho = KMoho := by
    obtain ⟨_, _, _, _, _, _, _, _, _, _, _, _, rfl⟩ := prepare_ok hP'; rfl
  have hall : sols.map critOf = all := by
    obtain ⟨mc, mr, mp, _, _, _, rfl⟩ := normalise_ok hso
    rw [List.map_map]
    conv_rhs => rw [← List.map_id all]
    exact List.map_congr_left (fun c _ => rfl)
  -- the parallel evaluation succeeds too
  have hok : ∃ res, HMoho.mapM (fun h => WaveformFit_multiproc env P h) = .ok res := by
    cases hm : HMoho.mapM (fun h => WaveformFit_multiproc env P h) with
    | ok res => exact ⟨res, rfl⟩
    | error e =>
      exfalso
      obtain ⟨x, hx, hxe⟩ := mapM_error_mem hm
      rw [multiproc_eq] at hxe
      obtain ⟨k, hk, hke⟩ := mapM_error_mem hxe
      rw [hPK] at hk
      have hmem : (x, k) ∈ KMoho.flatMap (fun k => HMoho.map (fun h => (h, k))) := by
        simp only [List.mem_flatMap, List.mem_map]
        exact ⟨k, hk, x, hx, rfl⟩
      obtain ⟨i, hi⟩ := List.getElem?_of_mem hmem
      obtain ⟨c, _, hc⟩ := mapM_getElem ha hi
      rw [hke] at hc
      cases hc
  obtain ⟨res, hres⟩ := hok
  refine ⟨res, (parallel_results hn h).1 res hres, by simpa using mapM_length hres, ?_⟩
  have hf := flatten_results hres
  rw [hPK] at hf
  rw [hall]
  exact mapM_perm (grid_perm KMoho HMoho (fun h k => (h, k))).symm hf ha

/-- **C37** (converse): if the parallel run succeeds for a non-empty grid, the serial function
succeeds as well, for all weights. -/
theorem c37_converse [PyTrunc F] [IEEEOrder F] {env : WEnv F} {rfs : List (Trace F)}
    {preonset HSed VpSed VpCrust rayp gaussian : F} (wc wr wp : F) {KMoho HMoho : List F}
    {P : Para F} {nproc : ℕ} {out : List (Option (List (Crit F)))} (hn : 0 < nproc)
    (hK : KMoho ≠ []) (hH : HMoho ≠ [])
    (hP : WaveformPara env rfs preonset HSed VpSed VpCrust rayp KMoho HMoho gaussian = .ok P)
    (h : RunWaveformfitting env nproc HMoho P (.ok out)) :
    ∃ R, WaveformFitting env rfs preonset HSed VpSed VpCrust rayp KMoho HMoho gaussian wc wr wp
      = .ok R := by
  rw [WaveformPara_eq] at hP
  have hPK : P.KMoho = KMoho := by
    obtain ⟨_, _, _, _, _, _, _, _, _, _, _, _, rfl⟩ := prepare_ok hP; rfl
  cases hm : HMoho.mapM (fun h => WaveformFit_multiproc env P h) with
  | error e =>
    obtain ⟨e', he'⟩ := (parallel_results hn h).2 e hm
    cases he'
  | ok res =>
    have hf := flatten_results hm
    rw [hPK] at hf
    have hall : ∃ all, (KMoho.flatMap (fun k => HMoho.map (fun h => (h, k)))).mapM
        (fun p : F × F => gridPoint env P p.1 p.2) = .ok all := by
      refine mapM_ok_of_forall (fun p hp => ?_)
      exact mapM_ok_mem hf ((grid_perm KMoho HMoho (fun h k => (h, k))).mem_iff.1 hp)
    obtain ⟨all, hall⟩ := hall
    have hne : all ≠ [] := by
      rintro rfl
      have h1 := mapM_length hall
      rw [length_flatMap_map] at h1
      have h2 := List.length_pos_of_ne_nil hK
      have h3 := List.length_pos_of_ne_nil hH
      have := Nat.mul_pos h2 h3
      rw [List.length_nil] at h1
      omega
    obtain ⟨sols, hs⟩ := normalise_total wc wr wp hne
    have hsne : sols ≠ [] := by
      obtain ⟨_, _, _, _, _, _, rfl⟩ := normalise_ok hs
      simpa using hne
    obtain ⟨b, hb⟩ := bestModels_total hsne
    exact ⟨_, WaveformFitting_of hP hall hs hb⟩

end generic

theorem normalise_perm {all all' : List (Crit ℝ)} {wc wr wp : ℝ} {sols sols' : List (Sol ℝ)}
    (hp : all.Perm all') (h : normalise all wc wr wp = .ok sols)
    (h' : normalise all' wc wr wp = .ok sols') : sols.Perm sols' := by
  obtain ⟨mc, mr, mp, h1, h2, h3, rfl⟩ := normalise_ok h
  obtain ⟨mc', mr', mp', h1', h2', h3', rfl⟩ := normalise_ok h'
  have e1 := IsMaxVal.unique (hp.map Crit.corr) (pyMax_real h1) (pyMax_real h1')
  have e2 := IsMaxVal.unique (hp.map Crit.rmse) (pyMax_real h2) (pyMax_real h2')
  have e3 := IsMaxVal.unique (hp.map Crit.pg) (pyMax_real h3) (pyMax_real h3')
  subst e1 e2 e3
  exact hp.map _

theorem argmax_real {col : Sol ℝ → ℝ} {sols : List (Sol ℝ)} {i : ℕ} {s : Sol ℝ}
    (h : argmax (sols.map col) = .ok i) (hs : sols[i]? = some s) :
    s ∈ sols ∧ ∀ s' ∈ sols, col s' ≤ col s := by
  obtain ⟨x, hx, hmax, _⟩ := argmax_firstMax (fun x _ => real_isNaN x) h
  rw [List.getElem?_map, hs] at hx
  cases Option.some.inj hx
  refine ⟨List.mem_of_getElem? hs, fun s' hs' => ?_⟩
  obtain ⟨j, hj⟩ := List.getElem?_of_mem hs'
  simpa using hmax j (col s') (by rw [List.getElem?_map, hj]; rfl)

theorem argmin_real {col : Sol ℝ → ℝ} {sols : List (Sol ℝ)} {i : ℕ} {s : Sol ℝ}
    (h : argmin (sols.map col) = .ok i) (hs : sols[i]? = some s) :
    s ∈ sols ∧ ∀ s' ∈ sols, col s ≤ col s' := by
  obtain ⟨x, hx, hmin, _⟩ := argmin_firstMin (fun x _ => real_isNaN x) h
  rw [List.getElem?_map, hs] at hx
  cases Option.some.inj hx
  refine ⟨List.mem_of_getElem? hs, fun s' hs' => ?_⟩
  obtain ⟨j, hj⟩ := List.getElem?_of_mem hs'
  simpa using hmin j (col s') (by rw [List.getElem?_map, hj]; rfl)

/-- the best models of two tables that are permutations of each other -/
theorem best_perm {sols sols' : List (Sol ℝ)} {b b' : Best ℝ} (hp : sols.Perm sols')
    (h : bestModels sols = .ok b) (h' : bestModels sols' = .ok b') :
    b.corr.corr = b'.corr.corr ∧ b.rmse.rmse = b'.rmse.rmse ∧ b.pg.pg = b'.pg.pg ∧
    b.gof.gof = b'.gof.gof ∧
    ((∀ s ∈ sols, s.corr = b.corr.corr → s = b.corr) → b'.corr = b.corr) ∧
    ((∀ s ∈ sols, s.rmse = b.rmse.rmse → s = b.rmse) → b'.rmse = b.rmse) ∧
    ((∀ s ∈ sols, s.pg = b.pg.pg → s = b.pg) → b'.pg = b.pg) ∧
    ((∀ s ∈ sols, s.gof = b.gof.gof → s = b.gof) → b'.gof = b.gof) := by
  obtain ⟨i, j, k, l, a1, a2, a3, a4, a5, a6, a7, a8⟩ := bestModels_ok h
  obtain ⟨i', j', k', l', b1, b2, b3, b4, b5, b6, b7, b8⟩ := bestModels_ok h'
  have maxc : ∀ {col : Sol ℝ → ℝ} {s s' : Sol ℝ}, (s ∈ sols ∧ ∀ r ∈ sols, col r ≤ col s) →
      (s' ∈ sols' ∧ ∀ r ∈ sols', col r ≤ col s') → col s = col s' ∧
      ((∀ r ∈ sols, col r = col s → r = s) → s' = s) := by
    intro col s s' h1 h2
    have e := le_antisymm (h2.2 s (hp.mem_iff.1 h1.1)) (h1.2 s' (hp.mem_iff.2 h2.1))
    exact ⟨e, fun h => h s' (hp.mem_iff.2 h2.1) e.symm⟩
  have minc : ∀ {col : Sol ℝ → ℝ} {s s' : Sol ℝ}, (s ∈ sols ∧ ∀ r ∈ sols, col s ≤ col r) →
      (s' ∈ sols' ∧ ∀ r ∈ sols', col s' ≤ col r) → col s = col s' ∧
      ((∀ r ∈ sols, col r = col s → r = s) → s' = s) := by
    intro col s s' h1 h2
    have e := le_antisymm (h1.2 s' (hp.mem_iff.2 h2.1)) (h2.2 s (hp.mem_iff.1 h1.1))
    exact ⟨e, fun h => h s' (hp.mem_iff.2 h2.1) e.symm⟩
  have c1 := maxc (argmax_real a1 a2) (argmax_real b1 b2)
  have c2 := minc (argmin_real a3 a4) (argmin_real b3 b4)
  have c3 := maxc (argmax_real a5 a6) (argmax_real b5 b6)
  have c4 := maxc (argmax_real a7 a8) (argmax_real b7 b8)
  exact ⟨c1.1, c2.1, c3.1, c4.1, c1.2, c2.2, c3.2, c4.2⟩

theorem plotbestmodel_ok {F : Type} [PyFloat F] {env : WEnv F} {res : List (List (Crit F))}
    {P : Para F} {wc wr wp : Option F} {savepath format : String} {sols : List (Sol F)}
    {best : Best F} {figs : List (Fig F)}
    (h : plotbestmodel env res P wc wr wp savepath format = .ok (sols, best, figs)) :
    ∃ all, fillRows Crit.zero (P.HMoho.length * P.KMoho.length) res.flatten = .ok all ∧
      normalise all (wc.getD (dec 4 1)) (wr.getD (dec 4 1)) (wp.getD (dec 2 1)) = .ok sols ∧
      bestModels sols = .ok best := by
  unfold plotbestmodel at h
  obtain ⟨⟨sols', best'⟩, h1, h⟩ := bind_eq_ok.1 h
  obtain ⟨figs', _, h⟩ := bind_eq_ok.1 h
  cases Except.ok.inj h
  rw [tabulate_eq] at h1
  obtain ⟨all, ha, h1⟩ := bind_eq_ok.1 h1
  obtain ⟨s, hs, h1⟩ := bind_eq_ok.1 h1
  obtain ⟨b, hb, h1⟩ := bind_eq_ok.1 h1
  cases Except.ok.inj h1
  exact ⟨all, ha, hs, hb⟩

/-- **C37** (exact arithmetic): with the same weights, `plotbestmodel` applied to what
`run_waveformfitting` returned works on a permutation of the serial solutions; the best value of
each of the four criteria is the same, and so is the best model wherever it is unique. -/
theorem c37_same_best {env : WEnv ℝ} {rfs : List (Trace ℝ)}
    {preonset HSed VpSed VpCrust rayp gaussian wc wr wp : ℝ} {KMoho HMoho : List ℝ}
    {R : WResult ℝ} {P : Para ℝ} {nproc : ℕ} {res : List (List (Crit ℝ))}
    {savepath format : String} {sols : List (Sol ℝ)} {best : Best ℝ} {figs : List (Fig ℝ)}
    (hn : 0 < nproc)
    (hs : WaveformFitting env rfs preonset HSed VpSed VpCrust rayp KMoho HMoho gaussian wc wr wp
      = .ok R)
    (hP : WaveformPara env rfs preonset HSed VpSed VpCrust rayp KMoho HMoho gaussian = .ok P)
    (h : RunWaveformfitting env nproc HMoho P (.ok (res.map some)))
    (hplot : plotbestmodel env res P (some wc) (some wr) (some wp) savepath format
      = .ok (sols, best, figs)) :
    sols.Perm R.WaveformSolutions ∧
    best.corr.corr = R.printed.corr.corr ∧ best.rmse.rmse = R.printed.rmse.rmse ∧
    best.pg.pg = R.printed.pg.pg ∧ best.gof.gof = R.printed.gof.gof ∧
    ((∀ s ∈ R.WaveformSolutions, s.corr = R.printed.corr.corr → s = R.printed.corr) →
      best.corr = R.printed.corr) ∧
    ((∀ s ∈ R.WaveformSolutions, s.rmse = R.printed.rmse.rmse → s = R.printed.rmse) →
      best.rmse = R.printed.rmse) ∧
    ((∀ s ∈ R.WaveformSolutions, s.pg = R.printed.pg.pg → s = R.printed.pg) →
      best.pg = R.printed.pg) ∧
    ((∀ s ∈ R.WaveformSolutions, s.gof = R.printed.gof.gof → s = R.printed.gof) →
      best.gof = R.printed.gof) := by
  obtain ⟨res', hr, hlen, hperm⟩ := c37_same_criteria hn hs hP h
  have hrr : res = res' := by
    have := Except.ok.inj hr
    exact List.map_injective_iff.2 (Option.some_injective _) this
  subst hrr
  obtain ⟨all', ha', hso', hb'⟩ := plotbestmodel_ok hplot
  obtain ⟨P', all, sols0, best0, hP', ha, hso, hb, rfl⟩ := WaveformFitting_ok hs
  have hall : sols0.map critOf = all := by
    obtain ⟨mc, mr, mp, _, _, _, rfl⟩ := normalise_ok hso
    rw [List.map_map]
    conv_rhs => rw [← List.map_id all]
    exact List.map_congr_left (fun c _ => rfl)
  have hPe : P.HMoho = HMoho ∧ P.KMoho = KMoho := by
    rw [WaveformPara_eq] at hP
    obtain ⟨_, _, _, _, _, _, _, _, _, _, _, _, rfl⟩ := prepare_ok hP; exact ⟨rfl, rfl⟩
  have hcount : res.flatten.length = HMoho.length * KMoho.length := by
    rw [hperm.length_eq, hall, mapM_length ha, length_flatMap_map, Nat.mul_comm]
  rw [hPe.1, hPe.2, ← hcount, fillRows_self] at ha'
  cases Except.ok.inj ha'
  simp only [Option.getD_some] at hso'
  have hp : sols0.Perm sols := by
    refine normalise_perm ?_ hso hso'
    rw [← hall]; exact hperm.symm
  obtain ⟨b1, b2, b3, b4, b5, b6, b7, b8⟩ := best_perm hp hb hb'
  exact ⟨hp.symm, b1.symm, b2.symm, b3.symm, b4.symm, b5, b6, b7, b8⟩

end Rfsed.Props
