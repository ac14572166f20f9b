import Verif.Props.SynrfObject
import Verif.Props.Deconv2

/-!
# Property C52: histories of calls on a `synrf` object
-/

namespace Rfsed.Props
open Spec Synrf PyFloat

theorem splat_pass (pf : List ℝ) (pre g : ℝ) (m : Option String) (kw : KwArgs) :
    (Call.deconv (some pf) pre g m kw).pass = (splat pf).toOption := by
  match pf with
  | [] => rfl
  | [_] => rfl
  | [_, _] => rfl
  | [_, _, _] => rfl
  | [_, _, _, _] => rfl
  | _ :: _ :: _ :: _ :: _ :: _ => rfl

theorem filter_model (bp : Bandpass) (o : Obj) (a : FilterArgs) :
    (Synrf.filter bp o a).1 = { o with streams := (Synrf.filter bp o a).1.streams } := by
  unfold Synrf.filter
  split
  · rfl
  · simp only []
    split <;> rfl

theorem preFilter_model (bp : Bandpass) (o : Obj) (pf : Option (List ℝ)) :
    (preFilter bp o pf).1 = { o with streams := (preFilter bp o pf).1.streams } := by
  unfold preFilter
  split
  · rfl
  · split
    · rfl
    · exact filter_model bp o _

theorem run_deconvolution_obj (bp : Bandpass) (o : Obj) (pf : Option (List ℝ)) (pre g : ℝ)
    (m : Option String) (kw : KwArgs) :
    (run_deconvolution bp o pf pre g m kw).1 = (preFilter bp o pf).1 := by
  unfold run_deconvolution
  simp only []
  split <;> rfl

theorem call_model (bp : Bandpass) (o : Obj) (c : Call) :
    (call bp o c).1 = { o with streams := (call bp o c).1.streams } := by
  cases c with
  | runFwd => rfl
  | filter a => exact filter_model bp o a
  | deconv pf pre g m kw =>
    show (run_deconvolution bp o pf pre g m kw).1 = _
    simp only [call]
    rw [run_deconvolution_obj]
    exact preFilter_model bp o pf

theorem after_model' (bp : Bandpass) (calls : List Call) : ∀ o : Obj,
    ∃ s, after bp o calls = { o with streams := s } := by
  induction calls with
  | nil => intro o; exact ⟨o.streams, rfl⟩
  | cons c cs ih =>
    intro o
    obtain ⟨s, hs⟩ := ih (call bp o c).1
    refine ⟨s, ?_⟩
    show after bp (call bp o c).1 cs = _
    rw [hs, call_model bp o c]

theorem after_model (bp : Bandpass) (calls : List Call) (o : Obj) :
    after bp o calls = { o with streams := (after bp o calls).streams } := by
  obtain ⟨s, hs⟩ := after_model' bp calls o
  rw [hs]

theorem fwdLoop_streams (o : Obj) (s : Option (List SynTr × List SynTr)) (ps : List ℝ) : ∀ acc,
    fwdLoop { o with streams := s } ps acc = fwdLoop o ps acc := by
  induction ps with
  | nil => intro acc; rfl
  | cons p ps ih =>
    intro acc
    unfold fwdLoop
    simp only []
    split
    · rfl
    · exact ih _

/-- **C52** `run_fwd` starts afresh: after any calls, whether they raised or not, `run_fwd` does
exactly what it does on the new object: same result, same object afterwards. -/
theorem c52_run_fwd_forgets (bp : Bandpass) (o : Obj) (calls : List Call) :
    run_fwd (after bp o calls) = run_fwd o := by
  rw [after_model]
  unfold run_fwd
  simp only []
  rw [fwdLoop_streams]

/-- **C52** so everything done before the last `run_fwd` is without effect. -/
theorem c52_last_run_fwd (bp : Bandpass) (o : Obj) (before later : List Call) :
    after bp o (before ++ .runFwd :: later) = after bp o (.runFwd :: later) := by
  have h := c52_run_fwd_forgets bp o before
  have e : ∀ x y o, after bp o (x ++ y) = after bp (after bp o x) y := by
    intro x y o; simp [after, List.foldl_append]
  rw [e]
  show after bp (run_fwd (after bp o before)).1 later = after bp (run_fwd o).1 later
  rw [h]

/-- **C52** Before the first `run_fwd` no call changes the object. -/
theorem c52_before_run_fwd (bp : Bandpass) {o : Obj} (hn : o.streams = none) {calls : List Call}
    (hc : ∀ c ∈ calls, c.isFwd = false) : after bp o calls = o := by
  induction calls with
  | nil => rfl
  | cons c cs ih =>
    have h1 : (call bp o c).1 = o := by
      cases c with
      | runFwd => have := hc .runFwd (by simp); cases this
      | filter a => simp only [call, Synrf.filter, hn]
      | deconv pf pre g m kw =>
        simp only [call]
        rw [run_deconvolution_obj]
        unfold preFilter
        split
        · rfl
        · split
          · rfl
          · simp only [Synrf.filter, hn]
    show after bp (call bp o c).1 cs = o
    rw [h1]
    exact ih (fun c hc' => hc c (by simp [hc']))

/-- **C52** ... and `filter` and `run_deconvolution` raise `AttributeError`: `filter` always,
`run_deconvolution` if it has a valid pre-filter or at least one ray parameter to work on. -/
theorem c52_attribute_error (bp : Bandpass) {o : Obj} (hn : o.streams = none) :
    (∀ a, (call bp o (.filter a)).2 = .raised .attributeError) ∧
    (∀ pf pre g m kw, (call bp o (.deconv pf pre g m kw)).2 =
      if pf = none ∧ o.rayp = [] then .rfs []
      else if pf.isSome ∧ (Call.deconv pf pre g m kw).pass = none then .raised .typeError
      else .raised .attributeError) := by
  constructor
  · intro a
    simp only [call, Synrf.filter, hn]
  · intro pf pre g m kw
    simp only [call]
    unfold run_deconvolution preFilter
    cases pf with
    | none =>
      simp only [Option.isSome_none, Bool.false_eq_true, false_and, if_false, true_and]
      unfold deconvLoop
      rw [hn]
      cases hr : o.rayp with
      | nil => simp [pure, Except.pure]
      | cons p ps =>
        have : List.range (p :: ps).length = 0 :: (List.range ps.length).map (· + 1) := by
          rw [List.length_cons, List.range_succ_eq_map]
        rw [this]
        simp [bind, Except.bind]
    | some l =>
      simp only [reduceCtorEq, false_and, if_false, Option.isSome_some, true_and]
      rw [splat_pass]
      cases hs : splat l with
      | error e =>
        have : e = .typeError := by
          unfold splat at hs
          split at hs <;> cases hs
          rfl
        subst this
        simp [Except.toOption]
      | ok a =>
        simp [Except.toOption, Synrf.filter, hn]

theorem filterTr_passed {bp : Bandpass} {f : FilterArgs → ℝ → List ℝ → List ℝ} {a : FilterArgs}
    (h : ∀ d x, bp a d x = .ok (f a d x)) (t : SynTr) : filterTr bp a t = .ok (passed f [a] t) := by
  unfold filterTr passed
  cases ht : t.data with
  | nan n =>
    simp only [h, Except.map]
    rw [← ht]
  | num x => simp [h, Except.map]

theorem filterStream_passed {bp : Bandpass} {f : FilterArgs → ℝ → List ℝ → List ℝ} {a : FilterArgs}
    (h : ∀ d x, bp a d x = .ok (f a d x)) (ts : List SynTr) :
    filterStream bp a ts = (ts.map (passed f [a]), .ok ()) := by
  induction ts with
  | nil => rfl
  | cons t ts ih =>
    unfold filterStream
    rw [filterTr_passed h, ih]
    rfl

theorem passed_comp (f : FilterArgs → ℝ → List ℝ → List ℝ) (ps qs : List FilterArgs) (t : SynTr) :
    passed f qs (passed f ps t) = passed f (ps ++ qs) t := by
  obtain ⟨d, δ⟩ := t
  cases d <;> simp [passed, List.foldl_append]

theorem filter_passed {bp : Bandpass} {f : FilterArgs → ℝ → List ℝ → List ℝ} {a : FilterArgs}
    (h : ∀ d x, bp a d x = .ok (f a d x)) {o : Obj} {rs zs : List SynTr}
    (hs : o.streams = some (rs, zs)) :
    Synrf.filter bp o a =
      ({ o with streams := some (rs.map (passed f [a]), zs.map (passed f [a])) }, .ok ()) := by
  unfold Synrf.filter
  simp only [hs, filterStream_passed h]

/-- the pre-filter of `run_deconvolution` -/
theorem preFilter_passed {bp : Bandpass} {f : FilterArgs → ℝ → List ℝ → List ℝ} {o : Obj}
    {pf : Option (List ℝ)} (pre g : ℝ) (m : Option String) (kw : KwArgs)
    (h : ∀ a, (Call.deconv pf pre g m kw).pass = some a → ∀ d x, bp a d x = .ok (f a d x))
    {rs zs : List SynTr} (hs : o.streams = some (rs, zs)) :
    (preFilter bp o pf).1.streams =
      some (rs.map (passed f ((Call.deconv pf pre g m kw).pass.toList)),
            zs.map (passed f ((Call.deconv pf pre g m kw).pass.toList))) := by
  have hid : ∀ ts : List SynTr, ts.map (passed f []) = ts := by
    intro ts
    have : passed f [] = id := by
      funext t
      obtain ⟨d, δ⟩ := t
      cases d <;> rfl
    rw [this, List.map_id]
  cases pf with
  | none =>
    have : (Call.deconv none pre g m kw).pass = none := rfl
    rw [this]
    simp only [Option.toList_none, hid]
    exact hs
  | some l =>
    rw [splat_pass] at h ⊢
    unfold preFilter
    cases hsp : splat l with
    | error e =>
      simp only [Except.toOption, Option.toList_none, hid, hsp]
      exact hs
    | ok a =>
      simp only [Except.toOption, Option.toList_some, hsp]
      rw [hsp] at h
      rw [filter_passed (h a rfl) hs]

/-- **C52** After `run_fwd`, every `filter` call and every `run_deconvolution` call with a valid
pre-filter applies one more pass of the band-pass to the stored seismograms, in the order of the
calls, whether or not the deconvolution then succeeds; nothing else changes them.  (`f` is what the
band-pass computes; it must not raise for the passes asked for.) -/
theorem c52_passes_accumulate {bp : Bandpass} {f : FilterArgs → ℝ → List ℝ → List ℝ}
    {calls : List Call} (hc : ∀ c ∈ calls, c.isFwd = false)
    (hbp : ∀ c ∈ calls, ∀ a, c.pass = some a → ∀ d x, bp a d x = .ok (f a d x))
    {o : Obj} {rs zs : List SynTr} (hs : o.streams = some (rs, zs)) :
    (after bp o calls).streams =
      some (rs.map (passed f (calls.filterMap Call.pass)), zs.map (passed f (calls.filterMap Call.pass))) := by
  have hid : passed f [] = id := by
    funext t
    obtain ⟨d, δ⟩ := t
    cases d <;> rfl
  induction calls generalizing o rs zs with
  | nil => simpa [after, hid] using hs
  | cons c cs ih =>
    have h1 : (call bp o c).1.streams =
        some (rs.map (passed f c.pass.toList), zs.map (passed f c.pass.toList)) := by
      have hb := hbp c (by simp)
      cases c with
      | runFwd => have := hc .runFwd (by simp); cases this
      | filter a =>
        simp only [call]
        rw [filter_passed (hb a rfl) hs]
        rfl
      | deconv pf pre g m kw =>
        simp only [call]
        rw [run_deconvolution_obj]
        exact preFilter_passed pre g m kw hb hs
    have h2 := ih (fun c' hc' => hc c' (by simp [hc'])) (fun c' hc' => hbp c' (by simp [hc'])) h1
    show (after bp (call bp o c).1 cs).streams = _
    rw [h2]
    simp only [List.map_map]
    have e : (c :: cs).filterMap Call.pass = c.pass.toList ++ cs.filterMap Call.pass := by
      rw [List.filterMap_cons]
      cases c.pass <;> rfl
    rw [e]
    have : passed f (cs.filterMap Call.pass) ∘ passed f c.pass.toList =
        passed f (c.pass.toList ++ cs.filterMap Call.pass) := by
      funext t; exact passed_comp f _ _ t
    rw [this]

theorem mapM_map_list {α β γ : Type} (f : β → Except PyErr γ) (g : α → β) (xs : List α) :
    (xs.map g).mapM f = xs.mapM (fun x => f (g x)) := by
  induction xs with
  | nil => rfl
  | cons x xs ih => simp [ih]

/-- **C52** What `run_deconvolution` returns at the end of a history: the deconvolutions of the
seismograms with all passes so far applied, its own pre-filter being the last; it fails with the
first failing trace. -/
theorem c52_deconvolution {bp : Bandpass} {f : FilterArgs → ℝ → List ℝ → List ℝ}
    {calls : List Call} (hc : ∀ c ∈ calls, c.isFwd = false) {pf : Option (List ℝ)} {pre g : ℝ}
    {m : Option String} {kw : KwArgs} (hpf : pf = none ∨ (Call.deconv pf pre g m kw).pass ≠ none)
    (hbp : ∀ c ∈ calls ++ [.deconv pf pre g m kw], ∀ a, c.pass = some a →
      ∀ d x, bp a d x = .ok (f a d x))
    {o : Obj} {rs zs : List SynTr} (hs : o.streams = some (rs, zs))
    (hr : rs.length = o.rayp.length) (hz : zs.length = o.rayp.length) :
    let ps := (calls ++ [Call.deconv pf pre g m kw]).filterMap Call.pass
    (run_deconvolution bp (after bp o calls) pf pre g m kw).2 =
      (rs.zip zs).mapM (fun uw => deconvTr (passed f ps uw.1) (passed f ps uw.2) m
        { kw with preonset := some pre, gaussian := some g }) := by
  intro ps
  have h1 := c52_passes_accumulate hc (fun c hc' => hbp c (by simp [hc'])) hs
  have h2 := preFilter_passed (bp := bp) (o := after bp o calls) (pf := pf) pre g m kw
    (hbp _ (by simp)) h1
  have hray : (preFilter bp (after bp o calls) pf).1.rayp = o.rayp := by
    rw [preFilter_model, after_model]
  have hok : (preFilter bp (after bp o calls) pf).2 = .ok () := by
    unfold preFilter
    cases pf with
    | none => rfl
    | some l =>
      have hh := hbp (.deconv (some l) pre g m kw) (by simp)
      rw [splat_pass] at hpf hh
      cases hsp : splat l with
      | error e => rw [hsp] at hpf; simp [Except.toOption] at hpf
      | ok a =>
        rw [hsp] at hh
        simp only [hsp]
        rw [filter_passed (hh a rfl) h1]
  have e : ps = calls.filterMap Call.pass ++ (Call.deconv pf pre g m kw).pass.toList := by
    show (calls ++ [Call.deconv pf pre g m kw]).filterMap Call.pass = _
    rw [List.filterMap_append]
    congr 1
  unfold run_deconvolution
  simp only [hok, hray]
  rw [h2]
  simp only [List.map_map]
  have ec : passed f (Call.deconv pf pre g m kw).pass.toList ∘ passed f (calls.filterMap Call.pass) =
      passed f ps := by
    funext t; rw [e]; exact passed_comp f _ _ t
  rw [ec]
  unfold deconvLoop
  have : rs.zip zs = (List.range o.rayp.length).map (fun i : ℕ =>
      (rs.getD i ⟨.nan 0, 0⟩, zs.getD i ⟨.nan 0, 0⟩)) := by
    apply List.ext_getElem
    · simp [hr, hz]
    · intro i i1 i2
      simp at i1 i2
      simp [List.getD_eq_getElem?_getD, i1.1, i1.2]
  rw [this, mapM_map_list]
  refine mapM_congr_mem ?_
  intro i hi
  rw [List.mem_range] at hi
  have i1 : i < rs.length := by omega
  have i2 : i < zs.length := by omega
  simp only [item, List.getElem?_map, List.getElem?_eq_getElem i1, List.getElem?_eq_getElem i2,
    Option.map_some, List.getD_eq_getElem?_getD, Option.getD_some]
  rfl

/-- **C52** `run_deconvolution(pre_filt=None)` is repeatable: it changes nothing. -/
theorem c52_no_prefilter_repeatable (bp : Bandpass) (o : Obj) (pre g : ℝ) (m : Option String)
    (kw : KwArgs) : (run_deconvolution bp o none pre g m kw).1 = o := rfl

/-- **C52** A band-pass that raises for its corner frequencies (whatever the data) leaves the
seismograms as they are; the exception reaches the caller, from `filter` and from
`run_deconvolution` alike. -/
theorem c52_failing_filter {bp : Bandpass} {a : FilterArgs} {e : PyErr}
    (hbp : ∀ d x, bp a d x = .error e) {o : Obj} {r : SynTr} {rs zs : List SynTr}
    (hs : o.streams = some (r :: rs, zs)) :
    call bp o (.filter a) = (o, .raised e) ∧
    ∀ pf pre g m kw, (Call.deconv pf pre g m kw).pass = some a →
      call bp o (.deconv pf pre g m kw) = (o, .raised e) := by
  have h1 : filterTr bp a r = .error e := by
    unfold filterTr
    cases r.data <;> simp [hbp, Except.map]
  have h2 : Synrf.filter bp o a = (o, .error e) := by
    unfold Synrf.filter
    simp only [hs, filterStream, h1]
    rw [← hs]
  constructor
  · simp only [call, h2]
  · intro pf pre g m kw hp
    cases pf with
    | none => cases hp
    | some l =>
      rw [splat_pass] at hp
      cases hsp : splat l with
      | error x => rw [hsp] at hp; cases hp
      | ok a' =>
        rw [hsp] at hp
        cases hp
        simp only [call, run_deconvolution, preFilter, hsp, h2]

/-! A witness that `run_deconvolution` with a pre-filter is not repeatable. -/

/-- a causal linear filter: delay by two samples -/
noncomputable def delay2 : Bandpass := fun _ _ x => .ok ((0 :: 0 :: x).take x.length)

noncomputable def hsLayer : Layer := ⟨6, 3.5, 2.7, 35⟩

theorem hsLayer_propagating : hsLayer.Propagating 0.06 := by
  norm_num [Layer.Propagating, hsLayer, abs_of_pos]

/-- the radial seismogram of a half-space, four samples: the first sample is not zero -/
theorem hs_fwd : ∃ x0 x1 x2 x3 y0 y1 y2 y3 : ℝ,
    fwd_seis 0.06 1 4 1 [6] [3.5] [2.7] [35] = .ok (.num [x0, x1, x2, x3], .num [y0, y1, y2, y3]) ∧
    x0 ≠ 0 := by
  have hp := hsLayer_propagating
  have hv : ∀ v : ℝ, 0 < v → (0.06 : ℝ) < 1 / v → 0 < vert v 0.06 := by
    intro v hv h
    unfold vert
    apply Real.sqrt_pos.2
    have : (0.06 : ℝ) ^ 2 < (1 / v) ^ 2 := by gcongr
    have e : (1 / v) ^ 2 = 1 / v ^ 2 := by rw [div_pow, one_pow]
    linarith
  have hξ := hv 6 (by norm_num) (by norm_num)
  have hη := hv 3.5 (by norm_num) (by norm_num)
  set ξ := vert 6 0.06
  set η := vert 3.5 0.06
  set b : ℝ := 1 - 2 * 3.5 ^ 2 * 0.06 ^ 2 with hb
  set R : ℝ := b ^ 2 + 4 * 3.5 ^ 4 * 0.06 ^ 2 * ξ * η with hR
  have hRpos : 0 < R := by positivity
  set c : ℝ := 4 * 6 * 3.5 ^ 2 * 0.06 * ξ * η / R with hc
  have hcpos : 0 < c := by positivity
  have key : ∀ ω : ℝ, ω ≠ 0 → haskell ω 0.06 ([35] : List ℝ).length 1 [6] [3.5] [2.7] [35] =
      .ok (some ((c : ℂ), ((-(2 * 6 * ξ * b / R) : ℝ) : ℂ))) := by
    intro ω hω
    have := c78_halfspace (ipha := 1) hω hp
    exact this
  have := fwd_seis_some (npts := 4) (by norm_num) (one_ne_zero) (fun _ => (c : ℂ))
    (fun _ => ((-(2 * 6 * ξ * b / R) : ℝ) : ℂ)) key
  have n4 : nextPow2 4 = 4 := by
    have : Nat.clog 2 4 = 2 := by
      rw [show (4 : ℕ) = 2 ^ 2 by norm_num]; exact Nat.clog_pow 2 2 (by norm_num)
    simp [nextPow2, this]
  have e1 : Finset.Icc 1 (4 / 2) = ({1, 2} : Finset ℕ) := by decide
  have hx : synthSample 4 1 (fun _ => (c : ℂ)) 0 = -c / 16 := by
    simp only [synthSample, e1]
    rw [Finset.sum_pair (by norm_num)]
    have h1 : -Complex.I * (((2 * Real.pi * ((1 : ℕ) : ℝ) / (((4 : ℕ) : ℝ) * 1) : ℝ) : ℂ) *
        (((((0 : ℕ) : ℝ) + 1) * 1 : ℝ) : ℂ)) = -(Real.pi / 2 * Complex.I) := by
      push_cast; ring
    have h2 : -Complex.I * (((2 * Real.pi * ((2 : ℕ) : ℝ) / (((4 : ℕ) : ℝ) * 1) : ℝ) : ℂ) *
        (((((0 : ℕ) : ℝ) + 1) * 1 : ℝ) : ℂ)) = -(Real.pi * Complex.I) := by
      push_cast; ring
    rw [h1, h2, Complex.exp_neg, Complex.exp_neg, Complex.exp_pi_mul_I, Complex.exp_pi_div_two_mul_I]
    simp
    ring
  refine ⟨synthSample 4 1 (fun _ => (c : ℂ)) 0, synthSample 4 1 (fun _ => (c : ℂ)) 1,
    synthSample 4 1 (fun _ => (c : ℂ)) 2, synthSample 4 1 (fun _ => (c : ℂ)) 3,
    -synthSample 4 1 (fun _ => ((-(2 * 6 * ξ * b / R) : ℝ) : ℂ)) 0,
    -synthSample 4 1 (fun _ => ((-(2 * 6 * ξ * b / R) : ℝ) : ℂ)) 1,
    -synthSample 4 1 (fun _ => ((-(2 * 6 * ξ * b / R) : ℝ) : ℂ)) 2,
    -synthSample 4 1 (fun _ => ((-(2 * 6 * ξ * b / R) : ℝ) : ℂ)) 3, ?_, ?_⟩
  · rw [this]
    simp only [List.range_succ, List.range_zero, List.nil_append, List.map_append, List.map_cons,
      List.map_nil, List.cons_append, n4]
  · rw [hx]
    intro h
    have : c = 0 := by linarith
    linarith

/-- a default iterative deconvolution of four samples works, and stops at once exactly for a dead
numerator -/
theorem deconvTr_four {u w : List ℝ} (hu : u.length = 4) (hw : w.length = 4) (pre g : ℝ) :
    ∃ r, deconvTr ⟨.num u, 1⟩ ⟨.num w, 1⟩ none { preonset := some pre, gaussian := some g } = .ok r ∧
      (r.iter = some 0 ↔ ∀ x ∈ u, x = 0) := by
  obtain ⟨R, hR⟩ := c53_total (uin := u) (win := w) (dt := 1) (preonset := pre) (a := g)
    (itmax := 400) (minderr := 0.001) (phase := "P") (by omega) (by omega) one_ne_zero
  have h0 := c53_dead_numerator hR (Or.inl rfl) (by norm_num)
  refine ⟨⟨R.rf, 1, { preonset := some pre, gaussian := some g }, .inl R.rms, some R.it⟩, ?_, ?_⟩
  · have e : ("iter" : String).toLower = "iter" := toLower_eq (by decide)
    simp only [deconvTr, RFTrace_deconvolve, callIter, Option.getD_none, Option.getD_some, e, if_true]
    simp [hR, bind, Except.bind, pure, Except.pure]
  · simp only [Option.some.injEq, h0]
    simp

/-- **C52** `run_deconvolution` with a pre-filter is not repeatable: the second identical call
filters the already filtered seismograms.  Here, for a half-space and the (causal, linear) filter
`delay2`, the first call finds a pulse and the second returns after no iteration. -/
theorem c52_not_repeatable : ∃ o, init [35] [6] [3.5] [2.7] (.float 0.06) 1 4 1 = .ok o ∧
    ∃ r1 r2 : RFTr,
      let deconv := Call.deconv (some [0.05, 1]) 0 2 none {}
      (call delay2 (after delay2 o [.runFwd]) deconv).2 = .rfs [r1] ∧
      (call delay2 (after delay2 o [.runFwd, deconv]) deconv).2 = .rfs [r2] ∧
      r1.iter ≠ some 0 ∧ r2.iter = some 0 := by
  refine ⟨_, rfl, ?_⟩
  obtain ⟨x0, x1, x2, x3, y0, y1, y2, y3, hf, hx⟩ := hs_fwd
  obtain ⟨r1, e1, h1⟩ := deconvTr_four (u := [0, 0, x0, x1]) (w := [0, 0, y0, y1]) rfl rfl 0 2
  obtain ⟨r2, e2, h2⟩ := deconvTr_four (u := [0, 0, 0, 0]) (w := [0, 0, 0, 0]) rfl rfl 0 2
  refine ⟨r1, r2, ?_⟩
  have ht : thicknesses [35] = [35] := by simp [thicknesses, List.range_succ]
  simp only [call, after, List.foldl, run_fwd, fwdLoop, ht, hf, List.nil_append, run_deconvolution,
    preFilter, splat, Synrf.filter, filterStream, filterTr, delay2, Except.map, List.take,
    List.length_cons, List.length_nil, deconvLoop, List.range_succ, List.range_zero]
  refine ⟨?_, ?_, ?_, ?_⟩
  · simp [item, e1, bind, Except.bind, pure, Except.pure]
  · simp [item, e2, bind, Except.bind, pure, Except.pure]
  · rw [Ne, h1]; simp [hx]
  · rw [h2]; simp

end Rfsed.Props
