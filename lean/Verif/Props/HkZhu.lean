import Verif.Proofs.HkZhu
import Verif.Spec.Sample
import Mathlib.Tactic.NormNum
import Mathlib.Algebra.Order.BigOperators.Group.List
import Mathlib.Algebra.BigOperators.Ring.List

/-!
# Properties C03–C07, C10–C12, C15: `hk` (Zhu & Kanamori stacking)
-/

namespace Rfsed.Props
open PyFloat Spec HkZhu

section generic
variable {F : Type} [PyFloat F] [IEEEOrder F]

omit [IEEEOrder F] in
/-- **C03**, shape.  The table of a successful call has `len(K)·len(H)` rows; the row
with number `i·len(H)+j` carries `H[j]` and `K[i]`; and there are no other rows.
The time axis is `delta·i - preonset` with the first trace's `delta` and length. -/
theorem c03_table_shape {env : Env F} {st : List (Trace F)} {preonset : F} {H K : List F}
    {Vp : Option (Scalar F)} {w1 w2 w3 : Option F} {layer : Option String} {stack : Option Bool}
    {r : HKResult F} (h : hk env st preonset H K Vp w1 w2 w3 layer stack = .ok r) :
    r.stackvalues.length = K.length * H.length ∧
    (∀ (i j : Nat) (k x : F), K[i]? = some k → H[j]? = some x →
      ∃ s, r.stackvalues[i * H.length + j]? = some ⟨x, k, s⟩) ∧
    (∀ (n : Nat) (row : Row F), r.stackvalues[n]? = some row →
      ∃ i j : Nat, j < H.length ∧ n = i * H.length + j ∧ K[i]? = some row.k ∧
        H[j]? = some row.h) ∧
    (∃ tr0 rest, st = tr0 :: rest ∧
      r.time = (List.range tr0.data.length).map (fun i => tr0.delta * ofNat i - preonset)) := by
  obtain ⟨tr0, rest, slows, f⟩ := hk_inv h
  obtain ⟨h1, h2, h3⟩ := gridLoop_ok f.hgrid
  refine ⟨h1, ?_, ?_, tr0, rest, f.hst, f.htime⟩
  · intro i j k x hk hx
    obtain ⟨s, _, hs⟩ := h2 i j k x hk hx
    exact ⟨s, hs⟩
  · intro n row hrow
    obtain ⟨i, j, hn, hk, hx, _⟩ := h3 n row hrow
    have hj : j < H.length := by
      by_contra hc
      rw [List.getElem?_eq_none (by omega)] at hx; cases hx
    exact ⟨i, j, hj, hn, hk, hx⟩

/-- **C03**, success.  Whatever the numbers in the arrays are (NaN and post-critical
ray parameters included), the call succeeds under the listed conditions. -/
theorem c03_succeeds {env : Env F} {tr0 : Trace F} {rest : List (Trace F)} {preonset : F}
    {H K : List F} {Vp : Option (Scalar F)} {w1 w2 w3 : Option F} {layer : Option String}
    {stack : Option Bool} {sd : List F} {more : List (List F)}
    (hstack : env.stack (tr0 :: rest) = .ok (sd :: more))
    (hsd : stack = some true → tr0.data.length ≤ sd.length)
    (hdata : tr0.data ≠ [])
    (hhead : ∀ tr ∈ tr0 :: rest, tr.onset.isSome ∧ tr.slowness.isSome)
    (hlen : ∀ tr ∈ rest, tr0.data.length ≤ tr.data.length)
    (hVp : ∀ v, Vp = some v → v.kind = .np ∨ PyFloat.eq v.val zero = false)
    (h65 : Vp = none → PyFloat.eq (dec 65 1 : F) zero = false)
    (hK : K ≠ []) (hH : H ≠ [])
    (hdraw : ∀ tb : List (Row F), tb.length = K.length * H.length → env.draw tb = .ok ()) :
    ∃ r, hk env (tr0 :: rest) preonset H K Vp w1 w2 w3 layer stack = .ok r := by
  obtain ⟨slows, hslows⟩ := mapM_ok_of_forall (f := Trace.getSlowness) (xs := tr0 :: rest) (by
    intro tr htr
    obtain ⟨s, hs⟩ := Option.isSome_iff_exists.1 (hhead tr htr).2
    exact ⟨s, getSlowness_ok.2 hs⟩)
  have hVpOk : VpOk (Vp.getD ⟨.py, dec 65 1⟩) := by
    unfold VpOk oneOver
    cases Vp with
    | none => simp [h65 rfl]
    | some v =>
      simp only [Option.getD_some]
      rcases hVp v rfl with h | h
      · rw [h]; exact ⟨_, rfl⟩
      · cases v.kind <;> simp [h]
  obtain ⟨tb, htb⟩ := gridLoop_total (K := K) (H := H)
    (value := cell env (tr0 :: rest) (timeAxis tr0.delta preonset tr0.data.length) sd
      (npMean (slows.map Scalar.val)) (Vp.getD ⟨.py, dec 65 1⟩) (w1.getD (dec 6 1))
      (w2.getD (dec 3 1)) (w3.getD (dec 1 1)) (stack.getD false)) (by
    intro k _ x _
    rw [cell_eq]
    obtain ⟨xs, hxs⟩ := mapM_ok_of_forall (xs := tr0 :: rest)
      (f := traceTerm env (timeAxis tr0.delta preonset tr0.data.length) sd
        (npMean (slows.map Scalar.val)) (Vp.getD ⟨.py, dec 65 1⟩) (w1.getD (dec 6 1))
        (w2.getD (dec 3 1)) (w3.getD (dec 1 1)) (stack.getD false) k x) (by
      intro tr htr
      apply traceTerm_total hVpOk
      · rw [← List.length_pos_iff, timeAxis_length]; exact List.length_pos_iff.2 hdata
      · exact (hhead tr htr).1
      · exact (hhead tr htr).2
      · rw [timeAxis_length]
        split
        · rename_i hs
          apply hsd
          cases stack with
          | none => simp at hs
          | some b => simpa using hs
        · rcases List.mem_cons.1 htr with rfl | htr
          · exact le_refl _
          · exact hlen tr htr)
    rw [hxs]; exact ⟨_, rfl⟩)
  have hlen := (gridLoop_ok htb).1
  obtain ⟨best, hbest⟩ := argmax_ok (xs := tb.map Row.s) (by
    rw [← List.length_pos_iff, List.length_map, hlen]
    exact Nat.mul_pos (List.length_pos_iff.2 hK) (List.length_pos_iff.2 hH))
  exact ⟨_, hk_of_facts hstack hslows htb hbest (hdraw tb hlen)⟩

omit [IEEEOrder F] in
/-- **C03**, an empty grid raises `ValueError` (from `argmax`), once the stream is
readable. -/
theorem c03_empty_grid {env : Env F} {tr0 : Trace F} {rest : List (Trace F)} {preonset : F}
    {H K : List F} {Vp : Option (Scalar F)} {w1 w2 w3 : Option F} {layer : Option String}
    {stack : Option Bool} {sd : List F} {more : List (List F)}
    (hstack : env.stack (tr0 :: rest) = .ok (sd :: more))
    (hhead : ∀ tr ∈ tr0 :: rest, tr.slowness.isSome) (hempty : K = [] ∨ H = []) :
    hk env (tr0 :: rest) preonset H K Vp w1 w2 w3 layer stack = .error .valueError := by
  obtain ⟨slows, hslows⟩ := mapM_ok_of_forall (f := Trace.getSlowness) (xs := tr0 :: rest) (by
    intro tr htr
    obtain ⟨s, hs⟩ := Option.isSome_iff_exists.1 (hhead tr htr)
    exact ⟨s, getSlowness_ok.2 hs⟩)
  have hg : ∀ v : F → F → Except PyErr F, gridLoop K H v = .ok [] := by
    intro v
    have hp : gridPoints K H = [] := by
      rcases hempty with rfl | rfl <;> simp [gridPoints]
    rw [gridLoop_eq, hp, List.mapM_nil]; rfl
  unfold hk
  rw [hstack, except_ok_bind]
  have h1 : item (sd :: more) 0 = .ok sd := rfl
  have h2 : item (tr0 :: rest) 0 = .ok tr0 := rfl
  rw [h1, except_ok_bind, hslows, except_ok_bind, h2, except_ok_bind]
  simp only [hg, except_ok_bind]
  rfl

omit [IEEEOrder F] in
/-- **C03**, an empty stream raises `IndexError` (already when indexing the empty
stack). -/
theorem c03_empty_stream {env : Env F} {preonset : F} {H K : List F} {Vp : Option (Scalar F)}
    {w1 w2 w3 : Option F} {layer : Option String} {stack : Option Bool} {l : List (List F)}
    (hstack : env.stack [] = .ok l) :
    hk env [] preonset H K Vp w1 w2 w3 layer stack = .error .indexError := by
  unfold hk
  rw [hstack, except_ok_bind]
  cases l with
  | nil => rfl
  | cons a l => rfl

/-- **C05**: `bestmodel` is the first global maximum of the stack column, and its
coordinates come from the user's arrays. -/
theorem c05_bestmodel_first_max {env : Env F} {st : List (Trace F)} {preonset : F}
    {H K : List F} {Vp : Option (Scalar F)} {w1 w2 w3 : Option F} {layer : Option String}
    {stack : Option Bool} {r : HKResult F}
    (h : hk env st preonset H K Vp w1 w2 w3 layer stack = .ok r)
    (hnum : ∀ row ∈ r.stackvalues, isNaN row.s = false) :
    ∃ best, r.bestmodel = some best ∧ r.stackvalues[r.bestIdx]? = some best ∧
      best.h ∈ H ∧ best.k ∈ K ∧
      (∀ (n : Nat) (row : Row F), r.stackvalues[n]? = some row → le row.s best.s = true) ∧
      (∀ (n : Nat) (row : Row F), n < r.bestIdx → r.stackvalues[n]? = some row →
        lt row.s best.s = true) := by
  obtain ⟨tr0, rest, slows, f⟩ := hk_inv h
  have hm := argmax_firstMax (by
    intro s hs
    obtain ⟨row, hrow, rfl⟩ := List.mem_map.1 hs
    exact hnum row hrow) f.hbest
  obtain ⟨s, hs, h1, h2⟩ := hm
  rw [List.getElem?_map, Option.map_eq_some_iff] at hs
  obtain ⟨best, hb, rfl⟩ := hs
  obtain ⟨i, j, _, hk, hx, _⟩ := (gridLoop_ok f.hgrid).2.2 _ _ hb
  refine ⟨best, hb, hb, List.mem_of_getElem? hx, List.mem_of_getElem? hk, ?_, ?_⟩
  · intro n row hrow
    exact h1 n row.s (by rw [List.getElem?_map, hrow]; rfl)
  · intro n row hn hrow
    exact h2 n row.s hn (by rw [List.getElem?_map, hrow]; rfl)

/-- **C05**, NaN case: if some stack value is NaN, the first NaN row is returned. -/
theorem c05_bestmodel_nan {env : Env F} {st : List (Trace F)} {preonset : F}
    {H K : List F} {Vp : Option (Scalar F)} {w1 w2 w3 : Option F} {layer : Option String}
    {stack : Option Bool} {r : HKResult F}
    (h : hk env st preonset H K Vp w1 w2 w3 layer stack = .ok r)
    (hnan : ∃ row ∈ r.stackvalues, isNaN row.s = true) :
    ∃ best, r.bestmodel = some best ∧ isNaN best.s = true ∧
      ∀ (n : Nat) (row : Row F), n < r.bestIdx → r.stackvalues[n]? = some row →
        isNaN row.s = false := by
  obtain ⟨tr0, rest, slows, f⟩ := hk_inv h
  obtain ⟨_, hm | hm⟩ := argmax_spec f.hbest
  · obtain ⟨row, hrow, hr⟩ := hnan
    have := hm.1 row.s (List.mem_map_of_mem hrow)
    rw [hr] at this; cases this
  · obtain ⟨s, hs, h1, h2⟩ := hm
    rw [List.getElem?_map, Option.map_eq_some_iff] at hs
    obtain ⟨best, hb, rfl⟩ := hs
    refine ⟨best, hb, h1, ?_⟩
    intro n row hn hrow
    exact h2 n row.s hn (by rw [List.getElem?_map, hrow]; rfl)

omit [IEEEOrder F] in
/-- **C12** for `hk`: every `None` means its documented default, in any combination. -/
theorem c12_hk_defaults (env : Env F) (st : List (Trace F)) (preonset : F) (H K : List F)
    (Vp : Option (Scalar F)) (w1 w2 w3 : Option F) (layer : Option String)
    (stack : Option Bool) :
    hk env st preonset H K Vp w1 w2 w3 layer stack
      = hk env st preonset H K
          (some (match Vp with | some v => v | none => ⟨.py, dec 65 1⟩))
          (some (match w1 with | some w => w | none => dec 6 1))
          (some (match w2 with | some w => w | none => dec 3 1))
          (some (match w3 with | some w => w | none => dec 1 1))
          (some (match layer with | some l => l | none => "Moho"))
          (some (match stack with | some b => b | none => false)) := by
  cases Vp <;> cases w1 <;> cases w2 <;> cases w3 <;> cases layer <;> cases stack <;> rfl

omit [IEEEOrder F] in
/-- **C12** for `hkSynth`. -/
theorem c12_hkSynth_defaults (env : Env F) (rf time : List F) (rayp : Scalar F) (H K : List F)
    (Vp : Option (Scalar F)) (w1 w2 w3 : Option F) (layer : Option String) :
    SynthAnalysis.hkSynth env rf time rayp H K Vp w1 w2 w3 layer
      = SynthAnalysis.hkSynth env rf time rayp H K
          (some (match Vp with | some v => v | none => ⟨.py, dec 65 1⟩))
          (some (match w1 with | some w => w | none => dec 6 1))
          (some (match w2 with | some w => w | none => dec 3 1))
          (some (match w3 with | some w => w | none => dec 1 1))
          (some (match layer with | some l => l | none => "Moho")) := by
  cases Vp <;> cases w1 <;> cases w2 <;> cases w3 <;> cases layer <;> rfl

end generic

/-! ## Exact arithmetic -/

/-- the concrete sample stream meets the conditions of `c03_succeeds` -/
theorem sample_ok (w1 w2 w3 : Option ℝ) (stack : Option Bool) :
    ∃ r, hk Sample.env Sample.stream 1 [30, 35] [1.7, 1.8, 1.9]
      (some ⟨.py, 6.5⟩) w1 w2 w3 none stack = .ok r := by
  unfold Sample.stream
  refine c03_succeeds (sd := _) (more := []) rfl ?_ ?_ ?_ ?_ ?_ ?_ (by simp) (by simp) ?_
  · intro _; simp [Sample.trace]
  · simp [Sample.trace]
  · intro tr htr
    simp at htr
    rcases htr with rfl | rfl <;> simp [Sample.trace]
  · intro tr htr
    simp at htr
    subst htr; simp [Sample.trace]
  · intro v hv
    cases hv
    right
    rw [← Bool.not_eq_true, real_eq]; norm_num
  · intro h; cases h
  · intro _ _; rfl

/-- slowness of a trace (0 if missing; only used for traces that have it) -/
noncomputable def slownessOf (tr : Trace ℝ) : ℝ :=
  match tr.slowness with
  | some s => s.val
  | none => 0

theorem slownessOf_eq {tr : Trace ℝ} {sl : Scalar ℝ} (h : tr.slowness = some sl) :
    slownessOf tr = sl.val := by simp [slownessOf, h]

/-- a list of defined values is the image of a function -/
theorem exists_fun_of_mapM {st : List (Trace ℝ)} {f : Trace ℝ → Except PyErr ℝ} {xs : List ℝ}
    (h : st.mapM f = .ok xs) : ∃ g : Trace ℝ → ℝ, (∀ tr ∈ st, f tr = .ok (g tr)) ∧
      xs = st.map g := by
  refine ⟨fun tr => match f tr with | .ok v => v | .error _ => 0, ?_, ?_⟩
  · intro tr htr
    obtain ⟨y, hy⟩ := mapM_ok_mem h htr
    simp [hy]
  · have := mapM_ok_iff.1 h
    induction this with
    | nil => rfl
    | @cons a b l1 l2 h1 h2 ih =>
      rw [List.map_cons, ← ih (mapM_ok_iff.2 h2), h1]

/-- **C04**: without stacking, each stack value is the Zhu & Kanamori weighted sum over
all traces, with the amplitude of each trace at the sample nearest to each delay
time computed from that trace's own ray parameter. -/
theorem c04_stack_value {env : Env ℝ} {st : List (Trace ℝ)} {preonset : ℝ} {H K : List ℝ}
    {Vp : Scalar ℝ} {w1 w2 w3 : ℝ} {layer : Option String} {r : HKResult ℝ}
    (h : hk env st preonset H K (some Vp) (some w1) (some w2) (some w3) layer (some false) = .ok r)
    (hVp : Vp.val ≠ 0)
    (hpre : ∀ tr ∈ st, ∀ k ∈ K, PreCritical (env.km2deg1 * slownessOf tr) Vp.val k) :
    ∀ row ∈ r.stackvalues, ∃ A : Trace ℝ → ℝ → ℝ,
      (∀ tr ∈ st, ∀ t ∈ [tPs (env.km2deg1 * slownessOf tr) Vp.val row.h row.k,
            tPpPs (env.km2deg1 * slownessOf tr) Vp.val row.h row.k,
            tPsPs (env.km2deg1 * slownessOf tr) Vp.val row.h row.k],
          ReadsNearest tr.data r.time t (A tr t)) ∧
      row.s = (st.map (fun tr =>
        w1 * A tr (tPs (env.km2deg1 * slownessOf tr) Vp.val row.h row.k)
        + w2 * A tr (tPpPs (env.km2deg1 * slownessOf tr) Vp.val row.h row.k)
        - w3 * A tr (tPsPs (env.km2deg1 * slownessOf tr) Vp.val row.h row.k))).sum := by
  intro row hrow
  obtain ⟨tr0, rest, slows, f⟩ := hk_inv h
  obtain ⟨n, hn, hrow'⟩ := List.getElem_of_mem hrow
  obtain ⟨i, j, _, hk, hx, hv⟩ := (gridLoop_ok f.hgrid).2.2 n row (by simp [hn, hrow'])
  have hk' : row.k ∈ K := List.mem_of_getElem? hk
  rw [f.hstk, f.hVp] at hv
  simp only [Option.getD_some] at hv
  obtain ⟨xs, hxs, hsum⟩ := cell_real_ok.1 hv
  obtain ⟨g, hg, rfl⟩ := exists_fun_of_mapM hxs
  -- amplitude function
  classical
  let A : Trace ℝ → ℝ → ℝ := fun tr t =>
    if hA : ∃ a, ReadsNearest tr.data r.time t a then hA.choose else 0
  have hA : ∀ tr t a, ReadsNearest tr.data r.time t a → A tr t = a := by
    intro tr t a ha
    have : ∃ a, ReadsNearest tr.data r.time t a := ⟨a, ha⟩
    simp only [A, dif_pos this]
    exact ReadsNearest.unique this.choose_spec ha
  have key : ∀ tr ∈ st, ∃ a1 a2 a3,
      ReadsNearest tr.data r.time (tPs (env.km2deg1 * slownessOf tr) Vp.val row.h row.k) a1 ∧
      ReadsNearest tr.data r.time (tPpPs (env.km2deg1 * slownessOf tr) Vp.val row.h row.k) a2 ∧
      ReadsNearest tr.data r.time (tPsPs (env.km2deg1 * slownessOf tr) Vp.val row.h row.k) a3 ∧
      g tr = w1 * a1 + w2 * a2 - w3 * a3 := by
    intro tr htr
    obtain ⟨o, sl, ho, hsl, _⟩ := traceTerm_ok_header (hg tr htr)
    have hp := (hpre tr htr row.k hk').2
    rw [slownessOf_eq hsl] at hp ⊢
    have := (traceTerm_real_ok (stack := false) hVp ho hsl (by simpa [rpOf] using hp)).1 (hg tr htr)
    simpa [rpOf] using this
  refine ⟨A, ?_, ?_⟩
  · intro tr htr t ht
    obtain ⟨a1, a2, a3, h1, h2, h3, _⟩ := key tr htr
    simp only [List.mem_cons, List.not_mem_nil, or_false] at ht
    rcases ht with rfl | rfl | rfl
    · rw [hA _ _ _ h1]; exact h1
    · rw [hA _ _ _ h2]; exact h2
    · rw [hA _ _ _ h3]; exact h3
  · rw [hsum]
    congr 1
    apply List.map_congr_left
    intro tr htr
    obtain ⟨a1, a2, a3, h1, h2, h3, hg⟩ := key tr htr
    rw [hg, hA _ _ _ h1, hA _ _ _ h2, hA _ _ _ h3]

/-- hypotheses of C04 on the sample stream: pre-critical for the whole grid -/
example : ∀ tr ∈ Sample.stream, ∀ k ∈ [(1.7 : ℝ), 1.8, 1.9],
    PreCritical (Sample.env.km2deg1 * slownessOf tr) 6.5 k := by
  intro tr htr k hk
  simp [Sample.stream] at htr
  simp at hk
  rcases htr with rfl | rfl <;> rcases hk with rfl | rfl | rfl <;>
    norm_num [PreCritical, slownessOf, Sample.trace, Sample.env]

end Rfsed.Props
