import Verif.Proofs.Window
import Verif.Props.HkZhu2

/-!
# Property C94: only the samples between the P wave and the latest multiple matter
-/

namespace Rfsed.Props
open Spec PyFloat HkZhu

/-- `tr'` is the same receiver function as `tr`, possibly cut differently: same slowness, an onset, and the same
samples from half a sample before P to half a sample after `T`. -/
def SameRF (dt pre pre' T : ℝ) (tr tr' : Trace ℝ) : Prop :=
  tr'.slowness = tr.slowness ∧ tr.onset.isSome ∧ tr'.onset.isSome ∧ SameWindow dt pre pre' T tr.data tr'.data

/-- **C94** `hk`: two versions of a stream that agree (sample by sample, relative to P) from half a sample before
the P wave to half a sample after the largest possible delay time `2 H K / Vp` of the grid, give the same table
and best model, whatever they contain outside this window, and whatever their lengths and pre-onset times. -/
theorem c94_hk {env env' : Env ℝ} {tr0 tr0' : Trace ℝ} {rest rest' : List (Trace ℝ)} {pre pre' T : ℝ} {H K : List ℝ}
    {Vp : Scalar ℝ} {w1 w2 w3 : Option ℝ} {layer layer' : Option String} {stack : Option Bool} {r : HKResult ℝ}
    {sd : List ℝ} {more : List (List ℝ)} (hs : stack ≠ some true)
    (h : hk env (tr0 :: rest) pre H K (some Vp) w1 w2 w3 layer stack = .ok r)
    (hkm : env'.km2deg1 = env.km2deg1) (hdt : 0 < tr0.delta) (hdelta : tr0'.delta = tr0.delta)
    (hal : Aligned tr0.delta pre pre')
    (hc : CoversTo tr0.delta pre T tr0.data.length) (hc' : CoversTo tr0.delta pre' T tr0'.data.length)
    (hsame : List.Forall₂ (SameRF tr0.delta pre pre' T) (tr0 :: rest) (tr0' :: rest'))
    (hVp : 0 < Vp.val) (hH : ∀ x ∈ H, 0 ≤ x) (hK : ∀ k ∈ K, 1 ≤ k)
    (hT : ∀ k ∈ K, ∀ x ∈ H, 2 * x * k / Vp.val ≤ T)
    (hpre : ∀ tr ∈ tr0 :: rest, ∀ sl, tr.slowness = some sl → (env.km2deg1 * sl.val) ^ 2 ≤ (1 / Vp.val) ^ 2)
    (hstack : env'.stack (tr0' :: rest') = .ok (sd :: more)) (hdraw : env'.draw r.stackvalues = .ok ()) :
    ∃ r', hk env' (tr0' :: rest') pre' H K (some Vp) w1 w2 w3 layer' stack = .ok r' ∧
      r'.stackvalues = r.stackvalues ∧ r'.bestIdx = r.bestIdx ∧ r'.bestmodel = r.bestmodel := by
  obtain ⟨t0, rs, slows, f⟩ := hk_inv h
  have he := f.hst
  simp only [List.cons.injEq] at he
  obtain ⟨rfl, rfl⟩ := he
  have hsf : stack.getD false = false := by
    cases stack with
    | none => rfl
    | some b => cases b with
      | false => rfl
      | true => exact absurd rfl hs
  have hslow : (tr0' :: rest').mapM Trace.getSlowness = .ok slows := by
    have := f.hslow
    generalize tr0 :: rest = st at this hsame
    generalize tr0' :: rest' = st' at hsame ⊢
    rw [mapM_ok_iff] at this ⊢
    clear f h hstack hpre
    induction hsame generalizing slows with
    | nil => exact this
    | cons h1 _ ih =>
      cases this with
      | cons q1 q2 =>
        refine .cons ?_ (ih _ q2)
        rw [getSlowness_ok] at q1 ⊢
        rw [h1.1]; exact q1
  have hg := f.hgrid
  rw [f.hVp, f.hstk, f.htime, hsf] at hg
  have hg' : gridLoop K H (cell env' (tr0' :: rest') (timeAxis tr0'.delta pre' tr0'.data.length) sd
      (npMean (slows.map Scalar.val)) ((some Vp).getD ⟨.py, dec 65 1⟩) (w1.getD (dec 6 1)) (w2.getD (dec 3 1))
      (w3.getD (dec 1 1)) (stack.getD false)) = .ok r.stackvalues := by
    rw [← List.map_id r.stackvalues]
    refine gridLoop_map (g := id) hg ?_
    intro k hk x hx s hv
    obtain ⟨xs, hxs, rfl⟩ := cell_real_ok.1 hv
    refine cell_real_ok.2 ⟨xs, ?_, rfl⟩
    rw [hsf, hdelta]
    clear hv hg f h hslow hstack
    generalize hgl : tr0.data.length = l at hxs hc
    generalize hgl' : tr0'.data.length = l' at hc' ⊢
    generalize tr0.delta = dt at *
    generalize tr0 :: rest = st at hxs hsame hpre
    generalize tr0' :: rest' = st' at hsame ⊢
    rw [mapM_ok_iff] at hxs ⊢
    induction hsame generalizing xs with
    | nil => cases hxs; exact .nil
    | @cons tr tr' st st' h1 _ ih =>
      cases hxs with
      | cons q1 q2 =>
        refine .cons ?_ (ih _ q2 (fun tr htr => hpre tr (List.mem_cons_of_mem _ htr)))
        obtain ⟨o, sl, ho, hsl, _⟩ := traceTerm_ok_header q1
        obtain ⟨e1, e2, e3, e4⟩ := h1
        obtain ⟨o', ho'⟩ := Option.isSome_iff_exists.1 e3
        have hp := hpre tr (by simp) sl hsl
        have := (traceTerm_real_ok (stack := false) hVp.ne' ho hsl (by simpa [rpOf] using hp)).1 q1
        refine (traceTerm_real_ok (stack := false) hVp.ne' ho' (e1.trans hsl) (by
          simpa [rpOf, hkm] using hp)).2 ?_
        simp only [rpOf, hkm, Bool.false_eq_true, if_false] at this ⊢
        exact stackValue_window hdt hc hc' hal e4 hVp (hH x hx) (hK k hk) (hT k hk x hx) this
  exact ⟨_, hk_of_facts hstack hslow hg' f.hbest hdraw, rfl, rfl, rfl⟩

/-- **C94** `hkSynth`. -/
theorem c94_hkSynth {env env' : Env ℝ} {d d' : List ℝ} {dt pre pre' T : ℝ} {l l' : Nat} {rp Vp : Scalar ℝ}
    {H K : List ℝ} {w1 w2 w3 : Option ℝ} {layer layer' : Option String} {r : SynthAnalysis.SynthResult ℝ}
    (h : SynthAnalysis.hkSynth env d (timeAxis dt pre l) rp H K (some Vp) w1 w2 w3 layer = .ok r)
    (hdt : 0 < dt) (hal : Aligned dt pre pre') (hc : CoversTo dt pre T l) (hc' : CoversTo dt pre' T l')
    (hsame : SameWindow dt pre pre' T d d')
    (hVp : 0 < Vp.val) (hH : ∀ x ∈ H, 0 ≤ x) (hK : ∀ k ∈ K, 1 ≤ k)
    (hT : ∀ k ∈ K, ∀ x ∈ H, 2 * x * k / Vp.val ≤ T) (hpre : rp.val ^ 2 ≤ (1 / Vp.val) ^ 2)
    (hdraw : env'.draw r.stackvalues = .ok ()) :
    ∃ r', SynthAnalysis.hkSynth env' d' (timeAxis dt pre' l') rp H K (some Vp) w1 w2 w3 layer' = .ok r' ∧
      r'.stackvalues = r.stackvalues ∧ r'.bestIdx = r.bestIdx ∧ r'.bestmodel = r.bestmodel := by
  have f := hkSynth_inv h
  have hg' : gridLoop K H (SynthAnalysis.cell d' (timeAxis dt pre' l') rp ((some Vp).getD ⟨.py, dec 65 1⟩)
      (w1.getD (dec 6 1)) (w2.getD (dec 3 1)) (w3.getD (dec 1 1))) = .ok r.stackvalues := by
    rw [← List.map_id r.stackvalues]
    refine gridLoop_map (g := id) f.hgrid ?_
    intro k hk x hx s hv
    rw [synthCell_eq] at hv ⊢
    rw [Option.getD_some, bestTimes_real hVp.ne' hpre, except_ok_bind] at hv ⊢
    obtain ⟨v, hw, hv⟩ := bind_eq_ok.1 hv
    cases hv
    have := stackValue_window hdt hc hc' hal hsame hVp (hH x hx) (hK k hk) (hT k hk x hx) (weigh_real.1 hw)
    exact bind_eq_ok.2 ⟨v, weigh_real.2 this, rfl⟩
  exact ⟨_, hkSynth_of hg' f.hbest hdraw, rfl, rfl, rfl⟩

/-- **C94** cutting or padding: prepending `n` samples and appending any samples, with the pre-onset time
increased by `n` sampling intervals, leaves the window unchanged. -/
theorem c94_padding (dt pre T : ℝ) (front d back : List ℝ) (hdt : 0 < dt)
    (hT : T + dt / 2 + pre < dt * d.length) :
    SameWindow dt pre (pre + dt * front.length) T d (front ++ d ++ back) ∧
      Aligned dt pre (pre + dt * front.length) := by
  refine ⟨?_, front.length, by push_cast; rfl⟩
  intro i j e h1 h2
  have e' : (j : ℝ) = i + front.length := by
    have : dt * ((j : ℝ) - (i + front.length)) = 0 := by linarith
    rcases mul_eq_zero.1 this with h | h
    · exact absurd h hdt.ne'
    · linarith
  have hj : j = i + front.length := by exact_mod_cast e'
  have hi : i < d.length := by
    by_contra hc
    have : (d.length : ℝ) ≤ i := by exact_mod_cast Nat.le_of_not_lt hc
    nlinarith
  subst hj
  rw [List.append_assoc, List.getElem?_append_right (by omega), Nat.add_sub_cancel,
    List.getElem?_append_left hi]

/-- the ideal receiver function with two samples of noise before it, one after it, and a pre-onset time of two
seconds instead of none -/
noncomputable def longTrace : Trace ℝ :=
  { idealTrace with data := [7, -7] ++ idealTrace.data ++ [9] }

/-- all hypotheses of `c94_hk` are met: same best model with and without the noise -/
example : ∃ r r', hk Sample.env [idealTrace] 0 [1, 0.5] [2, 1.5] (some ⟨.py, 1⟩) none none none none none = .ok r ∧
    hk Sample.env [longTrace] 2 [1, 0.5] [2, 1.5] (some ⟨.py, 1⟩) none none none none none = .ok r' ∧
    r'.bestmodel = r.bestmodel := by
  obtain ⟨r, hr⟩ : ∃ r, hk Sample.env [idealTrace] 0 [1, 0.5] [2, 1.5] (some ⟨.py, 1⟩) none none none none none
      = .ok r := by
    refine c03_succeeds (sd := _) (more := []) rfl ?_ ?_ ?_ ?_ ?_ (by simp) (by simp) (by simp) ?_
    · intro h; cases h
    · simp [idealTrace, Sample.trace]
    · intro tr htr
      simp at htr
      subst htr; simp [idealTrace, Sample.trace]
    · intro tr htr; simp at htr
    · intro v hv; cases hv; right; rw [← Bool.not_eq_true, real_eq]; norm_num
    · intro _ _; rfl
  have hd : idealTrace.delta = 1 := rfl
  have hl : idealTrace.data.length = 5 := rfl
  have hl' : longTrace.data.length = 8 := rfl
  obtain ⟨h1, h2⟩ := c94_padding 1 0 4 [7, -7] idealTrace.data [9] (by norm_num) (by rw [hl]; norm_num)
  norm_num at h1 h2
  obtain ⟨r', h', _, _, e⟩ := c94_hk (env' := Sample.env) (tr0' := longTrace) (rest' := []) (pre' := 2) (T := 4)
    (layer' := none) (sd := _) (more := []) (by simp) hr rfl (by rw [hd]; norm_num) rfl (by rw [hd]; exact h2)
    (by rw [hd, hl]; norm_num [CoversTo]) (by rw [hd, hl']; norm_num [CoversTo])
    (.cons ⟨rfl, rfl, rfl, by rw [hd]; simpa [longTrace] using h1⟩ .nil) (by norm_num)
    (by intro x hx; simp at hx; rcases hx with rfl | rfl <;> norm_num)
    (by intro x hx; simp at hx; rcases hx with rfl | rfl <;> norm_num)
    (by
      intro k hk x hx
      simp at hk hx
      rcases hk with rfl | rfl <;> rcases hx with rfl | rfl <;> norm_num)
    (by
      intro tr htr sl hsl
      simp at htr; subst htr
      simp [idealTrace, Sample.trace] at hsl
      subst hsl; norm_num)
    rfl rfl
  exact ⟨r, r', hr, h', e⟩

end Rfsed.Props
