import Verif.Props.ExperimentSeq
import Verif.Props.ResonanceRounded

/-!
# C140: the search on filtered receiver functions in sufficiently precise arithmetic
-/

namespace Rfsed.Props
open Rfsed HkZhu Spec Filter Topology

/-- the sample read stays the same when the time changes by less than half its clearance -/
theorem reads_near {d d' axis : List ℝ} {t t' a a' e η : ℝ} (hc : ClearlyNearest axis t (2 * e)) (h0 : 0 ≤ e)
    (ht : |t' - t| ≤ e) (hn : Near η d d') (h : ReadsNearest d axis t a) (h' : ReadsNearest d' axis t' a') :
    |a - a'| ≤ η := by
  obtain ⟨n, x, hx, hn1⟩ := hc
  obtain ⟨i, ⟨y, hy, hmin, -⟩, ha⟩ := h
  obtain ⟨j, ⟨z, hz, hmin', -⟩, ha'⟩ := h'
  have hi : i = n := by
    by_contra hne
    have h1 := hn1 i y hne hy
    have h2 := hmin n x hx
    rw [real_le, real_abs, real_abs] at h2
    linarith
  have hj : j = n := by
    by_contra hne
    have h1 := hn1 j z hne hz
    have h2 := hmin' n x hx
    rw [real_le, real_abs, real_abs] at h2
    have h3 := abs_sub_abs_le_abs_sub (z - t) (z - t')
    have h4 := abs_sub_abs_le_abs_sub (x - t') (x - t)
    rw [show z - t - (z - t') = t' - t by ring] at h3
    rw [show x - t' - (x - t) = -(t' - t) by ring, abs_neg] at h4
    linarith
  subst hi hj
  obtain ⟨l1, e1⟩ := List.getElem?_eq_some_iff.1 ha
  obtain ⟨l2, e2⟩ := List.getElem?_eq_some_iff.1 ha'
  have := (List.forall₂_iff_get.1 hn).2 _ l1 l2
  simpa only [List.get_eq_getElem, e1, e2] using this

theorem stack_near {w1 w2 w3 e η s s' t1 t2 t3 t1' t2' t3' : ℝ} {d d' axis : List ℝ} (h0 : 0 ≤ e)
    (hc : ClearTimes axis t1 t2 t3 (2 * e)) (h1 : |t1' - t1| ≤ e) (h2 : |t2' - t2| ≤ e) (h3 : |t3' - t3| ≤ e)
    (hn : Near η d d') (h : StackValue w1 w2 w3 d axis t1 t2 t3 s) (h' : StackValue w1 w2 w3 d' axis t1' t2' t3' s') :
    |s - s'| ≤ (|w1| + |w2| + |w3|) * η := by
  obtain ⟨a1, a2, a3, r1, r2, r3, rfl⟩ := h
  obtain ⟨b1, b2, b3, q1, q2, q3, rfl⟩ := h'
  have k1 := mul_le_mul_of_nonneg_left (reads_near hc.1 h0 h1 hn r1 q1) (abs_nonneg w1)
  have k2 := mul_le_mul_of_nonneg_left (reads_near hc.2.1 h0 h2 hn r2 q2) (abs_nonneg w2)
  have k3 := mul_le_mul_of_nonneg_left (reads_near hc.2.2 h0 h3 hn r3 q3) (abs_nonneg w3)
  rw [← abs_mul] at k1 k2 k3
  rw [show w1 * a1 + w2 * a2 - w3 * a3 - (w1 * b1 + w2 * b2 - w3 * b3) =
    w1 * (a1 - b1) + w2 * (a2 - b2) - w3 * (a3 - b3) by ring]
  refine (abs_sub _ _).trans ((add_le_add (abs_add_le _ _) le_rfl).trans ?_)
  linarith

/-- a clearance less a shift of the time -/
theorem clearly_shift {axis : List ℝ} {t t' E e : ℝ} (hc : ClearlyNearest axis t (E + 2 * e)) (ht : |t' - t| ≤ e) :
    ClearlyNearest axis t' E := by
  obtain ⟨n, x, hx, h⟩ := hc
  refine ⟨n, x, hx, fun j y hj hy => ?_⟩
  have h1 := h j y hj hy
  have h3 := abs_sub_abs_le_abs_sub (y - t) (y - t')
  have h4 := abs_sub_abs_le_abs_sub (x - t') (x - t)
  rw [show y - t - (y - t') = t' - t by ring] at h3
  rw [show x - t' - (x - t) = -(t' - t) by ring, abs_neg] at h4
  linarith

theorem clearTimes_shift {axis : List ℝ} {t1 t2 t3 t1' t2' t3' E e : ℝ} (hc : ClearTimes axis t1 t2 t3 (E + 2 * e))
    (h1 : |t1' - t1| ≤ e) (h2 : |t2' - t2| ≤ e) (h3 : |t3' - t3| ≤ e) : ClearTimes axis t1' t2' t3' E :=
  ⟨clearly_shift hc.1 h1, clearly_shift hc.2.1 h2, clearly_shift hc.2.2 h3⟩

theorem clearly_mono {axis : List ℝ} {t E E' : ℝ} (h : E ≤ E') (hc : ClearlyNearest axis t E') : ClearlyNearest axis t E := by
  obtain ⟨n, x, hx, hn⟩ := hc
  exact ⟨n, x, hx, fun j y hj hy => by linarith [hn j y hj hy]⟩

theorem clearTimes_mono {axis : List ℝ} {t1 t2 t3 E E' : ℝ} (h : E ≤ E') (hc : ClearTimes axis t1 t2 t3 E') :
    ClearTimes axis t1 t2 t3 E := ⟨clearly_mono h hc.1, clearly_mono h hc.2.1, clearly_mono h hc.2.2⟩

/-- the exact values of `hkYu` -/
theorem yu_values {env : Env ℝ} {flt : HkYu.FltInput ℝ} {p VpM VpS VsS : Scalar ℝ} {H K : List ℝ} {w1 w2 w3 : ℝ}
    {r : HkYu.YuResult ℝ}
    (h : HkYu.hkYu env flt p H K (some VpM) (some VpS) (some VsS) (some w1) (some w2) (some w3) = .ok r)
    (hvs : VsS.val ≠ 0) (hP : p.val ^ 2 < (1 / VpM.val) ^ 2) :
    r.Pdelay = sedimentDelay flt.tlag.val VpS.val VsS.val ∧ ∃ v, gridLoop K H v = .ok r.stackvaluesSubSed ∧
      ∀ k y s, v k y = .ok s → StackValue w1 w2 w3 flt.filteredrf flt.time
        (tPs p.val VpM.val y k + sedimentDelay flt.tlag.val VpS.val VsS.val)
        (tPpPs p.val VpM.val y k + flt.tlag.val - sedimentDelay flt.tlag.val VpS.val VsS.val)
        (tPsPs p.val VpM.val y k + flt.tlag.val) s := by
  obtain ⟨vs, a, b, bmod, f⟩ := hkYu_inv h
  have e' := Option.some.inj f.hvs
  subst e'
  have hd : r.Pdelay = sedimentDelay flt.tlag.val VpS.val VsS.val := by
    have hV : r.VpSed = VpS := f.hVpSed
    rw [f.hPd, scalarDiv_val f.ha, scalarDiv_val f.hb, f.hSed, hV, real_two]
    unfold sedimentDelay
    simp only
    field_simp
  refine ⟨hd, _, f.hgrid, fun k y s hs => ?_⟩
  have hVp : r.VpMoho = VpM := f.hVp
  rw [hVp, yuCell_eq, bestTimes_real (Vp := VpM) (p := p.val) (vp_ne_zero hP) hP.le, except_ok_bind] at hs
  obtain ⟨v, hv, hs⟩ := bind_eq_ok.1 hs
  have hs := Except.ok.inj hs
  rw [real_zero, add_zero] at hs
  subst hs
  rwa [yuShift_zk, weigh_real, hd] at hv

set_option maxHeartbeats 1000000 in
/-- **C140** `hkYu` in arithmetic of precision `ε`, on a filtered record and a lag within `C ε` of the exact ones. -/
theorem c140_hkYu {env : Env ℝ} {flt : HkYu.FltInput ℝ} {p VpM VpS VsS : Scalar ℝ} {H K : List ℝ} {w1 w2 w3 : ℝ}
    {r : HkYu.YuResult ℝ}
    (h : HkYu.hkYu env flt p H K (some VpM) (some VpS) (some VsS) (some w1) (some w2) (some w3) = .ok r)
    (hlen : flt.time.length ≤ flt.filteredrf.length) (hvs : VsS.val ≠ 0) (hvp : VpS.val ≠ 0)
    (hS : ∀ k ∈ K, p.val ^ 2 < (k / VpM.val) ^ 2) (hP : p.val ^ 2 < (1 / VpM.val) ^ 2)
    (hclear : ∀ k ∈ K, ∀ y ∈ H, ClearTimes flt.time
      (tPs p.val VpM.val y k + sedimentDelay flt.tlag.val VpS.val VsS.val)
      (tPpPs p.val VpM.val y k + flt.tlag.val - sedimentDelay flt.tlag.val VpS.val VsS.val)
      (tPsPs p.val VpM.val y k + flt.tlag.val) 0)
    (hbest : Margin 0 r.stackvaluesSubSed r.bestIdx) {C : ℝ} (hC : 0 ≤ C) :
    ∃ C' > 0, ∃ δ > 0, ∀ ε, 0 < ε → ε ≤ δ → ∀ R : Rounding, R.u ≤ ε →
      ∀ (env' : Env (FL R)) (flt' : HkYu.FltInput (FL R)) (H' K' : List (FL R)) (p' VpM' VpS' VsS' : Scalar (FL R))
        (v1 v2 v3 : FL R),
        SamplesWithin (C * ε) flt.filteredrf (flt'.filteredrf.map FL.val) → flt'.time.map FL.val = flt.time →
        |flt'.tlag.val.val - flt.tlag.val| ≤ C * ε → H'.map FL.val = H → K'.map FL.val = K →
        p'.val.val = p.val → VpM'.val.val = VpM.val → VpS'.val.val = VpS.val → VsS'.val.val = VsS.val →
        v1.val = w1 → v2.val = w2 → v3.val = w3 →
        (∀ tb, tb ≠ [] → env'.draw tb = .ok ()) →
        ∃ r', HkYu.hkYu env' flt' p' H' K' (some VpM') (some VpS') (some VsS') (some v1) (some v2) (some v3) = .ok r' ∧
          |r'.Pdelay.val - r.Pdelay| ≤ C' * ε ∧
          NearTable (C' * ε) r.stackvaluesSubSed (r'.stackvaluesSubSed.map exactRow) ∧ r'.bestIdx = r.bestIdx := by
  obtain ⟨vs0, a0, b0, bmod, f⟩ := hkYu_inv h
  obtain ⟨hpd, cell, hgrid, hcell⟩ := yu_values h hvs hP
  obtain ⟨hK, hH, k0, x0, s0, hs0⟩ := grid_ne hgrid f.hbest
  have ht : flt.time ≠ [] := by
    obtain ⟨a1, a2, a3, ⟨i, ⟨x, hx, -⟩, -⟩, -⟩ := hcell _ _ _ hs0
    intro e
    rw [e] at hx
    simp at hx
  have hV := vp_ne_zero hP
  obtain ⟨A, hA0, hA⟩ := samples_bounded flt.filteredrf
  obtain ⟨L, hL0, hL⟩ := samples_bounded flt.time
  set q := VsS.val / VpS.val with hq
  set T := flt.tlag.val with hT
  set W := |w1| + |w2| + |w3| with hW
  have hW0 : 0 ≤ W := by positivity
  -- all times move by at most `e₀ ε`
  set Q := 1 + |q| with hQ
  have hQ1 : 1 ≤ Q := by have := abs_nonneg q; linarith
  set e₀ := (1 + Q) * C with he₀
  have he₀0 : 0 ≤ e₀ := by positivity
  set D := (|T| + C) / 2 * Q with hD
  have hD0 : 0 ≤ D := by positivity
  set C' := W * C + 15 * (W * (A + C)) + (4.1 * D + Q * C) + 1 with hC'
  have hC'0 : 0 < C' := by positivity
  have ev : ∀ᶠ u in 𝓝 (0 : ℝ), (u < 1 / 1000 ∧ Margin (2 * C' * u) r.stackvaluesSubSed r.bestIdx) ∧
      (∀ k ∈ K, WellConditioned u p.val VpM.val k) ∧
      ∀ k ∈ K, ∀ y ∈ H, ClearTimes flt.time (tPs p.val VpM.val y k + sedimentDelay T VpS.val VsS.val)
        (tPpPs p.val VpM.val y k + T - sedimentDelay T VpS.val VsS.val) (tPsPs p.val VpM.val y k + T)
        ((60 * (L + (timeScale p.val VpM.val y k + D)) + 2 * e₀) * u) := by
    filter_upwards [Iio_mem_nhds (show (0 : ℝ) < 1 / 1000 by norm_num), margin_eventually hbest (2 * C'),
      forall_mem_eventually (fun k hk => well_eventually (hS k hk) hP),
      forall_mem_eventually (fun k hk => forall_mem_eventually (fun y hy => clearTimes_eventually (hclear k hk y hy)
        (60 * (L + (timeScale p.val VpM.val y k + D)) + 2 * e₀)))] with u a b c d
    exact ⟨⟨a, b⟩, c, d⟩
  obtain ⟨δ, hδ, hev⟩ := exists_radius ev
  refine ⟨C', hC'0, δ, hδ, ?_⟩
  intro ε hε hεδ R hR env' flt' H' K' p' VpM' VpS' VsS' v1 v2 v3 hd htime htl rfl rfl hp hVM hVS hVs rfl rfl rfl hdraw
  obtain ⟨⟨hu3, -⟩, hwell, -⟩ := hev R.u R.u_nonneg (hR.trans hεδ)
  obtain ⟨⟨hε3, hmar⟩, -, hcl⟩ := hev ε hε.le hεδ
  have hdl : flt.filteredrf.length = flt'.filteredrf.length := by simpa using hd.length_eq
  have htll : flt'.time.length = flt.time.length := by rw [← htime, List.length_map]
  have htf : flt'.time ≠ [] := by
    intro e
    rw [e] at htime
    exact ht htime.symm
  obtain ⟨r', hr'⟩ := c25_hkYu_succeeds (env := env') (rp := p') (flt := flt') (H := H') (K := K') (VpMoho := VpM')
    (VpSed := VpS') (VsSed := VsS') (w1 := v1) (w2 := v2) (w3 := v3) htf (by omega)
    (divisor_fl (by rw [hVM]; exact hV)) (divisor_fl (by rw [hVs]; exact hvs)) (divisor_fl (by rw [hVS]; exact hvp))
    (by simpa using hK) (by simpa using hH) (fun tb htb => hdraw tb (by
      rw [← List.length_pos_iff, htb]
      exact Nat.mul_pos (List.length_pos_iff.2 (by simpa using hK)) (List.length_pos_iff.2 (by simpa using hH))))
  obtain ⟨r1, hr1⟩ := c25_hkYu_succeeds (env := { env with draw := fun _ => .ok () }) (rp := p) (flt := exactFlt flt')
    (H := H'.map FL.val) (K := K'.map FL.val) (VpMoho := VpM) (VpSed := VpS) (VsSed := VsS) (w1 := v1.val) (w2 := v2.val)
    (w3 := v3.val) (by simpa [exactFlt] using htf) (by simp [exactFlt]; omega)
    (divisor_real (k := VpM.kind) hV) (divisor_real (k := VsS.kind) hvs) (divisor_real (k := VpS.kind) hvp)
    hK hH (fun _ _ => rfl)
  set T' := flt'.tlag.val.val with hT'
  have hsd : ∀ t : ℝ, sedimentDelay t VpS.val VsS.val = t / 2 * (1 - q) := fun t => rfl
  have hsd' : |sedimentDelay T' VpS.val VsS.val - sedimentDelay T VpS.val VsS.val| ≤ Q * (C * ε) := by
    rw [hsd, hsd, show T' / 2 * (1 - q) - T / 2 * (1 - q) = (T' - T) / 2 * (1 - q) by ring, abs_mul, abs_div,
      abs_of_pos (two_pos : (0 : ℝ) < 2)]
    have h1 : |1 - q| ≤ Q := by
      have := abs_sub (1 : ℝ) q
      rw [abs_one] at this
      exact this
    have h2 : |T' - T| / 2 ≤ C * ε := by
      have := abs_nonneg (T' - T)
      linarith
    calc |T' - T| / 2 * |1 - q| ≤ (C * ε) * Q := mul_le_mul h2 h1 (abs_nonneg _) (by positivity)
      _ = Q * (C * ε) := mul_comm _ _
  have hCe : 0 ≤ C * ε := by positivity
  have heε : e₀ * ε = (1 + Q) * (C * ε) := by rw [he₀]; ring
  have s1 : ∀ c : ℝ, |c + sedimentDelay T' VpS.val VsS.val - (c + sedimentDelay T VpS.val VsS.val)| ≤ e₀ * ε := by
    intro c
    rw [add_sub_add_left_eq_sub, heε]
    nlinarith
  have s2 : ∀ c : ℝ, |c + T' - sedimentDelay T' VpS.val VsS.val - (c + T - sedimentDelay T VpS.val VsS.val)| ≤ e₀ * ε := by
    intro c
    rw [show c + T' - sedimentDelay T' VpS.val VsS.val - (c + T - sedimentDelay T VpS.val VsS.val) =
      (T' - T) - (sedimentDelay T' VpS.val VsS.val - sedimentDelay T VpS.val VsS.val) by ring, heε]
    refine (abs_sub _ _).trans ?_
    linarith
  have s3 : ∀ c : ℝ, |c + T' - (c + T)| ≤ e₀ * ε := by
    intro c
    rw [add_sub_add_left_eq_sub, heε]
    nlinarith
  have hsc : ∀ k y : ℝ, 0 ≤ 60 * (L + (timeScale p.val VpM.val y k + D)) := fun k y => by
    have := timeScale_nonneg p.val VpM.val y k
    positivity
  obtain ⟨hpd1, cell1, hgrid1, hcell1⟩ := yu_values hr1 hvs hP
  have n1 : NearTable (W * (C * ε)) r.stackvaluesSubSed r1.stackvaluesSubSed := by
    refine nearTable_of hgrid hgrid1 ?_
    intro k hk y hy s s' hs hs'
    refine stack_near (e := e₀ * ε) (by positivity) (clearTimes_mono ?_ (hcl k hk y hy)) (s1 _) (s2 _) (s3 _)
      (near_of_within hd) (hcell _ _ _ hs) ?_
    · have := mul_nonneg (hsc k y) hε.le
      linarith
    · have := hcell1 _ _ _ hs'
      simpa only [exactFlt, htime] using this
  have hr1' := hr1
  rw [show p = ⟨p.kind, p'.val.val⟩ by rw [hp], show VpM = ⟨VpM.kind, VpM'.val.val⟩ by rw [hVM],
    show VpS = ⟨VpS.kind, VpS'.val.val⟩ by rw [hVS], show VsS = ⟨VsS.kind, VsS'.val.val⟩ by rw [hVs]] at hr1'
  have hsh : shiftScale T' VpS.val VsS.val ≤ D := by
    unfold shiftScale
    rw [← hq, ← hQ, hD]
    refine mul_le_mul_of_nonneg_right ?_ (by linarith)
    have h1 : |T'| ≤ |T| + C * ε := by
      have := abs_add_le T (T' - T)
      rw [add_sub_cancel] at this
      linarith
    have h2 : C * ε ≤ C := mul_le_of_le_one_right hC (by linarith only [hε3])
    linarith
  have n2 := (c116_hkYu_exact (A := A + C * ε) (L := L) hu3.le hr' hr1' (by rw [hVs]; exact hvs)
    (fun τ hτ => hL _ (by rw [← htime]; exact List.mem_map_of_mem hτ)) hL0
    (fun a ha => within_bounded hd hA _ (List.mem_map_of_mem ha))
    (fun k hk => by rw [hp, hVM]; exact hwell _ (List.mem_map_of_mem hk))
    (fun k hk y hy => by
      rw [hp, hVM, hVS, hVs, ← hT', htime]
      refine clearTimes_shift (clearTimes_mono ?_ (hcl _ (List.mem_map_of_mem hk) _ (List.mem_map_of_mem hy))) (s1 _)
        (s2 _) (s3 _)
      have := timeScale_nonneg p.val VpM.val y.val k.val
      have h1 : 60 * R.u * (L + (timeScale p.val VpM.val y.val k.val + shiftScale T' VpS.val VsS.val)) ≤
          60 * ε * (L + (timeScale p.val VpM.val y.val k.val + D)) := by
        refine mul_le_mul (by linarith) (by linarith) ?_ (by positivity)
        have : 0 ≤ shiftScale T' VpS.val VsS.val := by unfold shiftScale; positivity
        positivity
      linarith)).1
  have a4 := accumulated_four R.u_nonneg (by linarith)
  have h15 : accumulated R.u 4 * (W * (A + C * ε)) ≤ 15 * ε * (W * (A + C)) :=
    mul_le_mul (a4.trans (by linarith)) (mul_le_mul_of_nonneg_left (by nlinarith) hW0) (by positivity) (by positivity)
  have hsplit : C' * ε = W * (C * ε) + 15 * ε * (W * (A + C)) + (4.1 * ε * D + Q * (C * ε)) + ε := by
    rw [hC']; ring
  have p1 : 0 ≤ W * (C * ε) := by positivity
  have p2 : 0 ≤ 15 * ε * (W * (A + C)) := by positivity
  have p3 : 0 ≤ 4.1 * ε * D := by positivity
  have p4 : 0 ≤ Q * (C * ε) := by positivity
  have hTab : NearTable (C' * ε) r.stackvaluesSubSed (r'.stackvaluesSubSed.map exactRow) :=
    nearTable_mono (by linarith) (nearTable_trans n1 n2)
  obtain ⟨vs', a', b', bmod', f'⟩ := hkYu_inv hr'
  refine ⟨r', hr', ?_, hTab, nearTable_best hTab f.hbest (best_fl f'.hbest) (by rwa [← mul_assoc])⟩
  obtain ⟨y1, -, -⟩ := yu_delay hu3.le (by rw [hVs]; exact hvs) hr'
  rw [hVS, hVs, ← hT'] at y1
  have y2 : 4.1 * R.u * shiftScale T' VpS.val VsS.val ≤ 4.1 * ε * D := by
    refine mul_le_mul (by linarith) hsh ?_ (by positivity)
    unfold shiftScale; positivity
  rw [hpd]
  have := abs_add_le (r'.Pdelay.val - sedimentDelay T' VpS.val VsS.val)
    (sedimentDelay T' VpS.val VsS.val - sedimentDelay T VpS.val VsS.val)
  rw [sub_add_sub_cancel] at this
  linarith

end Rfsed.Props
