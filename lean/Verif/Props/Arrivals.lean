import Verif.Proofs.Reverb
import Verif.Props.Forward
import Verif.Spec.Figure

/-!
# Property C89: the delay times of the H-κ stacking are those of the synthetic seismograms

`delays` (Spec/Delays.lean) lists, for a stack of layers, the sums of the delays Ps, PpPs, PpSs+PsPs
(or none) of its layers; `reverbs` the sums of the reverberation periods.
-/

namespace Rfsed.Props
open Spec Synrf Complex

variable {p : ℝ}

theorem rethick_length {xs : List Layer} {h : List ℝ} (hl : h.length = xs.length) :
    (rethick xs h).length = xs.length := by simp [rethick, hl]

theorem rethick_propagating {xs : List Layer} (h : List ℝ) (hp : ∀ k ∈ xs, k.Propagating p) :
    ∀ k ∈ rethick xs h, k.Propagating p := by
  induction xs generalizing h with
  | nil => simp [rethick]
  | cons x xs ih =>
    cases h with
    | nil => simp [rethick]
    | cons y ys =>
      intro k hk
      rw [rethick, List.zipWith_cons_cons, List.mem_cons] at hk
      rcases hk with rfl | hk
      · exact hp x (by simp)
      · exact ih ys (fun k hk => hp k (List.mem_cons_of_mem _ hk)) k hk

theorem ampRow_rethick {xs : List Layer} {h : List ℝ} (hl : h.length = xs.length) (l : Layer) (H : ℝ)
    (j k : Fin 4) : ampRow p (rethick xs h) (withH l H) j k = ampRow p xs l j k := by
  rw [ampRow, ampRow, stackAmp_rethick xs h hl]
  rfl

/-- the two components, divided by the common factor of the determinant -/
theorem resp_pulses {ω H : ℝ} (hω : ω ≠ 0) {xs : List Layer} (hxs : xs ≠ []) {l : Layer}
    (hp : ∀ k ∈ xs ++ [l], k.Propagating p) {h : List ℝ} (hl : h.length = xs.length) (ipha : ℤ)
    (hn : rethick xs h ++ [withH l H] ≠ []) :
    let ls := rethick xs h
    let R := (revAmp p l xs).map (fun M => M 0 1)
    pulses R (reverbs p ls) ω ≠ 0 ∧
    resp p (ls ++ [withH l H]) hn ipha ω =
      if 0 ≤ ipha then
        (exp (I * (ω * (pTime p ls + H * vert l.α p) : ℝ)) * pulses (ampRow p xs l 3 1) (delays p ls) ω /
          pulses R (reverbs p ls) ω,
         -(exp (I * (ω * (pTime p ls + H * vert l.α p) : ℝ)) * pulses (ampRow p xs l 3 0) (delays p ls) ω /
          pulses R (reverbs p ls) ω))
      else
        (-(exp (I * (ω * (pTime p ls + H * vert l.β p) : ℝ)) * pulses (ampRow p xs l 2 1) (delays p ls) ω /
          pulses R (reverbs p ls) ω),
         exp (I * (ω * (pTime p ls + H * vert l.β p) : ℝ)) * pulses (ampRow p xs l 2 0) (delays p ls) ω /
          pulses R (reverbs p ls) ω) := by
  intro ls R
  have hne : ls ≠ [] := by
    intro h0
    have h1 := rethick_length hl
    rw [show rethick xs h = [] from h0] at h1
    exact hxs (List.length_eq_zero_iff.1 h1.symm)
  have hg : ∀ k ∈ ls ++ [withH l H], Good p k := by
    intro k hk
    rcases List.mem_append.1 hk with hk | hk
    · exact (rethick_propagating h (fun k hk => hp k (by simp [hk])) k hk).good
    · rw [List.mem_singleton.1 hk, good_withH]
      exact (hp l (by simp)).good
  have hd := den_ne_zero hn hω hg
  have hden := den_pulses hω ls hne hg hn
  rw [show revAmp p (withH l H) ls = revAmp p l xs from revAmp_rethick xs h hl H] at hden
  have hR : pulses R (reverbs p ls) ω ≠ 0 := by
    intro h0
    apply hd
    rw [hden, show pulses ((revAmp p l xs).map (fun M => M 0 1)) (reverbs p ls) ω = 0 from h0, mul_zero]
  refine ⟨hR, ?_⟩
  have hm : ∀ j k : Fin 4, k = 0 ∨ k = 1 → slMat ω p (ls ++ [withH l H]) hn j k = _ := fun j k hk =>
    slMat_pulses hω ls hne hg hn j k hk
  have hq : ∀ (j i : Fin 4) (X v : ℝ) (P : ℂ), (lD ω p (withH l H) H 2 * lD ω p (withH l H) H 3 =
      lD ω p (withH l H) H j * exp (-I * (ω * (H * v) : ℝ))) → lD ω p (withH l H) H j ≠ 0 →
      lD ω p (withH l H) H j * exp (-I * (ω * sTime p ls : ℝ)) * P / (lD ω p (withH l H) H 2 *
        lD ω p (withH l H) H 3 * exp (-I * (ω * (pTime p ls + sTime p ls) : ℝ)) * pulses R (reverbs p ls) ω) =
      exp (I * (ω * (pTime p ls + H * v) : ℝ)) * P / pulses R (reverbs p ls) ω := by
    intro j i X v P h1 h2
    rw [h1, div_eq_div_iff (by simp [h2, exp_ne_zero, hR]) hR]
    have e1 : exp (-I * (ω * sTime p ls : ℝ)) = exp (I * (ω * (pTime p ls + H * v) : ℝ)) *
        (exp (-I * (ω * (H * v) : ℝ)) * exp (-I * (ω * (pTime p ls + sTime p ls) : ℝ))) := by
      rw [← exp_add, ← exp_add]
      congr 1
      push_cast
      ring
    rw [e1]
    ring
  have q3 := fun P => hq 3 0 0 (vert l.α p) P (by
    rw [mul_comm]; congr 1; rw [vert_eq]; simp [lD, withH]; ring_nf) (by simp [lD])
  have q2 := fun P => hq 2 0 0 (vert l.β p) P (by
    congr 1; rw [vert_eq]; simp [lD, withH]; ring_nf) (by simp [lD])
  have hh : (withH l H).h = H := rfl
  rw [resp]
  simp only [hden, hm _ 0 (Or.inl rfl), hm _ 1 (Or.inr rfl), hh, ls, ampRow_rethick hl]
  split_ifs
  · rw [neg_div]
    exact Prod.ext (q3 _) (congrArg Neg.neg (q3 _))
  · rw [neg_div]
    exact Prod.ext (congrArg Neg.neg (q2 _)) (q2 _)

/-- **C89** The surface motion above a stack of layers is, at every frequency, a fixed filter
`1 / (R[0] + …)` of the reverberation periods applied to pulses that arrive at the sums of the delays of
Ps, PpPs and PpSs+PsPs of the layers after the direct P wave.  The amplitudes `X0 … R` are those of the
materials and of the slowness alone: changing the thicknesses of the layers moves the arrivals exactly as
the delay times say and changes nothing else.  (`X` is for an incident P wave, `Y` for an incident S wave;
`H` is the thickness given for the half-space, only its travel time enters.) -/
theorem c89_arrivals {xs : List Layer} (hxs : xs ≠ []) {l : Layer} (hp : ∀ k ∈ xs ++ [l], k.Propagating p) :
    ∃ X0 X1 Y0 Y1 R : List ℂ,
      (∀ X ∈ [X0, X1, Y0, Y1], X.length = 4 ^ xs.length) ∧ R.length = 5 ^ xs.length ∧
      (∃ r0 rest, R = r0 :: rest ∧ r0 ≠ 0) ∧
      ∀ (h : List ℝ) (H ω : ℝ), h.length = xs.length → ω ≠ 0 →
        let ls := rethick xs h
        pulses R (reverbs p ls) ω ≠ 0 ∧
        ∀ U V : ℂ,
          ((∃ A B, Response ω p H (ls ++ [{ l with h := H }]) .P U V A B) ↔
            U = exp (I * (ω * (pTime p ls + H * vert l.α p) : ℝ)) * pulses X1 (delays p ls) ω /
              pulses R (reverbs p ls) ω ∧
            V = -(exp (I * (ω * (pTime p ls + H * vert l.α p) : ℝ)) * pulses X0 (delays p ls) ω /
              pulses R (reverbs p ls) ω)) ∧
          ((∃ A B, Response ω p H (ls ++ [{ l with h := H }]) .S U V A B) ↔
            U = -(exp (I * (ω * (pTime p ls + H * vert l.β p) : ℝ)) * pulses Y1 (delays p ls) ω /
              pulses R (reverbs p ls) ω) ∧
            V = exp (I * (ω * (pTime p ls + H * vert l.β p) : ℝ)) * pulses Y0 (delays p ls) ω /
              pulses R (reverbs p ls) ω) := by
  refine ⟨ampRow p xs l 3 0, ampRow p xs l 3 1, ampRow p xs l 2 0, ampRow p xs l 2 1,
    (revAmp p l xs).map (fun M => M 0 1), ?_, by simp [revAmp_length], ?_, ?_⟩
  · intro X hX
    simp only [List.mem_cons, List.not_mem_nil, or_false] at hX
    rcases hX with rfl | rfl | rfl | rfl <;> simp [ampRow, stackAmp_length]
  · obtain ⟨c, t, rest, hc, ht, hr⟩ := revAmp_head (hp l (by simp)) xs (fun k hk => hp k (by simp [hk]))
    refine ⟨c * wedge (lE 1 p t) 0 1, rest.map (fun M => M 0 1), by rw [hr]; simp, mul_ne_zero hc ?_⟩
    rw [wedge_den]
    have := den_ne_zero_of_conserve (M := 1) ht.good (ω := 1) one_ne_zero (by simp)
    simpa using this
  · intro h H ω hl hω ls
    have hn : ls ++ [withH l H] ≠ [] := by simp
    have hne : 0 < ls.length := by
      rw [show ls.length = xs.length from rethick_length hl]
      exact List.length_pos_iff.2 hxs
    have hg : ∀ k ∈ ls ++ [withH l H], Good p k := by
      intro k hk
      rcases List.mem_append.1 hk with hk | hk
      · exact (rethick_propagating h (fun k hk => hp k (by simp [hk])) k hk).good
      · rw [List.mem_singleton.1 hk, good_withH]
        exact (hp l (by simp)).good
    have href : refDepth (ls ++ [withH l H]) hn = H := by
      rw [refDepth, if_pos (by simp; omega)]
      simp [withH]
    refine ⟨(resp_pulses (H := H) hω hxs hp hl 0 hn).1, fun U V => ⟨?_, ?_⟩⟩
    · have e := resp_iff (ipha := 0) hω hn hg U V
      rw [href, (resp_pulses (H := H) hω hxs hp hl 0 hn).2, if_pos le_rfl, Prod.mk.injEq] at e
      exact e
    · have e := resp_iff (ipha := -1) hω hn hg U V
      rw [href, (resp_pulses (H := H) hω hxs hp hl (-1) hn).2, if_neg (by norm_num), Prod.mk.injEq] at e
      exact e

/-- **C89** the receiver function in the frequency domain: the reverberation filter and the travel time
are common to both components and drop out of the spectral ratio. -/
theorem c89_ratio {xs : List Layer} (hxs : xs ≠ []) {l : Layer} (hp : ∀ k ∈ xs ++ [l], k.Propagating p) :
    ∃ X0 X1 : List ℂ, X0.length = 4 ^ xs.length ∧ X1.length = 4 ^ xs.length ∧
      ∀ (h : List ℝ) (H ω : ℝ), h.length = xs.length → ω ≠ 0 → ∀ U V A B,
        Response ω p H (rethick xs h ++ [{ l with h := H }]) .P U V A B →
        U * pulses X0 (delays p (rethick xs h)) ω = -V * pulses X1 (delays p (rethick xs h)) ω := by
  obtain ⟨X0, X1, Y0, Y1, R, hlen, -, -, hmain⟩ := c89_arrivals hxs hp
  refine ⟨X0, X1, hlen X0 (by simp), hlen X1 (by simp), fun h H ω hl hω U V A B hr => ?_⟩
  obtain ⟨-, hiff⟩ := hmain h H ω hl hω
  obtain ⟨rfl, rfl⟩ := (hiff U V).1.1 ⟨A, B, hr⟩
  ring

/-- **C89** for the receiver-function seismograms the code computes: there are amplitudes, depending on
the materials and the slowness alone, such that for all thicknesses every sample is the inverse transform of
the pulses above. -/
theorem c89_seismograms {xs : List Layer} (hxs : xs ≠ []) {l : Layer} (hp : ∀ k ∈ xs ++ [l], k.Propagating p) :
    ∃ X0 X1 R : List ℂ, X0.length = 4 ^ xs.length ∧ X1.length = 4 ^ xs.length ∧ R.length = 5 ^ xs.length ∧
      ∀ (h : List ℝ) (H dt : ℝ) (npts : ℕ), h.length = xs.length → dt ≠ 0 → 0 < npts →
        let ls := rethick xs h
        let all := ls ++ [{ l with h := H }]
        let U := fun (X : List ℂ) (ω : ℝ) => exp (I * (ω * (pTime p ls + H * vert l.α p) : ℝ)) *
          pulses X (delays p ls) ω / pulses R (reverbs p ls) ω
        fwd_seis p dt npts 1 (alphas all) (betas all) (rhos all) (hs all) =
          .ok (.num ((List.range npts).map (fun j => synthSample (nextPow2 npts) dt (U X1) j)),
               .num ((List.range npts).map (fun j => synthSample (nextPow2 npts) dt (U X0) j))) := by
  obtain ⟨X0, X1, Y0, Y1, R, hlen, hR, -, hmain⟩ := c89_arrivals hxs hp
  refine ⟨X0, X1, R, hlen X0 (by simp), hlen X1 (by simp), hR, fun h H dt npts hl hdt hnp => ?_⟩
  intro ls all U
  have hn : all ≠ [] := by simp [all]
  have hpr : ∀ k ∈ all, k.Propagating p := by
    intro k hk
    rcases List.mem_append.1 hk with hk | hk
    · exact rethick_propagating h (fun k hk => hp k (by simp [hk])) k hk
    · rw [List.mem_singleton.1 hk]
      exact hp l (by simp)
  have hne : 0 < ls.length := by
    rw [show ls.length = xs.length from rethick_length hl]
    exact List.length_pos_iff.2 hxs
  have href : refDepth all hn = H := by
    rw [refDepth, if_pos (by simp [all]; omega)]
    simp [all]
  have key := c61_seismograms (p := p) (ipha := 1) (U := U X1) (V := fun ω => -U X0 ω) hnp hdt hn hpr (by
    intro ω hω
    rw [href, if_pos (by norm_num)]
    exact ((hmain h H ω hl hω).2 _ _).1.2 ⟨rfl, rfl⟩)
  rw [key]
  have hneg : ∀ j, -synthSample (nextPow2 npts) dt (fun ω => -U X0 ω) j = synthSample (nextPow2 npts) dt (U X0) j := by
    intro j
    simp only [synthSample, neg_mul, neg_re, Finset.sum_neg_distrib, neg_div, neg_neg]
  simp only [hneg]

/-! ## the delays are those of the H-κ stacking -/

/-- **C89** one layer with velocity ratio `K`: the delays are those at which the H-κ stacking reads the
receiver function (C02, C05). -/
theorem c89_one_layer (Vp K ρ H : ℝ) :
    delays p [⟨Vp, Vp / K, ρ, H⟩] = [0, tPs p Vp H K, tPpPs p Vp H K, tPsPs p Vp H K] := by
  simp [delays, legs, tPs, tPpPs, tPsPs, Spec.eta, vert]

/-- **C89** a sediment over a crust: the delays at which the two-layer stacking (C20) reads are among
those of the stack: both layers with the same kind of leg. -/
theorem c89_two_layers (VpS K1 ρ1 H1 VpM K2 ρ2 H2 : ℝ) :
    let d := delays p [⟨VpS, VpS / K1, ρ1, H1⟩, ⟨VpM, VpM / K2, ρ2, H2⟩]
    d[5]? = some (tPs p VpS H1 K1 + tPs p VpM H2 K2) ∧
    d[10]? = some (tPpPs p VpS H1 K1 + tPpPs p VpM H2 K2) ∧
    d[15]? = some (tPsPs p VpS H1 K1 + tPsPs p VpM H2 K2) := by
  simp [delays, legs, tPs, tPpPs, tPsPs, Spec.eta, vert]

/-- **C89** no arrival precedes the direct P wave. -/
theorem c89_direct_first {ls : List Layer} (hα : ∀ k ∈ ls, 0 < k.β ∧ k.β ≤ k.α ∧ 0 ≤ k.h) :
    (∃ rest, delays p ls = 0 :: rest) ∧ (∀ t ∈ delays p ls, 0 ≤ t) ∧ ∀ t ∈ reverbs p ls, 0 ≤ t := by
  induction ls with
  | nil => simp [delays, reverbs]
  | cons l ls ih =>
    obtain ⟨⟨rest, hr⟩, h1, h2⟩ := ih (fun k hk => hα k (List.mem_cons_of_mem _ hk))
    obtain ⟨hb, hba, hh⟩ := hα l (by simp)
    have hv : 0 ≤ vert l.α p := Real.sqrt_nonneg _
    have hw : 0 ≤ vert l.β p := Real.sqrt_nonneg _
    have hvw : vert l.α p ≤ vert l.β p := by
      apply Real.sqrt_le_sqrt
      have : 1 / l.α ^ 2 ≤ 1 / l.β ^ 2 := by
        apply one_div_le_one_div_of_le (by positivity)
        exact pow_le_pow_left₀ hb.le hba 2
      linarith
    refine ⟨by simp [delays, legs, hr], ?_, ?_⟩
    · intro t ht
      simp only [delays, List.mem_flatMap, List.mem_map] at ht
      obtain ⟨a, ha, b, hb', rfl⟩ := ht
      refine add_nonneg ?_ (h1 b hb')
      simp only [legs, List.mem_cons, List.not_mem_nil, or_false] at ha
      rcases ha with rfl | rfl | rfl | rfl
      · exact le_rfl
      · exact mul_nonneg hh (by linarith)
      · exact mul_nonneg hh (by linarith)
      · positivity
    · intro t ht
      simp only [reverbs, List.mem_flatMap, List.mem_map] at ht
      obtain ⟨a, ha, b, hb', rfl⟩ := ht
      refine add_nonneg ?_ (h2 b hb')
      simp only [revLegs, List.mem_cons, List.not_mem_nil, or_false] at ha
      rcases ha with rfl | rfl | rfl | rfl | rfl <;> positivity

/-- the hypotheses are met by the crust over a half-space of the other examples, for every thickness -/
example : ∃ X0 X1 R : List ℂ, X0.length = 4 ∧ X1.length = 4 ∧ R.length = 5 ∧
    ∀ H : ℝ, ∃ r z, fwd_seis 0.06 0.1 2500 1 [6, 8] [6 / 1.75, 4.5] [2.7, 3.3] [H, 40] = .ok (.num r, .num z) ∧
      ∀ j < 2500, r[j]? = some (synthSample (nextPow2 2500) 0.1 (fun ω =>
        exp (I * (ω * (H * vert 6 0.06 + 40 * vert 8 0.06) : ℝ)) *
        pulses X1 [0, tPs 0.06 6 H 1.75, tPpPs 0.06 6 H 1.75, tPsPs 0.06 6 H 1.75] ω /
        pulses R [0, 2 * H * vert 6 0.06, H * (vert 6 0.06 + vert (6 / 1.75) 0.06), 2 * H * vert (6 / 1.75) 0.06,
          2 * H * (vert 6 0.06 + vert (6 / 1.75) 0.06)] ω) j) := by
  obtain ⟨X0, X1, R, h0, h1, hR, hmain⟩ := c89_seismograms (p := 0.06) (xs := [⟨6, 6 / 1.75, 2.7, 0⟩])
    (by simp) (l := ⟨8, 4.5, 3.3, 0⟩) (by
      intro k hk
      simp only [List.cons_append, List.nil_append, List.mem_cons, List.not_mem_nil, or_false] at hk
      rcases hk with rfl | rfl <;> norm_num [Layer.Propagating, abs_of_pos])
  refine ⟨X0, X1, R, by simpa using h0, by simpa using h1, by simpa using hR, fun H => ?_⟩
  have := hmain [H] 40 0.1 2500 rfl (by norm_num) (by norm_num)
  have hd := c89_one_layer (p := 0.06) 6 1.75 2.7 H
  simp only [rethick, List.zipWith_cons_cons, List.zipWith_nil_left, hd] at this
  refine ⟨_, _, this, fun j hj => ?_⟩
  rw [List.getElem?_map, List.getElem?_range hj]
  simp [reverbs, revLegs, pTime]

end Rfsed.Props
