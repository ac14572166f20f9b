import Verif.Props.HkZhu
import Verif.Props.Variants
import Verif.Props.Seq

/-!
# Property C104: exactly when the stacking functions return a result

`Divisor v`: `v` is a numpy float (division by zero gives an infinity) or not zero.  `SameLength`: the
arrays are as long as the time axis requires; shorter ones are the subject of C15.
-/

namespace Rfsed.Props
open Rfsed PyFloat Spec HkZhu
set_option linter.unusedSectionVars false

section generic
variable {F : Type} [PyFloat F] [IEEEOrder F]

theorem divisor_iff {v : Scalar F} : Divisor v ↔ VpOk v := by
  refine ⟨divisor_vpOk, ?_⟩
  rintro ⟨w, hw⟩
  unfold oneOver at hw
  unfold Divisor
  cases hk : v.kind with
  | np => exact Or.inl rfl
  | py =>
    right
    rw [hk] at hw
    simp only at hw
    cases he : PyFloat.eq v.val zero with
    | false => rfl
    | true => rw [he] at hw; simp at hw

theorem scalarDiv_ok_iff {a b : Scalar F} : (∃ c, scalarDiv a b = .ok c) ↔ a.kind = .np ∨ Divisor b := by
  unfold scalarDiv Divisor
  cases ha : a.kind <;> cases hb : b.kind <;> simp [Kind.join]
  cases PyFloat.eq b.val zero <;> simp

theorem bestTimes_vpOk {Vp : Scalar F} {kd : Kind} {rp x k : F} {ts} (h : bestTimes Vp kd rp x k = .ok ts) :
    VpOk Vp := by
  unfold bestTimes at h
  obtain ⟨v, hv, -⟩ := bind_eq_ok.1 h
  exact ⟨v, hv⟩

theorem getamp_axis {d t : List F} {x : PyNum F} {a : F} (h : getamp d t x = .ok a) : t ≠ [] := by
  rintro rfl
  simp [getamp, argmin] at h

theorem weigh_axis {w1 w2 w3 : F} {d t : List F} {ts : PyNum F × PyNum F × PyNum F} {v : F}
    (h : weigh w1 w2 w3 d t ts = .ok v) : t ≠ [] := by
  obtain ⟨_, _, _, h1, -, -, -⟩ := weigh_ok.1 h
  exact getamp_axis h1

theorem grid_ne {K H : List F} {v : F → F → Except PyErr F} {tb : List (Row F)} {i : Nat}
    (h : gridLoop K H v = .ok tb) (hb : argmax (tb.map Row.s) = .ok i) :
    K ≠ [] ∧ H ≠ [] ∧ ∃ k x s, v k x = .ok s := by
  obtain ⟨k, x, s, hk, hx, hs⟩ := gridLoop_ne h hb
  exact ⟨List.ne_nil_of_mem hk, List.ne_nil_of_mem hx, k, x, s, hs⟩

/-- **C104** `hk`: for traces of one length and a stack not shorter than them, a result is returned exactly when
the stream is not empty and can be stacked, its traces are not empty, every trace has an onset and a slowness,
`Vp` (6.5 if it is `None`) can be divided by and the grid is not empty.  The numbers in the data, in the grid and
the ray parameters have no influence on that. -/
theorem c104_hk {env : Env F} {st : List (Trace F)} {preonset : F} {H K : List F} {Vp : Option (Scalar F)}
    {w1 w2 w3 : Option F} {layer : Option String} {stack : Option Bool}
    (hlen : ∀ a ∈ st, ∀ b ∈ st, a.data.length = b.data.length)
    (hsd : ∀ sd more, env.stack st = .ok (sd :: more) → ∀ a ∈ st, a.data.length ≤ sd.length)
    (hdraw : ∀ tb : List (Row F), tb ≠ [] → env.draw tb = .ok ()) :
    (∃ r, hk env st preonset H K Vp w1 w2 w3 layer stack = .ok r) ↔
      st ≠ [] ∧ (∃ sd more, env.stack st = .ok (sd :: more)) ∧
      (∀ tr ∈ st, tr.data ≠ [] ∧ tr.onset.isSome ∧ tr.slowness.isSome) ∧
      Divisor (Vp.getD ⟨.py, dec 65 1⟩) ∧ K ≠ [] ∧ H ≠ [] := by
  constructor
  · rintro ⟨r, h⟩
    obtain ⟨tr0, rest, slows, f⟩ := hk_inv h
    obtain ⟨hK, hH, k, x, s, hs⟩ := grid_ne f.hgrid f.hbest
    rw [cell_eq] at hs
    obtain ⟨xs, hxs, -⟩ := bind_eq_ok.1 hs
    have hall := fun tr (htr : tr ∈ st) => mapM_ok_mem hxs htr
    have h0 : tr0 ∈ st := by rw [f.hst]; simp
    have hne : tr0.data ≠ [] ∧ Divisor (Vp.getD ⟨.py, dec 65 1⟩) := by
      obtain ⟨v, hv⟩ := hall tr0 h0
      obtain ⟨_, _, _, -, -, hb, hw⟩ := traceTerm_ok.1 hv
      constructor
      · have := weigh_axis hw
        rw [f.htime, ← List.length_pos_iff, timeAxis_length] at this
        exact List.length_pos_iff.1 this
      · have := bestTimes_vpOk hb
        rw [f.hVp] at this
        exact divisor_iff.2 this
    obtain ⟨more, hm⟩ := f.hstack
    refine ⟨List.ne_nil_of_mem h0, ⟨_, more, hm⟩, ?_, hne.2, hK, hH⟩
    intro tr htr
    obtain ⟨v, hv⟩ := hall tr htr
    obtain ⟨_, _, _, ho, hsl, -, -⟩ := traceTerm_ok.1 hv
    refine ⟨?_, by rw [ho]; rfl, by rw [hsl]; rfl⟩
    rw [← List.length_pos_iff, hlen tr htr tr0 h0]
    exact List.length_pos_iff.2 hne.1
  · rintro ⟨hst, ⟨sd, more, hs⟩, hall, hv, hK, hH⟩
    obtain ⟨tr0, rest, rfl⟩ := List.exists_cons_of_ne_nil hst
    refine c03_succeeds hs (fun _ => hsd sd more hs tr0 (by simp)) (hall tr0 (by simp)).1
      (fun tr htr => (hall tr htr).2)
      (fun tr htr => (hlen tr0 (by simp) tr (List.mem_cons_of_mem _ htr)).le) ?_ ?_ hK hH ?_
    · rintro v rfl; exact hv
    · rintro rfl
      rcases hv with h | h
      · cases h
      · exact h
    · intro tb htb
      apply hdraw
      rw [← List.length_pos_iff, htb]
      exact Nat.mul_pos (List.length_pos_iff.2 hK) (List.length_pos_iff.2 hH)

/-- **C104** `hkSynth` -/
theorem c104_hkSynth {env : Env F} {d t : List F} {rp : Scalar F} {H K : List F} {Vp : Option (Scalar F)}
    {w1 w2 w3 : Option F} {layer : Option String} (hlen : t.length ≤ d.length)
    (hdraw : ∀ tb : List (Row F), tb ≠ [] → env.draw tb = .ok ()) :
    (∃ r, SynthAnalysis.hkSynth env d t rp H K Vp w1 w2 w3 layer = .ok r) ↔
      t ≠ [] ∧ Divisor (Vp.getD ⟨.py, dec 65 1⟩) ∧ K ≠ [] ∧ H ≠ [] := by
  constructor
  · rintro ⟨r, h⟩
    have f := hkSynth_inv h
    obtain ⟨hK, hH, k, x, s, hs⟩ := grid_ne f.hgrid f.hbest
    rw [synthCell_eq] at hs
    obtain ⟨ts, hts, hs⟩ := bind_eq_ok.1 hs
    obtain ⟨v, hv, -⟩ := bind_eq_ok.1 hs
    have := bestTimes_vpOk hts
    exact ⟨weigh_axis hv, divisor_iff.2 this, hK, hH⟩
  · rintro ⟨ht, hv, hK, hH⟩
    have := c25_hkSynth_succeeds (env := env) (rp := rp) (w1 := w1) (w2 := w2) (w3 := w3) (layer := layer)
      ht hlen hv hK hH (fun tb htb => hdraw tb (by
        rw [← List.length_pos_iff, htb]
        exact Nat.mul_pos (List.length_pos_iff.2 hK) (List.length_pos_iff.2 hH)))
    exact this

/-- **C104** `hkYu`: the shear velocity and all three weights are required: `None` is
accepted for the other arguments only; the delay of the reverberation as a numpy float makes zero sediment velocities harmless. -/
theorem c104_hkYu {env : Env F} {flt : HkYu.FltInput F} {rp : Scalar F} {H K : List F}
    {VpMoho VpSed VsSed : Option (Scalar F)} {w1 w2 w3 : Option F}
    (hlen : flt.time.length ≤ flt.filteredrf.length)
    (hdraw : ∀ tb : List (Row F), tb ≠ [] → env.draw tb = .ok ()) :
    (∃ r, HkYu.hkYu env flt rp H K VpMoho VpSed VsSed w1 w2 w3 = .ok r) ↔
      flt.time ≠ [] ∧ Divisor (VpMoho.getD ⟨.py, dec 65 1⟩) ∧
      (∃ vs, VsSed = some vs ∧ (flt.tlag.kind = .np ∨ Divisor vs) ∧
        (flt.tlag.kind = .np ∨ vs.kind = .np ∨ Divisor (VpSed.getD ⟨.py, dec 25 1⟩))) ∧
      w1.isSome ∧ w2.isSome ∧ w3.isSome ∧ K ≠ [] ∧ H ≠ [] := by
  have hjoin : ∀ a b : Kind, a.join b = .np ↔ a = .np ∨ b = .np := by
    intro a b; cases a <;> cases b <;> simp [Kind.join]
  constructor
  · rintro ⟨r, h⟩
    obtain ⟨v1, hw1⟩ : ∃ v, w1 = some v := by
      cases w1 with
      | some v => exact ⟨v, rfl⟩
      | none => exact absurd h (c13_none_weight_fails (Or.inl rfl) r)
    obtain ⟨v2, hw2⟩ : ∃ v, w2 = some v := by
      cases w2 with
      | some v => exact ⟨v, rfl⟩
      | none => exact absurd h (c13_none_weight_fails (Or.inr (Or.inl rfl)) r)
    obtain ⟨v3, hw3⟩ : ∃ v, w3 = some v := by
      cases w3 with
      | some v => exact ⟨v, rfl⟩
      | none => exact absurd h (c13_none_weight_fails (Or.inr (Or.inr rfl)) r)
    subst hw1 hw2 hw3
    obtain ⟨vs, a, b, bmod, f⟩ := hkYu_inv h
    obtain ⟨hK, hH, k, x, s, hs⟩ := grid_ne f.hgrid f.hbest
    rw [yuCell_eq] at hs
    obtain ⟨ts, hts, hs⟩ := bind_eq_ok.1 hs
    obtain ⟨v, hv, -⟩ := bind_eq_ok.1 hs
    have h1 := bestTimes_vpOk hts
    rw [f.hVp] at h1
    refine ⟨weigh_axis hv, divisor_iff.2 h1, ⟨vs, f.hvs, ?_, ?_⟩, rfl, rfl, rfl, hK, hH⟩
    · have := scalarDiv_ok_iff.1 ⟨_, f.ha⟩
      rcases this with h | h
      · rcases (hjoin _ _).1 h with h | h
        · exact Or.inl h
        · exact Or.inr (Or.inl h)
      · exact Or.inr h
    · have := scalarDiv_ok_iff.1 ⟨_, f.hb⟩
      rcases this with h | h
      · rcases (hjoin _ _).1 h with h | h
        · exact Or.inl h
        · exact Or.inr (Or.inl h)
      · rw [f.hVpSed] at h
        exact Or.inr (Or.inr h)
  · rintro ⟨ht, hv, ⟨vs, rfl, hs1, hs2⟩, h1, h2, h3, hK, hH⟩
    obtain ⟨v1, rfl⟩ := Option.isSome_iff_exists.1 h1
    obtain ⟨v2, rfl⟩ := Option.isSome_iff_exists.1 h2
    obtain ⟨v3, rfl⟩ := Option.isSome_iff_exists.1 h3
    obtain ⟨a, ha⟩ := (scalarDiv_ok_iff (a := ⟨flt.tlag.kind.join vs.kind, flt.tlag.val * vs.val / two⟩)
      (b := vs)).2 (hs1.imp (fun h => (hjoin _ _).2 (Or.inl h)) id)
    obtain ⟨b, hb⟩ := (scalarDiv_ok_iff (a := ⟨flt.tlag.kind.join vs.kind, flt.tlag.val * vs.val / two⟩)
      (b := VpSed.getD ⟨.py, dec 25 1⟩)).2 (by
        rcases hs2 with h | h | h
        · exact Or.inl ((hjoin _ _).2 (Or.inl h))
        · exact Or.inl ((hjoin _ _).2 (Or.inr h))
        · exact Or.inr h)
    obtain ⟨tb, htb⟩ := gridLoop_total (K := K) (H := H)
      (value := HkYu.cell flt rp (VpMoho.getD ⟨.py, dec 65 1⟩) (a.val - b.val) (some v1) (some v2) (some v3)) (by
      intro k _ x _
      rw [yuCell_eq]
      obtain ⟨ts, hts⟩ := bestTimes_total (divisor_vpOk hv) rp.kind rp.val x k
      obtain ⟨v, hv⟩ := weigh_total (w1 := v1) (w2 := v2) (w3 := v3) ht hlen
        (yuShift flt.tlag.val (a.val - b.val) ts)
      rw [hts, except_ok_bind, hv]; exact ⟨_, rfl⟩)
    have hl := (gridLoop_ok htb).1
    have hpos : 0 < tb.length := by
      rw [hl]; exact Nat.mul_pos (List.length_pos_iff.2 hK) (List.length_pos_iff.2 hH)
    obtain ⟨best, hbest⟩ := argmax_ok (xs := tb.map Row.s) (by
      rw [← List.length_pos_iff, List.length_map]; exact hpos)
    obtain ⟨row, hrow⟩ := argmax_bestmodel hbest
    unfold HkYu.hkYu
    simp only [HkYu.need, except_ok_bind, ha, hb, htb, hbest, hdraw tb (List.length_pos_iff.1 hpos),
      item_ok.2 hrow]
    exact ⟨_, rfl⟩

/-- **C104** `hkSeqSynth`: the Moho velocity and the Moho weights are required. -/
theorem c104_hkSeqSynth {env : Env F} {dS dM t : List F} {rp : Scalar F}
    {HS KS : List F} {VpSed : Option (Scalar F)} {w1S w2S w3S : Option F}
    {HM KM : List F} {VpMoho : Option (Scalar F)} {w1M w2M w3M : Option F}
    (hS : t.length ≤ dS.length) (hM : t.length ≤ dM.length)
    (hdraw : ∀ tb : List (Row F), tb ≠ [] → env.draw tb = .ok ()) :
    (∃ r, SynthAnalysis.hkSeqSynth env dS dM t rp HS KS VpSed w1S w2S w3S HM KM VpMoho w1M w2M w3M = .ok r) ↔
      t ≠ [] ∧ Divisor (VpSed.getD ⟨.py, dec 30 1⟩) ∧ (∃ vm, VpMoho = some vm ∧ Divisor vm) ∧
      w1M.isSome ∧ w2M.isSome ∧ w3M.isSome ∧ KS ≠ [] ∧ HS ≠ [] ∧ KM ≠ [] ∧ HM ≠ [] := by
  constructor
  · rintro ⟨r, h⟩
    obtain ⟨bmod, raw, f⟩ := hkSeqSynth_inv h
    obtain ⟨hKS, hHS, k, x, s, hs⟩ := grid_ne f.hgridS f.hbestS
    rw [seqSedCell_eq, synthCell_eq] at hs
    obtain ⟨ts, hts, hs⟩ := bind_eq_ok.1 hs
    obtain ⟨v, hv, -⟩ := bind_eq_ok.1 hs
    have hd := bestTimes_vpOk hts
    rw [f.hVpSed] at hd
    obtain ⟨hKM, hHM, k', x', s', hs'⟩ := grid_ne f.hgridM f.hbestM
    unfold SynthAnalysis.seqMohoCell at hs'
    obtain ⟨_, _, hs'⟩ := bind_eq_ok.1 hs'
    obtain ⟨vm, hvm, hs'⟩ := bind_eq_ok.1 hs'
    obtain ⟨inv, hinv, hs'⟩ := bind_eq_ok.1 hs'
    obtain ⟨_, _, hs'⟩ := bind_eq_ok.1 hs'
    obtain ⟨_, _, hs'⟩ := bind_eq_ok.1 hs'
    obtain ⟨_, _, hs'⟩ := bind_eq_ok.1 hs'
    obtain ⟨_, e1, hs'⟩ := bind_eq_ok.1 hs'
    obtain ⟨_, e2, hs'⟩ := bind_eq_ok.1 hs'
    obtain ⟨_, e3, hs'⟩ := bind_eq_ok.1 hs'
    have need_some : ∀ {α : Type} {o : Option α} {a : α}, SynthAnalysis.need o = .ok a → o = some a := by
      intro α o a h
      cases o with
      | none => cases h
      | some b => cases h; rfl
    refine ⟨weigh_axis hv, divisor_iff.2 hd, ⟨vm, need_some hvm, divisor_iff.2 ⟨_, hinv⟩⟩, ?_, ?_, ?_,
      hKS, hHS, hKM, hHM⟩
    · rw [need_some e1]; rfl
    · rw [need_some e2]; rfl
    · rw [need_some e3]; rfl
  · rintro ⟨ht, hvs, ⟨vm, rfl, hvm⟩, h1, h2, h3, hKS, hHS, hKM, hHM⟩
    obtain ⟨v1, rfl⟩ := Option.isSome_iff_exists.1 h1
    obtain ⟨v2, rfl⟩ := Option.isSome_iff_exists.1 h2
    obtain ⟨v3, rfl⟩ := Option.isSome_iff_exists.1 h3
    have := c25_hkSeqSynth_succeeds (env := env) (rp := rp) (w1S := w1S) (w2S := w2S) (w3S := w3S)
      (w1M := v1) (w2M := v2) (w3M := v3) ht hS hM hvs hvm hKS hHS hKM hHM hdraw
    exact this

/-- **C104** `hkSeq`: the onset is read from every sediment trace, but only from the first Moho trace. -/
theorem c104_hkSeq {env : Env F} {tr0 : Trace F} {restS stM : List (Trace F)} {preonset : F}
    {HS KS HM KM : List F} {VpSed VpMoho : Option (Scalar F)} {w1S w2S w3S w1M w2M w3M : Option F}
    {stack : Option Bool}
    (hlen : ∀ tr ∈ restS ++ stM, tr0.data.length ≤ tr.data.length)
    (hsd : ∀ st ∈ [tr0 :: restS, stM], ∀ sd more, env.stack st = .ok (sd :: more) →
      tr0.data.length ≤ sd.length)
    (hdraw : ∀ tb : List (Row F), tb ≠ [] → env.draw tb = .ok ()) :
    (∃ r, HkSeqYeck.hkSeq env (tr0 :: restS) stM preonset HS KS VpSed w1S w2S w3S HM KM VpMoho w1M w2M w3M stack
        = .ok r) ↔
      (∃ sd more, env.stack (tr0 :: restS) = .ok (sd :: more)) ∧ (∃ sd more, env.stack stM = .ok (sd :: more)) ∧
      tr0.data ≠ [] ∧ (∀ tr ∈ tr0 :: restS, tr.onset.isSome ∧ tr.slowness.isSome) ∧
      (∃ m rest, stM = m :: rest ∧ m.onset.isSome) ∧ (∀ tr ∈ stM, tr.slowness.isSome) ∧
      Divisor (VpSed.getD ⟨.py, dec 30 1⟩) ∧ (∃ vm, VpMoho = some vm ∧ Divisor vm) ∧
      w1M.isSome ∧ w2M.isSome ∧ w3M.isSome ∧ KS ≠ [] ∧ HS ≠ [] ∧ KM ≠ [] ∧ HM ≠ [] := by
  constructor
  · rintro ⟨r, h⟩
    obtain ⟨tr0', rest, slows, bmod, raw, f⟩ := hkSeq_inv h
    have hst := f.hst
    injection hst with e1 e2
    subst e1 e2
    obtain ⟨hKS, hHS, k, x, s, hs⟩ := grid_ne f.hgridS f.hbestS
    obtain ⟨last, -, -, hall⟩ := lastTrace_all hs
    have hsed : ∀ tr ∈ tr0 :: restS, ∃ v, ∃ o sl ts, tr.onset = some o ∧ tr.slowness = some sl ∧
        VpOk r.VpSed ∧ weigh (w1S.getD (dec 6 1)) (w2S.getD (dec 3 1)) (w3S.getD (dec 1 1))
          (if r.stack then r.RFSedStack else tr.data) r.time ts = .ok v := by
      intro tr htr
      obtain ⟨w, hw⟩ := hall tr htr
      rw [sedTerm_eq] at hw
      obtain ⟨o, ho, hw⟩ := bind_eq_ok.1 hw
      obtain ⟨sl, hsl, hw⟩ := bind_eq_ok.1 hw
      obtain ⟨ts, hts, hw⟩ := bind_eq_ok.1 hw
      obtain ⟨v, hv, -⟩ := bind_eq_ok.1 hw
      refine ⟨v, o, sl, ts, ?_, getSlowness_ok.1 hsl, bestTimes_vpOk hts, hv⟩
      unfold Trace.getOnset at ho
      cases hq : tr.onset with
      | none => rw [hq] at ho; cases ho
      | some q => rw [hq] at ho; cases ho; rfl
    obtain ⟨v0, o0, sl0, ts0, -, -, hvp, hw0⟩ := hsed tr0 (by simp)
    have hne : tr0.data ≠ [] := by
      have := weigh_axis hw0
      rw [f.htime, ← List.length_pos_iff, timeAxis_length] at this
      exact List.length_pos_iff.1 this
    rw [f.hVpSed] at hvp
    obtain ⟨hKM, hHM, k', x', s', hs'⟩ := grid_ne f.hgridM f.hbestM
    obtain ⟨init, l, -, -, hv⟩ := lastTrace_ok.1 hs'
    unfold HkSeqYeck.mohoTerm at hv
    obtain ⟨m, hm, hv⟩ := bind_eq_ok.1 hv
    obtain ⟨om, hom, hv⟩ := bind_eq_ok.1 hv
    obtain ⟨_, _, hv⟩ := bind_eq_ok.1 hv
    obtain ⟨_, _, hv⟩ := bind_eq_ok.1 hv
    obtain ⟨vm, e1, hv⟩ := bind_eq_ok.1 hv
    obtain ⟨inv, hinv, hv⟩ := bind_eq_ok.1 hv
    obtain ⟨_, _, hv⟩ := bind_eq_ok.1 hv
    obtain ⟨_, _, hv⟩ := bind_eq_ok.1 hv
    obtain ⟨_, _, hv⟩ := bind_eq_ok.1 hv
    obtain ⟨_, e2, hv⟩ := bind_eq_ok.1 hv
    obtain ⟨_, e3, hv⟩ := bind_eq_ok.1 hv
    obtain ⟨_, e4, hv⟩ := bind_eq_ok.1 hv
    have need_some : ∀ {α : Type} {o : Option α} {a : α}, HkSeqYeck.need o = .ok a → o = some a := by
      intro α o a h
      cases o with
      | none => cases h
      | some b => cases h; rfl
    obtain ⟨moreS, hmS⟩ := f.hstackS
    obtain ⟨moreM, hmM⟩ := f.hstackM
    obtain ⟨restM, hrM⟩ := item_zero_ok hm
    refine ⟨⟨_, _, hmS⟩, ⟨_, _, hmM⟩, hne, ?_, ⟨m, restM, hrM, ?_⟩, ?_, divisor_iff.2 hvp,
      ⟨vm, need_some e1, divisor_iff.2 ⟨_, hinv⟩⟩, ?_, ?_, ?_, hKS, hHS, hKM, hHM⟩
    · intro tr htr
      obtain ⟨_, o, sl, _, ho, hsl, -, -⟩ := hsed tr htr
      rw [ho, hsl]; exact ⟨rfl, rfl⟩
    · unfold Trace.getOnset at hom
      cases hq : m.onset with
      | none => rw [hq] at hom; cases hom
      | some q => rfl
    · intro tr htr
      obtain ⟨sl, hsl⟩ := mapM_ok_mem f.hslow htr
      rw [getSlowness_ok.1 hsl]; rfl
    · rw [need_some e2]; rfl
    · rw [need_some e3]; rfl
    · rw [need_some e4]; rfl
  · rintro ⟨⟨dS, moreS, hS⟩, ⟨dM, moreM, hM⟩, hne, hSall, ⟨m0, rm, rfl, hm0⟩, hMall, hVpS, ⟨vm, rfl, hVpM⟩,
      h1, h2, h3, hKS, hHS, hKM, hHM⟩
    obtain ⟨w1M, rfl⟩ := Option.isSome_iff_exists.1 h1
    obtain ⟨w2M, rfl⟩ := Option.isSome_iff_exists.1 h2
    obtain ⟨w3M, rfl⟩ := Option.isSome_iff_exists.1 h3
    obtain ⟨om, hom⟩ := Option.isSome_iff_exists.1 hm0
    have hdS := hsd _ (by simp) _ _ hS
    have hdM := hsd _ (by simp) _ _ hM
    obtain ⟨slows, hslows⟩ := mapM_ok_of_forall (f := Trace.getSlowness) (xs := m0 :: rm) (by
      intro tr htr
      obtain ⟨s, hs⟩ := Option.isSome_iff_exists.1 (hMall tr htr)
      exact ⟨s, getSlowness_ok.2 hs⟩)
    set VS := VpSed.getD ⟨.py, dec 30 1⟩ with hVS
    set t := timeAxis tr0.delta preonset tr0.data.length with ht
    have htlen : t.length = tr0.data.length := timeAxis_length _ _ _
    have htne : t ≠ [] := by
      rw [← List.length_pos_iff, htlen]; exact List.length_pos_iff.2 hne
    have last : ∀ {term : Trace F → Except PyErr F} {st : List (Trace F)}, st ≠ [] →
        (∀ tr ∈ st, ∃ v, term tr = .ok v) → ∃ v, HkSeqYeck.lastTrace term st = .ok v := by
      intro term st hne hall
      obtain ⟨v, hv⟩ := hall _ (List.getLast_mem hne)
      exact ⟨v, lastTrace_ok.2 ⟨st.dropLast, st.getLast hne, (List.dropLast_append_getLast hne).symm,
        fun tr htr => hall tr (List.dropLast_subset _ htr), hv⟩⟩
    obtain ⟨tb, htb⟩ := gridLoop_total (K := KS) (H := HS)
      (value := fun k x => HkSeqYeck.lastTrace (HkSeqYeck.sedTerm env t dS (npMean (slows.map Scalar.val)) VS
        (w1S.getD (dec 6 1)) (w2S.getD (dec 3 1)) (w3S.getD (dec 1 1)) (stack.getD false) k x)
        (tr0 :: restS)) (by
      intro k _ x _
      refine last (by simp) ?_
      intro tr htr
      obtain ⟨o, ho⟩ := Option.isSome_iff_exists.1 (hSall tr htr).1
      obtain ⟨s, hs⟩ := Option.isSome_iff_exists.1 (hSall tr htr).2
      have hl : tr0.data.length ≤ tr.data.length := by
        rcases List.mem_cons.1 htr with rfl | htr
        · exact le_rfl
        · exact hlen tr (List.mem_append_left _ htr)
      rw [sedTerm_eq]
      simp only [Trace.getOnset, ho, getSlowness_ok.2 hs, except_ok_bind]
      obtain ⟨ts, hts⟩ := bestTimes_total (divisor_vpOk hVpS)
        (if stack.getD false then Kind.np else s.kind)
        (if stack.getD false then env.km2deg1 * npMean (slows.map Scalar.val)
          else env.km2deg1 * s.val) x k
      obtain ⟨v, hv⟩ := weigh_total (w1 := w1S.getD (dec 6 1)) (w2 := w2S.getD (dec 3 1))
        (w3 := w3S.getD (dec 1 1)) (d := if stack.getD false then dS else tr.data) htne
        (by split <;> omega) ts
      rw [hts, except_ok_bind, hv]; exact ⟨_, rfl⟩)
    have hpos : 0 < tb.length := by
      rw [(gridLoop_ok htb).1]
      exact Nat.mul_pos (List.length_pos_iff.2 hKS) (List.length_pos_iff.2 hHS)
    obtain ⟨best, hbest⟩ := argmax_ok (xs := tb.map Row.s) (by
      rw [← List.length_pos_iff, List.length_map]; exact hpos)
    obtain ⟨row, hrow⟩ := argmax_bestmodel hbest
    obtain ⟨raw, hraw⟩ := gridLoop_total (K := KM) (H := HM)
      (value := fun k x => HkSeqYeck.lastTrace (HkSeqYeck.mohoTerm env (m0 :: rm) t dM
        (npMean (slows.map Scalar.val)) VS
        row.h row.k (some vm) (some w1M) (some w2M) (some w3M) (stack.getD false) k x) (m0 :: rm)) (by
      intro k _ x _
      refine last (by simp) ?_
      intro tr htr
      obtain ⟨s, hs⟩ := Option.isSome_iff_exists.1 (hMall tr htr)
      have hl := hlen tr (List.mem_append_right _ htr)
      rw [mohoTerm_eq]
      simp only [item, List.getElem?_cons_zero, Trace.getOnset, hom, getSlowness_ok.2 hs,
        except_ok_bind]
      obtain ⟨ts, hts⟩ := mohoTimes_total (divisor_vpOk hVpS) (divisor_vpOk hVpM)
        (if stack.getD false then Kind.np else s.kind)
        (if stack.getD false then env.km2deg1 * npMean (slows.map Scalar.val)
          else env.km2deg1 * s.val) row.h row.k x k
      obtain ⟨v, hv⟩ := weigh_total (w1 := w1M) (w2 := w2M)
        (w3 := w3M) (d := if stack.getD false then dM else tr.data) htne
        (by split <;> omega) ts
      rw [hts, except_ok_bind, hv]; exact ⟨_, rfl⟩)
    have hpos2 : 0 < raw.length := by
      rw [(gridLoop_ok hraw).1]
      exact Nat.mul_pos (List.length_pos_iff.2 hKM) (List.length_pos_iff.2 hHM)
    obtain ⟨bestM, hbestM⟩ := argmax_ok (xs := raw.map Row.s) (by
      rw [← List.length_pos_iff, List.length_map]; exact hpos2)
    refine ⟨_, hkSeq_of hS hM hslows htb hbest (hdraw tb (List.length_pos_iff.1 hpos)) hrow hraw
      hbestM (hdraw _ ?_)⟩
    rw [← List.length_pos_iff, clipLoop_eq, List.length_map]; exact hpos2

end generic

/-! ## Concrete calls -/

/-- the hypotheses of `c104_hk` for two traces of five samples -/
theorem sample_total_hyps (a b : Trace ℝ) (ha : a.data.length = 5) (hb : b.data.length = 5) :
    (∀ x ∈ [a, b], ∀ y ∈ [a, b], x.data.length = y.data.length) ∧
    (∀ sd more, Sample.env.stack [a, b] = .ok (sd :: more) → ∀ x ∈ [a, b], x.data.length ≤ sd.length) := by
  constructor
  · intro x hx y hy
    simp only [List.mem_cons, List.not_mem_nil, or_false] at hx hy
    rcases hx with rfl | rfl <;> rcases hy with rfl | rfl <;> omega
  · intro sd more h x hx
    have h := Except.ok.inj h
    injection h with h1 _
    rw [← h1, List.length_map, List.length_range, ha]
    simp only [List.mem_cons, List.not_mem_nil, or_false] at hx
    rcases hx with rfl | rfl <;> omega

/-- the sample stream: a result; with one slowness removed, or with velocity zero: none -/
example (layer : Option String) :
    (∃ r, hk Sample.env Sample.stream 1 [30, 35] [1.7, 1.8, 1.9] (some ⟨.py, (6.5 : ℝ)⟩) none none none layer
      (some true) = .ok r) ∧
    (¬ ∃ r, hk Sample.env [Sample.trace [0, 1, 3, 2, 0] 6, { Sample.trace [1, 1, 2, 0, -1] 7 with slowness := none }]
      1 [30, 35] [1.7, 1.8, 1.9] (some ⟨.py, (6.5 : ℝ)⟩) none none none layer (some true) = .ok r) ∧
    (¬ ∃ r, hk Sample.env Sample.stream 1 [30, 35] [1.7, 1.8, 1.9] (some ⟨.py, (0 : ℝ)⟩) none none none layer
      (some true) = .ok r) ∧
    (∃ r, hk Sample.env Sample.stream 1 [30, 35] [1.7, 1.8, 1.9] (some ⟨.np, (0 : ℝ)⟩) none none none layer
      (some true) = .ok r) := by
  have hh := sample_total_hyps (Sample.trace [0, 1, 3, 2, 0] 6) (Sample.trace [1, 1, 2, 0, -1] 7) rfl rfl
  have hall : ∀ tr ∈ Sample.stream, tr.data ≠ [] ∧ tr.onset.isSome ∧ tr.slowness.isSome := by
    intro tr htr
    simp only [Sample.stream, List.mem_cons, List.not_mem_nil, or_false] at htr
    rcases htr with rfl | rfl <;> simp [Sample.trace]
  refine ⟨?_, ?_, ?_, ?_⟩
  · refine (c104_hk hh.1 hh.2 (fun _ _ => rfl)).2 ⟨by simp [Sample.stream], ⟨_, [], rfl⟩, hall,
      divisor_real (by norm_num), by simp, by simp⟩
  · have hh' := sample_total_hyps (Sample.trace [0, 1, 3, 2, 0] 6)
      { Sample.trace [1, 1, 2, 0, -1] 7 with slowness := none } rfl rfl
    intro h
    have := ((c104_hk hh'.1 hh'.2 (fun _ _ => rfl)).1 h).2.2.1 { Sample.trace [1, 1, 2, 0, -1] 7 with slowness := none }
      (by simp)
    simp at this
  · intro h
    have := ((c104_hk hh.1 hh.2 (fun _ _ => rfl)).1 h).2.2.2.1
    rcases this with h | h
    · cases h
    · simp [PyFloat.eq, PyFloat.zero] at h
  · exact (c104_hk hh.1 hh.2 (fun _ _ => rfl)).2 ⟨by simp [Sample.stream], ⟨_, [], rfl⟩, hall,
      Or.inl rfl, by simp, by simp⟩

/-- `hkSynth`: an empty depth grid gives no result -/
example : (∃ r, SynthAnalysis.hkSynth Sample.env [0, 1, 3] [-1, 0, 1] ⟨.py, 6 / 100⟩ [30] [1.7] none none none none none
      = .ok r) ∧
    ¬ ∃ r, SynthAnalysis.hkSynth Sample.env [0, 1, 3] [-1, 0, 1] ⟨.py, 6 / 100⟩ [] [1.7] none none none none none
      = .ok r := by
  refine ⟨(c104_hkSynth (by simp) (fun _ _ => rfl)).2 ⟨by simp, ?_, by simp, by simp⟩, fun h => ?_⟩
  · exact divisor_real (by norm_num)
  · exact ((c104_hkSynth (by simp) (fun _ _ => rfl)).1 h).2.2.2 rfl

/-- `hkYu`: the documented call without `VsSed` fails, with it there is a result -/
example (vs : Option (Scalar ℝ)) (hvs : vs = none ∨ vs = some ⟨.py, 1⟩) :
    (∃ r, HkYu.hkYu Sample.env sampleFlt ⟨.py, 6 / 100⟩ [30, 35, 40] [17 / 10, 18 / 10] none none vs
      (some (6 / 10)) (some (3 / 10)) (some (1 / 10)) = .ok r) ↔ vs = some ⟨.py, 1⟩ := by
  rw [c104_hkYu (by simp [sampleFlt]) (fun _ _ => rfl)]
  have e : ∀ n : ℝ, n ≠ 0 → Divisor (⟨.py, n⟩ : Scalar ℝ) := fun n h => divisor_real h
  constructor
  · rintro ⟨-, -, ⟨v, hv, -⟩, -⟩
    rcases hvs with h | h
    · rw [h] at hv; cases hv
    · exact h
  · rintro rfl
    exact ⟨by simp [sampleFlt], e _ (by norm_num), ⟨_, rfl, Or.inr (e _ (by norm_num)),
      Or.inr (Or.inr (e _ (by norm_num)))⟩, rfl, rfl, rfl, by simp, by simp⟩

/-- `hkSeqSynth`: the Moho velocity is required -/
example (vm : Option (Scalar ℝ)) (hv : ∀ v, vm = some v → v.val ≠ 0) :
    (∃ r, SynthAnalysis.hkSeqSynth Sample.env [0, 1, 3] [0, 1, 2] [-1, 0, 1] ⟨.py, 6 / 100⟩ [1, 2] [2, 3]
      none none none none [30, 35] [17 / 10, 18 / 10] vm (some (6 / 10)) (some (3 / 10)) (some (1 / 10)) = .ok r) ↔
      vm.isSome := by
  rw [c104_hkSeqSynth (by simp) (by simp) (fun _ _ => rfl)]
  constructor
  · rintro ⟨-, -, ⟨v, rfl, -⟩, -⟩; rfl
  · intro h
    obtain ⟨v, rfl⟩ := Option.isSome_iff_exists.1 h
    exact ⟨by simp, divisor_real (by norm_num), ⟨v, rfl, divisor_real (hv v rfl)⟩, rfl, rfl, rfl, by simp, by simp,
      by simp, by simp⟩

/-- `hkSeq`: the second Moho trace needs no onset, the second sediment trace does -/
example :
    (∃ r, HkSeqYeck.hkSeq Sample.env Sample.stream
      [Sample.trace [0, 1, 3, 2, 0] 6, { Sample.trace [1, 1, 2, 0, -1] 7 with onset := none }] 1
      [1, 2] [2, 3] none none none none [30, 35] [17 / 10, 18 / 10] (some ⟨.py, 65 / 10⟩)
      (some (6 / 10)) (some (3 / 10)) (some (1 / 10)) none = .ok r) ∧
    ¬ ∃ r, HkSeqYeck.hkSeq Sample.env
      [Sample.trace [0, 1, 3, 2, 0] 6, { Sample.trace [1, 1, 2, 0, -1] 7 with onset := none }] Sample.stream 1
      [1, 2] [2, 3] none none none none [30, 35] [17 / 10, 18 / 10] (some ⟨.py, 65 / 10⟩)
      (some (6 / 10)) (some (3 / 10)) (some (1 / 10)) none = .ok r := by
  have hyps : ∀ (a b c d : Trace ℝ), a.data.length = 5 → b.data.length = 5 → c.data.length = 5 → d.data.length = 5 →
      (∀ tr ∈ [b] ++ [c, d], a.data.length ≤ tr.data.length) ∧
      (∀ st ∈ [[a, b], [c, d]], ∀ sd more, Sample.env.stack st = .ok (sd :: more) → a.data.length ≤ sd.length) := by
    intro a b c d ha hb hc hd
    constructor
    · intro tr htr
      simp only [List.cons_append, List.nil_append, List.mem_cons, List.not_mem_nil, or_false] at htr
      rcases htr with rfl | rfl | rfl <;> omega
    · intro st hst sd more h
      simp only [List.mem_cons, List.not_mem_nil, or_false] at hst
      rcases hst with rfl | rfl
      · rw [ha, ← ha]; exact (sample_total_hyps a b ha hb).2 sd more h a (by simp)
      · rw [ha, ← hc]; exact (sample_total_hyps c d hc hd).2 sd more h c (by simp)
  constructor
  · have hh := hyps (Sample.trace [0, 1, 3, 2, 0] 6) (Sample.trace [1, 1, 2, 0, -1] 7)
      (Sample.trace [0, 1, 3, 2, 0] 6) { Sample.trace [1, 1, 2, 0, -1] 7 with onset := none } rfl rfl rfl rfl
    refine (c104_hkSeq hh.1 hh.2 (fun _ _ => rfl)).2 ⟨⟨_, [], rfl⟩, ⟨_, [], rfl⟩, by simp [Sample.trace], ?_,
      ⟨_, _, rfl, rfl⟩, ?_, divisor_real (by norm_num), ⟨_, rfl, divisor_real (by norm_num)⟩, rfl, rfl, rfl,
      by simp, by simp, by simp, by simp⟩
    · intro tr htr
      simp only [List.mem_cons, List.not_mem_nil, or_false] at htr
      rcases htr with rfl | rfl <;> simp [Sample.trace]
    · intro tr htr
      simp only [List.mem_cons, List.not_mem_nil, or_false] at htr
      rcases htr with rfl | rfl <;> simp [Sample.trace]
  · have hh := hyps (Sample.trace [0, 1, 3, 2, 0] 6) { Sample.trace [1, 1, 2, 0, -1] 7 with onset := none }
      (Sample.trace [0, 1, 3, 2, 0] 6) (Sample.trace [1, 1, 2, 0, -1] 7) rfl rfl rfl rfl
    intro h
    have := ((c104_hkSeq hh.1 hh.2 (fun _ _ => rfl)).1 h).2.2.2.1
      { Sample.trace [1, 1, 2, 0, -1] 7 with onset := none } (by simp)
    simp at this

end Rfsed.Props
