import Verif.Proofs.FwdSeis3

/-!
# C60–C62, C72–C78: the synthetic seismograms of `synrf`

The layer stack `ls` is handed to the code as the four arrays `alphas ls`, `betas ls`, `rhos ls`,
`hs ls`.  `Spec/Elastic.lean` states the physical problem without reference to the code.
-/

namespace Rfsed.Props
open Rfsed Synrf Spec Matrix Complex

/-- A crust over a mantle half-space, used as the example below. -/
noncomputable def crust : List Layer := [⟨6, 3.5, 2.7, 35⟩, ⟨8, 4.5, 3.3, 40⟩]

theorem crust_propagating : ∀ l ∈ crust, l.Propagating 0.06 := by
  intro l hl
  simp only [crust, List.mem_cons, List.not_mem_nil, or_false] at hl
  rcases hl with rfl | rfl <;> norm_num [Layer.Propagating, abs_of_pos]

private theorem hs_length (ls : List Layer) : (hs ls).length = ls.length := by simp [hs]

section
variable {ω p dt : ℝ} {ls : List Layer} {l : Layer} {ipha : ℤ} {npts : Nat}

/-! ## C72 -/

/-- **C72** In a layer where both waves propagate, a field obeys Hooke's and Newton's laws exactly
if the matrix of `propagator_sol` carries its values from the top of the layer to every depth. -/
theorem c72_propagator (h : l.Propagating p) (hω : ω ≠ 0) (f : ℝ → Fin 4 → ℂ) :
    PSV ω p l f ↔ ∀ z, f z = propagatorSol ω l.ρ l.α l.β p z *ᵥ f 0 :=
  psv_iff_transport h.good hω f

/-- **C72** `e_inverse` splits such a field into its four plane waves: the entries of
`e_inverse * f(0)` are the amplitudes of the P and the S wave travelling down and of the P and the
S wave travelling up. -/
theorem c72_amplitudes (h : l.Propagating p) (hω : ω ≠ 0) {f : ℝ → Fin 4 → ℂ} (hf : PSV ω p l f)
    (z : ℝ) :
    let w := eInverse ω l.ρ l.α l.β p *ᵥ f 0
    (f z 0, f z 1) = w 0 • waveP ω p l false z + w 1 • waveS ω p l false z +
      w 2 • waveP ω p l true z + w 3 • waveS ω p l true z := by
  intro w
  have hg := h.good
  have ht := (psv_iff_transport hg hω f).1 hf z
  have e0 : f 0 = lW ω p l *ᵥ w := by
    change f 0 = lW ω p l *ᵥ (lE ω p l *ᵥ f 0)
    rw [mulVec_mulVec, lW_lE hg hω, one_mulVec]
  have e1 : lp ω p l z * lW ω p l = lW ω p l * Matrix.diagonal (lD ω p l z) := by
    calc lp ω p l z * lW ω p l = lW ω p l * lE ω p l * (lp ω p l z * lW ω p l) := by
          rw [lW_lE hg hω, Matrix.one_mul]
      _ = lW ω p l * (lE ω p l * lp ω p l z) * lW ω p l := by simp only [Matrix.mul_assoc]
      _ = lW ω p l * Matrix.diagonal (lD ω p l z) * (lE ω p l * lW ω p l) := by
          rw [lE_lp hg hω]; simp only [Matrix.mul_assoc]
      _ = _ := by rw [lE_lW hg hω, Matrix.mul_one]
  rw [ht, e0, mulVec_mulVec, e1]
  have a1 : I * ω * (((1 : ℝ) : ℂ) * (vslow l.α p : ℂ)) * z = I * ((ω * vslow l.α p * z : ℝ) : ℂ) := by
    push_cast; ring
  have a2 : I * ω * (((-1 : ℝ) : ℂ) * (vslow l.α p : ℂ)) * z = -I * ((ω * vslow l.α p * z : ℝ) : ℂ) := by
    push_cast; ring
  have b1 : I * ω * (((1 : ℝ) : ℂ) * (vslow l.β p : ℂ)) * z = I * ((ω * vslow l.β p * z : ℝ) : ℂ) := by
    push_cast; ring
  have b2 : I * ω * (((-1 : ℝ) : ℂ) * (vslow l.β p : ℂ)) * z = -I * ((ω * vslow l.β p * z : ℝ) : ℂ) := by
    push_cast; ring
  rw [← mulVec_mulVec]
  ext <;>
    simp only [waveP, waveS, vert_eq, a1, a2, b1, b2, if_true, Bool.false_eq_true, if_false,
      lW, gW, lD, Matrix.mulVec_diagonal, Matrix.mulVec, dotProduct, Fin.sum_univ_four, Prod.fst_add, Prod.snd_add,
      Prod.smul_fst, Prod.smul_snd, smul_eq_mul] <;>
    simp [Matrix.of_apply, Matrix.diagonal_apply] <;> ring

/-! ## C61 -/

/-- **C61** When both waves propagate in all layers, `haskell` returns two numbers, and they are
the one and only solution of the free-surface problem for the incident wave selected by `ipha`. -/
theorem c61_unique_solution (hω : ω ≠ 0) (hn : ls ≠ []) (h : ∀ l ∈ ls, l.Propagating p) :
    ∃ ur uz, haskell ω p ls.length ipha (alphas ls) (betas ls) (rhos ls) (hs ls) = .ok (some (ur, uz)) ∧
      ∀ ur' uz', (∃ A B, Response ω p (refDepth ls hn) ls (if 0 ≤ ipha then .P else .S) ur' uz' A B) ↔
        (ur', uz') = (ur, uz) := by
  have hg : ∀ l ∈ ls, Good p l := fun l hl => (h l hl).good
  exact ⟨_, _, haskell_good hω hn hg, fun ur' uz' => resp_iff hω hn hg ur' uz'⟩

/-- **C61** in time: sample `j` of the radial trace is the inverse Fourier transform of the
surface motion at time `(j+1) dt`, that of the vertical trace its negative (positive upwards). -/
theorem c61_seismograms (hnp : 0 < npts) (hdt : dt ≠ 0) (hn : ls ≠ [])
    (h : ∀ l ∈ ls, l.Propagating p) {U V : ℝ → ℂ}
    (hUV : ∀ ω, ω ≠ 0 → ∃ A B, Response ω p (refDepth ls hn) ls (if 0 ≤ ipha then .P else .S)
      (U ω) (V ω) A B) :
    fwd_seis p dt npts ipha (alphas ls) (betas ls) (rhos ls) (hs ls) =
      .ok (.num ((List.range npts).map (fun j => synthSample (nextPow2 npts) dt U j)),
           .num ((List.range npts).map (fun j => -synthSample (nextPow2 npts) dt V j))) := by
  have hg : ∀ l ∈ ls, Good p l := fun l hl => (h l hl).good
  apply fwd_seis_some hnp hdt U V
  intro ω hω
  have e := (resp_iff (ipha := ipha) hω hn hg (U ω) (V ω)).1 (hUV ω hω)
  have := haskell_good (ipha := ipha) hω hn hg
  rw [← e] at this
  rw [hs_length]
  exact this

/-- the hypotheses of `c61_seismograms` can be met for every stack and slowness -/
theorem c61_exists (hn : ls ≠ []) (h : ∀ l ∈ ls, l.Propagating p) :
    ∃ U V : ℝ → ℂ, ∀ ω, ω ≠ 0 → ∃ A B, Response ω p (refDepth ls hn) ls (if 0 ≤ ipha then .P else .S)
      (U ω) (V ω) A B := by
  have hg : ∀ l ∈ ls, Good p l := fun l hl => (h l hl).good
  exact ⟨fun ω => (resp p ls hn ipha ω).1, fun ω => (resp p ls hn ipha ω).2, fun ω hω =>
    (resp_iff hω hn hg _ _).2 rfl⟩

example : ∃ ur uz, haskell 3 0.06 2 1 [6, 8] [3.5, 4.5] [2.7, 3.3] [35, 40] = .ok (some (ur, uz)) := by
  obtain ⟨ur, uz, h, -⟩ := c61_unique_solution (ω := 3) (ipha := 1) (by norm_num) (by simp [crust]) crust_propagating
  exact ⟨ur, uz, h⟩

/-! ## C74 -/

/-- **C74** Energy is conserved: the downgoing waves carry as much energy flux away from the stack
as the incident wave brings (a unit P wave `α² ξ`, a unit S wave `β² η`, times `ρ ω² / 2`). -/
theorem c74_energy (hω : ω ≠ 0) (hn : ls ≠ []) (h : ∀ l ∈ ls, l.Propagating p) (inc : Incident)
    {ur uz A B : ℂ} (hr : Response ω p (refDepth ls hn) ls inc ur uz A B) :
    let l := ls.getLast hn
    l.α ^ 2 * vert l.α p * ‖A‖ ^ 2 + l.β ^ 2 * vert l.β p * ‖B‖ ^ 2 =
      match inc with
      | .P => l.α ^ 2 * vert l.α p
      | .S => l.β ^ 2 * vert l.β p := by
  intro l
  have hg : ∀ l ∈ ls, Good p l := fun l hl => (h l hl).good
  rw [response_iff hω hn hg] at hr
  obtain ⟨M, hM, e, -⟩ := slMat_factor hn hω hg
  rw [e] at hr
  have := energy_of_conserve (getLast_good hn hg) hω hM ur uz _ hr
  rw [vert_eq, vert_eq]
  cases inc
  · simp [incVec] at this ⊢
    linarith
  · simp [incVec] at this ⊢
    linarith

example : ∃ ur uz A B, Response 3 0.06 40 crust .P ur uz A B ∧
    64 * vert 8 0.06 * ‖A‖ ^ 2 + 4.5 ^ 2 * vert 4.5 0.06 * ‖B‖ ^ 2 = 64 * vert 8 0.06 := by
  obtain ⟨U, V, h⟩ := c61_exists (ipha := 1) (by simp [crust]) crust_propagating
  obtain ⟨A, B, h⟩ := h 3 (by norm_num)
  refine ⟨U 3, V 3, A, B, ?_, ?_⟩
  · simpa [refDepth, crust] using h
  · have := c74_energy (by norm_num) _ crust_propagating _ h
    simp only [crust, List.getLast_cons_cons, List.getLast_singleton] at this
    norm_num at this ⊢
    exact this

/-! ## C73 -/

/-- **C73** For layers of solid material the seismograms are numbers exactly if both waves
propagate in every layer; otherwise (`|p|` at or beyond a critical slowness `1/α`, `1/β` of any
layer) every sample of both traces is NaN.  No exception is raised in either case. -/
theorem c73_finite_iff_subcritical (hnp : 2 ≤ npts) (hdt : dt ≠ 0) (hn : ls ≠ [])
    (hpos : ∀ l ∈ ls, 0 < l.α ∧ 0 < l.β ∧ 0 < l.ρ) :
    ((∀ l ∈ ls, |p| < 1 / l.α ∧ |p| < 1 / l.β) → ∃ x y : List ℝ,
      fwd_seis p dt npts ipha (alphas ls) (betas ls) (rhos ls) (hs ls) = .ok (.num x, .num y)) ∧
    ((∃ l ∈ ls, 1 / l.α ≤ |p| ∨ 1 / l.β ≤ |p|) →
      fwd_seis p dt npts ipha (alphas ls) (betas ls) (rhos ls) (hs ls) = .ok (.nan npts, .nan npts)) := by
  constructor
  · intro h
    have hp : ∀ l ∈ ls, l.Propagating p := fun l hl =>
      ⟨(hpos l hl).1, (hpos l hl).2.1, (hpos l hl).2.2, (h l hl).1, (h l hl).2⟩
    obtain ⟨U, V, hUV⟩ := c61_exists (ipha := ipha) hn hp
    exact ⟨_, _, c61_seismograms (by omega) hdt hn hp hUV⟩
  · rintro ⟨l, hl, hcrit⟩
    apply fwd_seis_none hnp hdt
    intro ω hω
    have := haskell_eq (ω := ω) (p := p) ls hn ipha
    rw [if_pos] at this
    · simpa [hs] using this
    · left
      intro hfin
      have hlf : layerFinite l.α l.β p := by
        rw [allFinite_iff] at hfin
        cases ls with
        | nil => simp at hl
        | cons k ks =>
          rcases List.mem_cons.1 hl with rfl | hl
          · exact hfin.1
          · exact (hfin.2 l hl).1
      obtain ⟨-, -, h1, h2⟩ := hlf
      have key : ∀ v : ℝ, 0 < v → 0 < 1 / (v * v) - p * p → ¬ 1 / v ≤ |p| := by
        intro v hv h1 h2
        have h3 : (1 / v) ^ 2 ≤ |p| ^ 2 := pow_le_pow_left₀ (by positivity) h2 2
        rw [sq_abs, div_pow, one_pow, pow_two, pow_two] at h3
        linarith
      rcases hcrit with hc | hc
      · exact key _ (hpos l hl).1 h1 hc
      · exact key _ (hpos l hl).2.1 h2 hc

/-- a sharp bend of the example: slowness 0.13 s/km is beyond critical for the mantle (`1/8`) -/
example : fwd_seis 0.13 0.1 2500 1 [6, 8] [3.5, 4.5] [2.7, 3.3] [35, 40] = .ok (.nan 2500, .nan 2500) := by
  have := (c73_finite_iff_subcritical (p := 0.13) (dt := 0.1) (npts := 2500) (ipha := 1) (ls := crust)
    (by norm_num) (by norm_num) (by simp [crust]) (by simp [crust]; norm_num)).2
    ⟨⟨8, 4.5, 3.3, 40⟩, by simp [crust], Or.inl (by norm_num [abs_of_pos])⟩
  exact this

/-! ## C62 -/

/-- **C62** Whatever the model: if `fwd_seis` returns, it returns two traces of `npts` samples,
both of numbers or both of NaN. -/
theorem c62_shape {a b r h : List ℝ} {ur uz : Samples}
    (hf : fwd_seis p dt npts ipha a b r h = .ok (ur, uz)) :
    (ur = .nan npts ∧ uz = .nan npts) ∨
    (∃ x y : List ℝ, ur = .num x ∧ uz = .num y ∧ x.length = npts ∧ y.length = npts) := by
  have hle := le_nextPow2 npts
  unfold fwd_seis at hf
  obtain ⟨spec, hs, hf⟩ := bind_eq_ok.1 hf
  split_ifs at hf with h0
  match spec, hs, hf with
  | none, hs, hf =>
    have e := Except.ok.inj hf
    simp only [Samples.take, min_eq_left hle, Prod.mk.injEq] at e
    exact Or.inl ⟨e.1.symm, e.2.symm⟩
  | some (U, V), hs, hf =>
    have e := Except.ok.inj hf
    simp only [Samples.take, Prod.mk.injEq] at e
    refine Or.inr ⟨_, _, e.1.symm, e.2.symm, ?_, ?_⟩ <;> simp [toRe, ifft, hle]

/-- **C62** The traces are the beginning of the full FFT-length traces (those computed with `npts`
rounded up to a power of two), and the samples of a full-length trace add up to zero. -/
theorem c62_no_offset {a b r h x y : List ℝ}
    (hf : fwd_seis p dt npts ipha a b r h = .ok (.num x, .num y)) :
    ∃ x' y' : List ℝ, fwd_seis p dt (nextPow2 npts) ipha a b r h = .ok (.num x', .num y') ∧
      x = x'.take npts ∧ y = y'.take npts ∧ x'.sum = 0 ∧ y'.sum = 0 := by
  unfold fwd_seis at hf ⊢
  rw [nextPow2_idem]
  obtain ⟨spec, hs, hf⟩ := bind_eq_ok.1 hf
  split_ifs at hf with h0
  match spec, hs, hf with
  | none, hs, hf =>
    have e := Except.ok.inj hf
    simp [Samples.take] at e
  | some (U, V), hs, hf =>
    have e := Except.ok.inj hf
    simp only [Samples.take, Prod.mk.injEq, Samples.num.injEq] at e
    have hinv := fwdSpectra_inv hs
    refine ⟨(toRe (ifft U (nextPow2 npts))).reverse.map (fun x : ℝ => x / (nextPow2 npts : Nat)),
      ((toRe (ifft V (nextPow2 npts))).map (fun x : ℝ => -x)).reverse.map (fun x : ℝ => x / (nextPow2 npts : Nat)),
      ?_, e.1.symm, e.2.symm, ?_, ?_⟩
    · simp only []
      rw [hs, okBind, if_neg h0]
      simp only [Samples.take, pure, Except.pure]
      congr 3 <;> rw [List.take_of_length_le] <;> simp [toRe, ifft]
    · have h1 : ∀ (c : ℝ) (z : List ℝ), (z.map (fun x => x / c)).sum = z.sum / c := by
        intro c z
        simp only [div_eq_mul_inv, List.sum_map_mul_right, List.map_id']
      rw [h1, List.sum_reverse, ifft_sum U hinv.1.2, zero_div]
    · have h1 : ∀ (c : ℝ) (z : List ℝ), (z.map (fun x => x / c)).sum = z.sum / c := by
        intro c z
        simp only [div_eq_mul_inv, List.sum_map_mul_right, List.map_id']
      have h2 : ∀ z : List ℝ, (z.map (fun x => -x)).sum = -z.sum := by
        intro z
        induction z with
        | nil => simp
        | cons a z ih => simp [ih]; ring
      rw [h1, List.sum_reverse, h2, ifft_sum V hinv.2.2, neg_zero, zero_div]

example : ∃ x y : List ℝ, fwd_seis 0.06 0.1 1000 1 [6, 8] [3.5, 4.5] [2.7, 3.3] [35, 40] = .ok (.num x, .num y) :=
  (c73_finite_iff_subcritical (p := 0.06) (dt := 0.1) (npts := 1000) (ipha := 1) (ls := crust)
    (by norm_num) (by norm_num) (by simp [crust]) (by simp [crust]; norm_num)).1
    (fun l hl => (crust_propagating l hl).2.2.2)

/-! ## C60 -/

/-- **C60** A layer of a stack may be split into two layers of the same material with the same
total thickness: the surface motion stays the same (also where it is NaN). -/
theorem c60_split (xs ys : List Layer) (hlen : xs ++ ys ≠ []) (α β ρ h₁ h₂ : ℝ) (hρ : ρ ≠ 0)
    (hω : ω ≠ 0) :
    let old := xs ++ ⟨α, β, ρ, h₁ + h₂⟩ :: ys
    let new := xs ++ ⟨α, β, ρ, h₁⟩ :: ⟨α, β, ρ, h₂⟩ :: ys
    haskell ω p new.length ipha (alphas new) (betas new) (rhos new) (hs new) =
      haskell ω p old.length ipha (alphas old) (betas old) (rhos old) (hs old) := by
  intro old new
  let l : Layer := ⟨α, β, ρ, 0⟩
  have h1 : new = xs ++ withH l h₁ :: withH l h₂ :: ys := rfl
  have h2 : old = xs ++ withH l (h₁ + h₂) :: ys := rfl
  rw [h1, h2]
  have hr : l.ρ ≠ 0 := hρ
  refine haskell_congr (by simp) (by simp) (split_finite xs ys h₁ h₂ hr) ?_
  intro hf
  exact split_slMat xs ys h₁ h₂ hω (split_good xs ys h₁ h₂ hr ((split_finite xs ys h₁ h₂ hr).1 hf)) hlen _ _

/-- **C60** … and so do the seismograms. -/
theorem c60_split_seismograms (xs ys : List Layer) (hlen : xs ++ ys ≠ []) (α β ρ h₁ h₂ : ℝ)
    (hρ : ρ ≠ 0) :
    let old := xs ++ ⟨α, β, ρ, h₁ + h₂⟩ :: ys
    let new := xs ++ ⟨α, β, ρ, h₁⟩ :: ⟨α, β, ρ, h₂⟩ :: ys
    fwd_seis p dt npts ipha (alphas new) (betas new) (rhos new) (hs new) =
      fwd_seis p dt npts ipha (alphas old) (betas old) (rhos old) (hs old) := by
  intro old new
  apply fwd_seis_congr
  intro ω hω
  have := c60_split (p := p) (ipha := ipha) xs ys hlen α β ρ h₁ h₂ hρ hω
  rw [hs_length, hs_length]
  exact this

/-- **C60** A layer of thickness zero above the half-space has no effect. -/
theorem c60_zero_layer (xs ys : List Layer) (hys : ys ≠ []) (hlen : 2 ≤ (xs ++ ys).length)
    (hρ : ∀ k ∈ ys, k.ρ ≠ 0) (h : l.Propagating p) (hz : l.h = 0) :
    fwd_seis p dt npts ipha (alphas (xs ++ l :: ys)) (betas (xs ++ l :: ys)) (rhos (xs ++ l :: ys))
        (hs (xs ++ l :: ys)) =
      fwd_seis p dt npts ipha (alphas (xs ++ ys)) (betas (xs ++ ys)) (rhos (xs ++ ys)) (hs (xs ++ ys)) := by
  apply fwd_seis_congr
  intro ω hω
  have hl : l = withH l 0 := by cases l; simp only at hz; subst hz; rfl
  have hg := h.good
  have hne : xs ++ ys ≠ [] := by simp [hys]
  have := haskell_congr (ls := xs ++ l :: ys) (ls' := xs ++ ys) (p := p) (p' := p) (ω := ω) (ω' := ω)
    (ipha := ipha) (by simp) hne ?_ ?_
  · simpa [hs] using this
  · constructor
    · rw [hl]; exact zero_finite xs ys hg hne
    · rw [allFinite_iff, allFinite_iff]
      cases xs with
      | nil =>
        cases ys with
        | nil => exact absurd rfl hys
        | cons y ys =>
          simp only [List.nil_append, List.forall_mem_cons]
          rintro ⟨h1, h2⟩
          exact ⟨hg.1, ⟨h1, hρ y (by simp)⟩, h2⟩
      | cons x xs =>
        simp only [List.cons_append, List.forall_mem_append, List.forall_mem_cons]
        rintro ⟨h1, h2, h3⟩
        exact ⟨h1, h2, hg, h3⟩
  · intro _
    have := zero_slMat (ω := ω) (p := p) (l := l) xs ys hys hlen (by simp) hne
    have e : xs ++ l :: ys = xs ++ withH l 0 :: ys := by rw [← hl]
    rw [← this]
    congr 1

example : fwd_seis 0.06 0.1 1000 1 [6, 6, 8] [3.5, 3.5, 4.5] [2.7, 2.7, 3.3] [10, 25, 40] =
    fwd_seis 0.06 0.1 1000 1 [6, 8] [3.5, 4.5] [2.7, 3.3] [35, 40] := by
  have := c60_split_seismograms (p := 0.06) (dt := 0.1) (npts := 1000) (ipha := 1) [] [⟨8, 4.5, 3.3, 40⟩]
    (by simp) 6 3.5 2.7 10 25 (by norm_num)
  norm_num [alphas, betas, rhos, hs] at this ⊢
  exact this

/-! ## C75 -/

/-- **C75** The thickness of the last layer of a stack only delays: increasing it by `Δ` multiplies
the surface motion by the phase factor of the travel time of the incident wave through `Δ`. -/
theorem c75_last_thickness (xs : List Layer) (hxs : xs ≠ []) (hω : ω ≠ 0)
    (h : ∀ k ∈ xs ++ [l], k.Propagating p) (Δ : ℝ) {ur uz : ℂ}
    (hold : haskell ω p (xs ++ [l]).length ipha (alphas (xs ++ [l])) (betas (xs ++ [l]))
      (rhos (xs ++ [l])) (hs (xs ++ [l])) = .ok (some (ur, uz))) :
    let new := xs ++ [{ l with h := l.h + Δ }]
    let delay := (if 0 ≤ ipha then vert l.α p else vert l.β p) * Δ
    haskell ω p new.length ipha (alphas new) (betas new) (rhos new) (hs new) =
      .ok (some (exp (I * (ω * delay : ℝ)) * ur, exp (I * (ω * delay : ℝ)) * uz)) := by
  intro new delay
  have hg : ∀ k ∈ xs ++ [l], Good p k := fun k hk => (h k hk).good
  have hgl : Good p l := hg l (by simp)
  have hgn : ∀ k ∈ new, Good p k := by
    intro k hk
    rcases List.mem_append.1 hk with hk | hk
    · exact hg k (by simp [hk])
    · rw [List.mem_singleton.1 hk]; exact ⟨hgl.1, hgl.2⟩
  have hn : new ≠ [] := by simp [new]
  rw [haskell_good hω (by simp) hg] at hold
  have hold := Option.some.inj (Except.ok.inj hold)
  rw [haskell_good hω hn hgn]
  have := resp_last (ipha := ipha) xs hxs hω hgl l.h Δ (by simp) (by simp)
  have e : xs ++ [withH l l.h] = xs ++ [l] := by cases l; rfl
  have e' : new = xs ++ [withH l (l.h + Δ)] := rfl
  simp only [e'] at *
  rw [this]
  have e2 : resp p (xs ++ [withH l l.h]) (by simp) ipha ω = (ur, uz) := by
    rw [← hold]
    congr 1
  rw [e2]
  rfl

/-- **C75** in time: if the extra travel time is `s` samples, the traces move by `s` samples. -/
theorem c75_time_shift (xs : List Layer) (hxs : xs ≠ []) (hnp : 0 < npts) (hdt : dt ≠ 0)
    (h : ∀ k ∈ xs ++ [l], k.Propagating p) (Δ : ℝ) (s : Nat)
    (hs' : (if 0 ≤ ipha then vert l.α p else vert l.β p) * Δ = s * dt) :
    let old := xs ++ [l]
    let new := xs ++ [{ l with h := l.h + Δ }]
    ∃ x y x' y' : List ℝ,
      fwd_seis p dt npts ipha (alphas old) (betas old) (rhos old) (hs old) = .ok (.num x, .num y) ∧
      fwd_seis p dt npts ipha (alphas new) (betas new) (rhos new) (hs new) = .ok (.num x', .num y') ∧
      x.length = npts ∧ y.length = npts ∧ x'.length = npts ∧ y'.length = npts ∧
      ∀ j, j + s < npts → x'.getD (j + s) 0 = x.getD j 0 ∧ y'.getD (j + s) 0 = y.getD j 0 := by
  intro old new
  have hg : ∀ k ∈ old, Good p k := fun k hk => (h k hk).good
  have hno : old ≠ [] := by simp [old]
  have hf : ∀ ω, ω ≠ 0 → haskell ω p (hs old).length ipha (alphas old) (betas old) (rhos old) (hs old) =
      .ok (some ((resp p old hno ipha ω).1, (resp p old hno ipha ω).2)) := by
    intro ω hω
    have := haskell_good (ipha := ipha) hω hno hg
    simpa [hs] using this
  set c : ℝ → ℂ := fun ω => exp (I * (ω * (s * dt) : ℝ)) with hc
  have hf' : ∀ ω, ω ≠ 0 → haskell ω p (hs new).length ipha (alphas new) (betas new) (rhos new) (hs new) =
      .ok (some (c ω * (resp p old hno ipha ω).1, c ω * (resp p old hno ipha ω).2)) := by
    intro ω hω
    have h1 := haskell_good (ipha := ipha) hω hno hg
    have h2 := c75_last_thickness (ipha := ipha) xs hxs hω h Δ h1
    simp only [hs'] at h2
    rw [hs_length]
    exact h2
  refine ⟨_, _, _, _, fwd_seis_some hnp hdt _ _ hf, fwd_seis_some hnp hdt _ _ hf', by simp, by simp, by simp,
    by simp, ?_⟩
  intro j hj
  have hn0 : 0 < nextPow2 npts := lt_of_lt_of_le hnp (le_nextPow2 npts)
  rw [getD_map_range _ _ _ hj, getD_map_range _ _ _ hj, getD_map_range _ _ _ (by omega),
    getD_map_range _ _ _ (by omega)]
  exact ⟨synthSample_shift _ _ s (fun ω _ => rfl) hn0 hdt j,
    congrArg Neg.neg (synthSample_shift _ _ s (fun ω _ => rfl) hn0 hdt j)⟩

/-- at vertical incidence, 4 more kilometres of mantle with 8 km/s delay by 5 samples of 0.1 s -/
example : (if 0 ≤ (1 : ℤ) then vert 8 0 else vert 4.5 0) * 4 = (5 : Nat) * (0.1 : ℝ) := by
  rw [if_pos (by norm_num), vert]
  rw [show (1 / 8 ^ 2 - 0 ^ 2 : ℝ) = (1 / 8) ^ 2 by norm_num, Real.sqrt_sq (by norm_num)]
  norm_num

/-! ## C76 -/

/-- **C76** Reversing the sign of the slowness reverses the radial component (incident P) or the
vertical component (incident S) of the surface motion and leaves the other unchanged; NaN stays
NaN. -/
theorem c76_reverse_slowness (hn : ls ≠ []) :
    haskell ω (-p) ls.length ipha (alphas ls) (betas ls) (rhos ls) (hs ls) =
      (haskell ω p ls.length ipha (alphas ls) (betas ls) (rhos ls) (hs ls)).map (fun o => o.map (fun u =>
        if 0 ≤ ipha then (-u.1, u.2) else (u.1, -u.2))) :=
  haskell_neg hn

/-- **C76** At vertical incidence a P wave moves the surface only vertically: the radial trace is
zero; an S wave moves it only horizontally. -/
theorem c76_vertical_incidence (hnp : 0 < npts) (hdt : dt ≠ 0) (hn : ls ≠ [])
    (h : ∀ l ∈ ls, l.Propagating 0) :
    ∃ x y : List ℝ,
      fwd_seis 0 dt npts ipha (alphas ls) (betas ls) (rhos ls) (hs ls) = .ok (.num x, .num y) ∧
      (0 ≤ ipha → x = List.replicate npts 0) ∧ (ipha < 0 → y = List.replicate npts 0) := by
  have hg : ∀ k ∈ ls, Good 0 k := fun k hk => (h k hk).good
  set U : ℝ → ℂ := fun ω => (resp 0 ls hn ipha ω).1
  set V : ℝ → ℂ := fun ω => (resp 0 ls hn ipha ω).2
  have hf : ∀ ω, ω ≠ 0 → haskell ω 0 ls.length ipha (alphas ls) (betas ls) (rhos ls) (hs ls) =
      .ok (some (U ω, V ω)) := fun ω hω => haskell_good hω hn hg
  have hz : ∀ ω, ω ≠ 0 → (0 ≤ ipha → U ω = 0) ∧ (ipha < 0 → V ω = 0) := by
    intro ω hω
    have h1 := c76_reverse_slowness (ω := ω) (p := 0) (ipha := ipha) hn
    rw [neg_zero, hf ω hω] at h1
    have h2 : (U ω, V ω) = if 0 ≤ ipha then (-U ω, V ω) else (U ω, -V ω) :=
      Option.some.inj (Except.ok.inj h1)
    constructor
    · intro hi
      rw [if_pos hi, Prod.mk.injEq] at h2
      exact self_eq_neg.1 h2.1
    · intro hi
      rw [if_neg (by omega), Prod.mk.injEq] at h2
      exact self_eq_neg.1 h2.2
  refine ⟨_, _, fwd_seis_some hnp hdt U V (fun ω hω => by simpa [hs] using hf ω hω), ?_, ?_⟩
  all_goals
    intro hi
    have hn0 : 0 < nextPow2 npts := lt_of_lt_of_le hnp (le_nextPow2 npts)
    have hzero : ∀ W : ℝ → ℂ, (∀ ω, ω ≠ 0 → W ω = 0) → ∀ j, synthSample (nextPow2 npts) dt W j = 0 := by
      intro W hW j
      rw [synthSample_congr (V := fun _ => 0) hW hdt hn0]
      simp [synthSample]
    rw [List.eq_replicate_iff]
    refine ⟨by simp, ?_⟩
    intro b hb
    rw [List.mem_map] at hb
    obtain ⟨j, -, rfl⟩ := hb
  · exact hzero U (fun ω hω => (hz ω hω).1 hi) j
  · rw [hzero V (fun ω hω => (hz ω hω).2 hi) j, neg_zero]

example : ∀ l ∈ crust, l.Propagating 0 := by
  intro l hl
  simp only [crust, List.mem_cons, List.not_mem_nil, or_false] at hl
  rcases hl with rfl | rfl <;> norm_num [Layer.Propagating]

/-! ## C77 -/

/-- **C77** The seismograms do not depend on the units: with lengths multiplied by `L`, times by
`T` and densities by `R` (so velocities by `L/T`, slownesses by `T/L`) they stay the same. -/
theorem c77_units {L T R : ℝ} (hL : 0 < L) (hT : 0 < T) (hR : 0 < R) (hn : ls ≠ []) :
    let ls' := ls.map (fun l => (⟨l.α * L / T, l.β * L / T, l.ρ * R, l.h * L⟩ : Layer))
    fwd_seis (p * T / L) (dt * T) npts ipha (alphas ls') (betas ls') (rhos ls') (hs ls') =
      fwd_seis p dt npts ipha (alphas ls) (betas ls) (rhos ls) (hs ls) := by
  intro ls'
  apply fwd_seis_congr' hT
  intro ω hω
  have := haskell_scale (ω := ω) (p := p) (ipha := ipha) hL hT hR hn
  have e : ls' = ls.map (scaleL L T R) := rfl
  rw [← e] at this
  rw [hs_length, hs_length]
  exact this

/-- kilometres to metres, g/cm³ to kg/m³ -/
example : fwd_seis (0.06 * 1 / 1000) (0.1 * 1) 1000 1 [6 * 1000 / 1, 8 * 1000 / 1] [3.5 * 1000 / 1, 4.5 * 1000 / 1]
      [2.7 * 1000, 3.3 * 1000] [35 * 1000, 40 * 1000] =
    fwd_seis 0.06 0.1 1000 1 [6, 8] [3.5, 4.5] [2.7, 3.3] [35, 40] :=
  c77_units (p := 0.06) (dt := 0.1) (npts := 1000) (ipha := 1) (ls := crust) (L := 1000) (T := 1) (R := 1000)
    (by norm_num) (by norm_num) (by norm_num) (by simp [crust])

/-! ## C78 -/

/-- **C78** A single layer is a half-space and its thickness is ignored: the surface moves by the
classical free-surface coefficients, the same for all frequencies. -/
theorem c78_halfspace (hω : ω ≠ 0) (h : l.Propagating p) :
    let ξ := vert l.α p
    let η := vert l.β p
    let b := 1 - 2 * l.β ^ 2 * p ^ 2
    let R := b ^ 2 + 4 * l.β ^ 4 * p ^ 2 * ξ * η
    haskell ω p 1 ipha [l.α] [l.β] [l.ρ] [l.h] = .ok (some (if 0 ≤ ipha then
      (((4 * l.α * l.β ^ 2 * p * ξ * η / R : ℝ) : ℂ), ((-(2 * l.α * ξ * b / R) : ℝ) : ℂ))
      else (((2 * l.β * η * b / R : ℝ) : ℂ), ((4 * l.β ^ 3 * p * ξ * η / R : ℝ) : ℂ)))) := by
  intro ξ η b R
  have := haskell_good (ipha := ipha) (ls := [l]) hω (by simp) (by simpa using h.good)
  rw [resp_halfspace h.good] at this
  exact this

/-- **C78** A stack of two or more layers of one material responds as the half-space with depth
counted from its bottom: the total thickness only delays. -/
theorem c78_homogeneous (hω : ω ≠ 0) (h : l.Propagating p) (zs : List ℝ) (hz : 2 ≤ zs.length)
    {ur uz : ℂ} (h1 : haskell ω p 1 ipha [l.α] [l.β] [l.ρ] [l.h] = .ok (some (ur, uz))) :
    let st := zs.map (fun z => (⟨l.α, l.β, l.ρ, z⟩ : Layer))
    let delay := (if 0 ≤ ipha then vert l.α p else vert l.β p) * zs.sum
    haskell ω p st.length ipha (alphas st) (betas st) (rhos st) (hs st) =
      .ok (some (exp (I * (ω * delay : ℝ)) * ur, exp (I * (ω * delay : ℝ)) * uz)) := by
  intro st delay
  have hne : zs ≠ [] := by rintro rfl; simp at hz
  have hn : st ≠ [] := by simpa [st] using hne
  have hg : ∀ k ∈ st, Good p k := by
    intro k hk
    obtain ⟨z, -, rfl⟩ := List.mem_map.1 hk
    exact ⟨h.good.1, h.good.2⟩
  have hr := haskell_good (ipha := ipha) (ls := [l]) hω (by simp) (by simpa using h.good)
  have h1' := Option.some.inj (Except.ok.inj (hr.symm.trans h1))
  rw [haskell_good hω hn hg]
  have := resp_homogeneous (ipha := ipha) hω h.good zs (by omega) hn (by simp)
  have e : st = zs.map (withH l) := rfl
  rw [h1'] at this
  exact congrArg (fun u => Except.ok (some u)) this

end

end Rfsed.Props
