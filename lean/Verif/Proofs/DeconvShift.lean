import Verif.Proofs.DeconvScale

/-! # Deconvolution and circular shifts of the traces -/

namespace Rfsed.Synrf
open PyFloat Finset Spec

/-- circular shift of an array by `k` samples to the right -/
noncomputable def rot (n : Nat) (k : ℤ) (x : List ℝ) : List ℝ :=
  (List.range n).map (fun m : Nat => x.getD (cyc n (m - k)) 0)

/-- the phase factors of a circular shift -/
noncomputable def ph (n : Nat) (k : ℤ) : List ℂ := (List.range n).map (fun j : Nat => W n (-(k * j)))

theorem rot_length (n : Nat) (k : ℤ) (x : List ℝ) : (rot n k x).length = n := by simp [rot]
theorem ph_length (n : Nat) (k : ℤ) : (ph n k).length = n := by simp [ph]
theorem vmul_length {x y : List ℂ} {n : Nat} (hx : x.length = n) (hy : y.length = n) : (vmul x y).length = n := by
  simp [vmul, hx, hy]

theorem rot_getD {n : Nat} (k : ℤ) (x : List ℝ) {m : Nat} (h : m < n) :
    (rot n k x).getD m 0 = x.getD (cyc n (m - k)) 0 := getD_map_range _ _ _ h

theorem ph_getD {n : Nat} (k : ℤ) {m : Nat} (h : m < n) : (ph n k).getD m 0 = W n (-(k * m)) :=
  getD_map_range _ _ _ h

theorem fft_rot (n : Nat) (k : ℤ) (x : List ℝ) :
    fft (toC (rot n k x)) n = vmul (fft (toC x) n) (ph n k) := by
  apply ext_getD (0 : ℂ)
  · rw [fft_length, vmul_length (fft_length _ _) (ph_length _ _)]
  intro j hj
  rw [fft_length] at hj
  have hn : 0 < n := by omega
  rw [vmul_getD (by rw [fft_length, ph_length]), fft_getD _ hj, fft_getD _ hj, ph_getD _ hj]
  unfold dft
  rw [sum_mul, ← sum_cyc_add hn (-k) (fun m => (toC x).getD m 0 * W n (-(m * j)) * W n (-(k * j)))]
  apply sum_congr rfl
  intro m hm
  have hm := mem_range.1 hm
  rw [toC_getD, rot_getD _ _ hm, toC_getD, mul_assoc, ← W_add]
  rw [show (m : ℤ) + -k = m - k by ring]
  congr 1
  have e : W n (-((cyc n ((m : ℤ) - k) : ℤ) * (j : ℤ)) + -(k * j)) =
      W n ((cyc n ((m : ℤ) - k) : ℤ) * (-(j : ℤ))) * W n (-(k * j)) := by
    rw [← W_add]; congr 1; ring
  rw [e, W_cyc hn, ← W_add]
  congr 1
  ring

theorem ifft_ph {n : Nat} (k : ℤ) {X : List ℂ} (hX : X.length = n) :
    toRe (ifft (vmul X (ph n k)) n) = rot n k (toRe (ifft X n)) := by
  apply ext_getD (0 : ℝ)
  · rw [toRe_length, ifft_length, rot_length]
  intro m hm
  rw [toRe_length, ifft_length] at hm
  have hn : 0 < n := by omega
  rw [rot_getD _ _ hm, toRe_getD, toRe_getD, ifft_getD _ hm, ifft_getD _ (cyc_lt hn _)]
  congr 1
  unfold idft
  congr 1
  apply sum_congr rfl
  intro j hj
  have hj := mem_range.1 hj
  show (vmul X (ph n k)).getD j 0 * _ = X.getD j 0 * _
  rw [vmul_getD (by rw [hX, ph_length]), ph_getD _ hj, mul_assoc, W_cyc hn, ← W_add]
  congr 2
  ring

theorem vmul_comm' (x y : List ℂ) : vmul x y = vmul y x := by
  simp only [vmul]
  rw [List.zipWith_comm]
  congr 1
  funext a b
  exact mul_comm _ _

theorem vmul_assoc' (x y z : List ℂ) : vmul (vmul x y) z = vmul x (vmul y z) := by
  induction x generalizing y z with
  | nil => simp [vmul]
  | cons a x ih =>
    cases y with
    | nil => simp [vmul]
    | cons b y =>
      cases z with
      | nil => simp [vmul]
      | cons c z =>
        have := ih y z
        simp only [vmul, List.zipWith_cons_cons, mul_assoc] at this ⊢
        rw [this]

theorem vmul_map_mul (x y : List ℂ) (d : ℂ) :
    (vmul x y).map (fun z : ℂ => z * d) = vmul (x.map (fun z : ℂ => z * d)) y := by
  simp only [vmul, List.map_zipWith, List.zipWith_map_left]
  congr 1
  funext a b
  ring

theorem gfilter_rot_left {n : Nat} (k : ℤ) (x : List ℝ) {g : List ℂ} (hg : g.length = n) (dt : ℝ) :
    gfilter (rot n k x) n g dt = rot n k (gfilter x n g dt) := by
  unfold gfilter
  simp only
  rw [fft_rot, vmul_assoc', vmul_comm' (ph n k) g, ← vmul_assoc', vmul_map_mul, ifft_ph]
  rw [List.length_map]
  exact vmul_length (fft_length _ _) hg

theorem gfilter_rot_right {n : Nat} (k : ℤ) (x : List ℝ) {g : List ℂ} (hg : g.length = n) (dt : ℝ) :
    gfilter x n (vmul g (ph n k)) dt = rot n k (gfilter x n g dt) := by
  unfold gfilter
  simp only
  rw [← vmul_assoc', vmul_map_mul, ifft_ph]
  rw [List.length_map]
  exact vmul_length (fft_length _ _) hg

theorem ph_conj {n : Nat} (k : ℤ) {A B : List ℂ} (hA : A.length = n) (hB : B.length = n) :
    vmul (vmul A (ph n k)) ((vmul B (ph n k)).map (starRingEnd ℂ)) = vmul A (B.map (starRingEnd ℂ)) := by
  have hBl : (vmul B (ph n k)).length = n := vmul_length hB (ph_length _ _)
  have hAl : (vmul A (ph n k)).length = n := vmul_length hA (ph_length _ _)
  have hc : ∀ (z : List ℂ) (j : Nat), (z.map (starRingEnd ℂ)).getD j 0 = (starRingEnd ℂ) (z.getD j 0) := by
    intro z j
    simp only [List.getD_eq_getElem?_getD, List.getElem?_map]
    cases z[j]? <;> simp
  apply ext_getD (0 : ℂ)
  · rw [vmul_length hAl (by rw [List.length_map, hBl]), vmul_length hA (by rw [List.length_map, hB])]
  intro j hj
  rw [vmul_length hAl (by rw [List.length_map, hBl])] at hj
  rw [vmul_getD (x := vmul A (ph n k)) (by rw [hAl, List.length_map, hBl]),
    vmul_getD (x := A) (y := B.map (starRingEnd ℂ)) (by rw [hA, List.length_map, hB]), hc, hc,
    vmul_getD (by rw [hA, ph_length]), vmul_getD (by rw [hB, ph_length]), ph_getD _ hj, map_mul, W_conj]
  have := W_neg_mul n (-(k * (j : ℤ)))
  linear_combination (A.getD j 0 * (starRingEnd ℂ) (B.getD j 0)) * this

theorem correl_rot (n : Nat) (k : ℤ) (R V : List ℝ) : correl (rot n k R) (rot n k V) n = correl R V n := by
  unfold correl
  rw [fft_rot, fft_rot, ph_conj k (fft_length _ _) (fft_length _ _)]

theorem sumSq_rot {n : Nat} (k : ℤ) {x : List ℝ} (hx : x.length = n) : sumSq (rot n k x) = sumSq x := by
  rcases Nat.eq_zero_or_pos n with rfl | hn
  · rw [List.length_eq_zero_iff] at hx
    subst hx
    rfl
  rw [sumSq_energy (rot_length _ _ _), sumSq_energy hx]
  unfold energy
  rw [← sum_cyc_add hn (-k) (fun m => smp x m ^ 2)]
  apply sum_congr rfl
  intro m hm
  unfold smp
  rw [rot_getD _ _ (mem_range.1 hm)]
  rfl

theorem arrSub_rot {n : Nat} (k : ℤ) {x y : List ℝ} (hx : x.length = n) (hy : y.length = n) :
    arrSub (rot n k x) (rot n k y) = rot n k (arrSub x y) := by
  apply ext_getD (0 : ℝ)
  · rw [arrSub_length (rot_length _ _ _) (rot_length _ _ _), rot_length]
  intro m hm
  rw [arrSub_length (rot_length _ _ _) (rot_length _ _ _)] at hm
  have hn : 0 < n := by omega
  have h1 := arrSub_smp (m := m) (rot_length n k x) (rot_length n k y)
  have h2 := arrSub_smp (m := cyc n (m - k)) hx hy
  unfold smp at h1 h2
  rw [h1, rot_getD _ _ hm, rot_getD _ _ hm, rot_getD _ _ hm, h2]

/-- the loop constants for both traces shifted -/
noncomputable def rotConst (k : ℤ) (c : IterConst) : IterConst :=
  { c with u_flt := rot c.nfft k c.u_flt, w_flt := rot c.nfft k c.w_flt, wf := vmul c.wf (ph c.nfft k) }

/-- the loop state for both traces shifted: only the residual changes -/
noncomputable def rotState (n : Nat) (k : ℤ) (t : IterState) : IterState :=
  { t with r_flt := rot n k t.r_flt }

/-- array lengths in the loop -/
structure LenOk (c : IterConst) : Prop where
  u : c.u_flt.length = c.nfft
  w : c.w_flt.length = c.nfft
  wf : c.wf.length = c.nfft

theorem iterBody_rot (k : ℤ) {c : IterConst} (hc : LenOk c) (t : IterState) :
    iterBody (rotConst k c) (rotState c.nfft k t) = (iterBody c t).map (rotState c.nfft k) := by
  unfold iterBody
  have e1 : correl (rotState c.nfft k t).r_flt (rotConst k c).w_flt c.nfft =
      correl t.r_flt c.w_flt c.nfft := correl_rot _ _ _ _
  have e2 : sumSq (rotConst k c).w_flt = sumSq c.w_flt := sumSq_rot k hc.w
  have e3 : (rotConst k c).phase = c.phase := rfl
  have e4 : (rotConst k c).nfft = c.nfft := rfl
  have e5 : (rotConst k c).dt = c.dt := rfl
  have e6 : (rotConst k c).gaussF = c.gaussF := rfl
  have e7 : (rotConst k c).powerU = c.powerU := rfl
  have e8 : (rotState c.nfft k t).p0 = t.p0 := rfl
  have e9 : ∀ x : List ℝ, arrSub (rotConst k c).u_flt (gfilter x c.nfft (rotConst k c).wf c.dt) =
      rot c.nfft k (arrSub c.u_flt (gfilter x c.nfft c.wf c.dt)) := by
    intro x
    show arrSub (rot c.nfft k c.u_flt) (gfilter x c.nfft (vmul c.wf (ph c.nfft k)) c.dt) = _
    rw [gfilter_rot_right k x hc.wf, arrSub_rot k hc.u (gfilter_length _ _ _ _)]
  have e10 : ∀ x : List ℝ, sumSq (rot c.nfft k (arrSub c.u_flt (gfilter x c.nfft c.wf c.dt))) =
      sumSq (arrSub c.u_flt (gfilter x c.nfft c.wf c.dt)) :=
    fun x => sumSq_rot k (arrSub_length hc.u (gfilter_length _ _ _ _))
  have e11 : (rotState c.nfft k t).rms = t.rms := rfl
  have e12 : (rotState c.nfft k t).it = t.it := rfl
  simp only [e1, e2, e3, e4, e5, e6, e7, e8, e9, e10, e11, e12]
  cases argmax ((if c.phase = "P" then
      sliceTo ((correl t.r_flt c.w_flt c.nfft).map (fun v : ℝ => v / sumSq c.w_flt)) ((c.nfft / 2 : Nat) - 1 : ℤ)
      else (correl t.r_flt c.w_flt c.nfft).map (fun v : ℝ => v / sumSq c.w_flt)).map (fun v : ℝ => |v|)) with
  | error e => rfl
  | ok i1 =>
    simp only [ok_bind']
    by_cases hW : sumSq c.w_flt = 0
    · rw [if_pos hW, if_pos hW]; rfl
    · rw [if_neg hW, if_neg hW]
      cases item ((correl t.r_flt c.w_flt c.nfft).map (fun v : ℝ => v / sumSq c.w_flt)) i1 with
      | error e => rfl
      | ok rwi =>
        simp only [ok_bind']
        cases item t.p0 i1 with
        | error e => rfl
        | ok old =>
          simp only [ok_bind']
          cases setItem t.p0 i1 (old + rwi / c.dt) with
          | error e => rfl
          | ok p0 =>
            simp only [ok_bind']
            by_cases hP : c.powerU = 0
            · rw [if_pos hP, if_pos hP]; rfl
            · rw [if_neg hP, if_neg hP]
              cases setItem t.rms t.it (sumSq (arrSub c.u_flt (gfilter (gfilter p0 c.nfft (toC c.gaussF) c.dt)
                c.nfft c.wf c.dt)) / c.powerU) with
              | error e => rfl
              | ok rms => rfl

theorem loopCond_rot (k : ℤ) (c : IterConst) (t : IterState) :
    loopCond (rotConst k c) (rotState c.nfft k t) = loopCond c t := rfl

theorem iterLoop_rot (k : ℤ) {c : IterConst} (hc : LenOk c) :
    ∀ (j : Nat) (t : IterState), c.itmax - t.it ≤ j →
      iterLoop (rotConst k c) (rotState c.nfft k t) = (iterLoop c t).map (rotState c.nfft k) := by
  intro j
  induction j with
  | zero =>
    intro t hj
    have hf : loopCond c t = false := by
      simp only [loopCond]
      have : ¬ t.it < c.itmax := by omega
      simp [this]
    rw [iterLoop_eq _ _ (fun _ => iterBody_it), iterLoop_eq _ _ (fun _ => iterBody_it), loopCond_rot, hf]
    rfl
  | succ j ih =>
    intro t hj
    rw [iterLoop_eq _ _ (fun _ => iterBody_it), iterLoop_eq _ _ (fun _ => iterBody_it), loopCond_rot]
    cases hf : loopCond c t with
    | false => rfl
    | true =>
      have hb := iterBody_rot k hc t
      cases h1 : iterBody c t with
      | error e => rw [h1] at hb; simp only [hb, Except.map]; rfl
      | ok t1 =>
        rw [h1] at hb
        simp only [hb, Except.map]
        have h3 := iterBody_it h1
        have h4 : t.it < c.itmax := (loopCond_true hf).2.2
        exact ih t1 (by omega)

/-- a trace with `k` zeros in front, padded to the transform length, is the circular shift of the
trace with the zeros behind -/
theorem pad_rot (n k : Nat) (u : List ℝ) (h : u.length + k ≤ n) :
    (List.replicate k 0 ++ u) ++ List.replicate (n - (k + u.length)) (0 : ℝ) =
      rot n k ((u ++ List.replicate k 0) ++ List.replicate (n - (k + u.length)) (0 : ℝ)) := by
  apply ext_getD (0 : ℝ)
  · simp [rot_length]; omega
  intro m hm
  have hm : m < n := by simp at hm; omega
  have hn : 0 < n := by omega
  have hr : ∀ (j i : Nat), (List.replicate j (0 : ℝ)).getD i 0 = 0 := by
    intro j i
    simp only [List.getD_eq_getElem?_getD, List.getElem?_replicate]
    split_ifs <;> rfl
  have e0 : (u ++ List.replicate k 0) ++ List.replicate (n - (k + u.length)) (0 : ℝ) =
      u ++ List.replicate (n - u.length) 0 := by
    rw [List.append_assoc, ← List.replicate_add]
    congr 2
    omega
  rw [rot_getD _ _ hm, e0, List.append_assoc]
  by_cases h1 : m < k
  · rw [getD_append_lt _ _ _ (by simpa using h1), hr]
    have h2 : cyc n ((m : ℤ) - k) = m + n - k := by
      rw [← cyc_add_mul _ 1, show (m : ℤ) - k + n * 1 = ((m + n - k : Nat) : ℤ) by omega, cyc_of_lt (by omega)]
    rw [h2, getD_append_ge _ _ _ (by omega), hr]
  · rw [getD_append_ge _ _ _ (by simpa using h1), List.length_replicate]
    have h2 : cyc n ((m : ℤ) - k) = m - k := by
      rw [show (m : ℤ) - k = ((m - k : Nat) : ℤ) by omega, cyc_of_lt (by omega)]
    rw [h2]
    by_cases h3 : m - k < u.length
    · rw [getD_append_lt _ _ _ h3, getD_append_lt _ _ _ h3]
    · rw [getD_append_ge _ _ _ (by omega), getD_append_ge _ _ _ (by omega), hr, hr]

theorem pad_eq {n nt : Nat} {v : List ℝ} (h : v.length = nt) (hn : nt ≤ n) :
    setSlice (List.replicate n (0 : ℝ)) 0 nt v = .ok (v ++ List.replicate (n - nt) 0) := by
  unfold setSlice
  simp only [List.length_replicate, Nat.min_eq_left hn, Nat.zero_min, Nat.sub_zero, if_pos h, List.take_zero,
    List.nil_append, List.drop_replicate]

theorem err_bind {α β : Type} (e : PyErr) (f : α → Except PyErr β) : (Except.error e >>= f) = .error e := rfl

theorem gaussFilter_len {dt : ℝ} {n : Nat} {a : ℝ} {g : List ℝ} (h : gaussFilter dt n a = .ok g) : g.length = n := by
  obtain ⟨_, _, _, _, h⟩ := gaussFilter_ok h
  rw [h]
  simp

theorem iterInit_rot (k : Nat) {u w : List ℝ} (hl : u.length = w.length) (dt : ℝ) (g : ℝ)
    (itmax : Nat) (minderr : ℝ) (phase : String) :
    match iterInit (u ++ List.replicate k 0) (w ++ List.replicate k 0) dt (k + u.length) g itmax minderr phase with
    | .error e => iterInit (List.replicate k 0 ++ u) (List.replicate k 0 ++ w) dt (k + u.length) g itmax minderr phase
        = .error e
    | .ok r => LenOk r.1 ∧
        iterInit (List.replicate k 0 ++ u) (List.replicate k 0 ++ w) dt (k + u.length) g itmax minderr phase
        = .ok (rotConst k r.1, rotState r.1.nfft k r.2) := by
  have hN : k + u.length ≤ nextPow2 (k + u.length) := le_nextPow2 _
  unfold iterInit
  simp only
  rw [pad_eq (by simp; omega) hN, pad_eq (by simp; omega) hN, pad_eq (by simp) hN, pad_eq (by simp [hl]) hN]
  simp only [ok_bind']
  have e1 := pad_rot (nextPow2 (k + u.length)) k u (by omega)
  have e2 := pad_rot (nextPow2 (k + u.length)) k w (by omega)
  rw [← hl] at e2
  rw [e1, e2]
  cases hg : gaussFilter dt (nextPow2 (k + u.length)) g with
  | error e => rfl
  | ok gf =>
    have hgl : (toC gf).length = nextPow2 (k + u.length) := by rw [toC_length, gaussFilter_len hg]
    simp only [ok_bind', gfilter_rot_left _ _ hgl, fft_rot, sumSq_rot _ (gfilter_length _ _ _ _)]
    exact ⟨⟨gfilter_length _ _ _ _, gfilter_length _ _ _ _, fft_length _ _⟩, rfl⟩

theorem setSlice_wrong {n j : Nat} {v : List ℝ} (hj : j ≤ n) (h1 : v.length ≠ j) (h2 : 2 ≤ v.length) :
    setSlice (List.replicate n (0 : ℝ)) 0 j v = .error .valueError := by
  unfold setSlice
  simp only [List.length_replicate, Nat.min_eq_left hj, Nat.zero_min, Nat.sub_zero, if_neg h1]
  match v, h2 with
  | _ :: _ :: _, _ => rfl

theorem deconv_iterative_rot (k : Nat) (u w : List ℝ) (dt : ℝ) (nt : Option Nat) (pre g : ℝ) (itmax : Nat)
    (minderr : ℝ) (phase : String) :
    deconv_iterative (List.replicate k 0 ++ u) (List.replicate k 0 ++ w) dt nt pre g itmax minderr phase =
      deconv_iterative (u ++ List.replicate k 0) (w ++ List.replicate k 0) dt nt pre g itmax minderr phase := by
  unfold deconv_iterative
  by_cases hl : u.length = w.length
  swap
  · rw [if_pos (by simpa using hl), if_pos (by simpa using hl)]
  rw [if_neg (by simpa using hl), if_neg (by simpa using hl)]
  have e : (u ++ List.replicate k (0 : ℝ)).length = k + u.length := by simp; omega
  have e' : (List.replicate k (0 : ℝ) ++ u).length = k + u.length := by simp
  rw [e, e']
  by_cases hnt : nt.getD (k + u.length) = k + u.length
  · rw [hnt]
    have hi := iterInit_rot k hl dt g itmax minderr phase
    cases h : iterInit (u ++ List.replicate k 0) (w ++ List.replicate k 0) dt (k + u.length) g itmax minderr phase with
    | error e => rw [h] at hi; simp only [h, hi, err_bind]
    | ok r =>
      rw [h] at hi
      obtain ⟨hL, hi⟩ := hi
      obtain ⟨c, t⟩ := r
      simp only [h, hi, ok_bind']
      simp only at hL
      rw [iterLoop_rot k hL _ t le_rfl]
      cases iterLoop c t with
      | error e => rfl
      | ok s => rfl
  · rcases Nat.eq_zero_or_pos k with rfl | hk
    · simp
    rcases Nat.eq_zero_or_pos u.length with h0 | hu
    · rw [List.length_eq_zero_iff] at h0
      have h1 : w = [] := by rw [← List.length_eq_zero_iff, ← hl, h0]; rfl
      subst h0 h1
      simp
    have hw : ∀ x y : List ℝ, x.length = k + u.length → iterInit x y dt (nt.getD (k + u.length)) g itmax minderr phase
        = .error .valueError := by
      intro x y hx
      unfold iterInit
      simp only
      rw [setSlice_wrong (le_nextPow2 _) (by rw [hx]; exact fun h => hnt h.symm) (by omega)]
      rfl
    simp only [hw _ _ e, hw _ _ e', err_bind]

/-! ## water level -/

theorem fft_pad {n : Nat} (x : List ℂ) (j : Nat) : fft (x ++ List.replicate j 0) n = fft x n := by
  have hr : ∀ i, (x ++ List.replicate j (0 : ℂ)).getD i 0 = x.getD i 0 := by
    intro i
    by_cases h : i < x.length
    · rw [getD_append_lt _ _ _ h]
    · rw [getD_append_ge _ _ _ (by omega)]
      simp only [List.getD_eq_getElem?_getD, List.getElem?_replicate, List.getElem?_eq_none (not_lt.1 h)]
      split_ifs <;> rfl
  simp only [fft, hr]

theorem fft_delay (k : Nat) (u : List ℝ) {n : Nat} (h : u.length + k ≤ n) :
    fft (toC (List.replicate k 0 ++ u)) n = vmul (fft (toC (u ++ List.replicate k 0)) n) (ph n k) := by
  have e := pad_rot n k u h
  have t : ∀ (x : List ℝ) (j : Nat), toC (x ++ List.replicate j 0) = toC x ++ List.replicate j 0 := by
    intro x j; simp [toC]
  rw [← fft_pad _ (n - (k + u.length)), ← t, e, fft_rot, t, fft_pad]

theorem waterFit_rot (k : ℤ) {uf wf df : List ℂ} {n : Nat} (hu : uf.length = n) (hw : wf.length = n)
    {gf : List ℝ} (hg : gf.length = n) (w : List ℝ) (phi delf dt pre : ℝ) (nt : Nat) (normalize : Bool) :
    (waterFit (vmul uf (ph n k)) (vmul wf (ph n k)) df gf w phi delf dt pre nt n normalize).1 =
      (waterFit uf wf df gf w phi delf dt pre nt n normalize).1 := by
  unfold waterFit
  have e : vmul (vmul (toC gf) (vmul uf (ph n k))) ((vmul wf (ph n k)).map (starRingEnd ℂ)) =
      vmul (vmul (toC gf) uf) (wf.map (starRingEnd ℂ)) := by
    rw [← vmul_assoc', ph_conj k (vmul_length (by rw [toC_length, hg]) hu) hw]
  simp only [e]

theorem zipDiv_length {x y : List ℂ} {n : Nat} (hx : x.length = n) (hy : y.length = n) :
    (List.zipWith (· / ·) x y).length = n := by simp [hx, hy]

theorem waterFit_rot_full (k : ℤ) {uf wf df : List ℂ} {n : Nat} (hu : uf.length = n) (hw : wf.length = n)
    (hd : df.length = n)
    {gf : List ℝ} (hg : gf.length = n) (w : List ℝ) (phi delf dt pre : ℝ) (normalize : Bool) :
    waterFit (vmul uf (ph n k)) (vmul wf (ph n k)) df gf w phi delf dt pre n n normalize =
      waterFit uf wf df gf w phi delf dt pre n n normalize := by
  apply Prod.ext
  · exact waterFit_rot k hu hw hg w phi delf dt pre n normalize
  have hgC : (toC gf).length = n := by rw [toC_length, hg]
  unfold waterFit
  have e : vmul (vmul (toC gf) (vmul uf (ph n k))) ((vmul wf (ph n k)).map (starRingEnd ℂ)) =
      vmul (vmul (toC gf) uf) (wf.map (starRingEnd ℂ)) := by
    rw [← vmul_assoc', ph_conj k (vmul_length hgC hu) hw]
  have t : ∀ X : List ℂ, (toRe (ifft X n)).take n = toRe (ifft X n) := by
    intro X
    rw [List.take_of_length_le]
    rw [toRe_length, ifft_length]
  have t' : ∀ X : List ℂ, (rot n k (toRe (ifft X n))).take n = rot n k (toRe (ifft X n)) := by
    intro X
    rw [List.take_of_length_le]
    rw [rot_length]
  have hl : ∀ X : List ℂ, (toRe (ifft X n)).length = n := by
    intro X
    rw [toRe_length, ifft_length]
  have hq : ∀ D : List ℂ, D.length = n →
      (vmul (List.zipWith (· / ·) (vmul (vmul (toC gf) uf) (wf.map (starRingEnd ℂ))) D) wf).length = n := by
    intro D hD
    refine vmul_length (zipDiv_length (vmul_length (vmul_length hgC hu) ?_) hD) hw
    rw [List.length_map, hw]
  simp only [e]
  rw [← vmul_assoc' (toC gf) uf (ph n k), ← vmul_assoc' _ wf (ph n k), ifft_ph k (vmul_length hgC hu),
    ifft_ph k (hq _ (by rw [List.length_map, hd])), t', t', t, t, arrSub_rot k (hl _) (hl _), sumSq_rot k (hl _),
    sumSq_rot k (arrSub_length (hl _) (hl _))]

theorem deconv_waterlevel_rot (k : Nat) (u w : List ℝ) (dt pre wlevel g : ℝ) (normalize : Bool) :
    (deconv_waterlevel (List.replicate k 0 ++ u) (List.replicate k 0 ++ w) dt pre wlevel g normalize).map Prod.fst =
      (deconv_waterlevel (u ++ List.replicate k 0) (w ++ List.replicate k 0) dt pre wlevel g normalize).map Prod.fst := by
  unfold deconv_waterlevel
  by_cases hl : u.length = w.length
  swap
  · rw [if_pos (by simpa using hl), if_pos (by simpa using hl)]
  rw [if_neg (by simpa using hl), if_neg (by simpa using hl)]
  have e : (u ++ List.replicate k (0 : ℝ)).length = k + u.length := by simp; omega
  have e' : (List.replicate k (0 : ℝ) ++ u).length = k + u.length := by simp
  rw [e, e']
  have hN : k + u.length ≤ nextPow2 (k + u.length) := le_nextPow2 _
  simp only [fft_delay k u (by omega : u.length + k ≤ nextPow2 (k + u.length)),
    fft_delay k w (by omega : w.length + k ≤ nextPow2 (k + u.length)),
    ph_conj (k : ℤ) (fft_length (toC (w ++ List.replicate k 0)) (nextPow2 (k + u.length)))
      (fft_length (toC (w ++ List.replicate k 0)) (nextPow2 (k + u.length)))]
  cases scalarDiv (F := ℝ) ⟨.py, 1⟩ ⟨.py, 2 * dt⟩ with
  | error e => simp only [err_bind]
  | ok fny =>
    simp only [ok_bind']
    cases scalarDiv fny ⟨.py, 0.5 * (nextPow2 (k + u.length) : ℝ)⟩ with
    | error e => simp only [err_bind]
    | ok delf =>
      simp only [ok_bind']
      cases pyMax (toRe (vmul (fft (toC (w ++ List.replicate k 0)) (nextPow2 (k + u.length)))
          ((fft (toC (w ++ List.replicate k 0)) (nextPow2 (k + u.length))).map (starRingEnd ℂ)))) with
      | error e => simp only [err_bind]
      | ok dmax =>
        simp only [ok_bind']
        cases hg : gaussFilter dt (nextPow2 (k + u.length)) g with
        | error e => simp only [err_bind]
        | ok gf =>
          simp only [ok_bind']
          show Except.ok _ = Except.ok _
          rw [waterFit_rot _ (fft_length _ _) (fft_length _ _) (gaussFilter_len hg)]

theorem deconv_waterlevel_rot_full (k : Nat) (u w : List ℝ) (dt pre wlevel g : ℝ) (normalize : Bool)
    (hp : nextPow2 (k + u.length) = k + u.length) :
    deconv_waterlevel (List.replicate k 0 ++ u) (List.replicate k 0 ++ w) dt pre wlevel g normalize =
      deconv_waterlevel (u ++ List.replicate k 0) (w ++ List.replicate k 0) dt pre wlevel g normalize := by
  unfold deconv_waterlevel
  by_cases hl : u.length = w.length
  swap
  · rw [if_pos (by simpa using hl), if_pos (by simpa using hl)]
  rw [if_neg (by simpa using hl), if_neg (by simpa using hl)]
  have e : (u ++ List.replicate k (0 : ℝ)).length = k + u.length := by simp; omega
  have e' : (List.replicate k (0 : ℝ) ++ u).length = k + u.length := by simp
  rw [e, e']
  have hN : k + u.length ≤ nextPow2 (k + u.length) := le_nextPow2 _
  simp only [fft_delay k u (by omega : u.length + k ≤ nextPow2 (k + u.length)),
    fft_delay k w (by omega : w.length + k ≤ nextPow2 (k + u.length)),
    ph_conj (k : ℤ) (fft_length (toC (w ++ List.replicate k 0)) (nextPow2 (k + u.length)))
      (fft_length (toC (w ++ List.replicate k 0)) (nextPow2 (k + u.length)))]
  cases scalarDiv (F := ℝ) ⟨.py, 1⟩ ⟨.py, 2 * dt⟩ with
  | error e => simp only [err_bind]
  | ok fny =>
    simp only [ok_bind']
    cases scalarDiv fny ⟨.py, 0.5 * (nextPow2 (k + u.length) : ℝ)⟩ with
    | error e => simp only [err_bind]
    | ok delf =>
      simp only [ok_bind']
      cases pyMax (toRe (vmul (fft (toC (w ++ List.replicate k 0)) (nextPow2 (k + u.length)))
          ((fft (toC (w ++ List.replicate k 0)) (nextPow2 (k + u.length))).map (starRingEnd ℂ)))) with
      | error e => simp only [err_bind]
      | ok dmax =>
        simp only [ok_bind']
        cases hg : gaussFilter dt (nextPow2 (k + u.length)) g with
        | error e => simp only [err_bind]
        | ok gf =>
          simp only [ok_bind']
          show Except.ok _ = Except.ok _
          congr 1
          have := waterFit_rot_full (k : ℤ) (fft_length (toC (u ++ List.replicate k 0)) (nextPow2 (k + u.length)))
            (fft_length (toC (w ++ List.replicate k 0)) (nextPow2 (k + u.length)))
            (df := vmul (fft (toC (w ++ List.replicate k 0)) (nextPow2 (k + u.length)))
              ((fft (toC (w ++ List.replicate k 0)) (nextPow2 (k + u.length))).map (starRingEnd ℂ)))
            (vmul_length (fft_length _ _) (by rw [List.length_map, fft_length]))
            (gaussFilter_len hg) ((((List.range ((nextPow2 (k + u.length) + 3) / 2)).map
              (fun i : Nat => delf.val * (i : ℝ)))).map (fun x : ℝ => 2 * Real.pi * x)) (wlevel * dmax) delf.val dt pre
            normalize
          rw [← hp] at this ⊢
          simpa only [nextPow2_idem] using this

end Rfsed.Synrf
