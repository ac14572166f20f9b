import Verif.Spec.Resolution
import Verif.Proofs.GetAmp
import Verif.Proofs.Window
import Verif.Props.DelayTimes

/-!
# Nearest samples move with the time
-/

namespace Rfsed.Proofs
open PyFloat Rfsed.Spec

theorem axis_at {dt pre : ℝ} {l i : Nat} {x : ℝ} (h : (timeAxis dt pre l)[i]? = some x) : i < l ∧ x = dt * i - pre := by
  rw [timeAxis_get] at h
  split at h
  · exact ⟨by assumption, (Option.some.inj h).symm⟩
  · cases h

/-- a later time has no earlier nearest sample -/
theorem nearest_mono {dt pre t s : ℝ} {l i j : Nat} (hdt : 0 < dt) (hi : NearestSample (timeAxis dt pre l) t i)
    (hj : NearestSample (timeAxis dt pre l) s j) (hts : t ≤ s) : i ≤ j := by
  by_contra hc
  push Not at hc
  obtain ⟨x, hx, _, h2⟩ := hi
  obtain ⟨y, hy, h3, _⟩ := hj
  have a := h2 j y hc hy
  have b := h3 i x hx
  simp only [real_abs, real_le, real_lt] at a b
  obtain ⟨_, rfl⟩ := axis_at hx
  obtain ⟨_, rfl⟩ := axis_at hy
  have hji : (j : ℝ) < i := by exact_mod_cast hc
  have hd : dt * (j : ℝ) < dt * i := by nlinarith
  have a' := sq_lt_sq.2 a
  have b' := sq_le_sq.2 b
  nlinarith

/-- the nearest sample moves by at most one more than the time does -/
theorem nearest_gap {dt pre t s : ℝ} {l i j : Nat} (hdt : 0 < dt) (hi : NearestSample (timeAxis dt pre l) t i)
    (hj : NearestSample (timeAxis dt pre l) s j) (hts : t ≤ s) : (j : ℝ) - i ≤ 1 + (s - t) / dt := by
  have hij := nearest_mono hdt hi hj hts
  have hq : 0 ≤ (s - t) / dt := div_nonneg (by linarith) hdt.le
  rcases Nat.eq_or_lt_of_le hij with rfl | hlt
  · simp; linarith
  obtain ⟨x, hx, h1, _⟩ := hi
  obtain ⟨y, hy, h3, _⟩ := hj
  obtain ⟨hil, rfl⟩ := axis_at hx
  obtain ⟨hjl, rfl⟩ := axis_at hy
  have a := h1 (i + 1) (dt * ((i + 1 : ℕ) : ℝ) - pre) (by rw [timeAxis_get, if_pos (by omega)])
  have b := h3 (j - 1) (dt * ((j - 1 : ℕ) : ℝ) - pre) (by rw [timeAxis_get, if_pos (by omega)])
  simp only [real_abs, real_le] at a b
  rw [Nat.cast_sub (by omega)] at b
  push_cast at a b
  have a' := sq_le_sq.2 a
  have b' := sq_le_sq.2 b
  have a2 : t ≤ dt * i - pre + dt / 2 := by nlinarith
  have b2 : dt * j - pre - dt / 2 ≤ s := by nlinarith
  have : dt * ((j : ℝ) - i) ≤ dt + (s - t) := by linarith
  have e : 1 + (s - t) / dt = (dt + (s - t)) / dt := by field_simp
  rw [e, le_div_iff₀ hdt]
  linarith

open Classical in
/-- the nearest sample -/
noncomputable def near (axis : List ℝ) (t : ℝ) : Nat := if h : ∃ i, NearestSample axis t i then h.choose else 0

theorem near_spec {axis : List ℝ} (hne : axis ≠ []) (t : ℝ) : NearestSample axis t (near axis t) := by
  have h : ∃ i, NearestSample axis t i := exists_nearest (distOk_real axis t) hne
  unfold near
  rw [dif_pos h]
  exact h.choose_spec

theorem sameSample_of_near {axis : List ℝ} (hne : axis ≠ []) {t s : ℝ} (h : near axis t = near axis s) :
    SameSample axis t s := ⟨_, near_spec hne t, h ▸ near_spec hne s⟩

theorem reads_same {data axis : List ℝ} {t s a b : ℝ} (h : SameSample axis t s) (ha : ReadsNearest data axis t a)
    (hb : ReadsNearest data axis s b) : a = b := by
  obtain ⟨i, hi, hj⟩ := h
  obtain ⟨i', hi', ha⟩ := ha
  obtain ⟨j', hj', hb⟩ := hb
  rw [NearestSample.unique hi' hi] at ha
  rw [NearestSample.unique hj' hj] at hb
  exact Option.some.inj (ha.symm.trans hb)

/-- a function that only depends on the nearest samples of increasing times takes few values -/
theorem few_values {dt pre : ℝ} {l : Nat} (hdt : 0 < dt) (hl : timeAxis dt pre l ≠ []) (T : List (ℝ → ℝ))
    (hT : ∀ t ∈ T, Monotone t) (S : Finset ℝ) (f : ℝ → ℝ) {a b : ℝ} (hab : a ≤ b) (hS : ∀ x ∈ S, a ≤ x ∧ x ≤ b)
    (hf : ∀ x ∈ S, ∀ y ∈ S, (∀ t ∈ T, SameSample (timeAxis dt pre l) (t x) (t y)) → f x = f y) :
    ((S.image f).card : ℝ) ≤ 1 + (T.map (fun t => 1 + (t b - t a) / dt)).sum := by
  set g : ℝ → ℕ := fun x => (T.map (fun t => near (timeAxis dt pre l) (t x))).sum with hg
  have hmono1 : ∀ t ∈ T, ∀ x y, x ≤ y → near (timeAxis dt pre l) (t x) ≤ near (timeAxis dt pre l) (t y) :=
    fun t ht x y hxy => nearest_mono hdt (near_spec hl _) (near_spec hl _) (hT t ht hxy)
  have hmono : ∀ x y, x ≤ y → g x ≤ g y := by
    intro x y hxy
    exact List.sum_le_sum (fun t ht => hmono1 t ht x y hxy)
  have heq : ∀ x y, x ≤ y → g x = g y → ∀ t ∈ T, near (timeAxis dt pre l) (t x) = near (timeAxis dt pre l) (t y) := by
    intro x y hxy he t ht
    by_contra hne
    have : g x < g y := List.sum_lt_sum _ _ (fun t ht => hmono1 t ht x y hxy)
      ⟨t, ht, lt_of_le_of_ne (hmono1 t ht x y hxy) hne⟩
    omega
  have hfac : ∀ x ∈ S, ∀ y ∈ S, g x = g y → f x = f y := by
    intro x hx y hy he
    rcases le_total x y with h | h
    · exact hf x hx y hy (fun t ht => sameSample_of_near hl (heq x y h he t ht))
    · exact (hf y hy x hx (fun t ht => sameSample_of_near hl (heq y x h he.symm t ht))).symm
  have h1 : (S.image f).card ≤ (S.image g).card := by
    classical
    have : S.image f ⊆ (S.image g).image (fun m => if h : ∃ x ∈ S, g x = m then f h.choose else 0) := by
      intro v hv
      obtain ⟨x, hx, rfl⟩ := Finset.mem_image.1 hv
      refine Finset.mem_image.2 ⟨g x, Finset.mem_image_of_mem g hx, ?_⟩
      have h : ∃ y ∈ S, g y = g x := ⟨x, hx, rfl⟩
      rw [dif_pos h]
      exact hfac _ h.choose_spec.1 _ hx h.choose_spec.2
    exact (Finset.card_le_card this).trans Finset.card_image_le
  have h2 : S.image g ⊆ Finset.Icc (g a) (g b) := by
    intro m hm
    obtain ⟨x, hx, rfl⟩ := Finset.mem_image.1 hm
    exact Finset.mem_Icc.2 ⟨hmono _ _ (hS x hx).1, hmono _ _ (hS x hx).2⟩
  have h3 := h1.trans (Finset.card_le_card h2)
  rw [Nat.card_Icc] at h3
  have h4 := hmono a b hab
  have h5 : ((S.image f).card : ℝ) ≤ (g b : ℝ) - g a + 1 := by
    have : (S.image f).card + g a ≤ g b + 1 := by omega
    have : ((S.image f).card : ℝ) + g a ≤ g b + 1 := by exact_mod_cast this
    linarith
  have h6 : (g b : ℝ) - g a ≤ (T.map (fun t => 1 + (t b - t a) / dt)).sum := by
    clear heq hfac h1 h2 h3 h4 h5 hmono hf hmono1
    simp only [hg]
    clear hg g
    induction T with
    | nil => simp
    | cons t T ih =>
      simp only [List.map_cons, List.sum_cons, Nat.cast_add]
      have := ih (fun t ht => hT t (List.mem_cons_of_mem _ ht))
      have := nearest_gap hdt (near_spec hl (t a)) (near_spec hl (t b)) (hT t (List.mem_cons_self ..) hab)
      linarith
  linarith

end Rfsed.Proofs
