import Verif.Spec.Accuracy
import Verif.Proofs.Window
import Mathlib.Tactic.Linarith
import Mathlib.Tactic.Ring

/-!
# Lemmas for C120
-/

namespace Rfsed
open PyFloat Spec

theorem nearest_close {dt pre t s T : ℝ} {l i : Nat} (hdt : 0 < dt) (hc : CoversTo dt pre T l) (h0 : 0 ≤ t)
    (hT : t ≤ T) (h0' : 0 ≤ s) (hT' : s ≤ T) (ht : NearestSample (timeAxis dt pre l) t i)
    (hs : NearestSample (timeAxis dt pre l) s i) : |s - t| ≤ dt := by
  obtain ⟨a1, a2⟩ := (nearest_timeAxis hdt hc h0 hT).1 ht
  obtain ⟨b1, b2⟩ := (nearest_timeAxis hdt hc h0' hT').1 hs
  rw [abs_le]; constructor <;> linarith

/-- the value of one record: bound, and what a missed phase costs -/
theorem shows_le {d : List ℝ} {i1 i2 i3 : Nat} {A e w1 w2 w3 a1 a2 a3 : ℝ} {j1 j2 j3 : Nat}
    (hA : 0 ≤ A) (hw1 : 0 ≤ w1) (hw2 : 0 ≤ w2) (hw3 : 0 ≤ w3)
    (hd : ∀ (j : Nat) (a : ℝ), d[j]? = some a →
      ((j = i1 ∨ j = i2) → |a - A| ≤ e) ∧ (j = i3 → |a + A| ≤ e) ∧ (j ≠ i1 → j ≠ i2 → j ≠ i3 → |a| ≤ e))
    (h1 : d[j1]? = some a1) (h2 : d[j2]? = some a2) (h3 : d[j3]? = some a3) :
    w1 * a1 + w2 * a2 - w3 * a3 ≤ (w1 + w2 + w3) * (A + e) ∧
    (¬ (j1 = i1 ∨ j1 = i2) → w1 * a1 + w2 * a2 - w3 * a3 ≤ (w1 + w2 + w3) * (A + e) - w1 * A) ∧
    (¬ (j2 = i1 ∨ j2 = i2) → w1 * a1 + w2 * a2 - w3 * a3 ≤ (w1 + w2 + w3) * (A + e) - w2 * A) ∧
    (j3 ≠ i3 → w1 * a1 + w2 * a2 - w3 * a3 ≤ (w1 + w2 + w3) * (A + e) - w3 * A) := by
  have up : ∀ (j : Nat) (a : ℝ), d[j]? = some a → a ≤ A + e := by
    intro j a h
    obtain ⟨x1, x2, x3⟩ := hd j a h
    by_cases c : j = i1 ∨ j = i2
    · have := (abs_le.1 (x1 c)).2; linarith
    · push Not at c
      by_cases c3 : j = i3
      · have := (abs_le.1 (x2 c3)).2; linarith
      · have := (abs_le.1 (x3 c.1 c.2 c3)).2; linarith
  have up' : ∀ (j : Nat) (a : ℝ), d[j]? = some a → ¬ (j = i1 ∨ j = i2) → a ≤ e := by
    intro j a h c
    obtain ⟨x1, x2, x3⟩ := hd j a h
    push Not at c
    by_cases c3 : j = i3
    · have := (abs_le.1 (x2 c3)).2; linarith
    · have := (abs_le.1 (x3 c.1 c.2 c3)).2; linarith
  have lo' : ∀ (j : Nat) (a : ℝ), d[j]? = some a → j ≠ i3 → -a ≤ e := by
    intro j a h c
    obtain ⟨x1, x2, x3⟩ := hd j a h
    by_cases c1 : j = i1 ∨ j = i2
    · have := (abs_le.1 (x1 c1)).1; linarith
    · push Not at c1
      have := (abs_le.1 (x3 c1.1 c1.2 c)).1; linarith
  have lo : ∀ (j : Nat) (a : ℝ), d[j]? = some a → -a ≤ A + e := by
    intro j a h
    by_cases c : j = i3
    · have := (abs_le.1 ((hd j a h).2.1 c)).1; linarith
    · have := lo' j a h c; linarith
  have m1 := mul_le_mul_of_nonneg_left (up _ _ h1) hw1
  have m2 := mul_le_mul_of_nonneg_left (up _ _ h2) hw2
  have m3 := mul_le_mul_of_nonneg_left (lo _ _ h3) hw3
  refine ⟨by linarith, ?_, ?_, ?_⟩
  · intro c
    have := mul_le_mul_of_nonneg_left (up' _ _ h1 c) hw1
    linarith
  · intro c
    have := mul_le_mul_of_nonneg_left (up' _ _ h2 c) hw2
    linarith
  · intro c
    have := mul_le_mul_of_nonneg_left (lo' _ _ h3 c) hw3
    linarith

/-- the value of a model that reads the three phases -/
theorem shows_ge {d : List ℝ} {i1 i2 i3 : Nat} {A e w1 w2 w3 a1 a2 a3 : ℝ}
    (hw1 : 0 ≤ w1) (hw2 : 0 ≤ w2) (hw3 : 0 ≤ w3)
    (hd : ∀ (j : Nat) (a : ℝ), d[j]? = some a →
      ((j = i1 ∨ j = i2) → |a - A| ≤ e) ∧ (j = i3 → |a + A| ≤ e) ∧ (j ≠ i1 → j ≠ i2 → j ≠ i3 → |a| ≤ e))
    (h1 : d[i1]? = some a1) (h2 : d[i2]? = some a2) (h3 : d[i3]? = some a3) :
    (w1 + w2 + w3) * (A - e) ≤ w1 * a1 + w2 * a2 - w3 * a3 := by
  have x1 := (abs_le.1 ((hd _ _ h1).1 (.inl rfl))).1
  have x2 := (abs_le.1 ((hd _ _ h2).1 (.inr rfl))).1
  have x3 := (abs_le.1 ((hd _ _ h3).2.1 rfl)).2
  have m1 := mul_le_mul_of_nonneg_left (show A - e ≤ a1 by linarith) hw1
  have m2 := mul_le_mul_of_nonneg_left (show A - e ≤ a2 by linarith) hw2
  have m3 := mul_le_mul_of_nonneg_left (show A - e ≤ -a3 by linarith) hw3
  linarith

/-- times that read the samples of the three phases differ little from the times of the phases -/
theorem times_close {dt pre T t1 t2 t3 s1 s2 s3 : ℝ} {l i1 i2 i3 j1 j2 j3 : Nat} (hdt : 0 < dt)
    (hc : CoversTo dt pre T l)
    (ht1 : 0 ≤ t1 ∧ t1 ≤ T) (ht2 : 0 ≤ t2 ∧ t2 ≤ T) (ht3 : 0 ≤ t3 ∧ t3 ≤ T)
    (hs1 : 0 ≤ s1 ∧ s1 ≤ T) (hs2 : 0 ≤ s2 ∧ s2 ≤ T) (hs3 : 0 ≤ s3 ∧ s3 ≤ T)
    (ot : t1 ≤ t2) (os : s1 ≤ s2) (ad : (s1 - t1) + (s2 - t2) = s3 - t3)
    (n1 : NearestSample (timeAxis dt pre l) t1 i1) (n2 : NearestSample (timeAxis dt pre l) t2 i2)
    (n3 : NearestSample (timeAxis dt pre l) t3 i3)
    (m1 : NearestSample (timeAxis dt pre l) s1 j1) (m2 : NearestSample (timeAxis dt pre l) s2 j2)
    (m3 : NearestSample (timeAxis dt pre l) s3 j3)
    (e1 : j1 = i1 ∨ j1 = i2) (e2 : j2 = i1 ∨ j2 = i2) (e3 : j3 = i3) :
    |(s2 - t2) - (s1 - t1)| ≤ 3 * dt ∧ (dt < s2 - s1 → |(s2 - t2) - (s1 - t1)| ≤ 2 * dt) ∧ |s3 - t3| ≤ dt := by
  subst e3
  have c3 := nearest_close hdt hc ht3.1 ht3.2 hs3.1 hs3.2 n3 m3
  rw [abs_le] at c3
  have good : |s1 - t1| ≤ dt → |s2 - t2| ≤ dt → |(s2 - t2) - (s1 - t1)| ≤ 3 * dt ∧
      (dt < s2 - s1 → |(s2 - t2) - (s1 - t1)| ≤ 2 * dt) ∧ |s3 - t3| ≤ dt := by
    intro a b
    rw [abs_le] at a b
    refine ⟨by rw [abs_le]; constructor <;> linarith, fun _ => by rw [abs_le]; constructor <;> linarith,
      by rw [abs_le]; exact c3⟩
  rcases e1 with rfl | rfl <;> rcases e2 with rfl | rfl
  · have a := nearest_close hdt hc ht1.1 ht1.2 hs1.1 hs1.2 n1 m1
    have b := nearest_close hdt hc hs1.1 hs1.2 hs2.1 hs2.2 m1 m2
    rw [abs_le] at a b
    refine ⟨by rw [abs_le]; constructor <;> linarith, fun h => by linarith, by rw [abs_le]; exact c3⟩
  · exact good (nearest_close hdt hc ht1.1 ht1.2 hs1.1 hs1.2 n1 m1) (nearest_close hdt hc ht2.1 ht2.2 hs2.1 hs2.2 n2 m2)
  · have a := nearest_close hdt hc ht2.1 ht2.2 hs1.1 hs1.2 n2 m1
    have b := nearest_close hdt hc ht1.1 ht1.2 hs2.1 hs2.2 n1 m2
    rw [abs_le] at a b
    exact good (by rw [abs_le]; constructor <;> linarith) (by rw [abs_le]; constructor <;> linarith)
  · have a := nearest_close hdt hc ht2.1 ht2.2 hs2.1 hs2.2 n2 m2
    have b := nearest_close hdt hc hs1.1 hs1.2 hs2.1 hs2.2 m1 m2
    rw [abs_le] at a b
    refine ⟨by rw [abs_le]; constructor <;> linarith, fun h => by linarith, by rw [abs_le]; exact c3⟩

/-- from times to the model -/
theorem within_of_times {dt p V H0 K0 H K d1 d2 d3 : ℝ}
    (e1 : d1 = tPs p V H K - tPs p V H0 K0) (e2 : d2 = tPpPs p V H K - tPpPs p V H0 K0)
    (e3 : d3 = tPsPs p V H K - tPsPs p V H0 K0)
    (h1 : |d2 - d1| ≤ 3 * dt) (h2 : dt < tPpPs p V H K - tPs p V H K → |d2 - d1| ≤ 2 * dt) (h3 : |d3| ≤ dt) :
    WithinSampling dt p V H0 K0 H K := by
  have hn : 0 ≤ eta p V := Real.sqrt_nonneg _
  have k1 : |d2 - d1| = 2 * |H - H0| * eta p V := by
    have : d2 - d1 = 2 * (H - H0) * eta p V := by rw [e1, e2]; unfold tPs tPpPs; ring
    rw [this, abs_mul, abs_mul, abs_of_nonneg hn, abs_two]
  have k3 : |d3| = 2 * |H * eta p (V / K) - H0 * eta p (V / K0)| := by
    have : d3 = 2 * (H * eta p (V / K) - H0 * eta p (V / K0)) := by rw [e3]; unfold tPsPs; ring
    rw [this, abs_mul, abs_two]
  rw [k1] at h1 h2
  rw [k3] at h3
  refine ⟨h1, fun h => h2 ?_, h3⟩
  unfold tPs tPpPs
  linarith

theorem sum_le_miss {α : Type} {f : α → ℝ} {B c : ℝ} : ∀ {l : List α}, (∀ x ∈ l, f x ≤ B) →
    (∃ x ∈ l, f x ≤ B - c) → (l.map f).sum ≤ l.length * B - c
  | [], _, h => by obtain ⟨x, hx, _⟩ := h; cases hx
  | a :: l, hB, h => by
    have hsum : ∀ m : List α, (∀ x ∈ m, f x ≤ B) → (m.map f).sum ≤ m.length * B := by
      intro m
      induction m with
      | nil => intro _; simp
      | cons b m ih =>
        intro hm
        rw [List.map_cons, List.sum_cons, List.length_cons]
        have := ih (fun x hx => hm x (List.mem_cons_of_mem _ hx))
        have := hm b (List.mem_cons_self ..)
        push_cast; linarith
    obtain ⟨x, hx, hxc⟩ := h
    rw [List.map_cons, List.sum_cons, List.length_cons]
    push_cast
    rcases List.mem_cons.1 hx with rfl | hx'
    · have := hsum l (fun x hx => hB x (List.mem_cons_of_mem _ hx))
      linarith
    · have := sum_le_miss (c := c) (fun x hx => hB x (List.mem_cons_of_mem _ hx)) ⟨x, hx', hxc⟩
      have := hB a (List.mem_cons_self ..)
      linarith

theorem le_sum_all {α : Type} {f : α → ℝ} {B : ℝ} : ∀ {l : List α}, (∀ x ∈ l, B ≤ f x) → l.length * B ≤ (l.map f).sum
  | [], _ => by simp
  | a :: l, h => by
    rw [List.map_cons, List.sum_cons, List.length_cons]
    push_cast
    have := le_sum_all (fun x hx => h x (List.mem_cons_of_mem _ hx))
    have := h a (List.mem_cons_self ..)
    linarith

end Rfsed
