import Verif.Props.WaterLevel

/-!
# C149: a wider Gaussian lets more through
-/

namespace Rfsed.Props
open Rfsed Synrf Spec Finset

theorem gaussResponse_mono {a a' : ℝ} (ha : 0 < a) (hle : a ≤ a') (dt : ℝ) (n k : Nat) :
    gaussResponse dt n a k ≤ gaussResponse dt n a' k := by
  unfold gaussResponse
  apply Real.exp_le_exp.2
  rw [neg_le_neg_iff, div_pow _ (2 * a'), div_pow _ (2 * a)]
  exact div_le_div_of_nonneg_left (sq_nonneg _) (by positivity) (pow_le_pow_left₀ (by positivity) (by linarith) 2)

/-- **C149** the coefficients of the wider filter are at least those of the narrower one, and a trace filtered with it
keeps at least as much energy -/
theorem c149_filter {dt a a' : ℝ} {n : Nat} {g g' : List ℝ} (hdt : 0 < dt) (ha : 0 < a) (hle : a ≤ a')
    (h : gaussFilter dt n a = .ok g) (h' : gaussFilter dt n a' = .ok g') :
    (∀ k, smp g k ≤ smp g' k) ∧
    ∀ x : List ℝ, energy n (smp (gfilter x n (toC g) dt)) ≤ energy n (smp (gfilter x n (toC g') dt)) := by
  obtain ⟨hdt0, k, hk, hn, hg⟩ := gaussFilter_ok h
  obtain ⟨-, -, -, -, hg'⟩ := gaussFilter_ok h'
  have hn0 : 0 < n := by omega
  have hnR : (0 : ℝ) < n := by exact_mod_cast hn0
  constructor
  · intro k
    rw [hg, hg']
    rcases Nat.lt_or_ge k n with hk | hk
    · rw [smp_map_range _ hk, smp_map_range _ hk]
      exact div_le_div_of_nonneg_right (gaussResponse_mono ha hle dt n k) hdt.le
    · have z : ∀ f : Nat → ℝ, smp ((List.range n).map f) k = 0 := fun f => getD_of_le (by simpa using hk)
      rw [z, z]
  · intro x
    have hspec : ∀ b (g : List ℝ), gaussFilter dt n b = .ok g → ∀ k < n, rdft n (smp (gfilter x n (toC g) dt)) k
        = rdft n (smp x) k * (gaussResponse dt n b k : ℂ) := by
      intro b g hg k hk
      rw [← rdft_gaussPulse hn0 hk, ← rdft_cconv hn0 _ _ hk]
      apply dft_congr
      intro m hm
      rw [gfilter_gauss hg x hm]
    have e : ∀ b (g : List ℝ), gaussFilter dt n b = .ok g → energy n (smp (gfilter x n (toC g) dt)) =
        (∑ k ∈ range n, ‖rdft n (smp x) k‖ ^ 2 * gaussResponse dt n b k ^ 2) / n := by
      intro b g hg
      rw [eq_div_iff hnR.ne', mul_comm, ← parseval hn0]
      apply sum_congr rfl
      intro k hk
      rw [hspec b g hg k (mem_range.1 hk), norm_mul, mul_pow, Complex.norm_real, Real.norm_eq_abs, sq_abs]
    rw [e a g h, e a' g' h']
    apply div_le_div_of_nonneg_right _ hnR.le
    apply sum_le_sum
    intro k _
    exact mul_le_mul_of_nonneg_left (pow_le_pow_left₀ (Real.exp_pos _).le (gaussResponse_mono ha hle dt n k) 2) (sq_nonneg _)

/-- **C149** water-level deconvolution of traces whose length is a power of two, not normalised: the receiver function with
the wider Gaussian has at least the energy it has with the narrower one -/
theorem c149_water {uin win r₁ r₂ : List ℝ} {dt preonset w a a' e₁ e₂ : ℝ}
    (h₁ : deconv_waterlevel uin win dt preonset w a false = .ok (r₁, e₁))
    (h₂ : deconv_waterlevel uin win dt preonset w a' false = .ok (r₂, e₂))
    (ha : 0 < a) (hle : a ≤ a') (hp : ∃ j, uin.length = 2 ^ j) :
    ∑ m ∈ range uin.length, smp r₁ m ^ 2 ≤ ∑ m ∈ range uin.length, smp r₂ m ^ 2 := by
  obtain ⟨hlen, hdt, ⟨k, hk, hn⟩, d, hd, -, f₁, -⟩ := water_master h₁
  obtain ⟨-, -, -, d', hd', -, f₂, -⟩ := water_master h₂
  obtain rfl := maxPower_unique hd hd'
  have hnp : nextPow2 uin.length = uin.length := by
    obtain ⟨j, hj⟩ := hp
    rw [hj, nextPow2_pos (by positivity), Nat.clog_pow _ _ (by norm_num)]
  rw [hnp] at hn f₁ f₂
  set n := uin.length with hnn
  have hn0 : 0 < n := by omega
  have hout : ∀ b : ℝ, ∀ m, (idft n (fun k => ((gaussResponse dt n b k / dt : ℝ) : ℂ) *
          waterQuot (w * d) (traceSpectrum n uin k) (traceSpectrum n win k)
          * Complex.exp (-Complex.I * (omega dt n k * preonset : ℝ))) m).re ^ 2 =
      (idft n (fun k => (gaussResponse dt n b k : ℂ) * (waterQuot (w * d) (traceSpectrum n uin k) (traceSpectrum n win k)
          * Complex.exp (-Complex.I * (omega dt n k * preonset : ℝ)) / dt)) m).re ^ 2 := by
    intro b m
    congr 2
    apply idft_congr
    intro j _
    push_cast
    ring
  have q₁ : ∀ m ∈ range n, smp r₁ m ^ 2 = _ := fun m h => by
    rw [f₁ m (mem_range.1 h), if_neg (by decide), div_one, hout a m]
  have q₂ : ∀ m ∈ range n, smp r₂ m ^ 2 = _ := fun m h => by
    rw [f₂ m (mem_range.1 h), if_neg (by decide), div_one, hout a' m]
  rw [sum_congr rfl q₁, sum_congr rfl q₂]
  exact re_energy_mono hn0 _ (gaussResponse_even hn0) (gaussResponse_even hn0)
    (fun j _ => ⟨(Real.exp_pos _).le, gaussResponse_mono ha hle dt n j⟩)

/-- the hypotheses are met by two traces of four samples and widths 1 and 2.5 -/
example : ∃ g g' r₁ r₂ e₁ e₂, gaussFilter (1/10) 4 1 = .ok g ∧ gaussFilter (1/10) 4 (5/2) = .ok g' ∧
    deconv_waterlevel [1, 2, 0, 0] [1, 0, 3, 0] (1/10) 1 (1/20) 1 false = .ok (r₁, e₁) ∧
    deconv_waterlevel [1, 2, 0, 0] [1, 0, 3, 0] (1/10) 1 (1/20) (5/2) false = .ok (r₂, e₂) ∧
    smp g 1 ≤ smp g' 1 ∧ ∑ m ∈ range 4, smp r₁ m ^ 2 ≤ ∑ m ∈ range 4, smp r₂ m ^ 2 := by
  obtain ⟨⟨r₁, e₁⟩, h₁⟩ := c58_total (uin := [1, 2, 0, 0]) (win := [1, 0, 3, 0]) (dt := 1/10) (preonset := 1)
    (wlevel := 1/20) (a := 1) (normalize := false) rfl (by simp) (by norm_num)
  obtain ⟨⟨r₂, e₂⟩, h₂⟩ := c58_total (uin := [1, 2, 0, 0]) (win := [1, 0, 3, 0]) (dt := 1/10) (preonset := 1)
    (wlevel := 1/20) (a := 5/2) (normalize := false) rfl (by simp) (by norm_num)
  obtain ⟨g, hg, -⟩ := c57_gauss (dt := 1/10) (n := 4) 1 (by norm_num) (by norm_num) ⟨2, rfl⟩
  obtain ⟨g', hg', -⟩ := c57_gauss (dt := 1/10) (n := 4) (5/2) (by norm_num) (by norm_num) ⟨2, rfl⟩
  exact ⟨g, g', r₁, r₂, e₁, e₂, hg, hg', h₁, h₂, (c149_filter (by norm_num) one_pos (by norm_num) hg hg').1 1,
    c149_water h₁ h₂ one_pos (by norm_num) ⟨2, rfl⟩⟩

end Rfsed.Props
