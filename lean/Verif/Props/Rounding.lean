import Verif.Proofs.Rounded
import Verif.Props.Noise
import Verif.Proofs.Refine
import Verif.Props.Total

/-!
# Property C105: rounding errors of the stacking

`FL R` is floating-point arithmetic with unit roundoff `R.u` (`Verif/Py/Rounded.lean`): the theorems below speak about
the stacking functions run in that arithmetic.
-/

namespace Rfsed.Props
open Rfsed PyFloat Spec HkZhu

/-- the number with its parts taken as exact real numbers -/
def exactNum {R : Rounding} : PyNum (FL R) → PyNum ℝ
  | .real x => .real x.val
  | .cplx re im => .cplx re.val im.val

/-- the trace with its numbers taken as exact real numbers -/
def exactTrace {R : Rounding} (tr : Trace (FL R)) : Trace ℝ where
  station := tr.station
  channel := tr.channel
  data := tr.data.map FL.val
  delta := tr.delta.val
  starttime := tr.starttime.val
  onset := tr.onset.map FL.val
  slowness := tr.slowness.map (fun s => ⟨s.kind, s.val.val⟩)
  backAzimuth := tr.backAzimuth.map FL.val
  distance := tr.distance.map FL.val
  extra := fun s => (tr.extra s).map exactNum

/-- the row with its numbers taken as exact real numbers -/
def exactRow {R : Rounding} (row : Row (FL R)) : Row ℝ := ⟨row.h.val, row.k.val, row.s.val⟩

/-- the three amplitudes are read at samples that are nearest to the exact delay times up to `E` -/
def ReadsArrivals (data axis : List ℝ) (p Vp H K E : ℝ) (a : ℝ × ℝ × ℝ) : Prop :=
  AlmostReads data axis (tPs p Vp H K) E a.1 ∧ AlmostReads data axis (tPpPs p Vp H K) E a.2.1 ∧
  AlmostReads data axis (tPsPs p Vp H K) E a.2.2

/-- each of the three exact delay times has a clearly nearest sample -/
def ClearArrivals (axis : List ℝ) (p Vp H K E : ℝ) : Prop :=
  ClearlyNearest axis (tPs p Vp H K) E ∧ ClearlyNearest axis (tPpPs p Vp H K) E ∧
  ClearlyNearest axis (tPsPs p Vp H K) E

section
variable {R : Rounding}

theorem weigh_reads (hu : R.u ≤ 1 / 1000) {Vp : Scalar (FL R)} {kd : Kind} {rp x k w1 w2 w3 v : FL R} {p L : ℝ}
    {ts : PyNum (FL R) × PyNum (FL R) × PyNum (FL R)} {axis d : List (FL R)} {axis' : List ℝ}
    (hp : |rp.val - p| ≤ R.u * |p|) (hax : AxisApprox R L axis axis')
    (hw : WellConditioned R.u p Vp.val.val k.val) (h : bestTimes Vp kd rp x k = .ok ts)
    (hv : weigh w1 w2 w3 d axis ts = .ok v) :
    ∃ a : ℝ × ℝ × ℝ, ReadsArrivals (d.map FL.val) axis' p Vp.val.val x.val k.val
        (40 * R.u * (L + timeScale p Vp.val.val x.val k.val)) a ∧
      |v.val - (w1.val * a.1 + w2.val * a.2.1 - w3.val * a.2.2)| ≤
        accumulated R.u 3 * (|w1.val * a.1| + |w2.val * a.2.1| + |w3.val * a.2.2|) := by
  obtain ⟨t1, t2, t3, rfl, e1, e2, e3, f1, f2, f3⟩ := bestTimes_approx hu hp hw h
  obtain ⟨a1, a2, a3, g1, g2, g3, rfl⟩ := weigh_ok.1 hv
  have hT := timeScale_nonneg p Vp.val.val x.val k.val
  exact ⟨(a1.val, a2.val, a3.val), ⟨read_approx hu hax hT e1 f1 g1, read_approx hu hax hT e2 f2 g2,
    read_approx hu hax hT e3 f3 g3⟩, weigh_approx⟩

theorem weighted_le (w1 w2 w3 a b c : ℝ) : |w1 * a + w2 * b - w3 * c| ≤ |w1 * a| + |w2 * b| + |w3 * c| :=
  (abs_sub _ _).trans (add_le_add (abs_add_le _ _) le_rfl)

/-- one grid point of `hk` -/
theorem cell_reads (hu : R.u ≤ 1 / 1000) {env : Env (FL R)} {st : List (Trace (FL R))} {t sd : List (FL R)}
    {avg : FL R} {Vp : Scalar (FL R)} {w1 w2 w3 k x s : FL R} {L : ℝ} {axis' : List ℝ} (hax : AxisApprox R L t axis')
    (hw : ∀ tr ∈ st, ∀ sl, tr.slowness = some sl →
      WellConditioned R.u (env.km2deg1.val * sl.val.val) Vp.val.val k.val)
    (h : cell env st t sd avg Vp w1 w2 w3 false k x = .ok s) :
    ∃ amps : List (ℝ × ℝ × ℝ),
      List.Forall₂ (fun (tr : Trace (FL R)) a => ∃ sl, tr.slowness = some sl ∧
        ReadsArrivals (tr.data.map FL.val) axis' (env.km2deg1.val * sl.val.val) Vp.val.val x.val k.val
          (40 * R.u * (L + timeScale (env.km2deg1.val * sl.val.val) Vp.val.val x.val k.val)) a) st amps ∧
      |s.val - (amps.map (fun a : ℝ × ℝ × ℝ => w1.val * a.1 + w2.val * a.2.1 - w3.val * a.2.2)).sum| ≤
        accumulated R.u (st.length + 3) *
          (amps.map (fun a : ℝ × ℝ × ℝ => |w1.val * a.1| + |w2.val * a.2.1| + |w3.val * a.2.2|)).sum := by
  rw [cell_eq] at h
  obtain ⟨xs, hxs, h2⟩ := bind_eq_ok.1 h
  clear h
  have h3 := Except.ok.inj h2
  clear h2
  subst h3
  have hlen : xs.length = st.length := mapM_length hxs
  rw [mapM_ok_iff] at hxs
  have key : ∃ amps : List (ℝ × ℝ × ℝ),
      List.Forall₂ (fun (tr : Trace (FL R)) a => ∃ sl, tr.slowness = some sl ∧
        ReadsArrivals (tr.data.map FL.val) axis' (env.km2deg1.val * sl.val.val) Vp.val.val x.val k.val
          (40 * R.u * (L + timeScale (env.km2deg1.val * sl.val.val) Vp.val.val x.val k.val)) a) st amps ∧
      List.Forall₂ (fun (x : FL R) (e : ℝ × ℝ) => |x.val - e.1| ≤ accumulated R.u 3 * e.2 ∧ |e.1| ≤ e.2) xs
        (amps.map (fun a : ℝ × ℝ × ℝ => (w1.val * a.1 + w2.val * a.2.1 - w3.val * a.2.2,
          |w1.val * a.1| + |w2.val * a.2.1| + |w3.val * a.2.2|))) := by
    clear hlen
    induction hxs with
    | nil => exact ⟨[], .nil, .nil⟩
    | @cons tr v st xs hv _ ih =>
      obtain ⟨amps, h1, h2⟩ := ih (fun tr htr => hw tr (List.mem_cons_of_mem _ htr))
      obtain ⟨o, sl, ts, -, hsl, hts, hwt⟩ := traceTerm_ok.1 hv
      have hp : |(env.km2deg1 * sl.val).val - env.km2deg1.val * sl.val.val| ≤
          R.u * |env.km2deg1.val * sl.val.val| := R.err _
      obtain ⟨a, ha, he⟩ := weigh_reads hu hp hax (hw tr (by simp) sl hsl) hts hwt
      exact ⟨a :: amps, .cons ⟨sl, hsl, ha⟩ h1, .cons ⟨he, weighted_le _ _ _ _ _ _⟩ h2⟩
  obtain ⟨amps, h1, h2⟩ := key
  refine ⟨amps, h1, ?_⟩
  have := fold_approx h2 (n := 3) le_rfl (s0 := zero) (s := 0) (M := 0) (by simp) (by simp)
  rw [List.map_map, List.map_map, add_zero, add_zero, hlen, Nat.add_comm] at this
  exact this

theorem not_true_getD {stack : Option Bool} (h : stack ≠ some true) : stack.getD false = false := by
  cases stack with
  | none => rfl
  | some b => cases b with
    | false => rfl
    | true => exact absurd rfl h

/-- **C105** `hk` in floating-point arithmetic: every stack value is the weighted sum of data samples, up to the relative
error of as many operations as there are traces plus three; each sample is nearest to the exact Zhu & Kanamori
delay time of its phase, up to `timeAccuracy`. -/
theorem c105_hk (hu : R.u ≤ 1 / 1000) {env : Env (FL R)} {tr0 : Trace (FL R)} {rest : List (Trace (FL R))}
    {preonset : FL R} {H K : List (FL R)} {Vp : Scalar (FL R)} {w1 w2 w3 : FL R} {layer : Option String}
    {stack : Option Bool} {r : HKResult (FL R)} (hs : stack ≠ some true)
    (h : hk env (tr0 :: rest) preonset H K (some Vp) (some w1) (some w2) (some w3) layer stack = .ok r)
    {row : Row (FL R)} (hrow : row ∈ r.stackvalues)
    (hw : ∀ tr ∈ tr0 :: rest, ∀ sl, tr.slowness = some sl →
      WellConditioned R.u (env.km2deg1.val * sl.val.val) Vp.val.val row.k.val) :
    ∃ amps : List (ℝ × ℝ × ℝ),
      List.Forall₂ (fun (tr : Trace (FL R)) a => ∃ sl, tr.slowness = some sl ∧
        ReadsArrivals (tr.data.map FL.val) (exactAxis tr0.delta.val preonset.val tr0.data.length)
          (env.km2deg1.val * sl.val.val) Vp.val.val row.h.val row.k.val
          (timeAccuracy R.u tr0.delta.val preonset.val tr0.data.length (env.km2deg1.val * sl.val.val) Vp.val.val
            row.h.val row.k.val) a) (tr0 :: rest) amps ∧
      |row.s.val - (amps.map (fun a : ℝ × ℝ × ℝ => w1.val * a.1 + w2.val * a.2.1 - w3.val * a.2.2)).sum| ≤
        accumulated R.u (amps.length + 3) *
          (amps.map (fun a : ℝ × ℝ × ℝ => |w1.val * a.1| + |w2.val * a.2.1| + |w3.val * a.2.2|)).sum := by
  obtain ⟨tr0', rest', slows, f⟩ := hk_inv h
  have hst := f.hst
  injection hst with e1 e2
  subst e1 e2
  have g := f.hgrid
  rw [f.hVp, f.hstk, not_true_getD hs, f.htime] at g
  have hc := ((gridLoop_mem g row).1 hrow).2.2
  obtain ⟨amps, h1, h2⟩ := cell_reads hu (axisApprox_timeAxis hu tr0.delta preonset tr0.data.length) hw hc
  refine ⟨amps, h1, ?_⟩
  rw [← h1.length_eq]
  exact h2

/-- in exact arithmetic the clearly nearest samples are read -/
theorem exact_terms {env' : Env ℝ} {c L u : ℝ} {st : List (Trace (FL R))} {t sd xs : List ℝ} {avg : ℝ} {Vp : Scalar ℝ}
    {w1 w2 w3 k x : ℝ} {amps : List (ℝ × ℝ × ℝ)} (hkm : env'.km2deg1 = c) (hL : 0 ≤ L) (hu : 0 ≤ u)
    (hw : ∀ tr ∈ st, ∀ sl, tr.slowness = some sl → WellConditioned u (c * sl.val.val) Vp.val k)
    (hclear : ∀ tr ∈ st, ∀ sl, tr.slowness = some sl → ClearArrivals t (c * sl.val.val) Vp.val x k
      (40 * u * (L + timeScale (c * sl.val.val) Vp.val x k)))
    (hamps : List.Forall₂ (fun (tr : Trace (FL R)) a => ∃ sl, tr.slowness = some sl ∧
        ReadsArrivals (tr.data.map FL.val) t (c * sl.val.val) Vp.val x k
          (40 * u * (L + timeScale (c * sl.val.val) Vp.val x k)) a) st amps)
    (hxs : (st.map exactTrace).mapM (traceTerm env' t sd avg Vp w1 w2 w3 false k x) = .ok xs) :
    xs = amps.map (fun a : ℝ × ℝ × ℝ => w1 * a.1 + w2 * a.2.1 - w3 * a.2.2) := by
  rw [mapM_ok_iff] at hxs
  induction hamps generalizing xs with
  | nil => cases hxs; rfl
  | @cons tr a st amps ha _ ih =>
    cases hxs with
    | @cons _ v _ xs hv hvs =>
      have := ih (fun tr htr => hw tr (List.mem_cons_of_mem _ htr))
        (fun tr htr => hclear tr (List.mem_cons_of_mem _ htr)) hvs
      rw [List.map_cons, ← this]
      congr 1
      obtain ⟨sl, hsl, r1, r2, r3⟩ := ha
      have hwc := hw tr (by simp) sl hsl
      obtain ⟨c1, c2, c3⟩ := hclear tr (by simp) sl hsl
      have hp : (c * sl.val.val) ^ 2 ≤ (1 / Vp.val) ^ 2 := by
        have h1 := hwc.2
        have : 0 ≤ 5 * u * ((1 / Vp.val) ^ 2 + (c * sl.val.val) ^ 2) := by positivity
        linarith
      have hV : Vp.val ≠ 0 := by
        intro h0
        have h1 := hwc.2
        rw [h0] at h1
        have : 0 ≤ 5 * u * ((1 / (0 : ℝ)) ^ 2 + (c * sl.val.val) ^ 2) := by positivity
        simp only [div_zero] at h1 this
        nlinarith [sq_nonneg (c * sl.val.val)]
      have hE : 0 ≤ 40 * u * (L + timeScale (c * sl.val.val) Vp.val x k) := by
        have := timeScale_nonneg (c * sl.val.val) Vp.val x k
        positivity
      obtain ⟨o, sl', ts, ho, hs', -, -⟩ := traceTerm_ok.1 hv
      have hs2 : (exactTrace tr).slowness = some ⟨sl.kind, sl.val.val⟩ := by
        show tr.slowness.map _ = _
        rw [hsl]; rfl
      obtain ⟨b1, b2, b3, q1, q2, q3, rfl⟩ := (traceTerm_real_ok (env := env') (stack := false) hV ho hs2 (by
        show (env'.km2deg1 * sl.val.val) ^ 2 ≤ _
        rw [hkm]; exact hp)).1 hv
      have er : rpOf env' avg false sl.val.val = c * sl.val.val := by
        show env'.km2deg1 * sl.val.val = _
        rw [hkm]
      rw [er] at q1 q2 q3
      have g1 := almost_unique c1 (almost_of_nearest hE q1) r1
      have g2 := almost_unique c2 (almost_of_nearest hE q2) r2
      have g3 := almost_unique c3 (almost_of_nearest hE q3) r3
      rw [g1, g2, g3]

theorem almost_mem {data axis : List ℝ} {t E a : ℝ} (h : AlmostReads data axis t E a) : a ∈ data := by
  obtain ⟨i, x, _, h, _⟩ := h
  exact List.mem_of_getElem? h

theorem amps_bound {P : Trace (FL R) → ℝ × ℝ × ℝ → Prop} {st : List (Trace (FL R))} {amps : List (ℝ × ℝ × ℝ)}
    {A w1 w2 w3 : ℝ} (h : List.Forall₂ P st amps)
    (hP : ∀ tr ∈ st, ∀ a, P tr a → |a.1| ≤ A ∧ |a.2.1| ≤ A ∧ |a.2.2| ≤ A) :
    (amps.map (fun a : ℝ × ℝ × ℝ => |w1 * a.1| + |w2 * a.2.1| + |w3 * a.2.2|)).sum ≤
      st.length * ((|w1| + |w2| + |w3|) * A) := by
  induction h with
  | nil => simp
  | @cons tr a st amps ha _ ih =>
    have := ih (fun tr htr => hP tr (List.mem_cons_of_mem _ htr))
    obtain ⟨h1, h2, h3⟩ := hP tr (by simp) a ha
    rw [List.map_cons, List.sum_cons, List.length_cons]
    push_cast
    rw [abs_mul, abs_mul, abs_mul]
    have k1 := mul_le_mul_of_nonneg_left h1 (abs_nonneg w1)
    have k2 := mul_le_mul_of_nonneg_left h2 (abs_nonneg w2)
    have k3 := mul_le_mul_of_nonneg_left h3 (abs_nonneg w3)
    nlinarith

theorem gridPoints_map {α β : Type} (g : α → β) (K H : List α) :
    gridPoints (K.map g) (H.map g) = (gridPoints K H).map (fun p => (g p.1, g p.2)) := by
  unfold gridPoints
  induction K with
  | nil => rfl
  | cons k K ih =>
    rw [List.map_cons, List.flatMap_cons, List.flatMap_cons, List.map_append, ih, List.map_map, List.map_map]
    rfl

/-- tables over the same grid, one in each arithmetic -/
theorem nearTable_fl {K H : List (FL R)} {v : FL R → FL R → Except PyErr (FL R)} {v' : ℝ → ℝ → Except PyErr ℝ}
    {tb : List (Row (FL R))} {tb' : List (Row ℝ)} {B : ℝ} (h : gridLoop K H v = .ok tb)
    (h' : gridLoop (K.map FL.val) (H.map FL.val) v' = .ok tb')
    (hv : ∀ k ∈ K, ∀ x ∈ H, ∀ a b, v k x = .ok a → v' k.val x.val = .ok b → |b - a.val| ≤ B) :
    NearTable B tb' (tb.map exactRow) := by
  obtain ⟨f, hf, rfl⟩ := gridLoop_fun.1 h
  obtain ⟨g, hg, rfl⟩ := gridLoop_fun.1 h'
  unfold NearTable gridTab
  rw [gridPoints_map, List.map_map, List.map_map, List.forall₂_map_left_iff, List.forall₂_map_right_iff,
    List.forall₂_same]
  intro p hp
  obtain ⟨a, b⟩ := mem_gridPoints.1 hp
  exact ⟨rfl, rfl, hv _ a _ b _ _ (hf _ a _ b) (hg _ (List.mem_map_of_mem a) _ (List.mem_map_of_mem b))⟩

theorem best_fl {tb : List (Row (FL R))} {n : Nat} (h : argmax (tb.map Row.s) = .ok n) :
    argmax ((tb.map exactRow).map Row.s) = .ok n := by
  rw [argmax_fl, List.map_map] at h
  rw [List.map_map]
  exact h

/-- **C105** `hk` in floating-point and in exact arithmetic on the same numbers: if every exact delay time of every grid
point has a clearly nearest sample (by `timeAccuracy`), each stack value differs from the exact one by at most
`accumulated (N + 3) · N (|w1| + |w2| + |w3|) max|data|`, and a best model that wins by more than twice this amount in
exact arithmetic is the one reported in floating point. -/
theorem c105_hk_exact (hu : R.u ≤ 1 / 1000) {env : Env (FL R)} {env' : Env ℝ} {tr0 : Trace (FL R)}
    {rest : List (Trace (FL R))}
    {preonset : FL R} {H K : List (FL R)} {Vp : Scalar (FL R)} {w1 w2 w3 : FL R} {layer layer' : Option String}
    {stack stack' : Option Bool} {kd : Kind} {r : HKResult (FL R)} {r' : HKResult ℝ} {A : ℝ}
    (hs : stack ≠ some true) (hs' : stack' ≠ some true) (hkm : env'.km2deg1 = env.km2deg1.val)
    (h : hk env (tr0 :: rest) preonset H K (some Vp) (some w1) (some w2) (some w3) layer stack = .ok r)
    (h' : hk env' ((tr0 :: rest).map exactTrace) preonset.val (H.map FL.val) (K.map FL.val) (some ⟨kd, Vp.val.val⟩)
      (some w1.val) (some w2.val) (some w3.val) layer' stack' = .ok r')
    (hA : ∀ tr ∈ tr0 :: rest, ∀ a ∈ tr.data, |a.val| ≤ A)
    (hw : ∀ k ∈ K, ∀ tr ∈ tr0 :: rest, ∀ sl, tr.slowness = some sl →
      WellConditioned R.u (env.km2deg1.val * sl.val.val) Vp.val.val k.val)
    (hclear : ∀ k ∈ K, ∀ x ∈ H, ∀ tr ∈ tr0 :: rest, ∀ sl, tr.slowness = some sl →
      ClearArrivals (exactAxis tr0.delta.val preonset.val tr0.data.length) (env.km2deg1.val * sl.val.val) Vp.val.val
        x.val k.val (timeAccuracy R.u tr0.delta.val preonset.val tr0.data.length (env.km2deg1.val * sl.val.val)
          Vp.val.val x.val k.val)) :
    let B := accumulated R.u ((tr0 :: rest).length + 3) *
      ((tr0 :: rest).length * ((|w1.val| + |w2.val| + |w3.val|) * A))
    NearTable B r'.stackvalues (r.stackvalues.map exactRow) ∧
      (Margin (2 * B) r'.stackvalues r'.bestIdx → r.bestIdx = r'.bestIdx) := by
  intro B
  obtain ⟨tr1, rest1, slows, f⟩ := hk_inv h
  have hst := f.hst
  injection hst with e1 e2
  subst e1 e2
  obtain ⟨tr2, rest2, slows', f'⟩ := hk_inv h'
  have hst' := f'.hst
  rw [List.map_cons] at hst'
  injection hst' with e1 e2
  subst e1 e2
  have g := f.hgrid
  rw [f.hVp, f.hstk, not_true_getD hs, f.htime] at g
  have g' := f'.hgrid
  have ht' : r'.time = exactAxis tr0.delta.val preonset.val tr0.data.length := by
    rw [f'.htime]
    unfold timeAxis exactAxis exactTrace
    simp only [real_ofNat, List.length_map]
  rw [f'.hVp, f'.hstk, not_true_getD hs', ht'] at g'
  simp only [Option.getD_some] at g g'
  have hT : NearTable B r'.stackvalues (r.stackvalues.map exactRow) := by
    refine nearTable_fl g g' ?_
    intro k hk x hx a b ha hb
    obtain ⟨amps, h1, h2⟩ := cell_reads hu (axisApprox_timeAxis hu tr0.delta preonset tr0.data.length) (hw k hk) ha
    obtain ⟨xs, hxs, rfl⟩ := cell_real_ok.1 hb
    have hc : ∀ tr ∈ tr0 :: rest, ∀ sl, tr.slowness = some sl →
        ClearArrivals (exactAxis tr0.delta.val preonset.val tr0.data.length) (env.km2deg1.val * sl.val.val) Vp.val.val
          x.val k.val (40 * R.u * (|tr0.delta.val| * tr0.data.length + |preonset.val| +
            timeScale (env.km2deg1.val * sl.val.val) Vp.val.val x.val k.val)) := by
      intro tr htr sl hsl
      have := hclear k hk x hx tr htr sl hsl
      unfold timeAccuracy at this
      exact this
    have hL : 0 ≤ |tr0.delta.val| * tr0.data.length + |preonset.val| := by positivity
    have hx' := exact_terms (Vp := ⟨kd, Vp.val.val⟩) hkm hL R.u_nonneg (hw k hk) hc h1 hxs
    rw [hx', abs_sub_comm]
    refine h2.trans ?_
    apply mul_le_mul_of_nonneg_left _ (accumulated_nonneg _)
    refine amps_bound h1 ?_
    rintro tr htr c ⟨sl, -, r1, r2, r3⟩
    have hm : ∀ {z : ℝ}, z ∈ tr.data.map FL.val → |z| ≤ A := by
      intro z hz
      obtain ⟨y, hy, rfl⟩ := List.mem_map.1 hz
      exact hA tr htr y hy
    exact ⟨hm (almost_mem r1), hm (almost_mem r2), hm (almost_mem r3)⟩
  exact ⟨hT, nearTable_best hT f'.hbest (best_fl f.hbest)⟩

theorem axisApprox_self {t : List (FL R)} {L : ℝ} (hL : ∀ x ∈ t, |x.val| ≤ L) : AxisApprox R L t (t.map FL.val) := by
  unfold AxisApprox
  rw [List.forall₂_map_right_iff, List.forall₂_same]
  intro x hx
  have h0 := hL x hx
  have := (abs_nonneg _).trans h0
  have := R.u_nonneg
  refine ⟨?_, h0⟩
  rw [sub_self, abs_zero]
  positivity

theorem synthCell_reads (hu : R.u ≤ 1 / 1000) {d t : List (FL R)} {rp Vp : Scalar (FL R)} {w1 w2 w3 k x s : FL R} {L : ℝ}
    (hL : ∀ τ ∈ t, |τ.val| ≤ L) (hw : WellConditioned R.u rp.val.val Vp.val.val k.val)
    (h : SynthAnalysis.cell d t rp Vp w1 w2 w3 k x = .ok s) :
    ∃ a : ℝ × ℝ × ℝ,
      ReadsArrivals (d.map FL.val) (t.map FL.val) rp.val.val Vp.val.val x.val k.val
        (40 * R.u * (L + timeScale rp.val.val Vp.val.val x.val k.val)) a ∧
      |s.val - (w1.val * a.1 + w2.val * a.2.1 - w3.val * a.2.2)| ≤
        accumulated R.u 4 * (|w1.val * a.1| + |w2.val * a.2.1| + |w3.val * a.2.2|) := by
  rw [synthCell_eq] at h
  obtain ⟨ts, hts, h⟩ := bind_eq_ok.1 h
  obtain ⟨v, hv, h⟩ := bind_eq_ok.1 h
  have h := Except.ok.inj h
  subst h
  have hp : |rp.val.val - rp.val.val| ≤ R.u * |rp.val.val| := by
    have := R.u_nonneg
    rw [sub_self, abs_zero]; positivity
  obtain ⟨a, ha, he⟩ := weigh_reads hu hp (axisApprox_self hL) hw hts hv
  refine ⟨a, ha, ?_⟩
  have := fold_approx (xs := [v]) (es := [(_, _)]) (.cons ⟨he, weighted_le _ _ _ _ _ _⟩ .nil) (n := 3) le_rfl
    (s0 := zero) (s := 0) (M := 0) (by simp) (by simp)
  simpa using this

/-- **C105** `hkSynth` in floating-point arithmetic; the ray parameter and the time axis are inputs, `L` bounds the
times of the axis -/
theorem c105_hkSynth (hu : R.u ≤ 1 / 1000) {env : Env (FL R)} {d t : List (FL R)} {rp : Scalar (FL R)}
    {H K : List (FL R)} {Vp : Scalar (FL R)} {w1 w2 w3 : FL R} {layer : Option String}
    {r : SynthAnalysis.SynthResult (FL R)} {L : ℝ}
    (h : SynthAnalysis.hkSynth env d t rp H K (some Vp) (some w1) (some w2) (some w3) layer = .ok r)
    (hL : ∀ τ ∈ t, |τ.val| ≤ L) {row : Row (FL R)} (hrow : row ∈ r.stackvalues)
    (hw : WellConditioned R.u rp.val.val Vp.val.val row.k.val) :
    ∃ a : ℝ × ℝ × ℝ,
      ReadsArrivals (d.map FL.val) (t.map FL.val) rp.val.val Vp.val.val row.h.val row.k.val
        (40 * R.u * (L + timeScale rp.val.val Vp.val.val row.h.val row.k.val)) a ∧
      |row.s.val - (w1.val * a.1 + w2.val * a.2.1 - w3.val * a.2.2)| ≤
        accumulated R.u 4 * (|w1.val * a.1| + |w2.val * a.2.1| + |w3.val * a.2.2|) := by
  have f := hkSynth_inv h
  have hc := ((gridLoop_mem f.hgrid row).1 hrow).2.2
  exact synthCell_reads hu hL hw hc

/-- **C105** `hkSynth` in floating-point and in exact arithmetic on the same numbers -/
theorem c105_hkSynth_exact (hu : R.u ≤ 1 / 1000) {env : Env (FL R)} {env' : Env ℝ} {d t : List (FL R)}
    {rp : Scalar (FL R)} {H K : List (FL R)} {Vp : Scalar (FL R)} {w1 w2 w3 : FL R} {layer layer' : Option String}
    {kd kd' : Kind} {r : SynthAnalysis.SynthResult (FL R)} {r' : SynthAnalysis.SynthResult ℝ} {A L : ℝ}
    (h : SynthAnalysis.hkSynth env d t rp H K (some Vp) (some w1) (some w2) (some w3) layer = .ok r)
    (h' : SynthAnalysis.hkSynth env' (d.map FL.val) (t.map FL.val) ⟨kd', rp.val.val⟩ (H.map FL.val) (K.map FL.val)
      (some ⟨kd, Vp.val.val⟩) (some w1.val) (some w2.val) (some w3.val) layer' = .ok r')
    (hL : ∀ τ ∈ t, |τ.val| ≤ L) (hA : ∀ a ∈ d, |a.val| ≤ A)
    (hw : ∀ k ∈ K, WellConditioned R.u rp.val.val Vp.val.val k.val)
    (hclear : ∀ k ∈ K, ∀ x ∈ H, ClearArrivals (t.map FL.val) rp.val.val Vp.val.val x.val k.val
      (40 * R.u * (L + timeScale rp.val.val Vp.val.val x.val k.val))) :
    let B := accumulated R.u 4 * ((|w1.val| + |w2.val| + |w3.val|) * A)
    NearTable B r'.stackvalues (r.stackvalues.map exactRow) ∧
      (Margin (2 * B) r'.stackvalues r'.bestIdx → r.bestIdx = r'.bestIdx) := by
  intro B
  have f := hkSynth_inv h
  have f' := hkSynth_inv h'
  have hT : NearTable B r'.stackvalues (r.stackvalues.map exactRow) := by
    refine nearTable_fl f.hgrid f'.hgrid ?_
    simp only [Option.getD_some]
    intro k hk x hx a b ha hb
    obtain ⟨⟨a1, a2, a3⟩, ⟨r1, r2, r3⟩, h2⟩ := synthCell_reads hu hL (hw k hk) ha
    obtain ⟨c1, c2, c3⟩ := hclear k hk x hx
    have hwc := hw k hk
    have hne : t ≠ [] := by
      rintro rfl
      obtain ⟨i, y, hy, -⟩ := r1
      simp at hy
    have hL0 : 0 ≤ L := by
      obtain ⟨y, t', rfl⟩ := List.exists_cons_of_ne_nil hne
      exact (abs_nonneg _).trans (hL y (by simp))
    have hu0 := R.u_nonneg
    have hp : rp.val.val ^ 2 ≤ (1 / Vp.val.val) ^ 2 := by
      have h1 := hwc.2
      have : 0 ≤ 5 * R.u * ((1 / Vp.val.val) ^ 2 + rp.val.val ^ 2) := by positivity
      linarith
    have hV : Vp.val.val ≠ 0 := by
      intro h0
      have h1 := hwc.2
      rw [h0] at h1
      have : 0 ≤ 5 * R.u * ((1 / (0 : ℝ)) ^ 2 + rp.val.val ^ 2) := by positivity
      simp only [div_zero] at h1 this
      nlinarith [sq_nonneg rp.val.val]
    have hE : 0 ≤ 40 * R.u * (L + timeScale rp.val.val Vp.val.val x.val k.val) := by
      have := timeScale_nonneg rp.val.val Vp.val.val x.val k.val
      positivity
    rw [synthCell_eq, bestTimes_real (Vp := ⟨kd, Vp.val.val⟩) (p := rp.val.val) hV hp, except_ok_bind] at hb
    obtain ⟨v, hv, hb⟩ := bind_eq_ok.1 hb
    have hb := Except.ok.inj hb
    obtain ⟨b1, b2, b3, q1, q2, q3, rfl⟩ := weigh_ok.1 hv
    have g1 := almost_unique c1 (almost_of_nearest hE ((getamp_ok_iff (distOk_real _ _)).1 q1)) r1
    have g2 := almost_unique c2 (almost_of_nearest hE ((getamp_ok_iff (distOk_real _ _)).1 q2)) r2
    have g3 := almost_unique c3 (almost_of_nearest hE ((getamp_ok_iff (distOk_real _ _)).1 q3)) r3
    rw [← hb, real_zero, add_zero, g1, g2, g3, abs_sub_comm]
    refine h2.trans ?_
    apply mul_le_mul_of_nonneg_left _ (accumulated_nonneg _)
    have hm : ∀ {z : ℝ}, z ∈ d.map FL.val → |z| ≤ A := by
      intro z hz
      obtain ⟨y, hy, rfl⟩ := List.mem_map.1 hz
      exact hA y hy
    have k1 := mul_le_mul_of_nonneg_left (hm (almost_mem r1)) (abs_nonneg w1.val)
    have k2 := mul_le_mul_of_nonneg_left (hm (almost_mem r2)) (abs_nonneg w2.val)
    have k3 := mul_le_mul_of_nonneg_left (hm (almost_mem r3)) (abs_nonneg w3.val)
    simp only [abs_mul]
    linarith
  exact ⟨hT, nearTable_best hT f'.hbest (best_fl f.hbest)⟩

end

/-! ## A concrete case

Double precision; one trace of 16 samples, one second apart, with slowness 10 s/° at 0.01 °/km (`p` = 0.1 s/km);
`Vp` = 6, `K` = 1.85, `H` = 24: the exact delay times are 3.8, 10.2 and 14 s. -/

/-- double precision -/
noncomputable abbrev Dbl : Rounding := Rounding.binary 52

theorem dbl_u : Dbl.u = (2 : ℝ)⁻¹ ^ 53 := rfl

/-- the trace of the example -/
noncomputable def dblTrace : Trace (FL Dbl) where
  station := "STA"
  channel := "R"
  data := (List.range 16).map (fun i : Nat => ⟨if i = 4 then 3 else if i = 10 then 2 else 1⟩)
  delta := ⟨1⟩
  starttime := ⟨0⟩
  onset := some ⟨0⟩
  slowness := some ⟨.np, ⟨10⟩⟩
  backAzimuth := none
  distance := none

/-- the environment of the example -/
noncomputable def dblEnv (F : Type) (c : F) : Env F where
  km2deg1 := c
  stack := fun st => .ok (st.map Trace.data)
  draw := fun _ => .ok ()

theorem dbl_slow {k : ℝ} (hk : k = 1.85) : Real.sqrt ((k / 6) ^ 2 - (0.1 : ℝ) ^ 2) = 1.75 / 6 ∧
    Real.sqrt ((1 / 6 : ℝ) ^ 2 - (0.1 : ℝ) ^ 2) = 0.8 / 6 := by
  subst hk
  constructor
  · rw [show ((1.85 : ℝ) / 6) ^ 2 - (0.1 : ℝ) ^ 2 = (1.75 / 6) ^ 2 by norm_num, Real.sqrt_sq (by norm_num)]
  · rw [show ((1 : ℝ) / 6) ^ 2 - (0.1 : ℝ) ^ 2 = (0.8 / 6) ^ 2 by norm_num, Real.sqrt_sq (by norm_num)]

theorem dbl_well : WellConditioned Dbl.u 0.1 6 1.85 := by
  rw [dbl_u]
  unfold WellConditioned
  norm_num

theorem dbl_scale {x : ℝ} (h0 : 0 ≤ x) (hx : x ≤ 24) : timeScale 0.1 6 x 1.85 ≤ 24 := by
  obtain ⟨e1, e2⟩ := dbl_slow rfl
  unfold timeScale sensitivity
  rw [e1, e2, abs_of_nonneg h0]
  norm_num
  linarith

theorem dbl_accuracy {L x : ℝ} (h0 : 0 ≤ x) (hx : x ≤ 24) (h : L ≤ 16) :
    40 * Dbl.u * (L + timeScale 0.1 6 x 1.85) ≤ 0.1 := by
  have h1 := dbl_scale h0 hx
  have h2 : 40 * Dbl.u * (L + timeScale 0.1 6 x 1.85) ≤ 40 * Dbl.u * 40 := by
    apply mul_le_mul_of_nonneg_left _ (mul_nonneg (by norm_num) Dbl.u_nonneg)
    linarith
  refine h2.trans ?_
  rw [dbl_u]
  norm_num

/-- the time axis of the example -/
noncomputable def axis16 : List ℝ := (List.range 16).map (fun i : Nat => (i : ℝ))

theorem near16 {t : ℝ} {i j : Nat} {y : ℝ} (h : |(i : ℝ) - t| ≤ 0.2) (hji : j ≠ i) (hy : axis16[j]? = some y) :
    |(i : ℝ) - t| + 0.1 < |y - t| := by
  unfold axis16 at hy
  rw [List.getElem?_map, Option.map_eq_some_iff] at hy
  obtain ⟨j', hj, rfl⟩ := hy
  obtain ⟨hj1, rfl⟩ := List.getElem?_eq_some_iff.1 hj
  rw [List.getElem_range]
  have h1 : (1 : ℝ) ≤ |(j : ℝ) - i| := by
    have : (1 : ℤ) ≤ |(j : ℤ) - i| := Int.one_le_abs (by omega)
    exact_mod_cast this
  have h2 : |(j : ℝ) - i| ≤ |(j : ℝ) - t| + |(i : ℝ) - t| := by
    rw [abs_sub_comm (i : ℝ)]
    exact abs_sub_le _ _ _
  linarith

theorem at16 {i : Nat} (hi : i < 16) : axis16[i]? = some (i : ℝ) := by
  unfold axis16
  rw [List.getElem?_map, List.getElem?_range hi]; rfl

theorem clear16 {t E : ℝ} (i : Nat) (hi : i < 16) (h : |(i : ℝ) - t| ≤ 0.2) (hE : E ≤ 0.1) :
    ClearlyNearest axis16 t E :=
  ⟨i, i, at16 hi, fun j y hji hy => by have := near16 h hji hy; linarith⟩

theorem read16 {d : List ℝ} {t a : ℝ} (i : Nat) (hi : i < 16) (h : |(i : ℝ) - t| ≤ 0.2)
    (hr : ReadsNearest d axis16 t a) : d[i]? = some a := by
  obtain ⟨j, x, hx, hd, hj⟩ := almost_of_nearest (E := 0) le_rfl hr
  by_cases e : j = i
  · rw [← e]; exact hd
  · have h1 := near16 h e hx
    have h2 := hj i i (at16 hi)
    linarith

/-- the delay times of the two models of the example -/
theorem dbl_times {x : ℝ} : tPs 0.1 6 x 1.85 = x * (0.95 / 6) ∧ tPpPs 0.1 6 x 1.85 = x * (2.55 / 6) ∧
    tPsPs 0.1 6 x 1.85 = x * (3.5 / 6) := by
  obtain ⟨e1, e2⟩ := dbl_slow rfl
  have a1 : eta 0.1 (6 / 1.85) = 1.75 / 6 := by rw [← e1]; unfold eta; norm_num
  have a2 : eta 0.1 6 = 0.8 / 6 := by rw [← e2]; unfold eta; norm_num
  unfold tPs tPpPs tPsPs
  rw [a1, a2]
  refine ⟨by ring, by ring, by ring⟩

theorem dbl_clear {x E : ℝ} (hx : x = 24 ∨ x = 12) (hE : E ≤ 0.1) : ClearArrivals axis16 0.1 6 x 1.85 E := by
  unfold ClearArrivals
  obtain ⟨e1, e2, e3⟩ := dbl_times (x := x)
  rw [e1, e2, e3]
  rcases hx with rfl | rfl
  · refine ⟨clear16 4 (by norm_num) ?_ hE, clear16 10 (by norm_num) ?_ hE, clear16 14 (by norm_num) ?_ hE⟩
    all_goals rw [abs_le]; norm_num
  · refine ⟨clear16 2 (by norm_num) ?_ hE, clear16 5 (by norm_num) ?_ hE, clear16 7 (by norm_num) ?_ hE⟩
    all_goals rw [abs_le]; norm_num


theorem dbl_data : dblTrace.data.map FL.val =
    (List.range 16).map (fun i : Nat => if i = 4 then (3 : ℝ) else if i = 10 then 2 else 1) := by
  unfold dblTrace
  rw [List.map_map]; rfl

theorem dbl_axis : exactAxis 1 0 16 = axis16 := by
  unfold exactAxis axis16
  simp

/-- the call of the example -/
noncomputable def dblCall : Except PyErr (HKResult (FL Dbl)) :=
  hk (dblEnv (FL Dbl) ⟨0.01⟩) [dblTrace] ⟨0⟩ [⟨24⟩, ⟨12⟩] [⟨1.85⟩] (some ⟨.py, ⟨6⟩⟩) (some ⟨1⟩) (some ⟨1⟩) (some ⟨1⟩)
    none none

/-- the same call in exact arithmetic -/
noncomputable def dblCallExact : Except PyErr (HKResult ℝ) :=
  hk (dblEnv ℝ 0.01) ([dblTrace].map exactTrace) 0 ([⟨24⟩, ⟨12⟩].map (FL.val (R := Dbl)))
    ([⟨1.85⟩].map (FL.val (R := Dbl))) (some ⟨.py, 6⟩) (some 1) (some 1) (some 1) none none

theorem dbl_runs : (∃ r, dblCall = .ok r) ∧ ∃ r', dblCallExact = .ok r' := by
  constructor
  · refine (c104_hk ?_ ?_ (fun _ _ => rfl)).2 ⟨by simp, ⟨_, [], rfl⟩, ?_, ?_, by simp, by simp⟩
    · intro a ha b hb
      rw [List.mem_singleton.1 ha, List.mem_singleton.1 hb]
    · intro sd more h a ha
      injection Except.ok.inj h with h1 _
      rw [← h1, List.mem_singleton.1 ha]
    · intro tr htr
      rw [List.mem_singleton.1 htr]
      simp [dblTrace]
    · right
      simp [PyFloat.eq]
  · refine (c104_hk ?_ ?_ (fun _ _ => rfl)).2 ⟨by simp, ⟨_, [], rfl⟩, ?_, ?_, by simp, by simp⟩
    · intro a ha b hb
      rw [List.mem_singleton.1 ha, List.mem_singleton.1 hb]
    · intro sd more h a ha
      injection Except.ok.inj h with h1 _
      rw [← h1, List.mem_singleton.1 ha]
    · intro tr htr
      rw [List.mem_singleton.1 htr]
      simp [dblTrace, exactTrace]
    · exact divisor_real (by norm_num)

theorem dbl_exact_cell {sd : List ℝ} {avg x s : ℝ} (h : cell (dblEnv ℝ 0.01) ([dblTrace].map exactTrace) axis16 sd avg
    ⟨.py, 6⟩ 1 1 1 false 1.85 x = .ok s) : (x = 24 → s = 4) ∧ (x = 12 → s = 1) := by
  obtain ⟨xs, hxs, rfl⟩ := cell_real_ok.1 h
  obtain ⟨v, rfl⟩ : ∃ v, xs = [v] := by
    have := mapM_length hxs
    exact List.length_eq_one_iff.1 this
  rw [mapM_ok_iff] at hxs
  cases hxs with
  | cons hv _ =>
    rw [traceTerm_real_ok (o := 0) (sl := ⟨.np, 10⟩) (by norm_num) rfl rfl
      (by show ((0.01 : ℝ) * 10) ^ 2 ≤ _; norm_num)] at hv
    obtain ⟨a1, a2, a3, r1, r2, r3, rfl⟩ := hv
    have er : rpOf (dblEnv ℝ 0.01) avg false 10 = 0.1 := by
      show (0.01 : ℝ) * 10 = 0.1
      norm_num
    obtain ⟨e1, e2, e3⟩ := dbl_times (x := x)
    rw [er] at r1 r2 r3
    rw [e1] at r1
    rw [e2] at r2
    rw [e3] at r3
    have hd : (if false then sd else (exactTrace dblTrace).data) =
      (List.range 16).map (fun i : Nat => if i = 4 then (3 : ℝ) else if i = 10 then 2 else 1) := dbl_data
    rw [hd] at r1 r2 r3
    constructor
    · rintro rfl
      have g1 := read16 4 (by norm_num) (by rw [abs_le]; norm_num) r1
      have g2 := read16 10 (by norm_num) (by rw [abs_le]; norm_num) r2
      have g3 := read16 14 (by norm_num) (by rw [abs_le]; norm_num) r3
      simp at g1 g2 g3
      rw [← g1, ← g2, ← g3]; norm_num
    · rintro rfl
      have g1 := read16 2 (by norm_num) (by rw [abs_le]; norm_num) r1
      have g2 := read16 5 (by norm_num) (by rw [abs_le]; norm_num) r2
      have g3 := read16 7 (by norm_num) (by rw [abs_le]; norm_num) r3
      simp at g1 g2 g3
      rw [← g1, ← g2, ← g3]; norm_num

/-- In double precision the example reports the same best model as in exact arithmetic, and its stack values are exact
to 10⁻¹⁴. -/
example : ∃ r r', dblCall = .ok r ∧ dblCallExact = .ok r' ∧
    NearTable (1 / 10 ^ 14) r'.stackvalues (r.stackvalues.map exactRow) ∧ r.bestIdx = r'.bestIdx := by
  obtain ⟨⟨r, hr⟩, ⟨r', hr'⟩⟩ := dbl_runs
  refine ⟨r, r', hr, hr', ?_⟩
  have hslow : ∀ tr ∈ [dblTrace], ∀ sl, tr.slowness = some sl → (0.01 : ℝ) * sl.val.val = 0.1 := by
    intro tr htr sl hsl
    rw [List.mem_singleton.1 htr] at hsl
    injection hsl with hsl
    rw [← hsl]; norm_num
  have hw : ∀ k ∈ [(⟨1.85⟩ : FL Dbl)], ∀ tr ∈ [dblTrace], ∀ sl, tr.slowness = some sl →
      WellConditioned Dbl.u ((0.01 : ℝ) * sl.val.val) 6 k.val := by
    intro k hk tr htr sl hsl
    rw [hslow tr htr sl hsl, List.mem_singleton.1 hk]
    exact dbl_well
  have hlen : dblTrace.data.length = 16 := by simp [dblTrace]
  have hclear : ∀ k ∈ [(⟨1.85⟩ : FL Dbl)], ∀ x ∈ [(⟨24⟩ : FL Dbl), ⟨12⟩], ∀ tr ∈ [dblTrace], ∀ sl,
      tr.slowness = some sl → ClearArrivals (exactAxis 1 0 dblTrace.data.length) ((0.01 : ℝ) * sl.val.val) 6 x.val k.val
        (timeAccuracy Dbl.u 1 0 dblTrace.data.length ((0.01 : ℝ) * sl.val.val) 6 x.val k.val) := by
    intro k hk x hx tr htr sl hsl
    rw [hslow tr htr sl hsl, List.mem_singleton.1 hk, hlen, dbl_axis]
    have hx2 : x.val = 24 ∨ x.val = 12 := by
      simp only [List.mem_cons, List.not_mem_nil, or_false] at hx
      rcases hx with rfl | rfl <;> simp
    refine dbl_clear hx2 ?_
    unfold timeAccuracy
    refine dbl_accuracy ?_ ?_ (by norm_num) <;> rcases hx2 with h | h <;> rw [h] <;> norm_num
  have hA : ∀ tr ∈ [dblTrace], ∀ a ∈ tr.data, |a.val| ≤ 3 := by
    intro tr htr a ha
    rw [List.mem_singleton.1 htr] at ha
    have ha := List.mem_map_of_mem (f := FL.val) ha
    rw [dbl_data] at ha
    obtain ⟨i, -, hi⟩ := List.mem_map.1 ha
    rw [← hi]
    split
    · norm_num
    · split <;> norm_num
  obtain ⟨key1, key2⟩ := c105_hk_exact (A := 3) (by rw [dbl_u]; norm_num) (by simp) (by simp) rfl hr hr' hA hw hclear
  have hB : accumulated Dbl.u (1 + 3) * ((1 : ℕ) * ((|(1 : ℝ)| + |(1 : ℝ)| + |(1 : ℝ)|) * 3)) ≤ 1 / 10 ^ 14 := by
    rw [dbl_u]
    unfold accumulated
    norm_num
  constructor
  · unfold NearTable at key1 ⊢
    exact key1.imp (fun a b h => ⟨h.1, h.2.1, h.2.2.trans hB⟩)
  · apply key2
    obtain ⟨tr0, rest, slows, f⟩ := hk_inv hr'
    have hst := f.hst
    rw [List.map_cons] at hst
    injection hst with e1 e2
    have g := f.hgrid
    have ht' : r'.time = axis16 := by
      rw [f.htime, ← e1, ← dbl_axis]
      unfold timeAxis exactAxis exactTrace
      simp only [real_ofNat, List.length_map, hlen]
      rfl
    rw [f.hVp, f.hstk, ht'] at g
    obtain ⟨v, hv, htb⟩ := gridLoop_fun.1 g
    have v1 := (dbl_exact_cell (hv 1.85 (by simp) 24 (by simp))).1 rfl
    have v2 := (dbl_exact_cell (hv 1.85 (by simp) 12 (by simp))).2 rfl
    have htab : r'.stackvalues = [⟨24, 1.85, 4⟩, ⟨12, 1.85, 1⟩] := by
      rw [htb]
      simp [gridTab, gridPoints, v1, v2]
    have hbest : r'.bestIdx = 0 := by
      have := f.hbest
      rw [htab] at this
      have e : argmax (List.map Row.s [(⟨24, 1.85, 4⟩ : Row ℝ), ⟨12, 1.85, 1⟩]) = .ok 0 := by
        simp [argmax, argmaxGo, real_lt, real_le]
      rw [e] at this
      exact (Except.ok.inj this).symm
    rw [hbest, htab]
    intro best hb j row hj hrow
    have hb := Option.some.inj hb
    have : j = 1 := by
      have := (List.getElem?_eq_some_iff.1 hrow).1
      simp at this
      omega
    subst this
    have hrow := Option.some.inj hrow
    rw [← hb, ← hrow]
    show (1 : ℝ) + 2 * _ < 4
    have := hB
    simp only [List.length_cons, List.length_nil] at this ⊢
    norm_num at this ⊢
    linarith

/-- the hypotheses of `c105_hkSynth` and `c105_hkSynth_exact` for the same numbers -/
example : let t : List (FL Dbl) := (List.range 16).map (fun i : Nat => ⟨i⟩)
    (∃ r, SynthAnalysis.hkSynth (dblEnv (FL Dbl) ⟨0.01⟩) dblTrace.data t ⟨.py, ⟨0.1⟩⟩ [⟨24⟩, ⟨12⟩] [⟨1.85⟩]
      (some ⟨.py, ⟨6⟩⟩) (some ⟨1⟩) (some ⟨1⟩) (some ⟨1⟩) none = .ok r) ∧
    (∃ r', SynthAnalysis.hkSynth (dblEnv ℝ 0.01) (dblTrace.data.map FL.val) (t.map FL.val) ⟨.py, 0.1⟩ [24, 12] [1.85]
      (some ⟨.py, 6⟩) (some 1) (some 1) (some 1) none = .ok r') ∧
    (∀ τ ∈ t, |τ.val| ≤ 16) ∧ WellConditioned Dbl.u 0.1 6 1.85 ∧
    ∀ x : ℝ, x = 24 ∨ x = 12 → ClearArrivals (t.map FL.val) 0.1 6 x 1.85
      (40 * Dbl.u * (16 + timeScale 0.1 6 x 1.85)) := by
  intro t
  have ht : t.map FL.val = axis16 := by
    show ((List.range 16).map (fun i : Nat => (⟨i⟩ : FL Dbl))).map FL.val = _
    rw [List.map_map]; rfl
  refine ⟨(c104_hkSynth ?_ (fun _ _ => rfl)).2 ⟨?_, Or.inr ?_, by simp, by simp⟩,
    (c104_hkSynth ?_ (fun _ _ => rfl)).2 ⟨?_, divisor_real (by norm_num), by simp, by simp⟩, ?_, dbl_well, ?_⟩
  · simp [t, dblTrace]
  · simp [t]
  · simp [PyFloat.eq]
  · simp [t, dblTrace]
  · simp [t]
  · intro τ hτ
    obtain ⟨i, hi, rfl⟩ := List.mem_map.1 hτ
    have := List.mem_range.1 hi
    have h : (i : ℝ) ≤ 16 := by exact_mod_cast this.le
    simpa using h
  · intro x hx
    rw [ht]
    refine dbl_clear hx (dbl_accuracy ?_ ?_ le_rfl) <;> rcases hx with rfl | rfl <;> norm_num

end Rfsed.Props
