import Verif.Spec.Table
import Verif.Proofs.HkMore
import Verif.Proofs.Variants2
import Verif.Proofs.Seq
import Verif.Props.HkZhu
import Verif.Proofs.PostCritical

/-!
# Lemmas for C92 and C93: sums of stack tables
-/

namespace Rfsed
open PyFloat Spec

/-- the table with the values of `f` -/
def gridTab {F : Type} (K H : List F) (f : F → F → F) : List (Row F) :=
  (gridPoints K H).map (fun p => (⟨p.2, p.1, f p.1 p.2⟩ : Row F))

theorem gridLoop_fun {F : Type} [PyFloat F] {K H : List F} {v : F → F → Except PyErr F} {tb : List (Row F)} :
    gridLoop K H v = .ok tb ↔
      ∃ f : F → F → F, (∀ k ∈ K, ∀ x ∈ H, v k x = .ok (f k x)) ∧ tb = gridTab K H f := by
  constructor
  · intro h
    classical
    refine ⟨fun k x => match v k x with | .ok s => s | .error _ => zero, ?_, ?_⟩
    · intro k hk x hx
      obtain ⟨s, hs⟩ := gridLoop_value_ok h hk hx
      simp only [hs]
    · rw [gridLoop_eq, mapM_ok_iff] at h
      unfold gridTab
      have : List.Forall₂ (fun p row => row = (⟨p.2, p.1, match v p.1 p.2 with
          | .ok s => s | .error _ => zero⟩ : Row F)) (gridPoints K H) tb := by
        refine h.imp ?_
        intro p row hp
        obtain ⟨s, hs, hp⟩ := bind_eq_ok.1 hp
        cases hp
        simp only [hs]
      clear h
      generalize gridPoints K H = ps at this
      induction this with
      | nil => rfl
      | cons h1 _ ih => rw [List.map_cons, ih, h1]
  · rintro ⟨f, hf, rfl⟩
    rw [gridLoop_eq, mapM_ok_iff]
    unfold gridTab
    rw [List.forall₂_map_right_iff]
    have hmem : ∀ p ∈ gridPoints K H, p.1 ∈ K ∧ p.2 ∈ H := fun p hp => mem_gridPoints.1 hp
    refine List.forall₂_same.2 ?_
    intro p hp
    obtain ⟨a, b⟩ := hmem p hp
    rw [hf _ a _ b]; rfl

theorem gridTab_add (K H : List ℝ) (f g : ℝ → ℝ → ℝ) :
    tableAdd (gridTab K H f) (gridTab K H g) = gridTab K H (fun k x => f k x + g k x) := by
  unfold tableAdd gridTab
  rw [List.zipWith_map, List.zipWith_self]

theorem gridTab_scale (K H : List ℝ) (c : ℝ) (f : ℝ → ℝ → ℝ) :
    tableScale c (gridTab K H f) = gridTab K H (fun k x => c * f k x) := by
  unfold tableScale gridTab
  rw [List.map_map]; rfl

theorem gridTab_length {F : Type} [PyFloat F] (K H : List F) (f : F → F → F) :
    (gridTab K H f).length = K.length * H.length := by
  unfold gridTab
  rw [List.length_map, gridPoints_length]

/-- sum of tables, value by value -/
theorem gridLoop_add {K H : List ℝ} {v1 v2 v : ℝ → ℝ → Except PyErr ℝ} {tb1 tb2 : List (Row ℝ)}
    (h1 : gridLoop K H v1 = .ok tb1) (h2 : gridLoop K H v2 = .ok tb2)
    (hv : ∀ k ∈ K, ∀ x ∈ H, ∀ a b, v1 k x = .ok a → v2 k x = .ok b → v k x = .ok (a + b)) :
    gridLoop K H v = .ok (tableAdd tb1 tb2) := by
  obtain ⟨f, hf, rfl⟩ := gridLoop_fun.1 h1
  obtain ⟨g, hg, rfl⟩ := gridLoop_fun.1 h2
  rw [gridTab_add]
  exact gridLoop_fun.2 ⟨_, fun k hk x hx => hv k hk x hx _ _ (hf k hk x hx) (hg k hk x hx), rfl⟩

/-- three tables -/
theorem gridLoop_comb {K H : List ℝ} {v1 v2 v3 v : ℝ → ℝ → Except PyErr ℝ} {tb1 tb2 tb3 : List (Row ℝ)}
    {w1 w2 w3 : ℝ}
    (h1 : gridLoop K H v1 = .ok tb1) (h2 : gridLoop K H v2 = .ok tb2) (h3 : gridLoop K H v3 = .ok tb3)
    (hv : ∀ k ∈ K, ∀ x ∈ H, ∀ a b c, v1 k x = .ok a → v2 k x = .ok b → v3 k x = .ok c →
      v k x = .ok (w1 * a + w2 * b + w3 * c)) :
    gridLoop K H v = .ok (tableAdd (tableAdd (tableScale w1 tb1) (tableScale w2 tb2)) (tableScale w3 tb3)) := by
  obtain ⟨f1, hf1, rfl⟩ := gridLoop_fun.1 h1
  obtain ⟨f2, hf2, rfl⟩ := gridLoop_fun.1 h2
  obtain ⟨f3, hf3, rfl⟩ := gridLoop_fun.1 h3
  rw [gridTab_scale, gridTab_scale, gridTab_scale, gridTab_add, gridTab_add]
  exact gridLoop_fun.2 ⟨_, fun k hk x hx => hv k hk x hx _ _ _ (hf1 k hk x hx) (hf2 k hk x hx) (hf3 k hk x hx), rfl⟩

/-- if two lists have their first maximum at the same place, so has their sum -/
theorem argmax_add {xs ys : List ℝ} {i : Nat} (hx : argmax xs = .ok i) (hy : argmax ys = .ok i) :
    argmax (List.zipWith (fun a b : ℝ => a + b) xs ys) = .ok i := by
  obtain ⟨x, hx0, hx1, hx2⟩ := argmax_firstMax (fun _ _ => rfl) hx
  obtain ⟨y, hy0, hy1, hy2⟩ := argmax_firstMax (fun _ _ => rfl) hy
  apply argmax_eq_of_firstMax (fun _ _ => rfl)
  refine ⟨x + y, by rw [List.getElem?_zipWith, hx0, hy0], ?_, ?_⟩
  · intro j z hz
    rw [List.getElem?_zipWith_eq_some] at hz
    obtain ⟨a, b, ha, hb, rfl⟩ := hz
    have h1 := hx1 j a ha
    have h2 := hy1 j b hb
    rw [real_le] at *
    exact add_le_add h1 h2
  · intro j z hj hz
    rw [List.getElem?_zipWith_eq_some] at hz
    obtain ⟨a, b, ha, hb, rfl⟩ := hz
    have h1 := hx2 j a hj ha
    have h2 := hy2 j b hj hb
    rw [real_lt] at *
    exact add_lt_add h1 h2

theorem tableAdd_s (a b : List (Row ℝ)) :
    (tableAdd a b).map Row.s = List.zipWith (fun x y : ℝ => x + y) (a.map Row.s) (b.map Row.s) := by
  unfold tableAdd
  rw [List.map_zipWith, List.zipWith_map]

theorem tableScale_s (c : ℝ) (a : List (Row ℝ)) :
    (tableScale c a).map Row.s = (a.map Row.s).map (fun x : ℝ => c * x) := by
  unfold tableScale
  rw [List.map_map, List.map_map]; rfl

theorem argmax_tableScale {c : ℝ} (hc : 0 < c) {tb : List (Row ℝ)} {i : Nat} (h : argmax (tb.map Row.s) = .ok i) :
    argmax ((tableScale c tb).map Row.s) = .ok i := by
  rw [tableScale_s]; exact argmax_scale hc h

theorem argmax_tableAdd {a b : List (Row ℝ)} {i : Nat} (h : argmax (a.map Row.s) = .ok i)
    (h' : argmax (b.map Row.s) = .ok i) : argmax ((tableAdd a b).map Row.s) = .ok i := by
  rw [tableAdd_s]; exact argmax_add h h'

namespace HkZhu

/-- the weighted amplitude is linear in the weights -/
theorem weigh_lin {w1 w2 w3 a b c : ℝ} {d t : List ℝ} {ts : PyNum ℝ × PyNum ℝ × PyNum ℝ}
    (h1 : weigh 1 0 0 d t ts = .ok a) (h2 : weigh 0 1 0 d t ts = .ok b) (h3 : weigh 0 0 1 d t ts = .ok c) :
    weigh w1 w2 w3 d t ts = .ok (w1 * a + w2 * b + w3 * c) := by
  obtain ⟨a1, a2, a3, e1, e2, e3, rfl⟩ := weigh_ok.1 h1
  obtain ⟨b1, b2, b3, g1, g2, g3, rfl⟩ := weigh_ok.1 h2
  obtain ⟨c1, c2, c3, i1, i2, i3, rfl⟩ := weigh_ok.1 h3
  have q1 : b2 = a2 := Except.ok.inj (g2.symm.trans e2)
  have q2 : c3 = a3 := Except.ok.inj (i3.symm.trans e3)
  subst q1 q2
  exact weigh_ok.2 ⟨_, _, _, e1, e2, e3, by ring⟩

/-- the weights decide neither success nor exception -/
theorem weigh_any {w1 w2 w3 v1 v2 v3 a : ℝ} {d t : List ℝ} {ts : PyNum ℝ × PyNum ℝ × PyNum ℝ}
    (h : weigh w1 w2 w3 d t ts = .ok a) : ∃ b, weigh v1 v2 v3 d t ts = .ok b := by
  obtain ⟨a1, a2, a3, e1, e2, e3, rfl⟩ := weigh_ok.1 h
  exact ⟨_, weigh_ok.2 ⟨_, _, _, e1, e2, e3, rfl⟩⟩

theorem cell_lin {env : Env ℝ} {st : List (Trace ℝ)} {t sd : List ℝ} {avg : ℝ} {Vp : Scalar ℝ} {stack : Bool}
    {k x w1 w2 w3 a b c : ℝ}
    (h1 : cell env st t sd avg Vp 1 0 0 stack k x = .ok a)
    (h2 : cell env st t sd avg Vp 0 1 0 stack k x = .ok b)
    (h3 : cell env st t sd avg Vp 0 0 1 stack k x = .ok c) :
    cell env st t sd avg Vp w1 w2 w3 stack k x = .ok (w1 * a + w2 * b + w3 * c) := by
  obtain ⟨xs, hxs, rfl⟩ := cell_real_ok.1 h1
  obtain ⟨ys, hys, rfl⟩ := cell_real_ok.1 h2
  obtain ⟨zs, hzs, rfl⟩ := cell_real_ok.1 h3
  rw [cell_real_ok]
  clear h1 h2 h3
  induction st generalizing xs ys zs with
  | nil =>
    cases hxs; cases hys; cases hzs
    exact ⟨[], rfl, by simp⟩
  | cons tr st ih =>
    rw [mapM_ok_iff] at hxs hys hzs
    cases hxs with
    | cons p1 q1 =>
    cases hys with
    | cons p2 q2 =>
    cases hzs with
    | cons p3 q3 =>
    obtain ⟨vs, hv, hs⟩ := ih _ (mapM_ok_iff.2 q1) _ (mapM_ok_iff.2 q2) _ (mapM_ok_iff.2 q3)
    obtain ⟨o, sl, ts, e1, e2, e3, e4⟩ := traceTerm_ok.1 p1
    obtain ⟨o', sl', ts', f1, f2, f3, f4⟩ := traceTerm_ok.1 p2
    obtain ⟨o'', sl'', ts'', g1, g2, g3, g4⟩ := traceTerm_ok.1 p3
    have s1 : sl' = sl := Option.some.inj (f2.symm.trans e2)
    have s2 : sl'' = sl := Option.some.inj (g2.symm.trans e2)
    subst s1 s2
    have t1 : ts' = ts := Except.ok.inj (f3.symm.trans e3)
    have t2 : ts'' = ts := Except.ok.inj (g3.symm.trans e3)
    subst t1 t2
    have := traceTerm_ok.2 ⟨o, _, _, e1, e2, e3, weigh_lin (w1 := w1) (w2 := w2) (w3 := w3) e4 f4 g4⟩
    refine ⟨_, mapM_ok_iff.2 (.cons this (mapM_ok_iff.1 hv)), ?_⟩
    simp only [List.sum_cons, ← hs]
    ring

/-- the weights decide neither success nor exception -/
theorem cell_any {env : Env ℝ} {st : List (Trace ℝ)} {t sd : List ℝ} {avg : ℝ} {Vp : Scalar ℝ} {stack : Bool}
    {k x w1 w2 w3 v1 v2 v3 a : ℝ} (h : cell env st t sd avg Vp w1 w2 w3 stack k x = .ok a) :
    ∃ b, cell env st t sd avg Vp v1 v2 v3 stack k x = .ok b := by
  obtain ⟨xs, hxs, rfl⟩ := cell_real_ok.1 h
  have : ∃ ys, st.mapM (traceTerm env t sd avg Vp v1 v2 v3 stack k x) = .ok ys := by
    apply mapM_ok_of_forall
    intro tr htr
    obtain ⟨g, hg, rfl⟩ := Props.exists_fun_of_mapM hxs
    obtain ⟨o, sl, ts, e1, e2, e3, e4⟩ := traceTerm_ok.1 (hg tr htr)
    obtain ⟨b, hb⟩ := weigh_any (v1 := v1) (v2 := v2) (v3 := v3) e4
    exact ⟨b, traceTerm_ok.2 ⟨o, sl, ts, e1, e2, e3, hb⟩⟩
  obtain ⟨ys, hys⟩ := this
  exact ⟨_, cell_real_ok.2 ⟨ys, hys, rfl⟩⟩

/-- traces of two streams: without stacking, the values add up -/
theorem cell_append {env : Env ℝ} {st1 st2 : List (Trace ℝ)} {t sd1 sd2 sd : List ℝ} {avg1 avg2 avg : ℝ}
    {Vp : Scalar ℝ} {k x w1 w2 w3 a b : ℝ}
    (h1 : cell env st1 t sd1 avg1 Vp w1 w2 w3 false k x = .ok a)
    (h2 : cell env st2 t sd2 avg2 Vp w1 w2 w3 false k x = .ok b) :
    cell env (st1 ++ st2) t sd avg Vp w1 w2 w3 false k x = .ok (a + b) := by
  obtain ⟨xs, hxs, rfl⟩ := cell_real_ok.1 h1
  obtain ⟨ys, hys, rfl⟩ := cell_real_ok.1 h2
  refine cell_real_ok.2 ⟨xs ++ ys, ?_, by rw [List.sum_append]⟩
  have e1 : traceTerm env t sd1 avg1 Vp w1 w2 w3 false k x = traceTerm env t sd avg Vp w1 w2 w3 false k x := rfl
  have e2 : traceTerm env t sd2 avg2 Vp w1 w2 w3 false k x = traceTerm env t sd avg Vp w1 w2 w3 false k x := rfl
  rw [e1] at hxs
  rw [e2] at hys
  rw [List.mapM_append, hxs, except_ok_bind, hys]; rfl

end HkZhu

/-- values that depend linearly on the three weights -/
def LinCell (v : ℝ → ℝ → ℝ → ℝ → ℝ → Except PyErr ℝ) : Prop :=
  (∀ k x a b c w1 w2 w3, v 1 0 0 k x = .ok a → v 0 1 0 k x = .ok b → v 0 0 1 k x = .ok c →
    v w1 w2 w3 k x = .ok (w1 * a + w2 * b + w3 * c)) ∧
  (∀ k x w1 w2 w3 v1 v2 v3 a, v w1 w2 w3 k x = .ok a → ∃ b, v v1 v2 v3 k x = .ok b)

theorem linCell_tables {v : ℝ → ℝ → ℝ → ℝ → ℝ → Except PyErr ℝ} (hv : LinCell v) {K H : List ℝ} {w1 w2 w3 : ℝ}
    {tb : List (Row ℝ)} (h : gridLoop K H (v w1 w2 w3) = .ok tb) :
    ∃ A B C, A.length = tb.length ∧ B.length = tb.length ∧ C.length = tb.length ∧
      ∀ v1 v2 v3, gridLoop K H (v v1 v2 v3) = .ok (tableComb v1 v2 v3 A B C) := by
  have any : ∀ v1 v2 v3, ∃ tb', gridLoop K H (v v1 v2 v3) = .ok tb' := by
    intro v1 v2 v3
    apply gridLoop_total
    intro k hk x hx
    obtain ⟨s, hs⟩ := gridLoop_value_ok h hk hx
    exact hv.2 k x _ _ _ _ _ _ _ hs
  have len : ∀ {v1 v2 v3 tb'}, gridLoop K H (v v1 v2 v3) = .ok tb' → tb'.length = tb.length := fun h' => by
    rw [(gridLoop_ok h').1, (gridLoop_ok h).1]
  obtain ⟨A, hA⟩ := any 1 0 0
  obtain ⟨B, hB⟩ := any 0 1 0
  obtain ⟨C, hC⟩ := any 0 0 1
  exact ⟨A, B, C, len hA, len hB, len hC, fun v1 v2 v3 =>
    gridLoop_comb hA hB hC (fun k _ x _ a b c ha hb hc => hv.1 k x a b c v1 v2 v3 ha hb hc)⟩

theorem tableScale_add (c : ℝ) (a b : List (Row ℝ)) :
    tableScale c (tableAdd a b) = tableAdd (tableScale c a) (tableScale c b) := by
  unfold tableAdd tableScale
  rw [List.map_zipWith, List.zipWith_map]
  simp only [mul_add]

theorem tableScale_scale (c d : ℝ) (a : List (Row ℝ)) :
    tableScale c (tableScale d a) = tableScale (c * d) a := by
  unfold tableScale
  rw [List.map_map]
  simp only [Function.comp_def, mul_assoc]

theorem tableComb_factor (c w1 w2 w3 : ℝ) (A B C : List (Row ℝ)) :
    tableComb (c * w1) (c * w2) (c * w3) A B C = tableScale c (tableComb w1 w2 w3 A B C) := by
  unfold tableComb
  simp only [tableScale_add, tableScale_scale]

theorem tableComb_length (w1 w2 w3 : ℝ) {A B C : List (Row ℝ)} {n : Nat} (hA : A.length = n) (hB : B.length = n)
    (hC : C.length = n) : (tableComb w1 w2 w3 A B C).length = n := by
  simp [tableComb, tableAdd, tableScale, hA, hB, hC]

theorem argmax_of_length {tb : List (Row ℝ)} (h : tb.length ≠ 0) : ∃ n, argmax (tb.map Row.s) = .ok n :=
  argmax_ok (by intro e; apply h; simpa using congrArg List.length e)

theorem clipLoop_real (tb : List (Row ℝ)) : clipLoop tb = tableClip tb := by
  rw [clipLoop_eq]
  unfold tableClip
  apply List.map_congr_left
  intro row _
  exact clipRow_real row

namespace HkZhu

theorem getamp_sum {d1 d2 t : List ℝ} {x : PyNum ℝ} {a b : ℝ} (h1 : getamp d1 t x = .ok a)
    (h2 : getamp d2 t x = .ok b) : getamp (List.zipWith (fun a b : ℝ => a + b) d1 d2) t x = .ok (a + b) := by
  unfold getamp at h1 h2 ⊢
  obtain ⟨i, hi, h1⟩ := bind_eq_ok.1 h1
  obtain ⟨j, hj, h2⟩ := bind_eq_ok.1 h2
  have : j = i := Except.ok.inj (hj.symm.trans hi)
  subst this
  rw [hi, except_ok_bind, item_ok, List.getElem?_zipWith, item_ok.1 h1, item_ok.1 h2]

theorem weigh_sum {w1 w2 w3 a b : ℝ} {d1 d2 t : List ℝ} {ts : PyNum ℝ × PyNum ℝ × PyNum ℝ}
    (h1 : weigh w1 w2 w3 d1 t ts = .ok a) (h2 : weigh w1 w2 w3 d2 t ts = .ok b) :
    weigh w1 w2 w3 (List.zipWith (fun a b : ℝ => a + b) d1 d2) t ts = .ok (a + b) := by
  obtain ⟨a1, a2, a3, e1, e2, e3, rfl⟩ := weigh_ok.1 h1
  obtain ⟨b1, b2, b3, g1, g2, g3, rfl⟩ := weigh_ok.1 h2
  exact weigh_ok.2 ⟨_, _, _, getamp_sum e1 g1, getamp_sum e2 g2, getamp_sum e3 g3, by ring⟩

/-- a weighted amplitude at given times is linear in the data -/
theorem times_sum {w1 w2 w3 a b : ℝ} {d1 d2 t : List ℝ} {ts : Except PyErr (PyNum ℝ × PyNum ℝ × PyNum ℝ)}
    (h1 : (do let u ← ts; let v ← weigh w1 w2 w3 d1 t u; pure (v + zero)) = .ok a)
    (h2 : (do let u ← ts; let v ← weigh w1 w2 w3 d2 t u; pure (v + zero)) = .ok b) :
    (do let u ← ts; let v ← weigh w1 w2 w3 (List.zipWith (fun a b : ℝ => a + b) d1 d2) t u; pure (v + zero)) =
      Except.ok (ε := PyErr) (a + b) := by
  cases ts with
  | error e => cases h1
  | ok u =>
    rw [except_ok_bind] at h1 h2 ⊢
    obtain ⟨v1, g1, q1⟩ := bind_eq_ok.1 h1
    obtain ⟨v2, g2, q2⟩ := bind_eq_ok.1 h2
    cases q1; cases q2
    rw [weigh_sum g1 g2, except_ok_bind]
    simp

theorem linCell_times {ts : ℝ → ℝ → Except PyErr (PyNum ℝ × PyNum ℝ × PyNum ℝ)} (d t : List ℝ) :
    LinCell (fun w1 w2 w3 k x => do
      let u ← ts k x
      let v ← weigh w1 w2 w3 d t u
      pure (v + zero)) := by
  have inv : ∀ {w1 w2 w3 k x a}, (do
      let u ← ts k x
      let v ← weigh w1 w2 w3 d t u
      pure (v + zero)) = .ok a ↔ ∃ u, ts k x = .ok u ∧ weigh w1 w2 w3 d t u = .ok a := by
    intro w1 w2 w3 k x a
    simp only [bind_eq_ok, except_pure, Except.ok.injEq]
    constructor
    · rintro ⟨u, h1, v, h2, rfl⟩
      exact ⟨u, h1, by rw [h2]; simp⟩
    · rintro ⟨u, h1, h2⟩
      exact ⟨u, h1, a, h2, by simp⟩
  refine ⟨?_, ?_⟩
  · intro k x a b c w1 w2 w3 h1 h2 h3
    obtain ⟨u, e1, e2⟩ := inv.1 h1
    obtain ⟨u', f1, f2⟩ := inv.1 h2
    obtain ⟨u'', g1, g2⟩ := inv.1 h3
    have q1 : u' = u := Except.ok.inj (f1.symm.trans e1)
    have q2 : u'' = u := Except.ok.inj (g1.symm.trans e1)
    subst q1 q2
    exact inv.2 ⟨_, e1, weigh_lin e2 f2 g2⟩
  · intro k x w1 w2 w3 v1 v2 v3 a h
    obtain ⟨u, e1, e2⟩ := inv.1 h
    obtain ⟨b, hb⟩ := weigh_any (v1 := v1) (v2 := v2) (v3 := v3) e2
    exact ⟨b, inv.2 ⟨u, e1, hb⟩⟩

theorem linCell_hk (env : Env ℝ) (st : List (Trace ℝ)) (t sd : List ℝ) (avg : ℝ) (Vp : Scalar ℝ) (stack : Bool) :
    LinCell (fun w1 w2 w3 => cell env st t sd avg Vp w1 w2 w3 stack) :=
  ⟨fun _ _ _ _ _ _ _ _ h1 h2 h3 => cell_lin h1 h2 h3, fun _ _ _ _ _ _ _ _ _ h => cell_any h⟩

theorem linCell_synth (d t : List ℝ) (rp Vp : Scalar ℝ) :
    LinCell (fun w1 w2 w3 => SynthAnalysis.cell d t rp Vp w1 w2 w3) := by
  have := linCell_times (ts := fun k x => bestTimes Vp rp.kind rp.val x k) d t
  simpa only [← synthCell_eq] using this

theorem linCell_yu (flt : HkYu.FltInput ℝ) (rp Vp : Scalar ℝ) (Pd : ℝ) :
    LinCell (fun w1 w2 w3 => HkYu.cell flt rp Vp Pd (some w1) (some w2) (some w3)) := by
  have := linCell_times (ts := fun k x => (bestTimes Vp rp.kind rp.val x k).map (yuShift flt.tlag.val Pd))
    flt.filteredrf flt.time
  have e : (fun w1 w2 w3 => HkYu.cell flt rp Vp Pd (some w1) (some w2) (some w3)) =
      (fun w1 w2 w3 k x => do
        let u ← (bestTimes Vp rp.kind rp.val x k).map (yuShift flt.tlag.val Pd)
        let v ← weigh w1 w2 w3 flt.filteredrf flt.time u
        pure (v + zero)) := by
    funext w1 w2 w3 k x
    rw [yuCell_eq]
    cases bestTimes Vp rp.kind rp.val x k <;> rfl
  rw [e]; exact this

theorem linCell_seqMoho (d t : List ℝ) (rp VpS vm : Scalar ℝ) (H1 K1 : ℝ) :
    LinCell (fun w1 w2 w3 => SynthAnalysis.seqMohoCell d t rp VpS H1 K1 (some vm) (some w1) (some w2) (some w3)) := by
  have := linCell_times (ts := fun k x => HkSeqYeck.mohoTimes VpS (some vm) rp.kind rp.val H1 K1 x k) d t
  simpa only [← seqMohoCell_eq] using this

/-- the sequential code keeps the value of the last trace: linear if the value of every trace is -/
theorem linCell_last {term : ℝ → ℝ → ℝ → ℝ → ℝ → Trace ℝ → Except PyErr ℝ} (st : List (Trace ℝ))
    (h : ∀ tr ∈ st, LinCell (fun w1 w2 w3 k x => term w1 w2 w3 k x tr)) :
    LinCell (fun w1 w2 w3 k x => HkSeqYeck.lastTrace (term w1 w2 w3 k x) st) := by
  refine ⟨?_, ?_⟩
  · intro k x a b c w1 w2 w3 h1 h2 h3
    obtain ⟨i1, l1, rfl, e1, e2⟩ := lastTrace_ok.1 h1
    refine lastTrace_ok.2 ⟨i1, l1, rfl, ?_, ?_⟩
    · intro tr htr
      obtain ⟨w, hw⟩ := e1 tr htr
      exact (h tr (by simp [htr])).2 k x _ _ _ _ _ _ _ hw
    · exact (h l1 (by simp)).1 k x a b c w1 w2 w3 e2 (lastTrace_last h2) (lastTrace_last h3)
  · intro k x w1 w2 w3 v1 v2 v3 a h1
    obtain ⟨i1, l1, rfl, e1, e2⟩ := lastTrace_ok.1 h1
    obtain ⟨b, hb⟩ := (h l1 (by simp)).2 k x _ _ _ v1 v2 v3 _ e2
    refine ⟨b, lastTrace_ok.2 ⟨i1, l1, rfl, ?_, hb⟩⟩
    intro tr htr
    obtain ⟨w, hw⟩ := e1 tr htr
    exact (h tr (by simp [htr])).2 k x _ _ _ _ _ _ _ hw

theorem linCell_sedTerm (env : Env ℝ) (t sd : List ℝ) (avg : ℝ) (Vp : Scalar ℝ) (stack : Bool) (tr : Trace ℝ) :
    LinCell (fun w1 w2 w3 k x => HkSeqYeck.sedTerm env t sd avg Vp w1 w2 w3 stack k x tr) := by
  have := linCell_times (ts := fun k x => do
      let _ ← tr.getOnset
      let slow ← tr.getSlowness
      bestTimes Vp (if stack then Kind.np else slow.kind)
        (if stack then env.km2deg1 * avg else env.km2deg1 * slow.val) x k) (if stack then sd else tr.data) t
  simpa only [sedTerm_eq, except_bind_assoc] using this

theorem linCell_mohoTerm (env : Env ℝ) (stM : List (Trace ℝ)) (t sd : List ℝ) (avg : ℝ) (VpS vm : Scalar ℝ)
    (H1 K1 : ℝ) (stack : Bool) (tr : Trace ℝ) :
    LinCell (fun w1 w2 w3 k x => HkSeqYeck.mohoTerm env stM t sd avg VpS H1 K1 (some vm) (some w1) (some w2)
      (some w3) stack k x tr) := by
  have := linCell_times (ts := fun k x => do
      let tr0 ← item stM 0
      let _ ← tr0.getOnset
      let slow ← tr.getSlowness
      HkSeqYeck.mohoTimes VpS (some vm) (if stack then Kind.np else slow.kind)
        (if stack then env.km2deg1 * avg else env.km2deg1 * slow.val) H1 K1 x k) (if stack then sd else tr.data) t
  simpa only [mohoTerm_eq, except_bind_assoc] using this

end HkZhu
end Rfsed
