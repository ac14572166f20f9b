import Verif.Props.Plot
import Verif.Spec.Figure

namespace Rfsed
open PyFloat Spec HkZhu Props
set_option linter.unusedSectionVars false
variable {F : Type} [PyFloat F]

/-- curve drawn for one trace -/
def curveOf (rf : Trace F) (lev onset g0 g1 : F) (ts : PyNum F × PyNum F × PyNum F) : Curve F :=
  { axis := (List.range (rf.data.map (fun x => x * g0 + lev)).length).map
      (fun i => ofNat i * rf.delta + (rf.starttime - onset)),
    values := rf.data.map (fun x => x * g0 + lev), level := lev, marks := ts, gain := g1 }

theorem getAttr_ok {α : Type} {o : Option α} {v : α} : getAttr o = .ok v ↔ o = some v := by
  cases o <;> simp [getAttr]

theorem getStat_ok {tr : Trace F} {k : String} {v : PyNum F} :
    tr.getStat k = .ok v ↔ tr.extra k = some v := by
  unfold Trace.getStat; split <;> simp_all

theorem zhu_drawTrace_ok {lim : Option (Int × Int)} {level : Option F} {g : List F} {i j : Nat}
    {rf : Trace F} {c : Curve F} :
    HkZhu.drawTrace lim level g i j rf = .ok c ↔
    ∃ lev onset t1 t2 t3 g0 g1, level = some lev ∧ rf.onset = some onset ∧
      rf.extra "tps" = some t1 ∧ rf.extra "tppps" = some t2 ∧ rf.extra "tpsps" = some t3 ∧
      g[i]? = some g0 ∧ lim.isSome ∧ g[j]? = some g1 ∧ c = curveOf rf lev onset g0 g1 (t1, t2, t3) := by
  unfold HkZhu.drawTrace
  constructor
  · intro h
    obtain ⟨lev, hlev, h⟩ := bind_eq_ok.1 h
    obtain ⟨onset, hons, h⟩ := bind_eq_ok.1 h
    obtain ⟨t1, h1, h⟩ := bind_eq_ok.1 h
    obtain ⟨t2, h2, h⟩ := bind_eq_ok.1 h
    obtain ⟨t3, h3, h⟩ := bind_eq_ok.1 h
    obtain ⟨g0, hg0, h⟩ := bind_eq_ok.1 h
    cases lim with
    | none => cases h
    | some lim =>
      simp only [except_pure] at h
      obtain ⟨g1, hg1, h⟩ := bind_eq_ok.1 h
      exact ⟨lev, onset, t1, t2, t3, g0, g1, getAttr_ok.1 hlev, getAttr_ok.1 hons, getStat_ok.1 h1,
        getStat_ok.1 h2, getStat_ok.1 h3, item_ok.1 hg0, rfl, item_ok.1 hg1,
        (Except.ok.inj h).symm⟩
  · rintro ⟨lev, onset, t1, t2, t3, g0, g1, hl, ho, h1, h2, h3, hg0, hlim, hg1, rfl⟩
    cases lim with
    | none => cases hlim
    | some lim =>
      rw [getAttr_ok.2 hl, getAttr_ok.2 ho, getStat_ok.2 h1, getStat_ok.2 h2, getStat_ok.2 h3,
        item_ok.2 hg0, item_ok.2 hg1]
      rfl

theorem seq_drawTrace_ok {k1 k2 k3 : String} {level : Option F} {g : List F} {i j : Nat}
    {rf : Trace F} {c : Curve F} :
    HkSeqYeck.drawTrace k1 k2 k3 level g i j rf = .ok c ↔
    ∃ lev onset t1 t2 t3 g0 g1, level = some lev ∧ rf.onset = some onset ∧
      rf.extra k1 = some t1 ∧ rf.extra k2 = some t2 ∧ rf.extra k3 = some t3 ∧
      g[i]? = some g0 ∧ g[j]? = some g1 ∧ c = curveOf rf lev onset g0 g1 (t1, t2, t3) := by
  unfold HkSeqYeck.drawTrace
  constructor
  · intro h
    obtain ⟨lev, hlev, h⟩ := bind_eq_ok.1 h
    obtain ⟨onset, hons, h⟩ := bind_eq_ok.1 h
    obtain ⟨t1, h1, h⟩ := bind_eq_ok.1 h
    obtain ⟨t2, h2, h⟩ := bind_eq_ok.1 h
    obtain ⟨t3, h3, h⟩ := bind_eq_ok.1 h
    obtain ⟨g0, hg0, h⟩ := bind_eq_ok.1 h
    obtain ⟨g1, hg1, h⟩ := bind_eq_ok.1 h
    exact ⟨lev, onset, t1, t2, t3, g0, g1, getAttr_ok.1 hlev, getAttr_ok.1 hons, getStat_ok.1 h1,
      getStat_ok.1 h2, getStat_ok.1 h3, item_ok.1 hg0, item_ok.1 hg1, (Except.ok.inj h).symm⟩
  · rintro ⟨lev, onset, t1, t2, t3, g0, g1, hl, ho, h1, h2, h3, hg0, hg1, rfl⟩
    rw [getAttr_ok.2 hl, getAttr_ok.2 ho, getStat_ok.2 h1, getStat_ok.2 h2, getStat_ok.2 h3,
      item_ok.2 hg0, item_ok.2 hg1]
    rfl

theorem mapM_isOk {α β ε : Type} {f : α → Except ε β} {xs : List α} :
    (∃ ys, xs.mapM f = .ok ys) ↔ ∀ x ∈ xs, ∃ y, f x = .ok y := by
  constructor
  · rintro ⟨ys, h⟩ x hx
    exact mapM_ok_mem h hx
  · exact mapM_ok_of_forall

theorem curveOf_drawn (rf : Trace ℝ) (lev onset g0 g1 : ℝ) (ts : PyNum ℝ × PyNum ℝ × PyNum ℝ) :
    DrawnRF (curveOf rf lev onset g0 g1 ts) (onsetTimes rf onset) rf.data g0 lev g1 ts := by
  refine ⟨?_, rfl, rfl, rfl, rfl⟩
  simp [curveOf, onsetTimes]

theorem defaultGains_eq : ([ofNat 75, ofNat 10, ofNat 15, dec 25 1] : List ℝ) = defaultGains := by
  simp only [defaultGains, real_ofNat, real_dec]
  norm_num

theorem drawnRF_eq {c : Curve ℝ} {rf : Trace ℝ} {lev onset g0 g1 : ℝ}
    {ts : PyNum ℝ × PyNum ℝ × PyNum ℝ}
    (h : DrawnRF c (onsetTimes rf onset) rf.data g0 lev g1 ts) :
    c = curveOf rf lev onset g0 g1 ts := by
  have h' := curveOf_drawn rf lev onset g0 g1 ts
  obtain ⟨a, b, l, m, g⟩ := c
  have e1 := h.axis.trans h'.axis.symm
  have e2 := h.values.trans h'.values.symm
  have e3 := h.level.trans h'.level.symm
  have e4 := h.markGain.trans h'.markGain.symm
  have e5 := h.marks.trans h'.marks.symm
  simp only at e1 e2 e3 e4 e5
  rw [e1, e2, e3, e4, e5]

/-- traces annotated with the times `marks` under the keys `k1`, `k2`, `k3` -/
def Stamped (k1 k2 k3 : String) (marks : ℝ → PyNum ℝ × PyNum ℝ × PyNum ℝ)
    (st st' : List (Trace ℝ)) : Prop :=
  List.Forall₂ (fun tr tr' => ∃ sl, tr.slowness = some sl ∧
    tr' = stamp k1 k2 k3 (marks sl.val) tr) st st'

/-- what one panel shows -/
theorem panel_iff {draw : Trace ℝ → Except PyErr (Curve ℝ)} {k1 k2 k3 : String}
    {level : Trace ℝ → Option ℝ} {g : List ℝ} {i j : Nat}
    (h12 : k1 ≠ k2) (h13 : k1 ≠ k3) (h23 : k2 ≠ k3)
    (hd : ∀ rf c, draw rf = .ok c ↔ ∃ lev onset t1 t2 t3 g0 g1, level rf = some lev ∧
      rf.onset = some onset ∧ rf.extra k1 = some t1 ∧ rf.extra k2 = some t2 ∧
      rf.extra k3 = some t3 ∧ g[i]? = some g0 ∧ g[j]? = some g1 ∧
      c = curveOf rf lev onset g0 g1 (t1, t2, t3))
    (hlev : ∀ ts tr, level (stamp k1 k2 k3 ts tr) = level tr)
    {marks : ℝ → PyNum ℝ × PyNum ℝ × PyNum ℝ} {st st' : List (Trace ℝ)}
    (hs : Stamped k1 k2 k3 marks st st') (hne : st ≠ []) {p : List (Curve ℝ)} :
    st'.mapM draw = .ok p ↔ ∃ g0 g1, g[i]? = some g0 ∧ g[j]? = some g1 ∧
      DrawnStream p st level g0 g1 marks := by
  have step : ∀ (tr : Trace ℝ) (sl : Scalar ℝ) (c : Curve ℝ), tr.slowness = some sl →
      (draw (stamp k1 k2 k3 (marks sl.val) tr) = .ok c ↔ ∃ g0 g1, g[i]? = some g0 ∧
        g[j]? = some g1 ∧ ∃ onset slow lev, tr.onset = some onset ∧ tr.slowness = some slow ∧
        level tr = some lev ∧
        DrawnRF c (onsetTimes tr onset) tr.data g0 lev g1 (marks slow.val)) := by
    intro tr sl c hsl
    obtain ⟨s1, s2, s3, _⟩ := stamp_get h12 h13 h23 (marks sl.val) tr
    rw [hd]
    constructor
    · rintro ⟨lev, onset, t1, t2, t3, g0, g1, hl, ho, e1, e2, e3, hg0, hg1, rfl⟩
      rw [s1] at e1; rw [s2] at e2; rw [s3] at e3
      rw [hlev] at hl
      refine ⟨g0, g1, hg0, hg1, onset, sl, lev, ho, hsl, hl, ?_⟩
      have : (t1, t2, t3) = marks sl.val := by
        rw [← Option.some.inj e1, ← Option.some.inj e2, ← Option.some.inj e3]
      rw [this]
      exact curveOf_drawn tr lev onset g0 g1 _
    · rintro ⟨g0, g1, hg0, hg1, onset, slow, lev, ho, hsl', hl, hc⟩
      have e : slow = sl := by rw [hsl] at hsl'; exact (Option.some.inj hsl').symm
      subst e
      exact ⟨lev, onset, _, _, _, g0, g1, by rw [hlev]; exact hl, ho, s1, s2, s3, hg0, hg1,
        drawnRF_eq hc⟩
  rw [mapM_ok_iff]
  have main : ∀ {st st' : List (Trace ℝ)}, Stamped k1 k2 k3 marks st st' → ∀ p : List (Curve ℝ),
      (List.Forall₂ (fun x y => draw x = .ok y) st' p ↔
        List.Forall₂ (fun c tr => ∃ g0 g1, g[i]? = some g0 ∧
        g[j]? = some g1 ∧ ∃ onset slow lev, tr.onset = some onset ∧ tr.slowness = some slow ∧
        level tr = some lev ∧
        DrawnRF c (onsetTimes tr onset) tr.data g0 lev g1 (marks slow.val)) p st) := by
    intro st st' hs
    induction hs with
    | nil => intro p; cases p <;> simp
    | cons h _ ih =>
      intro p
      obtain ⟨sl, hsl, rfl⟩ := h
      cases p with
      | nil => simp
      | cons c p => simp only [List.forall₂_cons, step _ sl c hsl, ih p]
  rw [main hs]
  constructor
  · intro h
    cases h with
    | nil => exact absurd rfl hne
    | cons h1 h2 =>
      obtain ⟨g0, g1, hg0, hg1, h1⟩ := h1
      refine ⟨g0, g1, hg0, hg1, .cons h1 (h2.imp ?_)⟩
      rintro c tr ⟨g0', g1', hg0', hg1', h⟩
      rw [hg0] at hg0'; rw [hg1] at hg1'
      cases hg0'; cases hg1'
      exact h
  · rintro ⟨g0, g1, hg0, hg1, h⟩
    exact h.imp (fun c tr hx => ⟨g0, g1, hg0, hg1, hx⟩)

/-- a stream can be drawn iff every trace has the headers -/
theorem drawnStream_exists {st : List (Trace ℝ)} {level : Trace ℝ → Option ℝ} {g0 g1 : ℝ}
    {marks : ℝ → PyNum ℝ × PyNum ℝ × PyNum ℝ} :
    (∃ p, DrawnStream p st level g0 g1 marks) ↔
      ∀ tr ∈ st, tr.onset.isSome ∧ tr.slowness.isSome ∧ (level tr).isSome := by
  constructor
  · rintro ⟨p, h⟩
    induction h with
    | nil => simp
    | cons h _ ih =>
      obtain ⟨o, s, l, ho, hs, hl, _⟩ := h
      intro tr htr
      rcases List.mem_cons.1 htr with rfl | htr
      · simp [ho, hs, hl]
      · exact ih tr htr
  · intro h
    induction st with
    | nil => exact ⟨[], .nil⟩
    | cons tr st ih =>
      obtain ⟨p, hp⟩ := ih (fun a ha => h a (by simp [ha]))
      obtain ⟨h1, h2, h3⟩ := h tr (by simp)
      obtain ⟨o, ho⟩ := Option.isSome_iff_exists.1 h1
      obtain ⟨s, hs⟩ := Option.isSome_iff_exists.1 h2
      obtain ⟨l, hl⟩ := Option.isSome_iff_exists.1 h3
      exact ⟨_, .cons ⟨o, s, l, ho, hs, hl, curveOf_drawn tr l o g0 g1 (marks s.val)⟩ hp⟩

/-- Python's `min` of a list of reals -/
theorem builtinMin_real {xs : List ℝ} {m : ℝ} : builtinMin xs = .ok m ↔ IsLeast {x | x ∈ xs} m := by
  have key : ∀ (ys : List ℝ) (x : ℝ), IsLeast {z | z ∈ x :: ys}
      (ys.foldl (fun m y => if lt y m then y else m) x) := by
    intro ys
    induction ys with
    | nil => intro x; exact ⟨by simp, by intro z hz; simp at hz; exact hz.ge⟩
    | cons y ys ih =>
      intro x
      simp only [List.foldl_cons]
      obtain ⟨h1, h2⟩ := ih (if lt y x then y else x)
      by_cases h : y < x
      · rw [if_pos ((real_lt _ _).2 h)] at h1 h2 ⊢
        refine ⟨?_, ?_⟩
        · simp only [Set.mem_ofPred_eq, List.mem_cons] at h1 ⊢
          tauto
        · intro z hz
          simp only [Set.mem_ofPred_eq, List.mem_cons] at hz
          rcases hz with rfl | hz
          · exact (h2 (by simp)).trans h.le
          · exact h2 (by simpa using hz)
      · rw [if_neg (by rw [real_lt]; exact h)] at h1 h2 ⊢
        refine ⟨?_, ?_⟩
        · simp only [Set.mem_ofPred_eq, List.mem_cons] at h1 ⊢
          tauto
        · intro z hz
          simp only [Set.mem_ofPred_eq, List.mem_cons] at hz
          rcases hz with rfl | rfl | hz
          · exact h2 (by simp)
          · exact (h2 (by simp)).trans (not_lt.1 h)
          · exact h2 (by simp [hz])
  cases xs with
  | nil => simp [builtinMin, IsLeast]
  | cons x xs =>
    constructor
    · intro h
      rw [← Except.ok.inj h]
      exact key xs x
    · intro h
      exact congrArg Except.ok ((key xs x).unique h)

/-- Python's `max` of a list of reals -/
theorem builtinMax_real {xs : List ℝ} {m : ℝ} : builtinMax xs = .ok m ↔ IsGreatest {x | x ∈ xs} m := by
  have key : ∀ (ys : List ℝ) (x : ℝ), IsGreatest {z | z ∈ x :: ys}
      (ys.foldl (fun m y => if lt m y then y else m) x) := by
    intro ys
    induction ys with
    | nil => intro x; exact ⟨by simp, by intro z hz; simp at hz; exact hz.le⟩
    | cons y ys ih =>
      intro x
      simp only [List.foldl_cons]
      obtain ⟨h1, h2⟩ := ih (if lt x y then y else x)
      by_cases h : x < y
      · rw [if_pos ((real_lt _ _).2 h)] at h1 h2 ⊢
        refine ⟨?_, ?_⟩
        · simp only [Set.mem_ofPred_eq, List.mem_cons] at h1 ⊢
          tauto
        · intro z hz
          simp only [Set.mem_ofPred_eq, List.mem_cons] at hz
          rcases hz with rfl | hz
          · exact h.le.trans (h2 (by simp))
          · exact h2 (by simpa using hz)
      · rw [if_neg (by rw [real_lt]; exact h)] at h1 h2 ⊢
        refine ⟨?_, ?_⟩
        · simp only [Set.mem_ofPred_eq, List.mem_cons] at h1 ⊢
          tauto
        · intro z hz
          simp only [Set.mem_ofPred_eq, List.mem_cons] at hz
          rcases hz with rfl | rfl | hz
          · exact h2 (by simp)
          · exact (not_lt.1 h).trans (h2 (by simp))
          · exact h2 (by simp [hz])
  cases xs with
  | nil => simp [builtinMax, IsGreatest]
  | cons x xs =>
    constructor
    · intro h
      rw [← Except.ok.inj h]
      exact key xs x
    · intro h
      exact congrArg Except.ok ((key xs x).unique h)

theorem axisLimits_real {xs : List ℝ} {l : ℝ × ℝ} : axisLimits xs = .ok l ↔ Extent xs l := by
  unfold axisLimits Extent
  rw [← builtinMin_real, ← builtinMax_real]
  constructor
  · intro h
    obtain ⟨lo, h1, h⟩ := bind_eq_ok.1 h
    obtain ⟨hi, h2, h⟩ := bind_eq_ok.1 h
    cases h
    exact ⟨h1, h2⟩
  · rintro ⟨h1, h2⟩
    rw [h1, h2]
    rfl

theorem extent_exists {xs : List ℝ} : (∃ l, Extent xs l) ↔ xs ≠ [] := by
  constructor
  · rintro ⟨l, h, _⟩ rfl
    exact absurd h.1 (by simp)
  · intro h
    obtain ⟨x, hx⟩ := List.exists_mem_of_ne_nil _ h
    obtain ⟨l, hl⟩ := axisLimits_total hx
    exact ⟨l, axisLimits_real.1 hl⟩

theorem plotXY_ok {t d : List ℝ} : plotXY t d = .ok () ↔ t.length = d.length := by
  unfold plotXY
  split <;> simp_all

theorem shaded_some {bands : List (PyNum ℝ × PyNum ℝ)} {w : ℝ} {marks : PyNum ℝ × PyNum ℝ × PyNum ℝ} :
    Shaded bands (some w) marks ↔ bands = shade w marks := Iff.rfl

/-- the curves of a panel carry the times of their traces; in particular the last one -/
theorem drawnStream_last {p : List (Curve ℝ)} {st : List (Trace ℝ)} {level : Trace ℝ → Option ℝ} {g0 g1 : ℝ}
    {marks : ℝ → PyNum ℝ × PyNum ℝ × PyNum ℝ} (h : DrawnStream p st level g0 g1 marks) {c : Curve ℝ}
    (hc : p.getLast? = some c) :
    ∃ last slow, st.getLast? = some last ∧ last.slowness = some slow ∧ c.marks = marks slow.val := by
  unfold DrawnStream at h
  rw [List.getLast?_eq_getElem?] at hc
  obtain ⟨hl, hc⟩ := List.getElem?_eq_some_iff.1 hc
  have hlen := h.length_eq
  have := (List.forall₂_iff_get.1 h).2 (p.length - 1) hl (by omega)
  simp only [List.get_eq_getElem, hc] at this
  obtain ⟨o, slow, lev, _, hs, _, hd⟩ := this
  refine ⟨_, slow, ?_, hs, hd.marks⟩
  have e : st.length - 1 = p.length - 1 := by omega
  rw [List.getLast?_eq_getElem?, e]
  exact List.getElem?_eq_getElem _

theorem drawnStream_last' {p : List (Curve ℝ)} {st : List (Trace ℝ)} {level : Trace ℝ → Option ℝ} {g0 g1 : ℝ}
    {marks : ℝ → PyNum ℝ × PyNum ℝ × PyNum ℝ} (h : DrawnStream p st level g0 g1 marks) {last : Trace ℝ}
    {slow : Scalar ℝ} (hl : st.getLast? = some last) (hs : last.slowness = some slow) :
    ∃ c, p.getLast? = some c ∧ c.marks = marks slow.val := by
  cases hc : p.getLast? with
  | none =>
    have : st.length = 0 := by
      rw [← h.length_eq, List.getLast?_eq_none_iff.1 hc]; rfl
    rw [List.length_eq_zero_iff.1 this] at hl
    cases hl
  | some c =>
    obtain ⟨last', slow', h1, h2, h3⟩ := drawnStream_last h hc
    rw [hl] at h1; cases h1
    rw [hs] at h2; cases h2
    exact ⟨c, rfl, h3⟩

end Rfsed
