import Verif.Spec.Gain
import Verif.Proofs.Variants2
import Verif.Proofs.PostCritical
import Verif.Proofs.Seq

/-! # Stacking with another gain -/

namespace Rfsed
open PyFloat Spec HkZhu
variable {F : Type} [PyFloat F] {φ : F → F}

theorem item_map {α β : Type} (f : α → β) (l : List α) (i : Nat) : item (l.map f) i = (item l i).map f := by
  unfold item
  rw [List.getElem?_map]
  cases l[i]? <;> rfl

theorem bind_map {α β γ : Type} (m : Except PyErr α) (f : α → β) (g : β → Except PyErr γ) :
    (m.map f >>= g) = m >>= fun a => g (f a) := by cases m <;> rfl

theorem map_bind' {α β γ : Type} (m : Except PyErr α) (g : α → Except PyErr β) (f : β → γ) :
    (m >>= g).map f = m >>= fun a => (g a).map f := by cases m <;> rfl

theorem getamp_gain (φ : F → F) (d t : List F) (x : PyNum F) : getamp (d.map φ) t x = (getamp d t x).map φ := by
  unfold getamp
  rw [map_bind']
  congr 1
  funext i
  exact item_map φ d i

theorem weigh_gain (h : Gain φ) (w1 w2 w3 : F) (d t : List F) (ts : PyNum F × PyNum F × PyNum F) :
    weigh w1 w2 w3 (d.map φ) t ts = (weigh w1 w2 w3 d t ts).map φ := by
  unfold weigh
  simp only [getamp_gain, bind_map, map_bind', except_pure, except_map_ok, h.add, h.sub, h.weight]

theorem argmaxGo_gain (h : Gain φ) (xs : List F) : ∀ (mp : F) (idx i : Nat),
    argmaxGo (φ mp) idx i (xs.map φ) = argmaxGo mp idx i xs := by
  induction xs with
  | nil => intro mp idx i; rfl
  | cons x xs ih =>
    intro mp idx i
    simp only [List.map_cons, argmaxGo, h.le, h.nan, ih]

theorem argmax_gain (h : Gain φ) (tb : List (Row F)) :
    argmax ((gainTable φ tb).map Row.s) = argmax (tb.map Row.s) := by
  have : (gainTable φ tb).map Row.s = (tb.map Row.s).map φ := by
    unfold gainTable
    rw [List.map_map, List.map_map]; rfl
  rw [this]
  cases tb.map Row.s with
  | nil => rfl
  | cons x xs => simp only [List.map_cons, argmax, h.nan, argmaxGo_gain h]

theorem clipLoop_gain (h : Gain φ) (tb : List (Row F)) : clipLoop (gainTable φ tb) = gainTable φ (clipLoop tb) := by
  rw [clipLoop_eq, clipLoop_eq]
  unfold gainTable
  rw [List.map_map, List.map_map]
  congr 1
  funext row
  have hle : le (φ row.s) zero = le row.s zero := by
    have := h.le row.s zero
    rwa [h.zero] at this
  show clipRow _ = _
  unfold clipRow
  simp only [hle, Function.comp]
  split
  · simp [h.zero]
  · rfl

theorem mapM_map_out {α β γ : Type} (f : α → Except PyErr β) (g : β → γ) (l : List α) :
    l.mapM (fun a => (f a).map g) = (l.mapM f).map (List.map g) := by
  induction l with
  | nil => rfl
  | cons a l ih =>
    rw [List.mapM_cons, List.mapM_cons, ih]
    cases f a with
    | error e => rfl
    | ok b => cases l.mapM f <;> rfl

theorem gridLoop_gain {K H : List F} {v v' : F → F → Except PyErr F} (h : ∀ k x, v' k x = (v k x).map φ) :
    gridLoop K H v' = (gridLoop K H v).map (gainTable φ) := by
  rw [gridLoop_eq, gridLoop_eq]
  have : gainTable φ = List.map (fun row : Row F => (⟨row.h, row.k, φ row.s⟩ : Row F)) := rfl
  rw [this, ← mapM_map_out]
  congr 1
  funext p
  rw [h]
  cases v p.1 p.2 <;> rfl

theorem foldlM_gain {α : Type} {f f' : F → α → Except PyErr F} {g : α → α}
    (h : ∀ s a, f' (φ s) (g a) = (f s a).map φ) (l : List α) : ∀ s : F,
    (l.map g).foldlM f' (φ s) = (l.foldlM f s).map φ := by
  induction l with
  | nil => intro s; rfl
  | cons a l ih =>
    intro s
    rw [List.map_cons, List.foldlM_cons, List.foldlM_cons, h, bind_map, map_bind']
    congr 1
    funext b
    exact ih b

theorem cell_gain (h : Gain φ) (env : Env F) (st : List (Trace F)) (t sd : List F) (avg : F) (Vp : Scalar F)
    (w1 w2 w3 : F) (stack : Bool) (k x : F) :
    cell env (gainStream φ st) t (sd.map φ) avg Vp w1 w2 w3 stack k x =
      (cell env st t sd avg Vp w1 w2 w3 stack k x).map φ := by
  unfold cell gainStream
  have := foldlM_gain (φ := φ) (f := fun s tr => do
      let stemp ← traceTerm env t sd avg Vp w1 w2 w3 stack k x tr
      pure (stemp + s)) (f' := fun s tr => do
      let stemp ← traceTerm env t (sd.map φ) avg Vp w1 w2 w3 stack k x tr
      pure (stemp + s)) (g := fun tr => { tr with data := tr.data.map φ }) ?_ st zero
  · rw [h.zero] at this
    exact this
  · intro s tr
    rw [traceTerm_eq, traceTerm_eq]
    have e : (if stack then sd.map φ else tr.data.map φ) = (if stack then sd else tr.data).map φ := by
      cases stack <;> rfl
    simp only [except_bind_assoc, map_bind', e, weigh_gain h, bind_map, except_pure, except_map_ok, h.add]
    rfl

theorem synthCell_gain (h : Gain φ) (d t : List F) (rp Vp : Scalar F) (w1 w2 w3 k x : F) :
    SynthAnalysis.cell (d.map φ) t rp Vp w1 w2 w3 k x = (SynthAnalysis.cell d t rp Vp w1 w2 w3 k x).map φ := by
  rw [synthCell_eq, synthCell_eq]
  simp only [map_bind', weigh_gain h, bind_map, except_pure, except_map_ok, h.add, h.zero]

theorem yuCell_gain (h : Gain φ) (flt : HkYu.FltInput F) (rp Vp : Scalar F) (Pd : F) (w1 w2 w3 : Option F) (k x : F) :
    HkYu.cell { flt with filteredrf := flt.filteredrf.map φ } rp Vp Pd w1 w2 w3 k x =
      (HkYu.cell flt rp Vp Pd w1 w2 w3 k x).map φ := by
  unfold HkYu.cell
  simp only [map_bind', yu_getamp_eq, getamp_gain, bind_map, except_pure, except_map_ok, h.add, h.sub, h.weight, h.zero]

theorem seqMohoCell_gain (h : Gain φ) (d t : List F) (rp VpS : Scalar F) (H1 K1 : F) (vm : Option (Scalar F))
    (w1 w2 w3 : Option F) (k x : F) :
    SynthAnalysis.seqMohoCell (d.map φ) t rp VpS H1 K1 vm w1 w2 w3 k x =
      (SynthAnalysis.seqMohoCell d t rp VpS H1 K1 vm w1 w2 w3 k x).map φ := by
  unfold SynthAnalysis.seqMohoCell
  simp only [map_bind', synth_getamp_eq, getamp_gain, bind_map, except_pure, except_map_ok, h.add, h.sub, h.weight,
    h.zero]

theorem sedTerm_gain (h : Gain φ) (env : Env F) (t sd : List F) (avg : F) (Vp : Scalar F) (w1 w2 w3 : F) (stack : Bool)
    (k x : F) (tr : Trace F) :
    HkSeqYeck.sedTerm env t (sd.map φ) avg Vp w1 w2 w3 stack k x { tr with data := tr.data.map φ } =
      (HkSeqYeck.sedTerm env t sd avg Vp w1 w2 w3 stack k x tr).map φ := by
  have e : (if stack then sd.map φ else tr.data.map φ) = (if stack then sd else tr.data).map φ := by
    cases stack <;> rfl
  unfold HkSeqYeck.sedTerm
  simp only [map_bind', seq_getamp_eq, e, getamp_gain, bind_map, except_pure, except_map_ok, h.add, h.sub, h.weight,
    h.zero]
  rfl

theorem mohoTerm_gain (h : Gain φ) (env : Env F) (stM : List (Trace F)) (t sd : List F) (avg : F) (VpS : Scalar F)
    (H1 K1 : F) (vm : Option (Scalar F)) (w1 w2 w3 : Option F) (stack : Bool) (k x : F) (tr : Trace F) :
    HkSeqYeck.mohoTerm env (gainStream φ stM) t (sd.map φ) avg VpS H1 K1 vm w1 w2 w3 stack k x
        { tr with data := tr.data.map φ } =
      (HkSeqYeck.mohoTerm env stM t sd avg VpS H1 K1 vm w1 w2 w3 stack k x tr).map φ := by
  have e : (if stack then sd.map φ else tr.data.map φ) = (if stack then sd else tr.data).map φ := by
    cases stack <;> rfl
  unfold HkSeqYeck.mohoTerm gainStream
  simp only [map_bind', seq_getamp_eq, e, getamp_gain, bind_map, except_pure, except_map_ok, h.add, h.sub, h.weight,
    h.zero, item_map]
  rfl

theorem foldlM_last_gain {α : Type} {f f' : α → Except PyErr F} {g : α → α} (h : ∀ a, f' (g a) = (f a).map φ)
    (l : List α) : ∀ s : Option F,
    (l.map g).foldlM (fun (_ : Option F) a => do let v ← f' a; pure (some v)) (s.map φ) =
      (l.foldlM (fun (_ : Option F) a => do let v ← f a; pure (some v)) s).map (Option.map φ) := by
  induction l with
  | nil => intro s; rfl
  | cons a l ih =>
    intro s
    rw [List.map_cons, List.foldlM_cons, List.foldlM_cons, h]
    cases hf : f a with
    | error e => rfl
    | ok b => exact ih (some b)

theorem lastTrace_gain {f f' : Trace F → Except PyErr F}
    (h : ∀ tr, f' { tr with data := tr.data.map φ } = (f tr).map φ) (st : List (Trace F)) :
    HkSeqYeck.lastTrace f' (gainStream φ st) = (HkSeqYeck.lastTrace f st).map φ := by
  unfold HkSeqYeck.lastTrace gainStream
  have := foldlM_last_gain h st none
  rw [Option.map_none] at this
  rw [this, bind_map, map_bind']
  congr 1
  funext o
  cases o <;> rfl

theorem slowness_gain (φ : F → F) (st : List (Trace F)) :
    (gainStream φ st).mapM Trace.getSlowness = st.mapM Trace.getSlowness := by
  induction st with
  | nil => rfl
  | cons tr st ih =>
    show List.mapM _ (_ :: gainStream φ st) = _
    rw [List.mapM_cons, List.mapM_cons, ih]
    rfl

end Rfsed
