import Verif.Py.Numpy
import Mathlib.Data.List.Forall2

/-! Helper lemmas about `Except`, `mapM`, `foldlM`. -/

namespace Rfsed

section
variable {α β γ ε : Type}

@[simp] theorem except_pure (a : α) : (pure a : Except ε α) = .ok a := rfl
@[simp] theorem except_ok_bind (a : α) (f : α → Except ε β) : (Except.ok a >>= f) = f a := rfl
theorem except_bind_assoc {γ : Type} (m : Except ε α) (f : α → Except ε β) (g : β → Except ε γ) :
    ((m >>= f) >>= g) = (m >>= fun a => f a >>= g) := by cases m <;> rfl
@[simp] theorem except_error_bind (e : ε) (f : α → Except ε β) :
    ((Except.error e : Except ε α) >>= f) = .error e := rfl
@[simp] theorem except_ok_map (a : α) (f : α → β) : (f <$> (Except.ok a : Except ε α)) = .ok (f a) := rfl
@[simp] theorem except_error_map (e : ε) (f : α → β) :
    (f <$> (Except.error e : Except ε α)) = .error e := rfl
@[simp] theorem except_map_ok (a : α) (f : α → β) :
    Except.map f (Except.ok a : Except ε α) = .ok (f a) := rfl
@[simp] theorem except_map_error (e : ε) (f : α → β) :
    Except.map f (Except.error e : Except ε α) = .error e := rfl

theorem bind_eq_ok {x : Except ε α} {f : α → Except ε β} {b : β} :
    (x >>= f) = .ok b ↔ ∃ a, x = .ok a ∧ f a = .ok b := by
  cases x with
  | error e => simp
  | ok a => simp

theorem bind_eq_error {x : Except ε α} {f : α → Except ε β} {e : ε} :
    (x >>= f) = .error e ↔ x = .error e ∨ ∃ a, x = .ok a ∧ f a = .error e := by
  cases x with
  | error e => simp
  | ok a => simp

theorem mapM_ok_iff {f : α → Except ε β} {xs : List α} {ys : List β} :
    xs.mapM f = .ok ys ↔ List.Forall₂ (fun x y => f x = .ok y) xs ys := by
  induction xs generalizing ys with
  | nil => 
    rw [List.mapM_nil]
    constructor
    · intro h; cases h; exact .nil
    · intro h; cases h; rfl
  | cons x xs ih =>
    rw [List.mapM_cons]
    constructor
    · intro h
      obtain ⟨y, hy, h⟩ := bind_eq_ok.1 h
      obtain ⟨ys', hys, h⟩ := bind_eq_ok.1 h
      cases h
      exact .cons hy (ih.1 hys)
    · intro h
      cases h with
      | cons h1 h2 => rw [h1, except_ok_bind, ih.2 h2]; rfl

theorem mapM_length {f : α → Except ε β} {xs : List α} {ys : List β}
    (h : xs.mapM f = .ok ys) : ys.length = xs.length :=
  (List.Forall₂.length_eq (mapM_ok_iff.1 h)).symm

theorem mapM_ok_of_forall {f : α → Except ε β} {xs : List α}
    (h : ∀ x ∈ xs, ∃ y, f x = .ok y) : ∃ ys, xs.mapM f = .ok ys := by
  induction xs with
  | nil => exact ⟨[], rfl⟩
  | cons x xs ih =>
    obtain ⟨y, hy⟩ := h x (by simp)
    obtain ⟨ys, hys⟩ := ih (fun x hx => h x (by simp [hx]))
    exact ⟨y :: ys, by rw [List.mapM_cons, hy, except_ok_bind, hys]; rfl⟩

theorem mapM_ok_mem {f : α → Except ε β} {xs : List α} {ys : List β}
    (h : xs.mapM f = .ok ys) {x : α} (hx : x ∈ xs) : ∃ y, f x = .ok y := by
  have := mapM_ok_iff.1 h
  induction this with
  | nil => simp at hx
  | @cons a b l1 l2 h1 h2 ih =>
    rcases List.mem_cons.1 hx with rfl | hx
    · exact ⟨_, h1⟩
    · exact ih (mapM_ok_iff.2 h2) hx

theorem mapM_ok_mem_out {f : α → Except ε β} {xs : List α} {ys : List β}
    (h : xs.mapM f = .ok ys) {y : β} (hy : y ∈ ys) : ∃ x ∈ xs, f x = .ok y := by
  have := mapM_ok_iff.1 h
  clear h
  induction this with
  | nil => simp at hy
  | @cons a b l1 l2 h1 h2 ih =>
    rcases List.mem_cons.1 hy with rfl | hy
    · exact ⟨a, by simp, h1⟩
    · obtain ⟨x, hx, h⟩ := ih hy
      exact ⟨x, by simp [hx], h⟩

theorem mapM_map_eq {f : α → Except ε β} {A : β → γ} {B : α → γ} {xs : List α} {ys : List β}
    (h : xs.mapM f = .ok ys) (hab : ∀ x ∈ xs, ∀ y, f x = .ok y → A y = B x) :
    ys.map A = xs.map B := by
  have := mapM_ok_iff.1 h
  clear h
  induction this with
  | nil => rfl
  | @cons a b l1 l2 h1 h2 ih =>
    rw [List.map_cons, List.map_cons, ih (fun x hx => hab x (by simp [hx])), hab a (by simp) b h1]

theorem mapM_error_mem {f : α → Except ε β} {xs : List α} {e : ε}
    (h : xs.mapM f = .error e) : ∃ x ∈ xs, f x = .error e := by
  induction xs with
  | nil => rw [List.mapM_nil] at h; cases h
  | cons x xs ih =>
    rw [List.mapM_cons] at h
    rcases bind_eq_error.1 h with h | ⟨a, ha, h⟩
    · exact ⟨x, by simp, h⟩
    · rcases bind_eq_error.1 h with h | ⟨b, hb, h⟩
      · obtain ⟨y, hy, hye⟩ := ih h
        exact ⟨y, by simp [hy], hye⟩
      · cases h

theorem mapM_congr_mem {f g : α → Except ε β} {xs : List α} (h : ∀ x ∈ xs, f x = g x) :
    xs.mapM f = xs.mapM g := by
  induction xs with
  | nil => rfl
  | cons x xs ih =>
    rw [List.mapM_cons, List.mapM_cons, h x (by simp), ih (fun y hy => h y (by simp [hy]))]

theorem mapM_getElem {f : α → Except ε β} {xs : List α} {ys : List β}
    (h : xs.mapM f = .ok ys) {i : Nat} {x : α} (hx : xs[i]? = some x) :
    ∃ y, ys[i]? = some y ∧ f x = .ok y := by
  have := mapM_ok_iff.1 h
  clear h
  induction this generalizing i with
  | nil => simp at hx
  | @cons a b l1 l2 h1 h2 ih =>
    cases i with
    | zero => simp at hx; subst hx; exact ⟨b, by simp, h1⟩
    | succ i => simpa using ih (by simpa using hx)

theorem mapM_getElem' {f : α → Except ε β} {xs : List α} {ys : List β}
    (h : xs.mapM f = .ok ys) {i : Nat} {y : β} (hy : ys[i]? = some y) :
    ∃ x, xs[i]? = some x ∧ f x = .ok y := by
  have := mapM_ok_iff.1 h
  clear h
  induction this generalizing i with
  | nil => simp at hy
  | @cons a b l1 l2 h1 h2 ih =>
    cases i with
    | zero => simp at hy; subst hy; exact ⟨a, by simp, h1⟩
    | succ i => simpa using ih (by simpa using hy)

theorem mapM_pure_eq {f : α → β} {xs : List α} :
    xs.mapM (fun x => (Except.ok (f x) : Except ε β)) = .ok (xs.map f) := by
  rw [mapM_ok_iff]
  induction xs with
  | nil => exact .nil
  | cons x xs ih => exact .cons rfl ih

/-- nested `foldlM` is `foldlM` over the flattened list of pairs -/
theorem foldlM_nested {σ : Type} (K : List α) (H : List β)
    (f : α → σ → β → Except ε σ) (s : σ) :
    K.foldlM (fun st k => H.foldlM (f k) st) s
      = (K.flatMap (fun k => H.map (fun h => (k, h)))).foldlM (fun st p => f p.1 st p.2) s := by
  induction K generalizing s with
  | nil => rfl
  | cons k K ih =>
    rw [List.foldlM_cons, List.flatMap_cons, List.foldlM_append, List.foldlM_map]
    congr 1
    funext st
    exact ih st

end

theorem item_ok {α : Type} {a : List α} {i : Nat} {x : α} : item a i = .ok x ↔ a[i]? = some x := by
  unfold item
  cases h : a[i]? <;> simp

theorem item_error {α : Type} {a : List α} {i : Nat} {e : PyErr} :
    item a i = .error e ↔ a.length ≤ i ∧ e = .indexError := by
  unfold item
  cases h : a[i]? with
  | none => 
    simp only [Except.error.injEq]
    rw [List.getElem?_eq_none_iff] at h
    exact ⟨fun h' => ⟨h, h'.symm⟩, fun h' => h'.2.symm⟩
  | some x =>
    simp only [reduceCtorEq, false_iff, not_and]
    intro hl
    rw [List.getElem?_eq_none hl] at h; cases h

theorem item_lt {α : Type} {a : List α} {i : Nat} (h : i < a.length) : item a i = .ok a[i] := by
  rw [item_ok]; simp [h]

/-- a product index determines its parts -/
theorem getElem?_flatMap_map {α β γ : Type} (K : List α) (H : List β) (f : α → β → γ) :
    ∀ (i j : Nat) (k : α) (h : β), K[i]? = some k → H[j]? = some h →
      (K.flatMap (fun k => H.map (fun h => f k h)))[i * H.length + j]? = some (f k h) := by
  induction K with
  | nil => intro i j k h hk; simp at hk
  | cons a K ih =>
    intro i j k h hk hh
    have hj : j < H.length := by
      by_contra hc
      rw [List.getElem?_eq_none (by omega)] at hh; cases hh
    rw [List.flatMap_cons]
    cases i with
    | zero =>
      simp at hk; subst hk
      rw [List.getElem?_append_left (by simp; omega)]
      simp [hh]
    | succ i =>
      simp at hk
      rw [List.getElem?_append_right (by simp; nlinarith)]
      have : (i + 1) * H.length + j - (H.map (fun h => f a h)).length = i * H.length + j := by
        simp; rw [Nat.add_mul]; omega
      rw [this]
      exact ih i j k h hk hh

theorem length_flatMap_map {α β γ : Type} (K : List α) (H : List β) (f : α → β → γ) :
    (K.flatMap (fun k => H.map (fun h => f k h))).length = K.length * H.length := by
  induction K with
  | nil => simp
  | cons a K ih => rw [List.flatMap_cons, List.length_append, ih]; simp; rw [Nat.add_mul]; omega

/-- every position of the product has row and column -/
theorem getElem?_flatMap_map' {α β γ : Type} (K : List α) (H : List β) (f : α → β → γ)
    (n : Nat) (x : γ) (hx : (K.flatMap (fun k => H.map (fun h => f k h)))[n]? = some x) :
    ∃ i j k h, n = i * H.length + j ∧ K[i]? = some k ∧ H[j]? = some h ∧ x = f k h := by
  have hn : n < K.length * H.length := by
    rw [← length_flatMap_map K H f]
    by_contra hc
    rw [List.getElem?_eq_none (by omega)] at hx; cases hx
  have hpos : 0 < H.length := by
    rcases Nat.eq_zero_or_pos H.length with h | h
    · rw [h] at hn; simp at hn
    · exact h
  have hi : n / H.length < K.length := (Nat.div_lt_iff_lt_mul hpos).2 hn
  have hj : n % H.length < H.length := Nat.mod_lt _ hpos
  refine ⟨n / H.length, n % H.length, K[n / H.length], H[n % H.length], ?_, by simp [hi], by simp [hj], ?_⟩
  · exact (Nat.div_add_mod' n H.length).symm
  · have := getElem?_flatMap_map K H f (n / H.length) (n % H.length) K[n / H.length] H[n % H.length]
      (by simp [hi]) (by simp [hj])
    rw [Nat.div_add_mod'] at this
    rw [this] at hx
    exact (Option.some.inj hx).symm

end Rfsed
