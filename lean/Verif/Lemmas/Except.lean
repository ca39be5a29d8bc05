import Verif.Model.Py

/-!
# Lists of computations that may fail
-/

namespace HLC

theorem mapM_ok_iff {α β : Type} {f : α → Except PyErr β} {l : List α} {r : List β} :
    l.mapM f = .ok r ↔ List.Forall₂ (fun a b => f a = .ok b) l r := by
  induction l generalizing r with
  | nil =>
    constructor
    · intro h
      have : r = [] := by simpa [pure, Except.pure] using h.symm
      rw [this]; exact .nil
    · intro h; cases h; rfl
  | cons a l ih =>
    rw [List.mapM_cons]
    constructor
    · intro h
      cases e : f a with
      | error x => rw [e] at h; cases h
      | ok b =>
        rw [e] at h
        cases e' : l.mapM f with
        | error x => rw [e'] at h; cases h
        | ok s =>
          rw [e'] at h
          cases h
          exact .cons e (ih.1 e')
    · intro h
      cases h with
      | cons h1 h2 => rw [h1, ih.2 h2]; rfl

theorem mapM_ok_of {α β : Type} {f : α → Except PyErr β} {l : List α} (h : ∀ a ∈ l, ∃ b, f a = .ok b) : ∃ r, l.mapM f = .ok r := by
  induction l with
  | nil => exact ⟨[], rfl⟩
  | cons a l ih =>
    obtain ⟨b, hb⟩ := h a List.mem_cons_self
    obtain ⟨r, hr⟩ := ih fun x hx => h x (List.mem_cons_of_mem _ hx)
    exact ⟨b :: r, by rw [List.mapM_cons, hb, hr]; rfl⟩

theorem ok_of_mapM_ok {α β : Type} {f : α → Except PyErr β} {l : List α} {r : List β} (h : l.mapM f = .ok r) :
    ∀ a ∈ l, ∃ b, f a = .ok b := by
  rw [mapM_ok_iff] at h
  induction h with
  | nil => simp
  | cons h1 _ ih =>
    intro a ha
    rcases List.mem_cons.1 ha with rfl | ha
    · exact ⟨_, h1⟩
    · exact ih a ha

theorem mapM_length {α β : Type} {f : α → Except PyErr β} {l : List α} {r : List β} (h : l.mapM f = .ok r) : r.length = l.length :=
  (mapM_ok_iff.1 h).length_eq.symm

theorem mapM_getElem {α β : Type} {f : α → Except PyErr β} {l : List α} {r : List β} (h : l.mapM f = .ok r) {i : ℕ} (hi : i < l.length) :
    f l[i] = .ok (r[i]'(by rw [mapM_length h]; exact hi)) := by
  have h2 := mapM_ok_iff.1 h
  exact (List.forall₂_iff_get.1 h2).2 i hi _

theorem bind_ok_iff {α β : Type} {x : Except PyErr α} {f : α → Except PyErr β} {b : β} :
    (x >>= f) = .ok b ↔ ∃ a, x = .ok a ∧ f a = .ok b := by
  cases x with
  | error e => exact ⟨fun h => (nomatch h), fun ⟨_, h, _⟩ => (nomatch h)⟩
  | ok a => exact ⟨fun h => ⟨a, rfl, h⟩, fun ⟨a', h, h'⟩ => by cases h; exact h'⟩

end HLC
