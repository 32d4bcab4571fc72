/-! # Total list access, used to state array invariants -/

namespace Frodo

variable {α β : Type} [Inhabited α] [Inhabited β]

/-- Element `i` of a buffer, with a default beyond its end (proof device only: every access in the
model is bounds checked by `rd`/`wr`). -/
def nth (l : List α) (i : Nat) : α := l.getD i default

theorem nth_eq_getElem {l : List α} {i : Nat} (h : i < l.length) : nth l i = l[i] := by
  simp [nth, h]

theorem getElem?_eq_nth {l : List α} {i : Nat} (h : i < l.length) : l[i]? = some (nth l i) := by
  simp [nth, h]

theorem nth_of_le {l : List α} {i : Nat} (h : l.length ≤ i) : nth l i = default := by
  simp [nth, h]

theorem ext_nth {l l' : List α} (hl : l.length = l'.length)
    (h : ∀ i, i < l.length → nth l i = nth l' i) : l = l' := by
  apply List.ext_getElem hl
  intro i h1 h2
  rw [← nth_eq_getElem h1, ← nth_eq_getElem h2]; exact h i h1

theorem nth_set (l : List α) (i j : Nat) (v : α) :
    nth (l.set i v) j = if i = j ∧ i < l.length then v else nth l j := by
  simp only [nth, List.getD, List.getElem?_set]
  by_cases h : i = j
  · subst h
    by_cases h' : i < l.length <;> simp [h']
  · simp [h]

theorem nth_set_eq {l : List α} {i : Nat} {v : α} (h : i < l.length) : nth (l.set i v) i = v := by
  simp [nth_set, h]

theorem nth_set_ne {l : List α} {i j : Nat} {v : α} (h : i ≠ j) :
    nth (l.set i v) j = nth l j := by
  simp [nth_set, h]

theorem nth_append (l l' : List α) (i : Nat) :
    nth (l ++ l') i = if i < l.length then nth l i else nth l' (i - l.length) := by
  simp only [nth, List.getD, List.getElem?_append]
  split <;> rfl

theorem nth_drop (l : List α) (k i : Nat) : nth (l.drop k) i = nth l (k + i) := by
  simp [nth, List.getD]

theorem nth_take (l : List α) (k i : Nat) :
    nth (l.take k) i = if i < k then nth l i else default := by
  simp only [nth, List.getD, List.getElem?_take]
  split <;> simp

theorem nth_replicate (n : Nat) (v : α) (i : Nat) :
    nth (List.replicate n v) i = if i < n then v else default := by
  simp only [nth, List.getD, List.getElem?_replicate]
  split <;> simp

theorem nth_map (f : α → β) (l : List α) (i : Nat) :
    nth (l.map f) i = if i < l.length then f (nth l i) else default := by
  simp only [nth, List.getD, List.getElem?_map]
  by_cases h : i < l.length <;> simp [h]

theorem nth_range_map (f : Nat → α) (n i : Nat) :
    nth ((List.range n).map f) i = if i < n then f i else default := by
  simp only [nth, List.getD, List.getElem?_map]
  by_cases h : i < n <;> simp [h]

theorem eq_range_map (l : List α) : l = (List.range l.length).map (nth l) := by
  apply ext_nth
  · simp
  · intro i h
    rw [nth_range_map, if_pos h]

theorem nth_mem {l : List α} {i : Nat} (h : i < l.length) : nth l i ∈ l := by
  rw [nth_eq_getElem h]; exact List.getElem_mem h

theorem nth_zipWith {γ : Type} [Inhabited γ] (f : α → β → γ) (l : List α) (l' : List β) (i : Nat)
    (h : i < l.length) (h' : i < l'.length) :
    nth (List.zipWith f l l') i = f (nth l i) (nth l' i) := by
  rw [nth_eq_getElem h, nth_eq_getElem h', nth_eq_getElem (by simp; omega)]
  simp

theorem nth_cons_zero (a : α) (l : List α) : nth (a :: l) 0 = a := rfl

theorem nth_cons_succ (a : α) (l : List α) (i : Nat) : nth (a :: l) (i + 1) = nth l i := rfl

end Frodo
