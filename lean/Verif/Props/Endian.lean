import Verif.Model.Endian

/-! # C66: the byte order found by brg_endian.h -/

namespace Frodo.Spec

/-- How a platform tells its byte order by a family of macros: either both names have different values and `order` is the
one of the byte order, or only the name of the byte order is defined. -/
def TellsOrder (f : EndianFamily) (o : ByteOrder) : Prop :=
  (∃ b l, f.big = some b ∧ f.little = some l ∧ b ≠ l ∧ f.order = some (if o = .big then b else l)) ∨
  (f.big.isSome = decide (o = .big) ∧ f.little.isSome = decide (o = .little))

/-- A platform that does not use the family for its byte order. -/
def Silent (f : EndianFamily) : Prop := f.big = none ∧ f.little = none

/-- The four families. -/
def families (m : EndianMacros) : List EndianFamily := [m.plain, m.under, m.dunder, m.both]

end Frodo.Spec

namespace Frodo.Props

open Spec

theorem define_of_tells {f : EndianFamily} {o : ByteOrder} (h : TellsOrder f o) : f.define = some o := by
  obtain ⟨fb, fl, fo⟩ := f
  rcases h with ⟨b, l, rfl, rfl, hne, rfl⟩ | ⟨h1, h2⟩
  · cases o
    · simp [EndianFamily.define]
    · simp [EndianFamily.define, Ne.symm hne]
  · cases o <;> cases fb <;> cases fl <;> simp_all [EndianFamily.define]

theorem define_of_silent {f : EndianFamily} (h : Silent f) : f.define = none := by
  obtain ⟨fb, fl, fo⟩ := f
  obtain ⟨rfl, rfl⟩ := h
  rfl

theorem defined_eq (m : EndianMacros) : m.defined = (families m).filterMap EndianFamily.define := by
  unfold EndianMacros.defined families
  simp only [List.filterMap_cons, List.filterMap_nil, id]

/-- If some family tells the byte order and the others tell the same or nothing, the header finds it, whatever names of
machines are defined. -/
theorem C66_found (m : EndianMacros) (o : ByteOrder) (h1 : ∃ f ∈ families m, TellsOrder f o)
    (h2 : ∀ f ∈ families m, TellsOrder f o ∨ Silent f) : m.result = .order o := by
  have hall : ∀ x ∈ m.defined, x = o := by
    intro x hx
    rw [defined_eq, List.mem_filterMap] at hx
    obtain ⟨f, hf, hx⟩ := hx
    rcases h2 f hf with h | h
    · rw [define_of_tells h] at hx
      exact (Option.some.inj hx).symm
    · rw [define_of_silent h] at hx
      cases hx
  have hmem : o ∈ m.defined := by
    obtain ⟨f, hf, h⟩ := h1
    rw [defined_eq, List.mem_filterMap]
    exact ⟨f, hf, define_of_tells h⟩
  unfold EndianMacros.result
  generalize m.defined = d at hall hmem
  cases d with
  | nil => cases hmem
  | cons a d =>
    have ha : a = o := hall a (List.mem_cons_self ..)
    subst ha
    simp only
    rw [if_pos]
    simp only [List.all_eq_true, decide_eq_true_eq]
    exact fun x hx => hall x (List.mem_cons_of_mem _ hx)

/-- If two families tell different byte orders, the header defines its result twice, differently. -/
theorem C66_conflict (m : EndianMacros) (h1 : ∃ f ∈ families m, TellsOrder f .big)
    (h2 : ∃ f ∈ families m, TellsOrder f .little) : m.result = .redefined := by
  have hb : ByteOrder.big ∈ m.defined := by
    obtain ⟨f, hf, h⟩ := h1
    rw [defined_eq, List.mem_filterMap]
    exact ⟨f, hf, define_of_tells h⟩
  have hl : ByteOrder.little ∈ m.defined := by
    obtain ⟨f, hf, h⟩ := h2
    rw [defined_eq, List.mem_filterMap]
    exact ⟨f, hf, define_of_tells h⟩
  unfold EndianMacros.result
  generalize m.defined = d at hb hl
  cases d with
  | nil => cases hb
  | cons a d =>
    simp only
    rw [if_neg]
    simp only [List.all_eq_true, decide_eq_true_eq]
    intro h
    rcases List.mem_cons.1 hb with hb | hb <;> rcases List.mem_cons.1 hl with hl | hl
    · rw [← hb] at hl; cases hl
    · have := h _ hl; rw [← hb] at this; cases this
    · have := h _ hb; rw [← hl] at this; cases this
    · have := h _ hb; rw [← h _ hl] at this; cases this

/-- If no family tells anything, the byte order is taken to be big exactly for the machines of the second list that are not in
the first; a machine that is in neither list counts as little, whatever it is. -/
theorem C66_silent (m : EndianMacros) (h : ∀ f ∈ families m, Silent f) :
    (m.result = .order .big ↔ (∃ n ∈ m.names, n ∈ bigNames) ∧ ∀ n ∈ m.names, n ∉ littleNames) ∧
    (m.result = .order .little ↔ ¬ (∃ n ∈ m.names, n ∈ bigNames) ∨ ∃ n ∈ m.names, n ∈ littleNames) := by
  have hd : m.defined = [] := by
    rw [defined_eq, List.filterMap_eq_nil_iff]
    exact fun f hf => define_of_silent (h f hf)
  have hdun : m.dunder.big = none := (h m.dunder (by simp [families])).1
  have hr : m.result = .order m.machine := by
    unfold EndianMacros.result
    rw [hd]
  rw [hr]
  unfold EndianMacros.machine
  have e1 : m.names.any (littleNames.contains ·) = true ↔ ∃ n ∈ m.names, n ∈ littleNames := by
    simp only [List.any_eq_true, List.contains_iff_mem]
  have e2 : m.names.any (bigNames.contains ·) = true ↔ ∃ n ∈ m.names, n ∈ bigNames := by
    simp only [List.any_eq_true, List.contains_iff_mem]
  have e3 : (if m.names.contains "__arm__" then if m.dunder.big.isSome then ByteOrder.big else .little else .little) = .little := by
    rw [hdun]
    simp
  rw [e3]
  simp only [e1, e2]
  by_cases c1 : ∃ n ∈ m.names, n ∈ littleNames
  · have c1' : ¬ ∀ n ∈ m.names, n ∉ littleNames := by
      obtain ⟨n, a, b⟩ := c1
      exact fun h => h n a b
    simp [c1, c1']
  · have c1' : ∀ n ∈ m.names, n ∉ littleNames := fun n a b => c1 ⟨n, a, b⟩
    by_cases c2 : ∃ n ∈ m.names, n ∈ bigNames
    · simp [c1, c2]
      exact c1'
    · simp [c1, c2]

/-- The branch for ARM that says big is taken only if the third family defines both names and an order that is neither of
them (or none): when nothing is known about the byte order. -/
theorem C66_arm (m : EndianMacros) (hd : m.defined = []) (hl : ∀ n ∈ m.names, n ∉ littleNames)
    (hb : ∀ n ∈ m.names, n ∉ bigNames) :
    m.result = .order .big ↔ "__arm__" ∈ m.names ∧
      ∃ b l, m.dunder.big = some b ∧ m.dunder.little = some l ∧ m.dunder.order ≠ some b ∧ m.dunder.order ≠ some l := by
  have hr : m.result = .order m.machine := by
    unfold EndianMacros.result
    rw [hd]
  have hn : m.dunder.define = none := by
    rw [defined_eq, List.filterMap_eq_nil_iff] at hd
    exact hd _ (by simp [families])
  rw [hr]
  unfold EndianMacros.machine
  have e1 : ¬ m.names.any (littleNames.contains ·) = true := by
    simp only [List.any_eq_true, List.contains_iff_mem]
    rintro ⟨n, a, b⟩
    exact hl n a b
  have e2 : ¬ m.names.any (bigNames.contains ·) = true := by
    simp only [List.any_eq_true, List.contains_iff_mem]
    rintro ⟨n, a, b⟩
    exact hb n a b
  rw [if_neg e1, if_neg e2]
  generalize m.dunder = f at hn
  obtain ⟨fb, fl, fo⟩ := f
  by_cases ha : "__arm__" ∈ m.names
  · rw [if_pos (List.contains_iff_mem.2 ha)]
    cases fb <;> cases fl <;> simp [EndianFamily.define] at hn ⊢
    rename_i b l
    by_cases c1 : fo = some b
    · simp [c1] at hn
    · by_cases c2 : fo = some l
      · simp only [c2, if_true] at hn
        split at hn <;> cases hn
      · exact ⟨ha, c1, c2⟩
  · rw [if_neg (fun h => ha (List.contains_iff_mem.1 h))]
    simp [ha]

/-- The vectorised file compiles on a platform that tells little, and does not on one that tells big; if the platform tells
nothing, it compiles unless the machine is in the second list and not in the first. -/
theorem C66_check (m : EndianMacros) :
    ((∃ f ∈ families m, TellsOrder f .little) → (∀ f ∈ families m, TellsOrder f .little ∨ Silent f) → m.accepted = true) ∧
    ((∃ f ∈ families m, TellsOrder f .big) → m.accepted = false) ∧
    ((∀ f ∈ families m, Silent f) →
      (m.accepted = true ↔ ¬ (∃ n ∈ m.names, n ∈ bigNames) ∨ ∃ n ∈ m.names, n ∈ littleNames)) := by
  refine ⟨fun h1 h2 => ?_, fun h => ?_, fun h => ?_⟩
  · unfold EndianMacros.accepted
    rw [C66_found m .little h1 h2]
    rfl
  · unfold EndianMacros.accepted
    rw [decide_eq_false_iff_not]
    have hb : ByteOrder.big ∈ m.defined := by
      obtain ⟨f, hf, h⟩ := h
      rw [defined_eq, List.mem_filterMap]
      exact ⟨f, hf, define_of_tells h⟩
    unfold EndianMacros.result
    generalize m.defined = d at hb
    cases d with
    | nil => cases hb
    | cons a d =>
      simp only
      split
      · rename_i hall
        simp only [List.all_eq_true, decide_eq_true_eq] at hall
        intro he
        cases he
        rcases List.mem_cons.1 hb with hb | hb
        · cases hb
        · cases hall _ hb
      · intro he
        cases he
  · unfold EndianMacros.accepted
    rw [decide_eq_true_eq]
    exact (C66_silent m h).2

/-- The macros of glibc on a little-endian machine (`<stdlib.h>` includes `<endian.h>` by default): accepted. -/
def glibcLittle : EndianMacros :=
  ⟨⟨some 4321, some 1234, some 1234⟩, ⟨none, none, none⟩, ⟨some 4321, some 1234, some 1234⟩, ⟨none, none, some 1234⟩,
    ["__x86_64__"]⟩

example : glibcLittle.accepted = true :=
  (C66_check glibcLittle).1 ⟨glibcLittle.plain, by simp [families], .inl ⟨4321, 1234, rfl, rfl, by omega, rfl⟩⟩ (by
    intro f hf
    simp only [families, glibcLittle, List.mem_cons, List.not_mem_nil, or_false] at hf
    rcases hf with rfl | rfl | rfl | rfl
    · exact .inl (.inl ⟨4321, 1234, rfl, rfl, by omega, rfl⟩)
    · exact .inr ⟨rfl, rfl⟩
    · exact .inl (.inl ⟨4321, 1234, rfl, rfl, by omega, rfl⟩)
    · exact .inr ⟨rfl, rfl⟩)

/-- Only predefined macros of GCC for the IBM Z (big-endian; `__BYTE_ORDER__` is 4321, but `__BIG_ENDIAN__` is not defined):
taken to be little. -/
example : (EndianMacros.mk ⟨none, none, none⟩ ⟨none, none, none⟩ ⟨none, none, none⟩ ⟨none, none, some 4321⟩
    ["__s390x__"]).accepted = true :=
  ((C66_check _).2.2 (by
    intro f hf
    simp only [families, List.mem_cons, List.not_mem_nil, or_false] at hf
    rcases hf with rfl | rfl | rfl | rfl <;> exact ⟨rfl, rfl⟩)).2 (.inl (by
      rintro ⟨n, hn, hb⟩
      simp only [List.mem_cons, List.not_mem_nil, or_false] at hn
      subst hn
      revert hb
      decide +kernel))

/-- Two families that disagree. -/
example : (EndianMacros.mk ⟨some 1, none, none⟩ ⟨none, some 1, none⟩ ⟨none, none, none⟩ ⟨none, none, none⟩ []).result =
    .redefined :=
  C66_conflict _ ⟨_, List.mem_cons_self .., .inr ⟨rfl, rfl⟩⟩ ⟨⟨none, some 1, none⟩, by simp [families], .inr ⟨rfl, rfl⟩⟩

end Frodo.Props
