import Verif.Model.MakeRun
import Mathlib.Logic.Function.Basic
import Mathlib.Tactic.SplitIfs

/-! # Recipes of the Makefile in any order -/

namespace Frodo.Make

/-- The place of a parameter set in the recipes of `tests` and `KATS` (proof device). -/
def Level.ix : Level → Nat
  | .l640 => 0
  | .l976 => 1
  | .l1344 => 2

/-- The invariant of all runs that do not remove what they need (proof device). -/
structure Par.Inv (s : Par) : Prop where
  gone : ∀ l, s.pc (.lib l) = 1 → s.tree l = none
  dir : ∀ l, 2 ≤ s.pc (.lib l) → s.tree l ≠ none
  lib : ∀ l, 3 ≤ s.pc (.lib l) → s.tree.has l .lib = true
  katLib : ∀ l, 1 ≤ s.pc (.katLib l) → 2 ≤ s.pc (.lib l) ∧ s.tree.has l .katLib = true
  test : ∀ l, l.ix < s.pc .tests → s.tree.has l .test = true
  kat : ∀ l, l.ix < s.pc .KATS → s.tree.has l .kat = true
  tests : 0 < s.pc .tests → ∀ l, s.pc (.lib l) = 4
  kats : 0 < s.pc .KATS → ∀ l, s.pc (.katLib l) = 2

/-- Nothing is lost from one tree to the next (proof device). -/
def Tree.le (T U : Tree) : Prop := ∀ l, (T l ≠ none → U l ≠ none) ∧ ∀ f, T.has l f = true → U.has l f = true

theorem has_put_some (T : Tree) (l k : Level) (d : File → Bool) (f : File) :
    (T.put l (some d)).has k f = if k = l then d f else T.has k f := by
  unfold Tree.put Tree.has
  by_cases h : k = l <;> simp [h]

theorem put_some_ne (T : Tree) (l k : Level) (d : File → Bool) : (T.put l (some d)) k ≠ none ↔ k = l ∨ T k ≠ none := by
  unfold Tree.put
  by_cases h : k = l <;> simp [h]

theorem ar_run {T U : Tree} {l : Level} {f : File} (h : (Cmd.ar l f).run T = some U) :
    T.le U ∧ U.has l f = true ∧ T l ≠ none ∧ ∀ k, T k = none → U k = none := by
  cases hT : T l with
  | none => simp [Cmd.run, hT] at h
  | some d =>
    simp only [Cmd.run, hT, Option.some.injEq] at h
    subst h
    refine ⟨fun k => ⟨fun hk => (put_some_ne ..).2 (.inr hk), fun g hg => ?_⟩, ?_, by simp, fun k hk => ?_⟩
    · rw [has_put_some]
      split_ifs with hk
      · subst hk
        unfold Tree.has at hg
        rw [hT] at hg
        simp only at hg
        simp [hg]
      · exact hg
    · rw [has_put_some, if_pos rfl]
      simp
    · rw [Tree.put, if_neg]
      · exact hk
      · rintro rfl
        rw [hT] at hk
        cases hk

theorem link_run {T U : Tree} {l : Level} {a f : File} (h : (Cmd.link l a f).run T = some U) :
    T.le U ∧ U.has l f = true ∧ ∀ k, T k = none → U k = none := by
  cases hT : T l with
  | none => simp [Cmd.run, hT] at h
  | some d =>
    simp only [Cmd.run, hT] at h
    split_ifs at h
    simp only [Option.some.injEq] at h
    subst h
    refine ⟨fun k => ⟨fun hk => (put_some_ne ..).2 (.inr hk), fun g hg => ?_⟩, ?_, fun k hk => ?_⟩
    · rw [has_put_some]
      split_ifs with hk
      · subst hk
        unfold Tree.has at hg
        rw [hT] at hg
        simp only at hg
        simp [hg]
      · exact hg
    · rw [has_put_some, if_pos rfl]
      simp
    · rw [Tree.put, if_neg]
      · exact hk
      · rintro rfl
        rw [hT] at hk
        cases hk

theorem ranlib_run {T U : Tree} {l : Level} {f : File} (h : (Cmd.ranlib l f).run T = some U) : U = T := by
  simp only [Cmd.run] at h
  split_ifs at h
  exact (Option.some.inj h).symm

theorem link_ok {T : Tree} {l : Level} {a f : File} (h : T.has l a = true) : (Cmd.link l a f).run T ≠ none := by
  unfold Tree.has at h
  cases hT : T l with
  | none => rw [hT] at h; cases h
  | some d =>
    rw [hT] at h
    simp only at h
    simp [Cmd.run, hT, h]

/-- The next command of a target, by its place in the recipe. -/
theorem recipe_cases {t : Goal} {n : Nat} {c : Cmd} (h : t.recipe[n]? = some c) :
    (∃ l, t = .lib l ∧ ((n = 0 ∧ c = .rm l) ∨ (n = 1 ∧ c = .mkdir l) ∨ (n = 2 ∧ c = .ar l .lib) ∨
      (n = 3 ∧ c = .ranlib l .lib))) ∨
    (∃ l, t = .katLib l ∧ ((n = 0 ∧ c = .ar l .katLib) ∨ (n = 1 ∧ c = .ranlib l .katLib))) ∨
    (t = .tests ∧ ∃ l : Level, n = l.ix ∧ c = .link l .lib .test) ∨
    (t = .KATS ∧ ∃ l : Level, n = l.ix ∧ c = .link l .katLib .kat) := by
  cases t with
  | lib l =>
    refine .inl ⟨l, rfl, ?_⟩
    rcases n with _ | _ | _ | _ | n <;> simp [Goal.recipe] at h <;> simp [h]
  | katLib l =>
    refine .inr (.inl ⟨l, rfl, ?_⟩)
    rcases n with _ | _ | n <;> simp [Goal.recipe] at h <;> simp [h]
  | tests =>
    refine .inr (.inr (.inl ⟨rfl, ?_⟩))
    rcases n with _ | _ | _ | n <;> simp [Goal.recipe] at h
    · exact ⟨.l640, rfl, h.symm⟩
    · exact ⟨.l976, rfl, h.symm⟩
    · exact ⟨.l1344, rfl, h.symm⟩
  | KATS =>
    refine .inr (.inr (.inr ⟨rfl, ?_⟩))
    rcases n with _ | _ | _ | n <;> simp [Goal.recipe] at h
    · exact ⟨.l640, rfl, h.symm⟩
    · exact ⟨.l976, rfl, h.symm⟩
    · exact ⟨.l1344, rfl, h.symm⟩
  | all => simp [Goal.recipe] at h

/-- The commands of the targets `tests` and `KATS` come in the order of the parameter sets. -/
theorem ix_inj {k l : Level} (h : k.ix = l.ix) : k = l := by
  cases k <;> cases l <;> first | rfl | cases h

/-- The prerequisites that the Makefile has at least. -/
def Prereqs (D : Goal → List Goal) : Prop := ∀ g, ∀ d ∈ g.deps, d ∈ D g

theorem lib_mem_tests (l : Level) : Goal.lib l ∈ Goal.tests.deps := by cases l <;> simp [Goal.deps]

theorem katLib_mem_kats (l : Level) : Goal.katLib l ∈ Goal.KATS.deps := by cases l <;> simp [Goal.deps]

/-- A step that only adds files and does not touch the counters of the libraries. -/
theorem Par.Inv.grow {tr T : Tree} {pc pc' : Goal → Nat} (h : Par.Inv ⟨tr, pc⟩) (hle : tr.le T)
    (hn : ∀ k, tr k = none → T k = none) (hlib : ∀ k, pc' (.lib k) = pc (.lib k))
    (h4 : ∀ l, 1 ≤ pc' (.katLib l) → 2 ≤ pc (.lib l) ∧ T.has l .katLib = true)
    (h5 : ∀ l : Level, l.ix < pc' .tests → T.has l .test = true) (h6 : ∀ l : Level, l.ix < pc' .KATS → T.has l .kat = true)
    (h7 : 0 < pc' .tests → ∀ l, pc (.lib l) = 4) (h8 : 0 < pc' .KATS → ∀ l, pc' (.katLib l) = 2) : Par.Inv ⟨T, pc'⟩ := by
  refine ⟨?_, ?_, ?_, ?_, h5, h6, ?_, h8⟩
  · intro l hl
    simp only [hlib] at hl ⊢
    exact hn l (h.gone l hl)
  · intro l hl
    simp only [hlib] at hl ⊢
    exact (hle l).1 (h.dir l hl)
  · intro l hl
    simp only [hlib] at hl ⊢
    exact (hle l).2 _ (h.lib l hl)
  · intro l hl
    simp only [hlib] at hl ⊢
    exact h4 l hl
  · intro hp l
    simp only [hlib]
    exact h7 hp l

theorem Par.Inv.step {D : Goal → List Goal} {N : List Goal} (hD : Prereqs D) {s s' : Par} (h : s.Inv)
    (hk : ∀ l, Goal.katLib l ∈ N → s.pc (.katLib l) = 0 → (∀ d ∈ D (.katLib l), s.pc d = d.recipe.length) →
      s.tree l ≠ none → 2 ≤ s.pc (.lib l))
    (hs : s.Step D N s') : s'.Inv := by
  obtain ⟨t, c, T, ⟨hN, hd, hc⟩, hr, rfl⟩ := hs
  obtain ⟨tr, pc⟩ := s
  obtain ⟨h1, h2, h3, h4, h5, h6, h7, h8⟩ := h
  simp only at h1 h2 h3 h4 h5 h6 h7 h8 hd hc hr hk
  rcases recipe_cases hc with ⟨l, rfl, hl⟩ | ⟨l, rfl, hl⟩ | ⟨rfl, l, hn, rfl⟩ | ⟨rfl, l, hn, rfl⟩
  · -- lib l
    have ne : ∀ k, k ≠ l → Function.update pc (Goal.lib l) (pc (.lib l) + 1) (.lib k) = pc (.lib k) := fun k hk =>
      Function.update_of_ne (by simpa using hk) ..
    have nk : ∀ k, Function.update pc (Goal.lib l) (pc (.lib l) + 1) (.katLib k) = pc (.katLib k) := fun k =>
      Function.update_of_ne (by simp) ..
    have nt : Function.update pc (Goal.lib l) (pc (.lib l) + 1) .tests = pc .tests := Function.update_of_ne (by simp) ..
    have nK : Function.update pc (Goal.lib l) (pc (.lib l) + 1) .KATS = pc .KATS := Function.update_of_ne (by simp) ..
    have eq : Function.update pc (Goal.lib l) (pc (.lib l) + 1) (.lib l) = pc (.lib l) + 1 := Function.update_self ..
    have ht : pc .tests = 0 := by
      by_contra hne
      have := h7 (by omega) l
      rcases hl with ⟨hl, -⟩ | ⟨hl, -⟩ | ⟨hl, -⟩ | ⟨hl, -⟩ <;> omega
    have hlow : pc (.lib l) < 2 → pc (.katLib l) = 0 ∧ pc .KATS = 0 := by
      intro hlt
      have hq : pc (.katLib l) = 0 := by
        by_contra hne
        have := (h4 l (by omega)).1
        omega
      refine ⟨hq, ?_⟩
      by_contra hne
      have := h8 (by omega) l
      omega
    -- the other directories do not change
    have hother : ∀ k, k ≠ l → T k = tr k := by
      intro k hk
      rcases hl with ⟨-, rfl⟩ | ⟨-, rfl⟩ | ⟨-, rfl⟩ | ⟨-, rfl⟩
      · simp only [Cmd.run, Option.some.injEq] at hr
        rw [← hr, Tree.put, if_neg hk]
      · simp only [Cmd.run] at hr
        split_ifs at hr
        simp only [Option.some.injEq] at hr
        rw [← hr, Tree.put, if_neg hk]
      · cases hT : tr l with
        | none => simp [Cmd.run, hT] at hr
        | some d =>
          simp only [Cmd.run, hT, Option.some.injEq] at hr
          rw [← hr, Tree.put, if_neg hk]
      · rw [ranlib_run hr]
    have hhas : ∀ k, k ≠ l → ∀ f, T.has k f = tr.has k f := by
      intro k hk f
      unfold Tree.has
      rw [hother k hk]
    have hle : 2 ≤ pc (.lib l) → tr.le T := by
      intro h2'
      rcases hl with ⟨hl, rfl⟩ | ⟨hl, rfl⟩ | ⟨hl, rfl⟩ | ⟨hl, rfl⟩
      · omega
      · omega
      · exact (ar_run hr).1
      · rw [ranlib_run hr]
        exact fun k => ⟨id, fun f => id⟩
    refine ⟨?_, ?_, ?_, ?_, ?_, ?_, ?_, ?_⟩
    · intro k hk1
      simp only at hk1 ⊢
      by_cases hkl : k = l
      · subst hkl
        rw [eq] at hk1
        rcases hl with ⟨hl, rfl⟩ | ⟨hl, rfl⟩ | ⟨hl, rfl⟩ | ⟨hl, rfl⟩
        · simp only [Cmd.run, Option.some.injEq] at hr
          rw [← hr, Tree.put, if_pos rfl]
        all_goals omega
      · rw [ne k hkl] at hk1
        rw [hother k hkl]
        exact h1 k hk1
    · intro k hk1
      simp only at hk1 ⊢
      by_cases hkl : k = l
      · subst hkl
        rw [eq] at hk1
        rcases hl with ⟨hl, rfl⟩ | ⟨hl, rfl⟩ | ⟨hl, rfl⟩ | ⟨hl, rfl⟩
        · omega
        · simp only [Cmd.run] at hr
          split_ifs at hr
          simp only [Option.some.injEq] at hr
          rw [← hr, Tree.put, if_pos rfl]
          simp
        · exact ((ar_run hr).1 k).1 (ar_run hr).2.2.1
        · rw [ranlib_run hr]
          exact h2 k (by omega)
      · rw [ne k hkl] at hk1
        rw [hother k hkl]
        exact h2 k hk1
    · intro k hk1
      simp only at hk1 ⊢
      by_cases hkl : k = l
      · subst hkl
        rw [eq] at hk1
        rcases hl with ⟨hl, rfl⟩ | ⟨hl, rfl⟩ | ⟨hl, rfl⟩ | ⟨hl, rfl⟩
        · omega
        · omega
        · exact (ar_run hr).2.1
        · rw [ranlib_run hr]
          exact h3 k (by omega)
      · rw [ne k hkl] at hk1
        rw [hhas k hkl]
        exact h3 k hk1
    · intro k hk1
      simp only at hk1 ⊢
      rw [nk] at hk1
      by_cases hkl : k = l
      · subst hkl
        rw [eq]
        have := h4 k hk1
        exact ⟨by omega, ((hle this.1) k).2 _ this.2⟩
      · rw [ne k hkl, hhas k hkl]
        exact h4 k hk1
    · intro k hk1
      simp only at hk1
      rw [nt] at hk1
      omega
    · intro k hk1
      simp only at hk1 ⊢
      rw [nK] at hk1
      by_cases hkl : k = l
      · subst hkl
        by_cases hp : pc (.lib k) < 2
        · have := (hlow hp).2
          omega
        · exact ((hle (by omega)) k).2 _ (h6 k hk1)
      · rw [hhas k hkl]
        exact h6 k hk1
    · intro hk1
      simp only at hk1
      rw [nt] at hk1
      omega
    · intro hk1 k
      simp only at hk1 ⊢
      rw [nK] at hk1
      rw [nk]
      exact h8 hk1 k
  · -- katLib l
    have nl : ∀ k, Function.update pc (Goal.katLib l) (pc (.katLib l) + 1) (.lib k) = pc (.lib k) := fun k =>
      Function.update_of_ne (by simp) ..
    have ne : ∀ k, k ≠ l → Function.update pc (Goal.katLib l) (pc (.katLib l) + 1) (.katLib k) = pc (.katLib k) :=
      fun k hk => Function.update_of_ne (by simpa using hk) ..
    have eq : Function.update pc (Goal.katLib l) (pc (.katLib l) + 1) (.katLib l) = pc (.katLib l) + 1 :=
      Function.update_self ..
    have nt : Function.update pc (Goal.katLib l) (pc (.katLib l) + 1) .tests = pc .tests :=
      Function.update_of_ne (by simp) ..
    have nK : Function.update pc (Goal.katLib l) (pc (.katLib l) + 1) .KATS = pc .KATS := Function.update_of_ne (by simp) ..
    have hK : pc .KATS = 0 := by
      by_contra hne
      have := h8 (by omega) l
      rcases hl with ⟨hl, -⟩ | ⟨hl, -⟩ <;> omega
    have hT : tr.le T ∧ (∀ k, tr k = none → T k = none) ∧ 2 ≤ pc (.lib l) ∧ T.has l .katLib = true := by
      rcases hl with ⟨hl, rfl⟩ | ⟨hl, rfl⟩
      · obtain ⟨a1, a2, a3, a4⟩ := ar_run hr
        exact ⟨a1, a4, hk l hN hl hd a3, a2⟩
      · rw [ranlib_run hr]
        exact ⟨fun k => ⟨id, fun f => id⟩, fun k => id, h4 l (by omega)⟩
    refine Par.Inv.grow ⟨h1, h2, h3, h4, h5, h6, h7, h8⟩ hT.1 hT.2.1 nl ?_ ?_ ?_ ?_ ?_
    · intro k hk1
      by_cases hkl : k = l
      · subst hkl
        exact hT.2.2
      · rw [ne k hkl] at hk1
        exact ⟨(h4 k hk1).1, (hT.1 k).2 _ (h4 k hk1).2⟩
    · intro k hk1
      rw [nt] at hk1
      exact (hT.1 k).2 _ (h5 k hk1)
    · intro k hk1
      rw [nK] at hk1
      omega
    · rw [nt]
      exact h7
    · rw [nK]
      omega
  · -- tests
    have nl : ∀ k, Function.update pc Goal.tests (pc .tests + 1) (.lib k) = pc (.lib k) := fun k =>
      Function.update_of_ne (by simp) ..
    have nk : ∀ k, Function.update pc Goal.tests (pc .tests + 1) (.katLib k) = pc (.katLib k) := fun k =>
      Function.update_of_ne (by simp) ..
    have nK : Function.update pc Goal.tests (pc .tests + 1) .KATS = pc .KATS := Function.update_of_ne (by simp) ..
    have eq : Function.update pc Goal.tests (pc .tests + 1) .tests = pc .tests + 1 := Function.update_self ..
    obtain ⟨a1, a2, a3⟩ := link_run hr
    refine Par.Inv.grow ⟨h1, h2, h3, h4, h5, h6, h7, h8⟩ a1 a3 nl ?_ ?_ ?_ ?_ ?_
    · intro k hk1
      rw [nk] at hk1
      exact ⟨(h4 k hk1).1, (a1 k).2 _ (h4 k hk1).2⟩
    · intro k hk1
      rw [eq] at hk1
      by_cases hkl : k.ix < pc .tests
      · exact (a1 k).2 _ (h5 k hkl)
      · have : k = l := ix_inj (by omega)
        rw [this]
        exact a2
    · intro k hk1
      rw [nK] at hk1
      exact (a1 k).2 _ (h6 k hk1)
    · intro _ k
      exact hd _ (hD _ _ (lib_mem_tests k))
    · rw [nK]
      intro hp k
      rw [nk]
      exact h8 hp k
  · -- KATS
    have nl : ∀ k, Function.update pc Goal.KATS (pc .KATS + 1) (.lib k) = pc (.lib k) := fun k =>
      Function.update_of_ne (by simp) ..
    have nk : ∀ k, Function.update pc Goal.KATS (pc .KATS + 1) (.katLib k) = pc (.katLib k) := fun k =>
      Function.update_of_ne (by simp) ..
    have nt : Function.update pc Goal.KATS (pc .KATS + 1) .tests = pc .tests := Function.update_of_ne (by simp) ..
    have eq : Function.update pc Goal.KATS (pc .KATS + 1) .KATS = pc .KATS + 1 := Function.update_self ..
    obtain ⟨a1, a2, a3⟩ := link_run hr
    refine Par.Inv.grow ⟨h1, h2, h3, h4, h5, h6, h7, h8⟩ a1 a3 nl ?_ ?_ ?_ ?_ ?_
    · intro k hk1
      rw [nk] at hk1
      exact ⟨(h4 k hk1).1, (a1 k).2 _ (h4 k hk1).2⟩
    · intro k hk1
      rw [nt] at hk1
      exact (a1 k).2 _ (h5 k hk1)
    · intro k hk1
      rw [eq] at hk1
      by_cases hkl : k.ix < pc .KATS
      · exact (a1 k).2 _ (h6 k hkl)
      · have : k = l := ix_inj (by omega)
        rw [this]
        exact a2
    · rw [nt]
      exact h7
    · intro _ k
      rw [nk]
      exact hd _ (hD _ _ (katLib_mem_kats k))

/-- The only command that can fail is the first one of a library for the known answers, if the directory is not there. -/
theorem Par.Inv.fails {D : Goal → List Goal} {N : List Goal} (hD : Prereqs D) {s : Par} (h : s.Inv) (hf : s.Fails D N) :
    ∃ l, Goal.katLib l ∈ N ∧ s.pc (.katLib l) = 0 ∧ (∀ d ∈ D (.katLib l), s.pc d = d.recipe.length) ∧ s.tree l = none := by
  obtain ⟨t, c, ⟨hN, hd, hc⟩, hr⟩ := hf
  rcases recipe_cases hc with ⟨l, rfl, hl⟩ | ⟨l, rfl, hl⟩ | ⟨rfl, l, hn, rfl⟩ | ⟨rfl, l, hn, rfl⟩
  · exfalso
    rcases hl with ⟨hl, rfl⟩ | ⟨hl, rfl⟩ | ⟨hl, rfl⟩ | ⟨hl, rfl⟩
    · cases hr
    · simp [Cmd.run, h.gone l hl] at hr
    · have := h.dir l (by omega)
      cases hT : s.tree l with
      | none => exact this hT
      | some d => simp [Cmd.run, hT] at hr
    · simp [Cmd.run, h.lib l (by omega)] at hr
  · rcases hl with ⟨hl, rfl⟩ | ⟨hl, rfl⟩
    · refine ⟨l, hN, hl, hd, ?_⟩
      cases hT : s.tree l with
      | none => rfl
      | some d => simp [Cmd.run, hT] at hr
    · simp [Cmd.run, (h.katLib l (by omega)).2] at hr
  · refine absurd hr (link_ok (h.lib l ?_))
    have := hd _ (hD _ _ (lib_mem_tests l))
    simp only [Goal.recipe, List.length_cons, List.length_nil] at this
    omega
  · refine absurd hr (link_ok (h.katLib l ?_).2)
    have := hd _ (hD _ _ (katLib_mem_kats l))
    simp only [Goal.recipe, List.length_cons, List.length_nil] at this
    omega

theorem Par.Inv.start (T : Tree) : Par.Inv ⟨T, fun _ => 0⟩ := by
  constructor <;> intros <;> simp_all

/-- All files that the targets in `N` make are there in the end. -/
theorem Par.Inv.done {N : List Goal} {s : Par} (h : s.Inv) (hd : s.Done N) :
    (∀ l, Goal.lib l ∈ N → s.tree.has l .lib = true) ∧ (∀ l, Goal.katLib l ∈ N → s.tree.has l .katLib = true) ∧
    (Goal.tests ∈ N → ∀ l, s.tree.has l .test = true) ∧ (Goal.KATS ∈ N → ∀ l, s.tree.has l .kat = true) := by
  refine ⟨fun l hl => h.lib l ?_, fun l hl => (h.katLib l ?_).2, fun hl l => h.test l ?_, fun hl l => h.kat l ?_⟩
  · rw [hd _ hl]; simp [Goal.recipe]
  · rw [hd _ hl]; simp [Goal.recipe]
  · rw [hd _ hl]; cases l <;> simp [Goal.recipe, Level.ix]
  · rw [hd _ hl]; cases l <;> simp [Goal.recipe, Level.ix]

/-- Everything that `make` is to produce is there. -/
def Complete (T : Tree) : Prop := ∀ l f, T.has l f = true

/-- The prerequisites with the missing ones added: the library for the known answers is made after the recipe that removes and
makes its directory. -/
def fixedDeps : Goal → List Goal
  | .katLib l => [.lib l]
  | g => g.deps

/-- A run with any number of jobs: no command can fail in any state that can be reached, some command can be started until
everything is made, and then the files `F` are there. -/
def AlwaysMakes (D : Goal → List Goal) (N : List Goal) (T : Tree) (F : Level → File → Prop) : Prop :=
  ∀ s, Par.Reach D N T s → ¬ s.Fails D N ∧ (s.Done N ∨ ∃ s', s.Step D N s') ∧
    (s.Done N → ∀ l f, F l f → s.tree.has l f = true)

theorem level_cases {p : Level → Prop} : (∀ l, p l) ↔ p .l640 ∧ p .l976 ∧ p .l1344 :=
  ⟨fun h => ⟨h _, h _, h _⟩, fun h l => by cases l; exacts [h.1, h.2.1, h.2.2]⟩

/-- The order in which targets depend on each other. -/
def Goal.rank : Goal → Nat
  | .lib _ => 0
  | .katLib _ => 1
  | .tests => 2
  | .KATS => 2
  | .all => 3

theorem pc_le {D : Goal → List Goal} {N : List Goal} {T : Tree} {s : Par} (h : Par.Reach D N T s) (t : Goal) :
    s.pc t ≤ t.recipe.length := by
  induction h with
  | start => exact Nat.zero_le _
  | step _ hs ih =>
    obtain ⟨u, c, T', ⟨-, -, hc⟩, -, rfl⟩ := hs
    simp only
    by_cases hu : t = u
    · subst hu
      rw [Function.update_self]
      exact (List.getElem?_eq_some_iff.1 hc).1
    · rw [Function.update_of_ne hu]
      exact ih

theorem progress {D : Goal → List Goal} {N : List Goal} (hr : ∀ g, ∀ d ∈ D g, d.rank < g.rank)
    (hN : ∀ g ∈ N, ∀ d ∈ D g, d ∈ N) {s : Par} (hp : ∀ t, s.pc t ≤ t.recipe.length) (hf : ¬ s.Fails D N) :
    s.Done N ∨ ∃ s', s.Step D N s' := by
  by_cases hd : s.Done N
  · exact .inl hd
  right
  have key : ∀ n (t : Goal), t.rank < n → t ∈ N → s.pc t ≠ t.recipe.length → ∃ s', s.Step D N s' := by
    intro n
    induction n with
    | zero => intro t h; omega
    | succ n ih =>
      intro t ht htN hne
      by_cases hall : ∀ d ∈ D t, s.pc d = d.recipe.length
      · have hlt : s.pc t < t.recipe.length := Nat.lt_of_le_of_ne (hp t) hne
        have hnx : s.next D N t t.recipe[s.pc t] := ⟨htN, hall, List.getElem?_eq_getElem hlt⟩
        cases hrun : t.recipe[s.pc t].run s.tree with
        | none => exact absurd ⟨t, _, hnx, hrun⟩ hf
        | some T => exact ⟨_, t, _, T, hnx, hrun, rfl⟩
      · push Not at hall
        obtain ⟨d, hd, hdn⟩ := hall
        exact ih d (by have := hr t d hd; omega) (hN t htN d hd) hdn
  unfold Par.Done at hd
  push Not at hd
  obtain ⟨t, htN, hne⟩ := hd
  exact key _ t (Nat.lt_succ_self _) htN hne

theorem rank_deps (g d : Goal) (h : d ∈ g.deps) : d.rank < g.rank := by
  cases g <;> simp [Goal.deps] at h
  · rcases h with rfl | rfl | rfl <;> simp [Goal.rank]
  · rcases h with rfl | rfl | rfl <;> simp [Goal.rank]
  · rcases h with rfl | rfl | rfl | rfl | rfl <;> simp [Goal.rank]

theorem rank_fixed (g d : Goal) (h : d ∈ fixedDeps g) : d.rank < g.rank := by
  cases g with
  | katLib l =>
    simp only [fixedDeps, List.mem_singleton] at h
    subst h
    simp [Goal.rank]
  | _ => exact rank_deps _ _ h

theorem prereqs_deps : Prereqs Goal.deps := fun _ _ h => h

theorem prereqs_fixed : Prereqs fixedDeps := by
  intro g d h
  cases g with
  | katLib l => simp [Goal.deps] at h
  | _ => exact h

theorem closed_order (g t : Goal) (ht : t ∈ g.order) (d : Goal) (h : d ∈ t.deps) : d ∈ g.order := by
  cases g <;> cases t <;> simp [Goal.order, Goal.deps] at ht h ⊢ <;> tauto

theorem closed_fixed (t : Goal) (ht : t ∈ Goal.all.order) (d : Goal) (h : d ∈ fixedDeps t) : d ∈ Goal.all.order := by
  cases t with
  | katLib l =>
    simp only [fixedDeps, List.mem_singleton] at h
    subst h
    cases l <;> simp [Goal.order]
  | _ => exact closed_order .all _ ht d h

/-- The state in which the directories have been made before (proof device). -/
def lift (s : Par) : Par := ⟨s.tree, fun g => match g with
  | .lib _ => 2
  | g => s.pc g⟩

theorem lift_kat (s : Par) (l : Level) : (lift s).pc (.katLib l) = s.pc (.katLib l) := rfl

theorem lift_step {s s' : Par} (h : s.Step Goal.deps Goal.KATS.order s') :
    (lift s).Step Goal.deps Goal.KATS.order (lift s') := by
  obtain ⟨t, c, T, ⟨h1, h2, h3⟩, hr, rfl⟩ := h
  have ht : (lift s).pc t = s.pc t := by
    cases t <;> first | rfl | simp [Goal.order] at h1
  refine ⟨t, c, T, ⟨h1, ?_, by rw [ht]; exact h3⟩, hr, ?_⟩
  · intro d hd
    have : (lift s).pc d = s.pc d := by
      cases d <;> first | rfl | (cases t <;> simp [Goal.order, Goal.deps] at h1 hd)
    rw [this]
    exact h2 d hd
  · unfold lift
    congr 1
    funext g
    by_cases hg : g = t
    · subst hg
      rw [Function.update_self]
      cases g <;> first | (simp [Goal.order] at h1; done) | (simp only [Function.update_self])
    · rw [Function.update_of_ne hg]
      cases g <;> simp only [Function.update_of_ne hg]

theorem complete_of_inv {s : Par} (h : s.Inv) (hd : s.Done Goal.all.order) : Complete s.tree := by
  obtain ⟨d1, d2, d3, d4⟩ := h.done hd
  intro l f
  cases f
  · exact d1 l (by cases l <;> simp [Goal.order])
  · exact d2 l (by cases l <;> simp [Goal.order])
  · exact d3 (by simp [Goal.order]) l
  · exact d4 (by simp [Goal.order]) l

/-- A whole recipe in one go. -/
theorem reach_goal {D : Goal → List Goal} {N : List Goal} {T U : Tree} {s : Par} (h : Par.Reach D N T s) (t : Goal)
    (ht : t ∈ N) (hD : ∀ d ∈ D t, s.pc d = d.recipe.length) (hself : t ∉ D t) (h0 : s.pc t = 0)
    (hr : runCmds s.tree t.recipe = some U) : Par.Reach D N T ⟨U, Function.update s.pc t t.recipe.length⟩ := by
  have key : ∀ (cs : List Cmd) (s : Par), Par.Reach D N T s → (∀ d ∈ D t, s.pc d = d.recipe.length) →
      t.recipe.drop (s.pc t) = cs → s.pc t ≤ t.recipe.length → runCmds s.tree cs = some U →
      Par.Reach D N T ⟨U, Function.update s.pc t t.recipe.length⟩ := by
    intro cs
    induction cs with
    | nil =>
      intro s hs hD hc hle hr
      have : s.pc t = t.recipe.length := by
        rw [List.drop_eq_nil_iff] at hc
        omega
      simp only [runCmds, Option.some.injEq] at hr
      rw [← hr, ← this, Function.update_eq_self]
      exact hs
    | cons c cs ih =>
      intro s hs hD hc hle hr
      have hlt : s.pc t < t.recipe.length := by
        by_contra hge
        rw [List.drop_eq_nil_of_le (by omega)] at hc
        cases hc
      rw [List.drop_eq_getElem_cons hlt, List.cons.injEq] at hc
      rw [runCmds] at hr
      cases hrun : c.run s.tree with
      | none => rw [hrun] at hr; cases hr
      | some V =>
        rw [hrun] at hr
        have hst : s.Step D N ⟨V, Function.update s.pc t (s.pc t + 1)⟩ :=
          ⟨t, c, V, ⟨ht, hD, by rw [List.getElem?_eq_getElem hlt, hc.1]⟩, hrun, rfl⟩
        have := ih ⟨V, Function.update s.pc t (s.pc t + 1)⟩ (.step hs hst) (fun d hd => by
          simp only
          rw [Function.update_of_ne (by rintro rfl; exact hself hd)]
          exact hD d hd) (by simp only [Function.update_self]; exact hc.2) (by simp only [Function.update_self]; omega) hr
        simpa only [Function.update_idem] using this
  exact key _ s h hD (by rw [h0, List.drop_zero]) (by omega) hr

/-- The counters when the given targets are made (proof device). -/
def pcOf (done : List Goal) (g : Goal) : Nat := if g ∈ done then g.recipe.length else 0

/-- The targets can be made in this order (proof device). -/
def Ordered (D : Goal → List Goal) (N : List Goal) : List Goal → List Goal → Prop
  | _, [] => True
  | done, g :: gs => g ∈ N ∧ g ∉ done ∧ g ∉ D g ∧ (∀ d ∈ D g, d ∈ done) ∧ Ordered D N (g :: done) gs

theorem runCmds_append (T : Tree) (as bs : List Cmd) : runCmds T (as ++ bs) = (runCmds T as).bind (runCmds · bs) := by
  induction as generalizing T with
  | nil => rfl
  | cons a as ih =>
    simp only [List.cons_append, runCmds]
    cases a.run T with
    | none => rfl
    | some U => exact ih U

theorem reach_list {D : Goal → List Goal} {N : List Goal} {T₀ U : Tree} (gs : List Goal) :
    ∀ (done : List Goal) (T : Tree), Par.Reach D N T₀ ⟨T, pcOf done⟩ → Ordered D N done gs →
      runCmds T (gs.flatMap Goal.recipe) = some U → Par.Reach D N T₀ ⟨U, pcOf (gs.reverse ++ done)⟩ := by
  induction gs with
  | nil =>
    intro done T h _ hr
    simp only [List.flatMap_nil, runCmds, Option.some.injEq] at hr
    rw [← hr]
    exact h
  | cons g gs ih =>
    rintro done T h ⟨h1, h2, h3, h4, h5⟩ hr
    rw [List.flatMap_cons, runCmds_append] at hr
    cases hV : runCmds T g.recipe with
    | none => rw [hV] at hr; cases hr
    | some V =>
      rw [hV] at hr
      have hd : ∀ d ∈ D g, pcOf done d = d.recipe.length := fun d hd => if_pos (h4 d hd)
      have := reach_goal h g h1 hd h3 (if_neg h2) hV
      have he : Function.update (pcOf done) g g.recipe.length = pcOf (g :: done) := by
        funext k
        by_cases hk : k = g
        · subst hk
          rw [Function.update_self, pcOf, if_pos (List.mem_cons_self ..)]
        · rw [Function.update_of_ne hk]
          simp [pcOf, hk]
      rw [he] at this
      have := ih (g :: done) V this h5 hr
      simpa using this

end Frodo.Make
