import Verif.Proof.MakeRun
import Verif.Props.Make

/-! # C67: calls of `make`, one job or several -/

namespace Frodo.Props

open Make

/-! ## One job -/

/-- `make` succeeds and makes everything, whatever is on the disk before. -/
theorem C67_all (T : Tree) : ∃ T', Goal.all.make T = some T' ∧ Complete T' := by
  refine ⟨_, rfl, ?_⟩
  intro l f
  cases l <;> cases f <;> rfl

/-- `make tests` succeeds and leaves exactly the libraries and the self tests: other programs are removed. -/
theorem C67_tests (T : Tree) :
    ∃ T', Goal.tests.make T = some T' ∧ ∀ l f, T'.has l f = true ↔ f = .lib ∨ f = .test := by
  refine ⟨_, rfl, ?_⟩
  intro l f
  cases l <;> cases f <;> simp [Tree.has, Tree.put]

/-- `make lib640` succeeds, removes all other files from its directory and does not touch the others. -/
theorem C67_lib (l : Level) (T : Tree) :
    ∃ T', (Goal.lib l).make T = some T' ∧ (∀ f, T'.has l f = true ↔ f = .lib) ∧ ∀ k, k ≠ l → T' k = T k := by
  refine ⟨((T.put l none).put l (some fun _ => false)).put l (some fun g => false || decide (g = .lib)), ?_, ?_, ?_⟩
  · cases l <;> rfl
  · intro f
    simp [Tree.has, Tree.put]
  · intro k hk
    simp [Tree.put, hk]

/-- `make KATS` succeeds exactly if the three directories are there: it fails on a fresh checkout. -/
theorem C67_kats (T : Tree) : (Goal.KATS.make T).isSome = true ↔ ∀ l, T l ≠ none := by
  rw [level_cases]
  cases h1 : T .l640 <;> cases h2 : T .l976 <;> cases h3 : T .l1344 <;>
    simp [Goal.make, Goal.order, Goal.recipe, runCmds, Cmd.run, Tree.put, Tree.has, h1, h2, h3]

/-! ## Several jobs -/

/-- `make -j tests` never fails, whatever is on the disk before, and makes the libraries and the self tests. -/
theorem C67_parallel_tests (T : Tree) :
    AlwaysMakes Goal.deps Goal.tests.order T (fun _ f => f = .lib ∨ f = .test) := by
  intro s hs
  have hno : ∀ l, Goal.katLib l ∉ Goal.tests.order := by intro l; cases l <;> simp [Goal.order]
  have hI : s.Inv := by
    induction hs with
    | start => exact Par.Inv.start T
    | step _ hst ih => exact ih.step prereqs_deps (fun l hl => absurd hl (hno l)) hst
  have hf : ¬ s.Fails Goal.deps Goal.tests.order := by
    intro hf
    obtain ⟨l, hl, -⟩ := hI.fails prereqs_deps hf
    exact hno l hl
  refine ⟨hf, progress rank_deps (closed_order .tests) (pc_le hs) hf, fun hd l f hF => ?_⟩
  obtain ⟨d1, -, d3, -⟩ := hI.done hd
  rcases hF with rfl | rfl
  · exact d1 l (by cases l <;> simp [Goal.order])
  · exact d3 (by simp [Goal.order]) l

/-- `make -j KATS` never fails if the directories are there, and makes the programs. -/
theorem C67_parallel_kats (T : Tree) (hT : ∀ l, T l ≠ none) :
    AlwaysMakes Goal.deps Goal.KATS.order T (fun _ f => f = .katLib ∨ f = .kat) := by
  intro s hs
  have hI : (lift s).Inv := by
    induction hs with
    | start =>
      constructor <;> intros <;> simp_all [lift]
    | step _ hst ih => exact ih.step prereqs_deps (fun l _ _ _ _ => Nat.le_refl 2) (lift_step hst)
  have hf : ¬ s.Fails Goal.deps Goal.KATS.order := by
    rintro ⟨t, c, ⟨h1, h2, h3⟩, hr⟩
    have ht : (lift s).pc t = s.pc t := by
      cases t <;> first | rfl | simp [Goal.order] at h1
    have hf' : (lift s).Fails Goal.deps Goal.KATS.order := by
      refine ⟨t, c, ⟨h1, ?_, by rw [ht]; exact h3⟩, hr⟩
      intro d hd
      have : (lift s).pc d = s.pc d := by
        cases d <;> first | rfl | (cases t <;> simp [Goal.order, Goal.deps] at h1 hd)
      rw [this]
      exact h2 d hd
    obtain ⟨l, -, -, -, hn⟩ := hI.fails prereqs_deps hf'
    exact hI.dir l (Nat.le_refl 2) hn
  refine ⟨hf, progress rank_deps (closed_order .KATS) (pc_le hs) hf, fun hd l f hF => ?_⟩
  have hd' : (lift s).Done Goal.KATS.order := by
    intro t ht
    rw [← hd t ht]
    cases t <;> first | rfl | simp [Goal.order] at ht
  obtain ⟨-, d2, -, d4⟩ := hI.done hd'
  rcases hF with rfl | rfl
  · exact d2 l (by cases l <;> simp [Goal.order])
  · exact d4 (by simp [Goal.order]) l

/-- `make -j` can fail, whatever is on the disk before: the directory is removed before the archive for the known answers is
written there. -/
theorem C67_parallel_fails (T : Tree) :
    ∃ s, Par.Reach Goal.deps Goal.all.order T s ∧ s.Fails Goal.deps Goal.all.order := by
  refine ⟨_, .step .start ⟨.lib .l640, .rm .l640, _, ⟨by simp [Goal.order], by simp [Goal.deps], rfl⟩, rfl, rfl⟩,
    .katLib .l640, .ar .l640 .katLib, ⟨by simp [Goal.order], by simp [Goal.deps], ?_⟩, ?_⟩
  · simp only
    rw [Function.update_of_ne (by simp)]
    rfl
  · simp [Cmd.run, Tree.put]

/-- On a fresh checkout a run of `make -j` that ends without error has made everything. -/
theorem C67_parallel_clean (T : Tree) (hT : ∀ l, T l = none) (s : Par) (hs : Par.Reach Goal.deps Goal.all.order T s)
    (hd : s.Done Goal.all.order) : Complete s.tree := by
  have hI : s.Inv ∧ ∀ l, s.pc (.lib l) < 2 → s.tree l = none := by
    clear hd
    induction hs with
    | start => exact ⟨Par.Inv.start T, fun l _ => hT l⟩
    | @step s s' _ hst ih =>
      obtain ⟨hI, hC⟩ := ih
      refine ⟨hI.step prereqs_deps (fun l _ _ _ hne => ?_) hst, ?_⟩
      · by_contra hlt
        exact hne (hC l (by omega))
      · obtain ⟨t, c, U, ⟨-, -, hc⟩, hr, rfl⟩ := hst
        obtain ⟨tr, pc⟩ := s
        simp only at hc hr hC
        intro k hk
        simp only at hk ⊢
        rcases recipe_cases hc with ⟨l, rfl, hl⟩ | ⟨l, rfl, hl⟩ | ⟨rfl, l, hn, rfl⟩ | ⟨rfl, l, hn, rfl⟩
        · by_cases hkl : k = l
          · subst hkl
            rw [Function.update_self] at hk
            rcases hl with ⟨hl, rfl⟩ | ⟨hl, rfl⟩ | ⟨hl, rfl⟩ | ⟨hl, rfl⟩
            · simp only [Cmd.run, Option.some.injEq] at hr
              rw [← hr, Tree.put, if_pos rfl]
            all_goals omega
          · rw [Function.update_of_ne (by simpa using hkl)] at hk
            have h0 := hC k hk
            rcases hl with ⟨hl, rfl⟩ | ⟨hl, rfl⟩ | ⟨hl, rfl⟩ | ⟨hl, rfl⟩
            · simp only [Cmd.run, Option.some.injEq] at hr
              rw [← hr, Tree.put, if_neg hkl]
              exact h0
            · simp only [Cmd.run] at hr
              split_ifs at hr
              simp only [Option.some.injEq] at hr
              rw [← hr, Tree.put, if_neg hkl]
              exact h0
            · exact (ar_run hr).2.2.2 k h0
            · rw [ranlib_run hr]
              exact h0
        · rw [Function.update_of_ne (by simp)] at hk
          rcases hl with ⟨hl, rfl⟩ | ⟨hl, rfl⟩
          · exact (ar_run hr).2.2.2 k (hC k hk)
          · rw [ranlib_run hr]
            exact hC k hk
        · rw [Function.update_of_ne (by simp)] at hk
          exact (link_run hr).2.2 k (hC k hk)
        · rw [Function.update_of_ne (by simp)] at hk
          exact (link_run hr).2.2 k (hC k hk)
  exact complete_of_inv hI.1 hd

/-- Where the directories exist from an earlier run, `make -j` can end without error and without the programs for the known
answers: they are made before the directories are removed and made again. -/
theorem C67_parallel_loses (T : Tree) (hT : ∀ l, T l ≠ none) :
    ∃ s, Par.Reach Goal.deps Goal.all.order T s ∧ s.Done Goal.all.order ∧
      ∀ l, s.tree.has l .kat = false ∧ s.tree.has l .katLib = false := by
  obtain ⟨V, hV⟩ := Option.isSome_iff_exists.1 ((C67_kats T).2 hT)
  obtain ⟨U, hU, hhas⟩ := C67_tests V
  have hr : runCmds T ((Goal.KATS.order ++ (Goal.tests.order ++ [Goal.all])).flatMap Goal.recipe) = some U := by
    rw [List.flatMap_append, List.flatMap_append, runCmds_append]
    unfold Goal.make at hV hU
    rw [hV, Option.bind_some, runCmds_append, hU]
    rfl
  refine ⟨_, reach_list _ [] T .start ?_ hr, ?_, ?_⟩
  · simp [Ordered, Goal.order, Goal.deps]
  · intro t ht
    simp only [pcOf, List.append_nil]
    rw [if_pos]
    cases t with
    | lib l => cases l <;> simp [Goal.order]
    | katLib l => cases l <;> simp [Goal.order]
    | _ => simp [Goal.order]
  · intro l
    have h1 := hhas l .kat
    have h2 := hhas l .katLib
    simp only [reduceCtorEq, or_self, iff_false, Bool.not_eq_true] at h1 h2
    exact ⟨h1, h2⟩

/-- With the missing prerequisites, `make -j` never fails and makes everything, whatever is on the disk before. -/
theorem C67_parallel_fixed (T : Tree) : AlwaysMakes fixedDeps Goal.all.order T (fun _ _ => True) := by
  intro s hs
  have hdone : ∀ (s : Par) l, (∀ d ∈ fixedDeps (.katLib l), s.pc d = d.recipe.length) → s.pc (.lib l) = 4 := fun s l h =>
    h (.lib l) (List.mem_singleton.2 rfl)
  have hI : s.Inv := by
    induction hs with
    | start => exact Par.Inv.start T
    | step _ hst ih => exact ih.step prereqs_fixed (fun l _ _ hd _ => by rw [hdone _ l hd]; omega) hst
  have hf : ¬ s.Fails fixedDeps Goal.all.order := by
    intro hf
    obtain ⟨l, -, -, hd, hn⟩ := hI.fails prereqs_fixed hf
    exact hI.dir l (by rw [hdone _ l hd]; omega) hn
  exact ⟨hf, progress rank_fixed closed_fixed (pc_le hs) hf, fun hd l f _ => complete_of_inv hI hd l f⟩

/-! ## The continuous integration -/

/-- The names of the implementations and generators in the options. -/
def optName : Impl → String
  | .reference => "REFERENCE"
  | .generic => "FAST_GENERIC"
  | .avx2 => "FAST"

/-- The names of the generators in the options. -/
def genName : Spec.MatGen → String
  | .aes => "AES128"
  | .shake => "SHAKE128"

theorem selects_names {v : Vars} {p : Predef} {c : Config} (h : config v.macros p = some c) (a : Arch) (L : OsslCode)
    {i : Impl} {g : Spec.MatGen} (hA : v.ARCH = "") (hi : v.OPT_LEVEL = optName i) (hg : v.GENERATION_A = genName g) :
    (c.build a L).impl = i ∧ (c.build a L).gen = g := by
  obtain ⟨h1, h2, h3, -⟩ := C60_selects v p c h L a
  rw [hi] at h1 h2
  rw [hA] at h2
  rw [hg] at h3
  constructor
  · cases i
    · exact h1.2 rfl
    · have n1 : (c.build a L).impl ≠ .reference := fun e => absurd (h1.1 e) (by decide +kernel)
      have n2 : (c.build a L).impl ≠ .avx2 := fun e => (h2.1 e).2.1 rfl
      cases hB : (c.build a L).impl
      · exact absurd hB n1
      · rfl
      · exact absurd hB n2
    · exact h2.2 ⟨by decide +kernel, by decide +kernel, by decide +kernel, by decide +kernel⟩
  · cases g
    · have n1 : (c.build a L).gen ≠ .shake := fun e => absurd (h3.1 e) (by decide +kernel)
      cases hB : (c.build a L).gen
      · rfl
      · exact absurd hB n1
    · exact h3.2 rfl

/-- The jobs of the continuous integration build every implementation with every generator, and run the known answer programs
that have been built; the AES of the library itself (portable or with AES-NI) is in none of them. -/
theorem C67_ci (p : Predef) (a : Arch) (L : OsslCode) :
    (∀ j ∈ ciJobs, ∀ c, config j.vars.macros p = some c → (c.build a L).aes = .openssl L) ∧
    (∀ js ∈ [ciBasic, ciSanitize, ciValgrind], ∀ i g, ∃ j ∈ js, ∀ c, config j.vars.macros p = some c →
      (c.build a L).impl = i ∧ (c.build a L).gen = g) ∧
    (∀ j ∈ ciBasic, j.shakeKat = j.vars.katShake) := by
  have k1 : ∀ j ∈ ciJobs, j.vars.USE_OPENSSL ≠ "FALSE" := by decide +kernel
  have k2 : ∀ i g, ∀ js ∈ [ciBasic, ciSanitize, ciValgrind], ∃ j ∈ js,
      j.vars.ARCH = "" ∧ j.vars.OPT_LEVEL = optName i ∧ j.vars.GENERATION_A = genName g := by
    intro i g
    cases i <;> cases g <;> decide +kernel
  refine ⟨fun j hj c hc => (C60_selects j.vars p c hc L a).2.2.2.1.2 (k1 j hj), fun js hjs i g => ?_, by decide +kernel⟩
  obtain ⟨j, hj, e1, e2, e3⟩ := k2 i g js hjs
  exact ⟨j, hj, fun c hc => selects_names hc a L e1 e2 e3⟩

/-- A case: `make KATS` on a fresh checkout. -/
example : Goal.KATS.make (fun _ => none) = none := by
  have h := C67_kats (fun _ => none)
  cases hm : Goal.KATS.make (fun _ => none) with
  | none => rfl
  | some T =>
    rw [hm] at h
    exact absurd rfl (h.1 rfl .l640)

/-- A case of `C67_parallel_loses`: three empty directories. -/
example : ∃ s, Par.Reach Goal.deps Goal.all.order (fun _ => some fun _ => false) s ∧ s.Done Goal.all.order ∧
    ∀ l, s.tree.has l .kat = false ∧ s.tree.has l .katLib = false :=
  C67_parallel_loses _ fun _ => by simp

/-- A case of `C67_parallel_clean`: there are such runs. -/
example : ∃ s, Par.Reach Goal.deps Goal.all.order (fun _ => none) s ∧ s.Done Goal.all.order := by
  obtain ⟨T', hT', -⟩ := C67_all (fun _ => none)
  refine ⟨_, reach_list Goal.all.order [] _ .start ?_ hT', ?_⟩
  · simp [Ordered, Goal.order, Goal.deps]
  · intro t ht
    simp only [pcOf, List.append_nil]
    rw [if_pos (by simpa using ht)]

end Frodo.Props
