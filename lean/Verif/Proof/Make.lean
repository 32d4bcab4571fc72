import Verif.Model.Make
import Mathlib.Tactic.SplitIfs
import Mathlib.Tactic.IntervalCases

/-! # Lemmas on the build -/

namespace Frodo.Make

open Spec (MatGen)

theorem arch_cases (v : Vars) :
    v.architecture = "_AMD64_" ∨ v.architecture = "_X86_" ∨ v.architecture = "_ARM_" := by
  unfold Vars.architecture
  split_ifs <;> simp

theorem opt_cases (v : Vars) :
    v.optLevel = "_FAST_" ∨ v.optLevel = "_FAST_GENERIC_" ∨ v.optLevel = "_REFERENCE_" := by
  unfold Vars.optLevel Vars.optLevel₂ Vars.optLevel₁ Vars.architecture
  split_ifs <;> simp_all

theorem gen_cases (v : Vars) :
    v.generationA = "_AES128_FOR_A_" ∨ v.generationA = "_SHAKE128_FOR_A_" := by
  unfold Vars.generationA
  split_ifs <;> simp

theorem ssl_cases (v : Vars) : v.usingOpenssl = "_USE_OPENSSL_" ∨ v.usingOpenssl = "NO_OPENSSL" := by
  unfold Vars.usingOpenssl
  split_ifs <;> simp

theorem gen_shake_iff (v : Vars) : v.generationA = "_SHAKE128_FOR_A_" ↔ v.GENERATION_A = "SHAKE128" := by
  unfold Vars.generationA
  split_ifs with h1 h2 <;> simp_all

theorem ssl_iff (v : Vars) : v.usingOpenssl = "_USE_OPENSSL_" ↔ v.USE_OPENSSL ≠ "FALSE" := by
  unfold Vars.usingOpenssl
  split_ifs with h1 <;> simp_all

theorem arch_iff (v : Vars) : (v.architecture = "_AMD64_" ↔ v.ARCH ≠ "x86" ∧ v.ARCH ≠ "ARM") ∧
    (v.architecture = "_X86_" ↔ v.ARCH = "x86") ∧ (v.architecture = "_ARM_" ↔ v.ARCH = "ARM") := by
  unfold Vars.architecture
  split_ifs <;> simp_all

theorem opt_iff (v : Vars) :
    (v.optLevel = "_REFERENCE_" ↔ v.OPT_LEVEL = "REFERENCE") ∧
    (v.optLevel = "_FAST_" ↔ v.OPT_LEVEL ≠ "REFERENCE" ∧ v.OPT_LEVEL ≠ "FAST_GENERIC" ∧
      v.ARCH ≠ "x86" ∧ v.ARCH ≠ "ARM") := by
  unfold Vars.optLevel Vars.optLevel₂ Vars.optLevel₁ Vars.architecture
  split_ifs <;> simp_all

/-- `TARGET` of the Makefile's architectures. -/
def targetOfVars (v : Vars) : Target :=
  if v.architecture = "_AMD64_" then .amd64 else if v.architecture = "_X86_" then .x86 else .arm

theorem osOf_macros (v : Vars) : osOf v.macros = some .nix := by
  unfold osOf Vars.macros
  rcases arch_cases v with ha | ha | ha <;> rcases opt_cases v with ho | ho | ho <;>
    rcases gen_cases v with hg | hg <;> rcases ssl_cases v with hs | hs <;>
    by_cases hv : v.DO_VALGRIND_CHECK = "TRUE" <;> simp [ha, ho, hg, hs, hv]

theorem targetOf_macros (v : Vars) : targetOf v.macros = some (targetOfVars v) := by
  unfold targetOf Vars.macros targetOfVars
  rcases arch_cases v with ha | ha | ha <;> rcases opt_cases v with ho | ho | ho <;>
    rcases gen_cases v with hg | hg <;> rcases ssl_cases v with hs | hs <;>
    by_cases hv : v.DO_VALGRIND_CHECK = "TRUE" <;> simp [ha, ho, hg, hs, hv]

theorem implOf_macros (v : Vars) :
    implOf v.macros = some (decide (v.optLevel = "_FAST_"), decide (v.optLevel = "_REFERENCE_")) := by
  unfold implOf Vars.macros
  rcases arch_cases v with ha | ha | ha <;> rcases opt_cases v with ho | ho | ho <;>
    rcases gen_cases v with hg | hg <;> rcases ssl_cases v with hs | hs <;>
    by_cases hv : v.DO_VALGRIND_CHECK = "TRUE" <;> simp [ha, ho, hg, hs, hv]

theorem genOf_macros (v : Vars) :
    genOf v.macros = some (if v.GENERATION_A = "SHAKE128" then .shake else .aes) := by
  have hi := gen_shake_iff v
  unfold genOf Vars.macros
  rcases arch_cases v with ha | ha | ha <;> rcases opt_cases v with ho | ho | ho <;>
    rcases gen_cases v with hg | hg <;> rcases ssl_cases v with hs | hs <;>
    by_cases hv : v.DO_VALGRIND_CHECK = "TRUE" <;> simp [ha, ho, hg, hs, hv, ← hi]

theorem openssl_macros (v : Vars) :
    decide ("_USE_OPENSSL_" ∈ v.macros) = decide (v.USE_OPENSSL ≠ "FALSE") := by
  have hi := ssl_iff v
  rw [decide_eq_decide, ← hi]
  unfold Vars.macros
  rcases arch_cases v with ha | ha | ha <;> rcases opt_cases v with ho | ho | ho <;>
    rcases gen_cases v with hg | hg <;> rcases ssl_cases v with hs | hs <;>
    by_cases hv : v.DO_VALGRIND_CHECK = "TRUE" <;> simp [ha, ho, hg, hs, hv]

/-- What the compiler finds in config.h for the options `v`. -/
theorem config_macros (v : Vars) (p : Predef) :
    config v.macros p = (compilerOf p).map fun k =>
      ⟨.nix, k, targetOfVars v, decide (v.optLevel = "_FAST_"), decide (v.optLevel = "_REFERENCE_"),
        if v.GENERATION_A = "SHAKE128" then .shake else .aes, decide (v.USE_OPENSSL ≠ "FALSE"),
        orderOf p (targetOfVars v)⟩ := by
  unfold config
  rw [osOf_macros, targetOf_macros, implOf_macros, genOf_macros, openssl_macros]
  cases compilerOf p <;> rfl

theorem config_eq {v : Vars} {p : Predef} {c : Config} (h : config v.macros p = some c) :
    c.os = .nix ∧ c.target = targetOfVars v ∧ c.fast = decide (v.optLevel = "_FAST_") ∧
    c.reference = decide (v.optLevel = "_REFERENCE_") ∧
    c.gen = (if v.GENERATION_A = "SHAKE128" then .shake else .aes) ∧
    c.openssl = decide (v.USE_OPENSSL ≠ "FALSE") ∧ c.order = orderOf p (targetOfVars v) := by
  rw [config_macros] at h
  cases hk : compilerOf p with
  | none => rw [hk] at h; exact nomatch h
  | some k =>
    rw [hk] at h
    simp only [Option.map_some, Option.some.injEq] at h
    subst h
    exact ⟨rfl, rfl, rfl, rfl, rfl, rfl, rfl⟩

/-- Every definition of the byte order macros gives the value that the model uses, if the compiler tells the
truth. -/
theorem leToUint16_eq {p : Predef} {t : Target} {a : Arch}
    (h : p.order = some a ∨ p.order = none ∧ (t ≠ .arm → a = .le)) (n : U16) :
    leToUint16 (orderOf p t) a n = LE_TO_UINT16 a n ∧ uint16ToLe (orderOf p t) a n = UINT16_TO_LE a n := by
  have hb : leToUint16 .bytes a n = LE_TO_UINT16 a n ∧ uint16ToLe .bytes a n = UINT16_TO_LE a n := by
    constructor <;> cases a <;> apply BitVec.eq_of_getLsbD_eq <;> intro i hi <;>
      simp only [leToUint16, uint16ToLe, join16, bytes16, LE_TO_UINT16, UINT16_TO_LE, swap16, nth,
        List.getD_cons_zero, List.getD_cons_succ] <;>
      interval_cases i <;> simp
  unfold orderOf
  rcases h with h | ⟨h, ht⟩
  · rw [h]
    cases a
    · simp only [Option.some.injEq, reduceCtorEq, if_false, or_true, if_true]
      simp [leToUint16, uint16ToLe, LE_TO_UINT16, UINT16_TO_LE]
    · simp only [if_true]
      simp [leToUint16, uint16ToLe, LE_TO_UINT16, UINT16_TO_LE, swap16]
  · rw [h]
    simp only [reduceCtorEq, if_false, or_false]
    split
    · next h' =>
      have : a = .le := ht (by rcases h' with h' | h' <;> rw [h'] <;> exact nofun)
      subst this
      simp [leToUint16, uint16ToLe, LE_TO_UINT16, UINT16_TO_LE]
    · exact hb

end Frodo.Make
