import Verif.Proof.Unroll
import Verif.Props.SnP4

/-! # C65: all variants of unrolling -/

namespace Frodo.Props

open Spec

/-- The permutation with 24 rounds, in every unrolling and whatever the uninitialised variables hold, maps each of the four
states to its image under Keccak-f[1600]. -/
theorem C65_rounds24 (u : Unrolling) (E : Env) (hE : E.rhoAligned) (e : Regs) (ss : List U64) (h : ss.length = 100) :
    Ret (PermuteAll24U u E e ss) (fun ss' => ss'.length = 100 ∧
      ∀ t, sbits (inst t ss') = keccakF (sbits (inst t ss))) := by
  unfold PermuteAll24U
  simp only [wp]
  refine ⟨hE, ?_⟩
  refine (copyFromState4x_ret h).bind fun v hv => ?_
  refine (rounds24U_ret u (e.put .A v)).bind fun w hw => ?_
  refine (copyToState4x_ret h w.A).mono fun s' hs' => ⟨hs'.1, fun t => ?_⟩
  rw [← keccakPbits_24]
  refine keccakPbits_sbits ?_
  rw [kstate, hs'.2, hw t, kstate, ← hv t]
  rfl

/-- The permutation with 12 rounds, in every unrolling. -/
theorem C65_rounds12 (u : Unrolling) (E : Env) (hE : E.rhoAligned) (e : Regs) (ss : List U64) (h : ss.length = 100) :
    Ret (PermuteAll12U u E e ss) (fun ss' => ss'.length = 100 ∧
      ∀ t, sbits (inst t ss') = keccakPbits 12 (sbits (inst t ss))) := by
  unfold PermuteAll12U
  simp only [wp]
  refine ⟨hE, ?_⟩
  refine (copyFromState4x_ret h).bind fun v hv => ?_
  refine (rounds12U_ret u (e.put .A v)).bind fun w hw => ?_
  refine (copyToState4x_ret h w.A).mono fun s' hs' => ⟨hs'.1, fun t => ?_⟩
  refine keccakPbits_sbits ?_
  rw [kstate, hs'.2, hw t, kstate, ← hv t]
  rfl

/-- The macro `roundsN(n)`: for at most 24 rounds it computes the last `n` rounds of Keccak-f[1600]; for more, `24 - n` wraps:
an even `n` gives no round at all, an odd `n` reads beyond the round constants. -/
theorem C65_roundsN (n : Nat) (hn : n < 2 ^ 32) (r : Regs) :
    (n ≤ 24 → Ret (roundsN n r) (fun r' => ∀ t, (r'.A.lane t).get.bits = keccakPn n (r.A.lane t).get.bits)) ∧
    (24 < n → n % 2 = 0 → Ret (roundsN n r) (fun r' => r'.A = r.A)) ∧
    (24 < n → n % 2 = 1 → roundsN n r = .ub .oobRead) :=
  ⟨fun h => roundsN_ret n h r, fun h he => roundsN_even n h hn he r, fun h he => roundsN_odd n h hn he r⟩

/-- The text of the fully unrolled macros is what Model/Keccak4x.lean and Model/SnP4.lean write as loops, including the
accesses to memory. -/
theorem C65_text (r : Regs) :
    (rounds24Full r >>= fun r' => pure r'.A) = rounds24 r.A ∧ (rounds12Full r >>= fun r' => pure r'.A) = rounds12 r.A := by
  constructor
  · rfl
  · rfl

/-- A configuration is accepted exactly if it selects full unrolling, as that of the library does: with any other one the two
permutations are accepted if the value is one of 12, 6, 4, 3, 2, 1, but the fast loops use a counter that they do not
declare. -/
theorem C65_conf (c : UnrollConf) :
    (c.accepted = true ↔ c.full = true) ∧
    (RoundsUser.accepted c .permute24 = true ↔ c.full = true ∨ c.unrolling ∈ [12, 6, 4, 3, 2, 1]) ∧
    (RoundsUser.accepted c .permute12 = true ↔ c.full = true ∨ c.unrolling ∈ [12, 6, 4, 3, 2, 1]) ∧
    (RoundsUser.accepted c .fastLoop24 = true ↔ c.full = true) ∧
    (RoundsUser.accepted c .fastLoop12 = true ↔ c.full = true ∨ c.unrolling = 12) := by
  obtain ⟨f, u⟩ := c
  cases f
  · have key : ∀ o : Option Unrolling, UnrollConf.variant ⟨false, u⟩ = o →
        (o = none ∧ u ∉ [12, 6, 4, 3, 2, 1]) ∨ (o = some .by12 ∧ u = 12) ∨
          ((∃ w, o = some w ∧ w ≠ .full ∧ w ≠ .by12) ∧ u ∈ [6, 4, 3, 2, 1]) := by
      intro o ho
      subst ho
      unfold UnrollConf.variant
      simp only [Bool.false_eq_true, if_false]
      by_cases h12 : u = 12
      · subst h12; simp
      rw [if_neg h12]
      by_cases h6 : u = 6
      · subst h6; simp
      rw [if_neg h6]
      by_cases h4 : u = 4
      · subst h4; simp
      rw [if_neg h4]
      by_cases h3 : u = 3
      · subst h3; simp
      rw [if_neg h3]
      by_cases h2 : u = 2
      · subst h2; simp
      rw [if_neg h2]
      by_cases h1 : u = 1
      · subst h1; simp
      rw [if_neg h1]
      left
      simp [h12, h6, h4, h3, h2, h1]
    unfold UnrollConf.accepted RoundsUser.accepted
    rcases key _ rfl with ⟨h, hu⟩ | ⟨h, hu⟩ | ⟨⟨w, h, hw, hw'⟩, hu⟩
    · rw [h]
      have : u ≠ 12 := fun h => hu (by simp [h])
      simp [hu, this]
    · rw [h]
      subst hu
      simp [RoundsUser.uses, RoundsUser.declares, Unrolling.counter24, Unrolling.counter12]
    · rw [h]
      have h1 : u ∈ [12, 6, 4, 3, 2, 1] := List.mem_cons_of_mem _ hu
      have h2 : u ≠ 12 := by rintro rfl; simp at hu
      have h3 : w.counter24 = true := by cases w <;> first | rfl | exact absurd rfl hw
      have h4 : w.counter12 = true := by cases w <;> first | rfl | exact absurd rfl hw | exact absurd rfl hw'
      simp [RoundsUser.uses, RoundsUser.declares, h1, h2, h3, h4]
  · simp [UnrollConf.accepted, RoundsUser.accepted, UnrollConf.variant, RoundsUser.uses, Unrolling.counter24,
      Unrolling.counter12]

/-- The configuration of the library is accepted. -/
example : UnrollConf.repo.accepted = true := rfl

/-- The original file of the Keccak team offers `Unrolling 2`; here that is an error. -/
example : UnrollConf.accepted ⟨false, 2⟩ = false := rfl

/-- A case of `C65_rounds24`: four all-zero states with three rounds unrolled. -/
example (e : Regs) : Ret (PermuteAll24U .by3 E0 e (List.replicate 100 0)) (fun ss' => ss'.length = 100 ∧
    ∀ t, sbits (inst t ss') = keccakF (sbits (inst t (List.replicate 100 0)))) :=
  C65_rounds24 .by3 E0 ⟨rfl, rfl⟩ e _ (List.length_replicate ..)

/-- A case of `C65_roundsN`: 25 rounds. -/
example (r : Regs) : roundsN 25 r = .ub .oobRead := (C65_roundsN 25 (by omega) r).2.2 (by omega) rfl

end Frodo.Props
