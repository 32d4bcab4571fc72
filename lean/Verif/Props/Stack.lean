import Verif.Model.Stack
import Mathlib.Tactic.NormNum

/-! # C68: how much the arrays of the library take on the stack -/

namespace Frodo

/-! ## Runs -/

namespace Spec

open Stack

/-- `Runs c t`: a run of `c` in which `t` are the numbers of bytes of live arrays, in the order in which these
numbers change upwards (counted from the start of `c`). -/
inductive Runs : Code → List Nat → Prop
  | skip : Runs .skip []
  | seq {a b s t} : Runs a s → Runs b t → Runs (.seq a b) (s ++ t)
  | left {a b s} : Runs a s → Runs (.branch a b) s
  | right {a b s} : Runs b s → Runs (.branch a b) s
  | stop {a} : Runs (.loop a) []
  | round {a s t} : Runs a s → Runs (.loop a) t → Runs (.loop a) (s ++ t)
  | once {a s t} : Runs a s → Runs (.loop a) t → Runs (.loop1 a) (s ++ t)
  | scope {l b t} : Runs b t → Runs (.scope l b) ((l.map (·.2)).sum :: t.map ((l.map (·.2)).sum + ·))

/-- Never more than `k` bytes. -/
def AtMost (c : Code) (k : Nat) : Prop := ∀ t, Runs c t → ∀ h ∈ t, h ≤ k

/-- At least `k` bytes at some moment, in every run. -/
def Always (c : Code) (k : Nat) : Prop := ∀ t, Runs c t → ∃ h ∈ t, k ≤ h

/-- `k` bytes at some moment, in some run. -/
def Sometimes (c : Code) (k : Nat) : Prop := ∃ t, Runs c t ∧ k ∈ t

end Spec

namespace Props

open Stack Spec

/-- The most that a run can need. -/
def peak : Code → Nat
  | .skip => 0
  | .seq a b => max (peak a) (peak b)
  | .branch a b => max (peak a) (peak b)
  | .loop a => peak a
  | .loop1 a => peak a
  | .scope l b => bytes l + peak b

/-- What every run needs. -/
def least : Code → Nat
  | .skip => 0
  | .seq a b => max (least a) (least b)
  | .branch a b => min (least a) (least b)
  | .loop _ => 0
  | .loop1 a => least a
  | .scope l b => bytes l + least b

theorem atMost_peak (c : Code) : AtMost c (peak c) := by
  intro t h
  induction h with
  | skip => simp
  | seq _ _ iha ihb =>
    intro h hm
    rcases List.mem_append.1 hm with hm | hm
    · exact (iha h hm).trans (le_max_left ..)
    · exact (ihb h hm).trans (le_max_right ..)
  | left _ ih => exact fun h hm => (ih h hm).trans (le_max_left ..)
  | right _ ih => exact fun h hm => (ih h hm).trans (le_max_right ..)
  | stop => simp
  | round _ _ iha ihb =>
    intro h hm
    rcases List.mem_append.1 hm with hm | hm
    · exact iha h hm
    · exact ihb h hm
  | once _ _ iha ihb =>
    intro h hm
    rcases List.mem_append.1 hm with hm | hm
    · exact iha h hm
    · exact ihb h hm
  | scope _ ih =>
    intro h hm
    rcases List.mem_cons.1 hm with hm | hm
    · rw [hm]; exact Nat.le_add_right ..
    · obtain ⟨x, hx, rfl⟩ := List.mem_map.1 hm
      exact Nat.add_le_add_left (ih x hx) _

theorem always_least (c : Code) (hc : 0 < least c) : Always c (least c) := by
  intro t h
  induction h with
  | skip => exact absurd hc (by simp [least])
  | @seq a b s t _ _ iha ihb =>
    simp only [least] at hc ⊢
    rcases le_total (least a) (least b) with hab | hab
    · rw [max_eq_right hab] at hc ⊢
      obtain ⟨h, hm, hk⟩ := ihb hc
      exact ⟨h, List.mem_append_right _ hm, hk⟩
    · rw [max_eq_left hab] at hc ⊢
      obtain ⟨h, hm, hk⟩ := iha hc
      exact ⟨h, List.mem_append_left _ hm, hk⟩
  | left _ ih =>
    simp only [least] at hc ⊢
    obtain ⟨h, hm, hk⟩ := ih (lt_of_lt_of_le hc (min_le_left ..))
    exact ⟨h, hm, (min_le_left ..).trans hk⟩
  | right _ ih =>
    simp only [least] at hc ⊢
    obtain ⟨h, hm, hk⟩ := ih (lt_of_lt_of_le hc (min_le_right ..))
    exact ⟨h, hm, (min_le_right ..).trans hk⟩
  | stop => exact absurd hc (by simp [least])
  | round _ _ _ _ => exact absurd hc (by simp [least])
  | once _ _ iha _ =>
    obtain ⟨h, hm, hk⟩ := iha hc
    exact ⟨h, List.mem_append_left _ hm, hk⟩
  | @scope l b t _ ih =>
    simp only [least]
    by_cases hb : 0 < least b
    · obtain ⟨h, hm, hk⟩ := ih hb
      exact ⟨_, List.mem_cons_of_mem _ (List.mem_map_of_mem hm), Nat.add_le_add_left hk _⟩
    · exact ⟨_, List.mem_cons_self .., by simp only [bytes]; omega⟩

theorem runs_exists (c : Code) : ∃ t, Runs c t := by
  induction c with
  | skip => exact ⟨_, .skip⟩
  | seq a b iha ihb => obtain ⟨s, hs⟩ := iha; obtain ⟨t, ht⟩ := ihb; exact ⟨_, .seq hs ht⟩
  | branch a b iha _ => obtain ⟨s, hs⟩ := iha; exact ⟨_, .left hs⟩
  | loop a _ => exact ⟨_, .stop⟩
  | loop1 a ih => obtain ⟨s, hs⟩ := ih; exact ⟨_, .once hs .stop⟩
  | scope l b ih => obtain ⟨s, hs⟩ := ih; exact ⟨_, .scope hs⟩

theorem sometimes_peak (c : Code) (hc : 0 < peak c) : Sometimes c (peak c) := by
  induction c with
  | skip => exact absurd hc (by simp [peak])
  | seq a b iha ihb =>
    simp only [peak] at hc ⊢
    rcases le_total (peak a) (peak b) with hab | hab
    · rw [max_eq_right hab] at hc ⊢
      obtain ⟨t, ht, hm⟩ := ihb hc
      obtain ⟨s, hs⟩ := runs_exists a
      exact ⟨_, .seq hs ht, List.mem_append_right _ hm⟩
    · rw [max_eq_left hab] at hc ⊢
      obtain ⟨t, ht, hm⟩ := iha hc
      obtain ⟨s, hs⟩ := runs_exists b
      exact ⟨_, .seq ht hs, List.mem_append_left _ hm⟩
  | branch a b iha ihb =>
    simp only [peak] at hc ⊢
    rcases le_total (peak a) (peak b) with hab | hab
    · rw [max_eq_right hab] at hc ⊢
      obtain ⟨t, ht, hm⟩ := ihb hc
      exact ⟨_, .right ht, hm⟩
    · rw [max_eq_left hab] at hc ⊢
      obtain ⟨t, ht, hm⟩ := iha hc
      exact ⟨_, .left ht, hm⟩
  | loop a ih =>
    obtain ⟨t, ht, hm⟩ := ih hc
    exact ⟨_, .round ht .stop, List.mem_append_left _ hm⟩
  | loop1 a ih =>
    obtain ⟨t, ht, hm⟩ := ih hc
    exact ⟨_, .once ht .stop, List.mem_append_left _ hm⟩
  | scope l b ih =>
    simp only [peak]
    by_cases hb : 0 < peak b
    · obtain ⟨t, ht, hm⟩ := ih hb
      exact ⟨_, .scope ht, List.mem_cons_of_mem _ (List.mem_map_of_mem hm)⟩
    · obtain ⟨t, ht⟩ := runs_exists b
      refine ⟨_, .scope ht, ?_⟩
      have : peak b = 0 := by omega
      rw [this]
      exact List.mem_cons_self ..

/-! ## The functions of the library -/

/-- Every run of `c` reaches exactly `k` bytes and never more. -/
def Exactly (c : Code) (k : Nat) : Prop := ∀ t, Runs c t → (∀ h ∈ t, h ≤ k) ∧ k ∈ t

theorem exactly_of {c : Code} (h : peak c = least c) (hc : 0 < peak c) : Exactly c (peak c) := by
  intro t ht
  refine ⟨atMost_peak c t ht, ?_⟩
  obtain ⟨x, hx, hk⟩ := always_least c (h ▸ hc) t ht
  have := atMost_peak c t ht x hx
  rw [← h] at hk
  rwa [← le_antisymm this hk]

theorem shake_eq (P : Params) : peak (shake P) = least (shake P) := by
  unfold shake
  split <;> rfl

theorem shake128_eq : peak Stack.shake128 = least Stack.shake128 := rfl

theorem shake128_4x_eq : peak Stack.shake128_4x = least Stack.shake128_4x := rfl

theorem aes_eq (a : Aes) : peak (aes_load a) = least (aes_load a) := by cases a <;> rfl

theorem reference_eq (B : Cfg) (P : Params) : peak (macrifyReference B P) = least (macrifyReference B P) := by
  unfold macrifyReference
  split
  · simp only [peak, least, aes_eq]
  · simp only [peak, least, shake128_eq]

theorem as_eq (B : Cfg) (P : Params) : peak (as_plus_e B P) = least (as_plus_e B P) := by
  unfold as_plus_e
  simp only
  split
  · exact reference_eq B P
  · split
    · simp only [peak, least, aes_eq]
    · split
      · simp only [peak, least, shake128_4x_eq]
      · simp only [peak, least, shake128_eq]

theorem sa_eq (B : Cfg) (P : Params) : peak (sa_plus_e B P) = least (sa_plus_e B P) := by
  unfold sa_plus_e
  simp only
  split
  · exact reference_eq B P
  · split
    · simp only [peak, least, aes_eq]
    · split
      · simp only [peak, least, shake128_4x_eq]
      · simp only [peak, least, shake128_eq]

/-- C68 (the stack does not depend on data): for every build and every parameter set there is a number of bytes
that the arrays of `crypto_kem_keypair` reach in every run and never exceed; and likewise for `crypto_kem_enc`
and `crypto_kem_dec`. -/
theorem C68_data_independent (B : Cfg) (P : Params) :
    (∃ k, Exactly (keypair B P .skip) k) ∧ (∃ k, Exactly (enc B P .skip) k) ∧ ∃ k, Exactly (dec B P) k := by
  refine ⟨⟨_, exactly_of ?_ ?_⟩, ⟨_, exactly_of ?_ ?_⟩, ⟨_, exactly_of ?_ ?_⟩⟩
  · simp only [keypair, peak, least, shake_eq, as_eq]
  · simp only [keypair, peak, bytes, List.map_cons, List.sum_cons]; omega
  · simp only [enc, peak, least, shake_eq, sa_eq]
  · simp only [enc, peak, bytes, List.map_cons, List.sum_cons]; omega
  · simp only [dec, peak, least, shake_eq, sa_eq]
  · simp only [dec, peak, bytes, List.map_cons, List.sum_cons]; omega

/-- The three parameter sets. -/
def sets : List Params := [frodo640, frodo976, frodo1344]

/-- All values of the options. -/
def cfgs : List Cfg :=
  [Impl.reference, .generic, .avx2].flatMap fun i => [Aes.c, .ni, .openssl].flatMap fun a =>
    [Spec.MatGen.aes, .shake].map fun g => ⟨i, a, g⟩

theorem mem_cfgs (B : Cfg) : B ∈ cfgs := by
  obtain ⟨i, a, g⟩ := B
  cases i <;> cases a <;> cases g <;> simp [cfgs]

theorem atMost_of {c : Code} {k : Nat} (h : peak c ≤ k) : AtMost c k := fun t ht x hx =>
  (atMost_peak c t ht x hx).trans h

theorem always_of {c : Code} {k : Nat} (h : k ≤ least c) (hk : 0 < k) : Always c k := fun t ht => by
  obtain ⟨x, hx, hl⟩ := always_least c (lt_of_lt_of_le hk h) t ht
  exact ⟨x, hx, h.trans hl⟩

/-- C68 (the optimised code): the arrays of the KEM functions take at most 194801 bytes, those of the self test
and of the known answer tests at most 367457 bytes, for every parameter set and option; the bounds are
reached. -/
theorem C68_fast (B : Cfg) (hB : B.impl ≠ .reference) (P : Params) (hP : P ∈ sets) :
    AtMost (keypair B P .skip) 194801 ∧ AtMost (enc B P .skip) 194801 ∧ AtMost (dec B P) 194801 ∧
      AtMost (testMain B P) 367457 ∧ AtMost (katMain B P) 367457 := by
  have key : ∀ P ∈ sets, ∀ B ∈ cfgs, B.impl ≠ .reference →
      peak (keypair B P .skip) ≤ 194801 ∧ peak (enc B P .skip) ≤ 194801 ∧ peak (dec B P) ≤ 194801 ∧
        peak (testMain B P) ≤ 367457 ∧ peak (katMain B P) ≤ 367457 := by decide +kernel
  obtain ⟨h1, h2, h3, h4, h5⟩ := key P hP B (mem_cfgs B) hB
  exact ⟨atMost_of h1, atMost_of h2, atMost_of h3, atMost_of h4, atMost_of h5⟩

/-- C68: the bounds of `C68_fast` are reached: by `crypto_kem_dec` in every run, by the known answer tests
in some run. -/
theorem C68_fast_reached :
    Exactly (dec ⟨.avx2, .ni, .aes⟩ frodo1344) 194801 ∧ Sometimes (katMain ⟨.avx2, .ni, .aes⟩ frodo1344) 367457 := by
  constructor
  · exact exactly_of (c := dec ⟨.avx2, .ni, .aes⟩ frodo1344) (by decide +kernel) (by decide +kernel)
  · exact sometimes_peak (katMain ⟨.avx2, .ni, .aes⟩ frodo1344) (by decide +kernel)

/-- C68 (the reference code keeps the whole matrix `A` on the stack): in FrodoKEM-976 and FrodoKEM-1344 every
call of a KEM function needs more than 1 MiB, the size of a stack on Windows, and in every parameter set more than
512 KiB, the size of the stack of a thread on macOS. -/
theorem C68_reference (B : Cfg) (hB : B.impl = .reference) (P : Params) (hP : P ∈ sets) :
    (P.n ≠ 640 → Always (keypair B P .skip) (2 ^ 20 + 1) ∧ Always (enc B P .skip) (2 ^ 20 + 1) ∧
      Always (dec B P) (2 ^ 20 + 1)) ∧
    Always (keypair B P .skip) (2 ^ 19 + 1) ∧ Always (enc B P .skip) (2 ^ 19 + 1) ∧
      Always (dec B P) (2 ^ 19 + 1) := by
  have key : ∀ P ∈ sets, ∀ B ∈ cfgs, B.impl = .reference →
      (P.n ≠ 640 → 2 ^ 20 + 1 ≤ least (keypair B P .skip) ∧ 2 ^ 20 + 1 ≤ least (enc B P .skip) ∧
        2 ^ 20 + 1 ≤ least (dec B P)) ∧
      2 ^ 19 + 1 ≤ least (keypair B P .skip) ∧ 2 ^ 19 + 1 ≤ least (enc B P .skip) ∧
        2 ^ 19 + 1 ≤ least (dec B P) := by decide +kernel
  obtain ⟨h1, h2, h3, h4⟩ := key P hP B (mem_cfgs B) hB
  exact ⟨fun h => ⟨always_of (h1 h).1 (by norm_num), always_of (h1 h).2.1 (by norm_num),
      always_of (h1 h).2.2 (by norm_num)⟩,
    always_of h2 (by norm_num), always_of h3 (by norm_num), always_of h4 (by norm_num)⟩

/-- C68: in every build the arrays of the programs take less than 4 MiB, half of the stack that Linux gives to a
process; and those of FrodoKEM-640 less than 1 MiB. -/
theorem C68_programs (B : Cfg) (P : Params) (hP : P ∈ sets) :
    AtMost (testMain B P) (2 ^ 22) ∧ AtMost (katMain B P) (2 ^ 22) ∧
    (P.n = 640 → AtMost (testMain B P) (2 ^ 20) ∧ AtMost (katMain B P) (2 ^ 20)) := by
  have key : ∀ P ∈ sets, ∀ B ∈ cfgs, peak (testMain B P) ≤ 2 ^ 22 ∧ peak (katMain B P) ≤ 2 ^ 22 ∧
      (P.n = 640 → peak (testMain B P) ≤ 2 ^ 20 ∧ peak (katMain B P) ≤ 2 ^ 20) := by decide +kernel
  obtain ⟨h1, h2, h3⟩ := key P hP B (mem_cfgs B)
  exact ⟨atMost_of h1, atMost_of h2, fun h => ⟨atMost_of (h3 h).1, atMost_of (h3 h).2⟩⟩

/-! ## Concrete cases -/

example : Exactly (dec ⟨.reference, .ni, .aes⟩ frodo976) 2015425 :=
  exactly_of (c := dec ⟨.reference, .ni, .aes⟩ frodo976) (by decide +kernel) (by decide +kernel)

example : Exactly (enc ⟨.generic, .c, .shake⟩ frodo640 .skip) 61987 :=
  exactly_of (c := enc ⟨.generic, .c, .shake⟩ frodo640 .skip) (by decide +kernel) (by decide +kernel)

example := C68_fast ⟨.generic, .openssl, .aes⟩ (by decide) frodo1344 (by simp [sets])

example := (C68_reference ⟨.reference, .openssl, .shake⟩ rfl frodo976 (by simp [sets])).1 (by decide)

/-- A run of SHAKE. -/
example : Runs Stack.shake128 [368, 568] := .scope (.seq (.scope .stop) .stop)

end Props

end Frodo
