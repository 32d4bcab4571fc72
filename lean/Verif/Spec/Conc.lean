import Verif.Model.Conc
import Verif.C.Logic
import Verif.Spec.Aes

/-! # Schedules of threads -/

namespace Frodo.Conc

/-- The next access of thread `t` is its assignment to `state`. -/
def Enters (c : Conf β) (t : Nat) : Prop := ∃ p k, c.thr t = .setPtr p k

/-- A schedule in which no thread assigns to `state` while another one is between its assignment and its
return. -/
def Serial (c : Conf β) : List Nat → Prop
  | [] => True
  | t :: l => (Enters c t → ∀ u, u ≠ t → c.inside u = none) ∧ ∀ c', step t c = some c' → Serial c' l

/-- The key length in bytes. -/
def Which.keyLen : Which → Nat
  | .aes128 => 16
  | .aes256 => 32

/-- FIPS 197. -/
def Which.AES : Which → List U8 → List U8 → List U8
  | .aes128 => Spec.AES128
  | .aes256 => Spec.AES256

/-- `rk` is the schedule that the portable code computes for `key`. -/
def IsSchedule (w : Which) (key rk : List U8) : Prop :=
  key.length = w.keyLen ∧ ∃ (J : Junk) (rk' : List U8), rk'.length = 16 * (w.rounds + 1) ∧
    match w with
    | .aes128 => Ret (aes128_load_schedule_c J key rk') (· = rk)
    | .aes256 => Ret (aes256_load_schedule_c J key rk') (· = rk)

end Frodo.Conc
