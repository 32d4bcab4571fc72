import Verif.Model.Random

/-! # What the operating system delivers

Specification side of `randombytes`: the bytes of the device and how many of them a number of calls of
`read` makes available. -/

namespace Frodo.Spec

/-- `k` bytes of the device, starting with byte number `pos`. -/
def osBytes (W : OS) (pos k : Nat) : List U8 := (List.range k).map fun i => W.stream (pos + i)

/-- Number of bytes that `k` calls of `read`, starting with call number `start`, can deliver. -/
def osAvail (W : OS) (start : Nat) : Nat → Nat
  | 0 => 0
  | k + 1 => (W.readRes start).getD 0 + osAvail W (start + 1) k

/-- The device is open or a future call of `open` succeeds. -/
def Opens (W : OS) (st : OSState) : Prop := st.lock ≠ -1 ∨ ∃ d, W.openRes (st.opens + d) ≠ -1

end Frodo.Spec
