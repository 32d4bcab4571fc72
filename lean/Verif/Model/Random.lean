import Verif.Model.Kem

/-! # Model of /repo/src/random/random.c

The operating system is a parameter: it decides the outcome of each call of `open` and `read`.  POSIX
`read` delivers at most as many bytes as asked for, consecutively from the device. -/

namespace Frodo

/-- The operating system as seen by /repo/src/random/random.c:41, 50: the results of the successive
calls of `open`, of the successive calls of `read` (`none` for -1, otherwise how many bytes are
available), and the bytes of /dev/urandom in the order in which they are delivered. -/
structure OS where
  openRes : Nat → Int
  readRes : Nat → Option Nat
  stream : Nat → U8

/-- The static variable `lock` (/repo/src/random/random.c:15) and what has been consumed of the
operating system: number of calls of `open` and of `read`, number of bytes. -/
structure OSState where
  lock : Int
  opens : Nat
  reads : Nat
  pos : Nat

/-- The state at program start (/repo/src/random/random.c:15). -/
def OSState.init : OSState := ⟨-1, 0, 0, 0⟩

/-- Conversion of an `unsigned long long` to `int` (/repo/src/random/random.c:37; C11 6.3.1.3p3,
modulo 2^32 as on every supported compiler). -/
def i32 (n : Nat) : Int := (BitVec.ofNat 32 n).toInt

/-- `delay` (/repo/src/random/random.c:22-25). -/
def delay (count : Nat) : C Unit := do
  let _ ← whileC (fun c : Nat => c != 0) (fun c => pure (c - 1)) count
  pure ()

/-- One round of the loop that opens the device (/repo/src/random/random.c:40-45). -/
def openStep (W : OS) (st : OSState) : C OSState := do
  let st := { st with lock := W.openRes st.opens, opens := st.opens + 1 }
  ifC (st.lock == -1)
    (do
      delay 0xFFFFF
      pure st)
    (pure st)

/-- Opening of the device (/repo/src/random/random.c:39-46). -/
def openDevice (W : OS) (st : OSState) : C OSState :=
  ifC (st.lock == -1)
    (do
      let st ← openStep W st
      whileC (fun st => st.lock == -1) (openStep W) st)
    (pure st)

/-- The local variables of `randombytes` (/repo/src/random/random.c:37) and what its loops change. -/
structure ReadSt where
  os : OSState
  buf : List U8
  r : Int
  n : Int
  count : Int

/-- `read(lock, random_array + count, n)` (/repo/src/random/random.c:50; POSIX). -/
def readCall (W : OS) (s : ReadSt) : C ReadSt :=
  match W.readRes s.os.reads with
  | none => pure { s with os := { s.os with reads := s.os.reads + 1 }, r := -1 }
  | some m => do
    let k := min m s.n.toNat
    let buf ← memcpy s.buf s.count.toNat
      ((List.range k).map fun i => W.stream (s.os.pos + i)) 0 k
    pure { s with os := { s.os with reads := s.os.reads + 1, pos := s.os.pos + k }, buf := buf, r := k }

/-- One round of the inner loop (/repo/src/random/random.c:49-54). -/
def readStep (W : OS) (s : ReadSt) : C ReadSt := do
  let s ← readCall W s
  ifC (s.r == -1)
    (do
      delay 0xFFFF
      pure s)
    (pure s)

/-- Body of the outer loop (/repo/src/random/random.c:48-57). -/
def fillStep (W : OS) (s : ReadSt) : C ReadSt := do
  let s ← readStep W s
  let s ← whileC (fun s : ReadSt => s.r == -1) (readStep W) s
  let count ← int (s.count + s.r)
  let n ← int (s.n - s.r)
  pure { s with count := count, n := n }

/-- `randombytes` on Unix (/repo/src/random/random.c:28-61): state of the system, buffer, return
value.  `r` is not initialised (its value before the first `read` is never used). -/
def randombytes_nix (W : OS) (st : OSState) (buf : List U8) (nbytes : Nat) :
    C (OSState × List U8 × Int) := do
  let n := i32 nbytes
  let st ← openDevice W st
  let s ← whileC (fun s : ReadSt => decide (s.n > 0)) (fillStep W) ⟨st, buf, 0, n, 0⟩
  pure (s.os, s.buf, 0)

/-- `randombytes` on Unix as the library calls it (/repo/src/kem.c:35, 104), from state `st`. -/
def rbNix (W : OS) (st : OSState) : RandomBytes := fun buf n => do
  let (_, buf, r) ← randombytes_nix W st buf n
  pure (buf, r)

/-- `randombytes` on Windows (/repo/src/random/random.c:31-34).  `gen k` are the `k` bytes that
`BCryptGenRandom` delivers, `none` if it fails; `unsigned long` has 32 bits. -/
def randombytes_windows (gen : Nat → Option (List U8)) (buf : List U8) (nbytes : Nat) :
    C (List U8 × Int) := do
  let k := nbytes % 2 ^ 32
  match gen k with
  | none => pure (buf, 1)
  | some l => do
    let buf ← memcpy buf 0 l 0 k
    pure (buf, 0)

end Frodo
