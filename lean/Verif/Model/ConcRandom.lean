import Verif.Model.Random
import Mathlib.Logic.Function.Basic

/-! # `randombytes` in several threads (/repo/src/random/random.c)

On Unix `randombytes` keeps the descriptor of /dev/urandom in the static variable `lock` (line 15).  Here
the function is transcribed once more, as a machine whose steps are the single accesses to `lock` and the
calls of `open` and `read`; between them only local variables are used and `delay` passes time.  Threads
are interleaved at the granularity of these steps (sequential consistency; under C11 5.1.2.4p25 a program
with a data race has no defined behaviour at all). -/

namespace Frodo.Rnd

/-- Where a thread is in /repo/src/random/random.c:28-61: the next access to `lock` or the next system call, or the end.
* `test` reads `lock` in line 39;
* `opening` calls `open` in line 41 and `store v` assigns its result;
* `check` reads `lock` in line 42 and `again` in line 45;
* `loop` is the test of line 48, which uses only the local variable `n`;
* `load` reads `lock` in line 50 and `reading fd` calls `read`;
* `done` is line 60. -/
inductive Pc where
  | test | opening | store (v : Int) | check | again | loop | load | reading (fd : Int) | done
  deriving DecidableEq, Repr

/-- A call of `randombytes`: where it is, its buffer and the local variables `n` and `count`
(/repo/src/random/random.c:28, 37). -/
structure Call where
  pc : Pc
  buf : List U8
  n : Int
  count : Int

/-- The variable `lock`, the number of descriptors that were opened, the number of bytes that were taken from
the device, and the calls by thread (/repo/src/random/random.c:15, 28). -/
structure Conf where
  lock : Int
  opened : Nat
  pos : Nat
  thr : Nat → Call

/-- The operating system: the descriptor that the `k`-th successful call of `open` returns, and the bytes of
/dev/urandom in the order in which they are delivered (/repo/src/random/random.c:41, 50). -/
structure Sys where
  fd : Nat → Int
  stream : Nat → U8

/-- What the operating system answers in a step, if it is asked: whether `open` succeeds, and what `read`
gives (`none` for -1, otherwise how many bytes are available) (/repo/src/random/random.c:41, 50). -/
structure Answer where
  openOk : Bool
  readRes : Option Nat

/-- `fd` is an open descriptor of the device (POSIX; for the call of `read` in
/repo/src/random/random.c:50). -/
def Sys.isOpen (W : Sys) (opened : Nat) (fd : Int) : Bool := (List.range opened).any fun k => W.fd k == fd

/-- Thread `t` continues with `x` (interleaving of /repo/src/random/random.c:28-61). -/
def Conf.set (c : Conf) (t : Nat) (x : Call) : Conf := { c with thr := Function.update c.thr t x }

/-- What `read(fd, random_array+count, n)` and lines 51-56 do when `read` delivers `m` bytes
(/repo/src/random/random.c:50-56). -/
def deliver (W : Sys) (pos m : Nat) (x : Call) : C Call := do
  let k := min m x.n.toNat
  let buf ← memcpy x.buf x.count.toNat ((List.range k).map fun i => W.stream (pos + i)) 0 k
  let count ← int (x.count + k)
  let n ← int (x.n - k)
  pure ⟨.loop, buf, n, count⟩

/-- One step of thread `t`, where the operating system answers `a`; `none` is undefined behaviour
(/repo/src/random/random.c:39-60).  `read` fails for a number that is not an open descriptor (POSIX,
EBADF). -/
def step (W : Sys) (t : Nat) (a : Answer) (c : Conf) : Option Conf :=
  let x := c.thr t
  match x.pc with
  | .test => some (c.set t { x with pc := if c.lock = -1 then .opening else .loop })
  | .opening =>
    if a.openOk then some ({ c with opened := c.opened + 1 }.set t { x with pc := .store (W.fd c.opened) })
    else some (c.set t { x with pc := .store (-1) })
  | .store v => some ({ c with lock := v }.set t { x with pc := .check })
  | .check => some (c.set t { x with pc := .again })
  | .again => some (c.set t { x with pc := if c.lock = -1 then .opening else .loop })
  | .loop => some (c.set t { x with pc := if 0 < x.n then .load else .done })
  | .load => some (c.set t { x with pc := .reading c.lock })
  | .reading fd =>
    match (if W.isOpen c.opened fd then a.readRes else none) with
    | none => some (c.set t { x with pc := .load })
    | some m =>
      match deliver W c.pos m x with
      | .ok y _ => some ({ c with pos := c.pos + min m x.n.toNat }.set t y)
      | _ => none
  | .done => some c

/-- A schedule is the sequence of the threads that take a step, with the answers of the operating system
(C11 5.1.2.4). -/
def run (W : Sys) : List (Nat × Answer) → Conf → Option Conf
  | [], c => some c
  | s :: l, c => (step W s.1 s.2 c).bind (run W l)

/-- Every thread `t` calls `randombytes(buf t, nbytes t)` (/repo/src/random/random.c:28, 37); before that,
`opened` descriptors were opened and `lock` has the value `lock`. -/
def start (lock : Int) (opened : Nat) (buf : Nat → List U8) (nbytes : Nat → Nat) : Conf where
  lock := lock
  opened := opened
  pos := 0
  thr := fun t => ⟨.test, buf t, i32 (nbytes t), 0⟩

end Frodo.Rnd
