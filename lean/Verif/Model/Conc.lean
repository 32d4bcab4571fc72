import Verif.Model.Aes
import Mathlib.Logic.Function.Basic

/-! # The portable AES in several threads (/repo/src/aes/aes_c.c)

`aes_c.c` keeps the pointer to the block it works on in the static variable `state` (line 22).  Here
its functions are transcribed once more, as programs of single accesses to memory that is shared between
threads: every `(*state)[i][j]` is a read of the variable `state` followed by an access to the byte it
points to.  Threads are interleaved at the granularity of these accesses (sequential consistency; under
C11 5.1.2.4p25 a program with such a race has no defined behaviour at all, so this is the most favourable
reading). -/

namespace Frodo.Conc

open C

/-! ## Code that works on the block that `state` points to -/

/-- Programs whose only shared accesses are to `(*state)[..]` (/repo/src/aes/aes_c.c:205-312): private
computations, reads and writes of byte `i` of the block. -/
inductive SProg (α : Type) : Type 1 where
  | ret (a : α)
  | loc {γ : Type} (m : C γ) (k : γ → SProg α)
  | ld (i : Nat) (k : U8 → SProg α)
  | st (i : Nat) (v : U8) (k : SProg α)

namespace SProg

/-- Sequencing (language base of /repo/src/aes/aes_c.c). -/
def bind' : SProg α → (α → SProg β) → SProg β
  | ret a, f => f a
  | loc m k, f => loc m fun x => (k x).bind' f
  | ld i k, f => ld i fun x => (k x).bind' f
  | st i v k, f => st i v (k.bind' f)

instance : Monad SProg where
  pure := ret
  bind := bind'

end SProg

/-- `(*state)[i / 4][i % 4]` read (/repo/src/aes/aes_c.c:22). -/
def ldS (i : Nat) : SProg U8 := .ld i .ret

/-- `(*state)[i / 4][i % 4] = v` (/repo/src/aes/aes_c.c:22). -/
def stS (i : Nat) (v : U8) : SProg Unit := .st i v (.ret ())

/-- A computation on private and constant data: locals, the round keys, the S-box
(/repo/src/aes/aes_c.c:27, 48, 205). -/
def locS (m : C α) : SProg α := .loc m .ret

/-- The body of `forS` (C11 6.8.5.3). -/
def loopS (body : Nat → SProg Unit) : Nat → Nat → SProg Unit
  | 0, _ => locS (emit (.branch false))
  | k + 1, i => do
    locS (emit (.branch true))
    body i
    loopS body k (i + 1)

/-- `for (i = lo; i < hi; ++i) body` (C11 6.8.5.3). -/
def forS (lo hi : Nat) (body : Nat → SProg Unit) : SProg Unit := loopS body (hi - lo) lo

/-- `AddRoundKey` (/repo/src/aes/aes_c.c:205-215). -/
def addRoundKey_s (rk : List U8) (round : Nat) : SProg Unit :=
  forS 0 4 fun i => forS 0 4 fun j => do
    let a ← ldS (4 * i + j)
    let k ← locS (rd rk (round * 4 * 4 + i * 4 + j))
    stS (4 * i + j) (a ^^^ k)

/-- `SubBytes` (/repo/src/aes/aes_c.c:220-230). -/
def subBytes_s : SProg Unit :=
  forS 0 4 fun i => forS 0 4 fun j => do
    let a ← ldS (4 * j + i)
    let v ← locS (getSBoxValue a)
    stS (4 * j + i) v

/-- `ShiftRows` (/repo/src/aes/aes_c.c:236-262). -/
def shiftRows_s : SProg Unit := do
  let temp ← ldS (4 * 0 + 1)
  stS (4 * 0 + 1) (← ldS (4 * 1 + 1))
  stS (4 * 1 + 1) (← ldS (4 * 2 + 1))
  stS (4 * 2 + 1) (← ldS (4 * 3 + 1))
  stS (4 * 3 + 1) temp
  let temp ← ldS (4 * 0 + 2)
  stS (4 * 0 + 2) (← ldS (4 * 2 + 2))
  stS (4 * 2 + 2) temp
  let temp ← ldS (4 * 1 + 2)
  stS (4 * 1 + 2) (← ldS (4 * 3 + 2))
  stS (4 * 3 + 2) temp
  let temp ← ldS (4 * 0 + 3)
  stS (4 * 0 + 3) (← ldS (4 * 3 + 3))
  stS (4 * 3 + 3) (← ldS (4 * 2 + 3))
  stS (4 * 2 + 3) (← ldS (4 * 1 + 3))
  stS (4 * 1 + 3) temp

/-- Body of the loop of `MixColumns` (/repo/src/aes/aes_c.c:277-284). -/
def mixColumn_s (i : Nat) : SProg Unit := do
  let t ← ldS (4 * i + 0)
  let tmp := (← ldS (4 * i + 0)) ^^^ (← ldS (4 * i + 1)) ^^^ (← ldS (4 * i + 2)) ^^^
    (← ldS (4 * i + 3))
  let tm ← locS (xtime_c ((← ldS (4 * i + 0)) ^^^ (← ldS (4 * i + 1))))
  stS (4 * i + 0) ((← ldS (4 * i + 0)) ^^^ (tm ^^^ tmp))
  let tm ← locS (xtime_c ((← ldS (4 * i + 1)) ^^^ (← ldS (4 * i + 2))))
  stS (4 * i + 1) ((← ldS (4 * i + 1)) ^^^ (tm ^^^ tmp))
  let tm ← locS (xtime_c ((← ldS (4 * i + 2)) ^^^ (← ldS (4 * i + 3))))
  stS (4 * i + 2) ((← ldS (4 * i + 2)) ^^^ (tm ^^^ tmp))
  let tm ← locS (xtime_c ((← ldS (4 * i + 3)) ^^^ t))
  stS (4 * i + 3) ((← ldS (4 * i + 3)) ^^^ (tm ^^^ tmp))

/-- `MixColumns` (/repo/src/aes/aes_c.c:272-285). -/
def mixColumns_s : SProg Unit := forS 0 4 mixColumn_s

/-- `Cipher` (/repo/src/aes/aes_c.c:289-312). -/
def cipher_s (rk : List U8) (Nr : Nat) : SProg Unit := do
  addRoundKey_s rk 0
  forS 1 Nr fun round => do
    subBytes_s
    shiftRows_s
    mixColumns_s
    addRoundKey_s rk round
  subBytes_s
  shiftRows_s
  addRoundKey_s rk Nr

/-! ## Threads -/

/-- A pointer: an object and an offset.  Object `t` is the private memory of thread `t`
(C11 6.2.4, 6.5.6). -/
structure Ptr where
  obj : Nat
  off : Nat
  deriving DecidableEq, Repr

/-- Programs of a thread by single accesses to shared memory: the variable `state`
(/repo/src/aes/aes_c.c:22) and bytes of objects.  `leave` marks the return from `aes128_enc_c` or
`aes256_enc_c` (lines 322, 333) and has no effect; it serves to say when a thread is inside. -/
inductive Prog (β : Type) : Type 1 where
  | ret (b : β)
  | loc {γ : Type} (m : C γ) (k : γ → Prog β)
  | getPtr (k : Ptr → Prog β)
  | setPtr (p : Ptr) (k : Prog β)
  | load (p : Ptr) (k : U8 → Prog β)
  | store (p : Ptr) (v : U8) (k : Prog β)
  | leave (k : Prog β)

/-- Each access to `(*state)[..]` reads the pointer first (/repo/src/aes/aes_c.c:22, 212 etc.). -/
def SProg.toProg : SProg α → (α → Prog β) → Prog β
  | .ret a, κ => κ a
  | .loc m k, κ => .loc m fun x => (k x).toProg κ
  | .ld i k, κ => .getPtr fun p => .load ⟨p.obj, p.off + i⟩ fun v => (k v).toProg κ
  | .st i v k, κ => .getPtr fun p => .store ⟨p.obj, p.off + i⟩ v (k.toProg κ)

/-- `memcpy(p, l, ...)` byte by byte (/repo/src/aes/aes_c.c:317). -/
def stores (p : Ptr) : List U8 → Prog β → Prog β
  | [], κ => κ
  | v :: l, κ => .store p v (stores ⟨p.obj, p.off + 1⟩ l κ)

/-- The caller reads `n` bytes from `p` on (/repo/src/aes/aes.c:34-39, the callers of
`AES128_ECB_enc_sch`). -/
def loads (p : Ptr) : Nat → (List U8 → Prog β) → Prog β
  | 0, κ => κ []
  | n + 1, κ => .load p fun v => loads ⟨p.obj, p.off + 1⟩ n fun l => κ (v :: l)

/-- Which of the two functions is called (/repo/src/aes/aes_c.c:315-333). -/
inductive Which where
  | aes128 | aes256
  deriving DecidableEq, Repr

/-- The number of rounds (/repo/src/aes/aes_c.c:321, 332). -/
def Which.rounds : Which → Nat
  | .aes128 => 10
  | .aes256 => 14

/-- What a thread does: computations on private data and calls of `aes128_enc_c(input, schedule, output)`
or `aes256_enc_c` with `output` at offset `off` of its memory, in any order; each step may depend on the
results of the previous ones (callers of /repo/src/aes/aes_c.c:315-333). -/
inductive Thread (β : Type) : Type 1 where
  | done (b : β)
  | priv {γ : Type} (m : C γ) (k : γ → Thread β)
  | call (w : Which) (input schedule : List U8) (off : Nat) (k : List U8 → Thread β)

/-- The accesses of thread `t`; a call is `memcpy`, the assignment to `state`, `Cipher`
(/repo/src/aes/aes_c.c:315-333).  The input is private data of the thread; the first 16 bytes of it
are read. -/
def Thread.prog (t : Nat) : Thread β → Prog β
  | .done b => .ret b
  | .priv m k => .loc m fun x => (k x).prog t
  | .call w input schedule off k =>
    .loc (require (16 ≤ input.length) .oobRead) fun _ =>
    stores ⟨t, off⟩ (input.take 16) <|
    .setPtr ⟨t, off⟩ <|
    (cipher_s schedule w.rounds).toProg fun _ =>
    .leave <|
    loads ⟨t, off⟩ 16 fun out => (k out).prog t

/-- The state of the machine: the variable `state` (initially a null pointer,
/repo/src/aes/aes_c.c:22), the memory of each thread, the rest of each thread's program, and, for
specifications only, whether a thread is between its assignment to `state` and its return, with the
offset it assigned. -/
structure Conf (β : Type) where
  ptr : Option Ptr
  mem : Nat → List U8
  inside : Nat → Option Nat
  thr : Nat → Prog β

/-- One access of thread `t`; `none` is undefined behaviour (null pointer, out of bounds). A thread that
has ended does nothing.  (C11 5.1.2.4, interleaving.) -/
def step (t : Nat) (c : Conf β) : Option (Conf β) :=
  match c.thr t with
  | .ret _ => some c
  | .loc m k =>
    match m with
    | .ok x _ => some { c with thr := Function.update c.thr t (k x) }
    | _ => none
  | .getPtr k =>
    match c.ptr with
    | some p => some { c with thr := Function.update c.thr t (k p) }
    | none => none
  | .setPtr p k =>
    some { c with ptr := some p, inside := Function.update c.inside t (some p.off)
                  thr := Function.update c.thr t k }
  | .load p k =>
    match (c.mem p.obj)[p.off]? with
    | some v => some { c with thr := Function.update c.thr t (k v) }
    | none => none
  | .store p v k =>
    if p.off < (c.mem p.obj).length then
      some { c with mem := Function.update c.mem p.obj ((c.mem p.obj).set p.off v)
                    thr := Function.update c.thr t k }
    else none
  | .leave k =>
    some { c with inside := Function.update c.inside t none, thr := Function.update c.thr t k }

/-- A schedule is the sequence of the threads that take a step (C11 5.1.2.4). -/
def run : List Nat → Conf β → Option (Conf β)
  | [], c => some c
  | t :: l, c => (step t c).bind (run l)

/-- All threads at the beginning, with a null pointer (/repo/src/aes/aes_c.c:22). -/
def init (T : Nat → Thread β) (mem : Nat → List U8) : Conf β where
  ptr := none
  mem := mem
  inside := fun _ => none
  thr := fun t => (T t).prog t

/-- `aes128_enc_c` or `aes256_enc_c` in the sequential model (/repo/src/aes/aes_c.c:315-333). -/
def Which.enc : Which → List U8 → List U8 → List U8 → C (List U8)
  | .aes128 => aes128_enc_c
  | .aes256 => aes256_enc_c

/-- A thread alone, in the sequential model, with memory `mem`
(callers of /repo/src/aes/aes_c.c:315-333). -/
def Thread.alone : Thread β → List U8 → C β
  | .done b, _ => pure b
  | .priv m k, mem => m >>= fun x => (k x).alone mem
  | .call w input schedule off k, mem => do
    let mem ← atPtr mem off fun out => w.enc input schedule out
    let p ← Frodo.ptr mem off
    (k (p.take 16)).alone mem

/-- `AES128_ECB_enc_sch` or `AES256_ECB_enc_sch`, from block `i` on, `n` blocks, as part of a thread that
goes on with the ciphertext; the output buffer is at the beginning of the thread's memory
(/repo/src/aes/aes.c:34-39, 65-70).  `acc` is the ciphertext of the previous blocks. -/
def Thread.ecb (w : Which) (plaintext schedule : List U8) (k : List U8 → Thread β) :
    Nat → Nat → List U8 → Thread β
  | 0, _, acc => k acc
  | n + 1, i, acc =>
    .priv (Frodo.ptr plaintext (16 * i)) fun p =>
    .call w p schedule (16 * i) fun out => Thread.ecb w plaintext schedule k n (i + 1) (acc ++ out)

/-- The thread calls `aes128_enc_c` and `aes256_enc_c` nowhere: all of its data is private, as when the
library is built with `AES_ENABLE_NI` (/repo/src/aes/aes.c:25-31) or with SHAKE. -/
def Thread.Private : Thread β → Prop
  | .done _ => True
  | .priv _ k => ∀ x, (k x).Private
  | .call .. => False

end Frodo.Conc
