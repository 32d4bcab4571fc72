import Verif.Model.Params

/-! # Model of the small matrix functions and of message encoding

The text of these functions is the same in /repo/src/frodo_macrify.c and
/repo/src/frodo_macrify_reference.c; lines are given for both. -/

namespace Frodo

/-- `(1<<PARAMS_LOGQ)-1` (/repo/src/frodo_macrify.c:287). -/
def qMask (P : Params) : C Int := do
  let x ← ishl 1 P.logq
  int (x - 1)

/-- `frodo_mul_bs` (/repo/src/frodo_macrify.c:275-290, frodo_macrify_reference.c:130-145). -/
def frodo_mul_bs (P : Params) (out b s : List U16) : C (List U16) :=
  forC 0 P.nbar 1 out fun i out =>
    forC 0 P.nbar 1 out fun j out => do
      let out ← wr out (i * P.nbar + j) 0
      let out ← forC 0 P.n 1 out fun k out => do
        let x ← rd out (i * P.nbar + j)
        let y ← rd b (i * P.n + k)
        let z ← rd s (j * P.n + k)
        let p ← int ((y : Int) * i16 (z : Int))
        let r ← int ((x : Int) + p)
        wr out (i * P.nbar + j) (u16 r)
      let x ← rd out (i * P.nbar + j)
      let m ← qMask P
      wr out (i * P.nbar + j) (u16 (iand (x : Int) m))

/-- `frodo_mul_add_sb_plus_e` (/repo/src/frodo_macrify.c:293-308,
frodo_macrify_reference.c:148-163). -/
def frodo_mul_add_sb_plus_e (P : Params) (out b s e : List U16) : C (List U16) :=
  forC 0 P.nbar 1 out fun k out =>
    forC 0 P.nbar 1 out fun i out => do
      let v ← rd e (k * P.nbar + i)
      let out ← wr out (k * P.nbar + i) v
      let out ← forC 0 P.n 1 out fun j out => do
        let x ← rd out (k * P.nbar + i)
        let y ← rd s (k * P.n + j)
        let z ← rd b (j * P.nbar + i)
        let p ← int (i16 (y : Int) * (z : Int))
        let r ← int ((x : Int) + p)
        wr out (k * P.nbar + i) (u16 r)
      let x ← rd out (k * P.nbar + i)
      let m ← qMask P
      wr out (k * P.nbar + i) (u16 (iand (x : Int) m))

/-- An input operand that may be the output buffer itself, as in the calls `frodo_add(C, V, C)`
(/repo/src/kem.c:129) and `frodo_sub(W, C, W)` (/repo/src/kem.c:196). -/
inductive Operand where
  | buf (l : List U16)
  | out

/-- Current contents of an operand (C11 6.5.2.1; aliasing as in /repo/src/kem.c:129). -/
def Operand.get (o : Operand) (out : List U16) : List U16 :=
  match o with
  | .buf l => l
  | .out => out

/-- `frodo_add` (/repo/src/frodo_macrify.c:311-319, frodo_macrify_reference.c:166-174). -/
def frodo_add (P : Params) (out : List U16) (a b : Operand) : C (List U16) :=
  forC 0 (P.nbar * P.nbar) 1 out fun i out => do
    let x ← rd (a.get out) i
    let y ← rd (b.get out) i
    let r ← int ((x : Int) + (y : Int))
    let m ← qMask P
    wr out i (u16 (iand r m))

/-- `frodo_sub` (/repo/src/frodo_macrify.c:322-330, frodo_macrify_reference.c:177-185). -/
def frodo_sub (P : Params) (out : List U16) (a b : Operand) : C (List U16) :=
  forC 0 (P.nbar * P.nbar) 1 out fun i out => do
    let x ← rd (a.get out) i
    let y ← rd (b.get out) i
    let r ← int ((x : Int) - (y : Int))
    let m ← qMask P
    wr out i (u16 (iand r m))

/-- `a << k` on `uint64_t` (C11 6.5.7p3-4). -/
def shl64 (a : U64) (k : Nat) : C U64 := if k < 64 then pure (a <<< k) else C.ub .badShift

/-- `a >> k` on `uint64_t` (C11 6.5.7p3, 5). -/
def shr64 (a : U64) (k : Nat) : C U64 := if k < 64 then pure (a >>> k) else C.ub .badShift

/-- `frodo_key_encode` (/repo/src/frodo_macrify.c:333-350, frodo_macrify_reference.c:188-205).
The parameter `in` is the byte string it is cast to in the code; the pointer `pos` is `out` and an
index. -/
def frodo_key_encode (P : Params) (out : List U16) (inp : List U8) : C (List U16) := do
  let one ← shl64 1 P.B
  let mask := one - 1
  let (out, _) ← forC 0 (P.nbar * P.nbar / 8) 1 (out, 0) fun i (out, pos) => do
    let temp ← forC 0 P.B 1 (0 : U64) fun j temp => do
      let x ← rd inp (i * P.B + j)
      let y ← shl64 (x.setWidth 64) (8 * j)
      pure (temp ||| y)
    let (out, _, pos) ← forC 0 8 1 (out, temp, pos) fun _ (out, temp, pos) => do
      C.require (P.B ≤ P.logq) .badShift
      let v ← shl64 (temp &&& mask) (P.logq - P.B)
      let out ← wr out pos (v.setWidth 16)
      let temp ← shr64 temp P.B
      pure (out, temp, pos + 1)
    pure (out, pos)
  pure out

/-- `frodo_key_decode` (/repo/src/frodo_macrify.c:353-371, frodo_macrify_reference.c:208-226).
The parameter `out` is the byte string it is cast to in the code. -/
def frodo_key_decode (P : Params) (out : List U8) (inp : List U16) : C (List U8) := do
  let x ← ishl 1 P.B
  let maskex := u16 (x - 1)
  let x ← ishl 1 P.logq
  let maskq := u16 (x - 1)
  let (out, _) ← forC 0 (P.nbar * P.nbar / 8) 1 (out, 0) fun i (out, index) => do
    let (templong, index) ← forC 0 8 1 ((0 : U64), index) fun j (templong, index) => do
      let x ← rd inp index
      let half ← ishl 1 ((P.logq : Int) - P.B - 1)
      let s ← int (iand (x : Int) (maskq : Int) + half)
      let t ← ishr s ((P.logq : Int) - P.B)
      let temp := u16 t
      let y ← shl64 ((temp &&& maskex).setWidth 64) (P.B * j)
      pure (templong ||| y, index + 1)
    let out ← forC 0 P.B 1 out fun j out => do
      let y ← shr64 templong (8 * j)
      wr out (i * P.B + j) ((y &&& 0xFF).setWidth 8)
    pure (out, index)
  pure out

end Frodo
