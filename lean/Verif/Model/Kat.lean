import Verif.Model.SelfTest
import Verif.Model.Drbg

/-! # Model of the known answer tests

/repo/tests/PQCtestKAT_kem640.c; the five programs for the other parameter sets and for SHAKE differ from
it only in names.  A file is the list of the bytes that are still to be read.  What is printed to the
standard output is left out. -/

namespace Frodo

/-- `fgetc` (C11 7.21.7.1): the next byte, or `EOF`, and the rest of the file. -/
def fgetc (f : List U8) : Int × List U8 :=
  match f with
  | [] => (-1, [])
  | b :: f => ((b : Int), f)

/-- `strlen` (C11 7.24.6.3). -/
def strlen (s : List U8) : C Nat := do
  let c ← rd s 0
  let (n, _) ← whileC (fun st : Nat × U8 => st.2 != 0) (fun (n, _) => do
    let c ← rd s (n + 1)
    pure (n + 1, c)) (0, c)
  pure n

/-- `strncmp` (C11 7.24.4.4). -/
def strncmp (a b : List U8) (n : Nat) : C Int := do
  let (_, r) ← whileC (fun st : Nat × Option Int => st.2.isNone && decide (st.1 < n)) (fun (i, _) => do
    let x ← rd a i
    let y ← rd b i
    pure (i + 1, if x ≠ y then some ((x : Int) - (y : Int)) else if x = 0 then some 0 else none)) (0, none)
  pure (r.getD 0)

/-- `isxdigit` (C11 7.4.1.12). -/
def isxdigit (ch : Int) : Bool :=
  decide (48 ≤ ch ∧ ch ≤ 57) || decide (65 ≤ ch ∧ ch ≤ 70) || decide (97 ≤ ch ∧ ch ≤ 102)

/-- The variables of `FindMarker` (/repo/tests/PQCtestKAT_kem640.c:140-142), the file, and the value
returned, if any. -/
structure MarkSt where
  line : List U8
  file : List U8
  i : Nat
  ret : Option Int

/-- First loop of `FindMarker`, one iteration (/repo/tests/PQCtestKAT_kem640.c:149-154). -/
def markFill (s : MarkSt) : C MarkSt := do
  let (curr, file) := fgetc s.file
  let line ← wr s.line s.i (u8 curr)
  ifC (decide (curr = -1)) (pure ⟨line, file, s.i, some 0⟩) (pure ⟨line, file, s.i + 1, none⟩)

/-- Second loop of `FindMarker`, one iteration (/repo/tests/PQCtestKAT_kem640.c:158-168). -/
def markStep (marker : List U8) (len : Nat) (s : MarkSt) : C MarkSt := do
  let r ← strncmp s.line marker len
  ifC (decide (r = 0)) (pure { s with ret := some 1 }) (do
    let line ← forC 0 (len - 1) 1 s.line fun i line => do
      let x ← rd line (i + 1)
      wr line i x
    let (curr, file) := fgetc s.file
    let line ← wr line (len - 1) (u8 curr)
    ifC (decide (curr = -1)) (pure ⟨line, file, s.i, some 0⟩) (do
      let line ← wr line len 0
      pure ⟨line, file, s.i, none⟩))

/-- `FindMarker` (/repo/tests/PQCtestKAT_kem640.c:137-173): the result and the file.  `line` has 50
elements of type `char`, represented as bytes. -/
def FindMarker (J : Junk) (file marker : List U8) : C (Int × List U8) := do
  let l ← strlen marker
  let len ← ifC (decide (l > 50 - 1)) (pure (50 - 1)) (pure l)
  let s ← whileC (fun s : MarkSt => s.ret.isNone && decide (s.i < len)) markFill
    ⟨uninit J 70 8 50, file, 0, none⟩
  ifC s.ret.isSome (pure (s.ret.getD 0, s.file)) (do
    let line ← wr s.line len 0
    let s ← whileC (fun s : MarkSt => s.ret.isNone) (markStep marker len) { s with line := line }
    pure (s.ret.getD 0, s.file))

/-- The variables of the loop of `ReadHex` (/repo/tests/PQCtestKAT_kem640.c:181-182); `brk` is set when
the loop is left. -/
structure HexSt where
  file : List U8
  A : List U8
  started : Bool
  brk : Bool

/-- The value of a digit (/repo/tests/PQCtestKAT_kem640.c:202-209). -/
def hexDigit (ch : Int) : C U8 :=
  ifC (decide (ch ≥ 48) && decide (ch ≤ 57)) (pure (u8 (ch - 48)))
    (ifC (decide (ch ≥ 65) && decide (ch ≤ 70)) (pure (u8 (ch - 65 + 10)))
      (ifC (decide (ch ≥ 97) && decide (ch ≤ 102)) (pure (u8 (ch - 97 + 10))) (pure 0)))

/-- A digit is put in at the end (/repo/tests/PQCtestKAT_kem640.c:211-213). -/
def shiftIn (A : List U8) (Length : Nat) (ich : U8) : C (List U8) := do
  let A ← forC 0 (Length - 1) 1 A fun i A => do
    let x ← rd A i
    let y ← rd A (i + 1)
    let l ← ishl x 4
    let r ← ishr y 4
    wr A i (u8 (ior l r))
  let x ← rd A (Length - 1)
  let l ← ishl x 4
  wr A (Length - 1) (u8 (ior l ich))

/-- One iteration of the loop of `ReadHex` with its condition (/repo/tests/PQCtestKAT_kem640.c:191-214). -/
def hexStep (Length : Nat) (s : HexSt) : C HexSt := do
  let (ch, file) := fgetc s.file
  ifC (decide (ch ≠ -1))
    (ifC (!isxdigit ch)
      (ifC (!s.started)
        (ifC (decide (ch = 10)) (pure ⟨file, s.A, s.started, true⟩) (pure ⟨file, s.A, s.started, false⟩))
        (pure ⟨file, s.A, s.started, true⟩))
      (do
        let ich ← hexDigit ch
        let A ← shiftIn s.A Length ich
        pure ⟨file, A, true, false⟩))
    (pure ⟨file, s.A, s.started, true⟩)

/-- `ReadHex` (/repo/tests/PQCtestKAT_kem640.c:178-219): the result, the file and the array. -/
def ReadHex (J : Junk) (file A : List U8) (Length : Nat) (str : List U8) :
    C (Int × List U8 × List U8) :=
  ifC (decide (Length = 0))
    (do
      let A ← wr A 0 0
      pure (1, file, A))
    (do
      let A ← memset A 0 Length
      let (r, file) ← FindMarker J file str
      ifC (decide (r ≠ 0))
        (do
          let s ← whileC (fun s : HexSt => !s.brk) (hexStep Length) ⟨file, A, false, false⟩
          pure (1, s.file, s.A))
        (pure (0, file, A)))

/-- The conversion `%02X` of `fprintf` on a byte (C11 7.21.6.1p8). -/
def print02X (x : U8) : List U8 :=
  let d := fun n : Nat => if n < 10 then BitVec.ofNat 8 (48 + n) else BitVec.ofNat 8 (65 + (n - 10))
  [d (x.toNat >>> 4), d (x.toNat &&& 15)]

/-- `fprintBstr` (/repo/tests/PQCtestKAT_kem640.c:221-235): what is appended to the file.  It is defined
in the tests but only its counterpart that generates the files would call it. -/
def fprintBstr (S A : List U8) (L : Nat) : C (List U8) := do
  let out ← forC 0 L 1 S fun i out => do
    let x ← rd A i
    pure (out ++ print02X x)
  let out ← ifC (decide (L = 0)) (pure (out ++ [48, 48])) (pure out)
  pure (out ++ [10])

/-- `isspace` (C11 7.4.1.10). -/
def isspace (c : U8) : Bool := c == 32 || decide (9 ≤ c.toNat ∧ c.toNat ≤ 13)

/-- The optional sign (/repo/tests/PQCtestKAT_kem640.c:51; C11 7.22.1.4p3): is it negative, and the rest. -/
def scanSign (f : List U8) : Bool × List U8 :=
  match f with
  | 43 :: g => (false, g)
  | 45 :: g => (true, g)
  | _ => (false, f)

/-- `fscanf(fp, "%d", &count)` (/repo/tests/PQCtestKAT_kem640.c:51; C11 7.21.6.2p9-12): the result and the
file.  White space is skipped, then the longest matching text is read; a number that `int` cannot
represent is undefined.  The variable `count` is not used again and is left out. -/
def fscanfD (file : List U8) : C (Int × List U8) := do
  let f := file.dropWhile isspace
  let (neg, g) := scanSign f
  let ds := g.takeWhile fun c => decide (48 ≤ c.toNat ∧ c.toNat ≤ 57)
  let v : Int := ds.foldl (fun (v : Int) (c : U8) => 10 * v + ((c.toNat : Int) - 48)) 0
  C.require (inInt (if neg then -v else v)) .overflow
  pure (if f = [] then -1 else if ds = [] then 0 else 1, g.drop ds.length)

/-- The local arrays of `main` (/repo/tests/PQCtestKAT_kem640.c:33-38), the file, the state of the
generator (a global variable, /repo/tests/rng.c:11), and the value returned or `done`, if any. -/
structure KatSt where
  file : List U8
  ctx : Drbg
  seed : List U8
  ct : List U8
  ss : List U8
  ss1 : List U8
  ct_rsp : List U8
  ss_rsp : List U8
  pk : List U8
  sk : List U8
  pk_rsp : List U8
  sk_rsp : List U8
  ret : Option Int

/-- The markers (/repo/tests/PQCtestKAT_kem640.c:50, 60, 72, 76, 95, 99), with the terminating zero. -/
def mCount : List U8 := [99, 111, 117, 110, 116, 32, 61, 32, 0]
/-- `"seed = "` (/repo/tests/PQCtestKAT_kem640.c:60). -/
def mSeed : List U8 := [115, 101, 101, 100, 32, 61, 32, 0]
/-- `"pk = "` (/repo/tests/PQCtestKAT_kem640.c:72). -/
def mPk : List U8 := [112, 107, 32, 61, 32, 0]
/-- `"sk = "` (/repo/tests/PQCtestKAT_kem640.c:76). -/
def mSk : List U8 := [115, 107, 32, 61, 32, 0]
/-- `"ct = "` (/repo/tests/PQCtestKAT_kem640.c:95). -/
def mCt : List U8 := [99, 116, 32, 61, 32, 0]
/-- `"ss = "` (/repo/tests/PQCtestKAT_kem640.c:99). -/
def mSs : List U8 := [115, 115, 32, 61, 32, 0]

/-- `crypto_kem_enc`, the reading of `ct` and `ss` and the rest of an iteration
(/repo/tests/PQCtestKAT_kem640.c:90-121). -/
def katEnc (B : Build) (E : Env) (P : Params) (A : AesBackend) (schedAddr skAddr : Nat) (s : KatSt) :
    C KatSt := do
  let en ← crypto_kem_enc B E P (rbDrbg A E schedAddr s.ctx) s.ct s.ss s.pk
  let (ctx, _, _) ← randombytes_drbg A E schedAddr s.ctx
    ((uninit E.junk 42 8 (P.bytes + P.bytesMu)).drop P.bytes) P.bytesMu
  let s := { s with ctx := ctx, ct := en.ct, ss := en.ss }
  ifC (decide (en.ret ≠ 0)) (pure { s with ret := some (-4) }) (do
    let (r, file, ct_rsp) ← ReadHex E.junk s.file s.ct_rsp P.ctBytes mCt
    let s := { s with file := file, ct_rsp := ct_rsp }
    ifC (decide (r = 0)) (pure { s with ret := some (-3) }) (do
      let (r, file, ss_rsp) ← ReadHex E.junk s.file s.ss_rsp P.bytes mSs
      let s := { s with file := file, ss_rsp := ss_rsp }
      ifC (decide (r = 0)) (pure { s with ret := some (-3) }) (do
        let r ← memcmp s.ct s.ct_rsp P.ctBytes
        ifC (decide (r ≠ 0)) (pure { s with ret := some (-2) }) (do
          let r ← memcmp s.ss s.ss_rsp P.bytes
          ifC (decide (r ≠ 0)) (pure { s with ret := some (-2) }) (do
            let de ← crypto_kem_dec B E P skAddr s.ss1 s.ct s.sk
            let s := { s with ss1 := de.ss }
            ifC (decide (de.ret ≠ 0)) (pure { s with ret := some (-4) }) (do
              let r ← memcmp s.ss s.ss1 P.bytes
              ifC (decide (r ≠ 0)) (pure { s with ret := some (-4) }) (pure s)))))))

/-- Seeding, key generation, the reading of `pk` and `sk` and the rest of an iteration
(/repo/tests/PQCtestKAT_kem640.c:65-121).  The state of the generator after the only call of
`randombytes` in `crypto_kem_keypair` is computed from that call. -/
def katKeys (B : Build) (E : Env) (P : Params) (A : AesBackend) (schedAddr skAddr : Nat) (s : KatSt) :
    C KatSt := do
  let ctx ← randombytes_init A E schedAddr s.ctx s.seed none
  let kp ← crypto_kem_keypair B E P (rbDrbg A E schedAddr ctx) s.pk s.sk
  let (ctx, _, _) ← randombytes_drbg A E schedAddr ctx (uninit E.junk 41 8 (2 * P.bytes + P.seedA))
    (2 * P.bytes + P.seedA)
  let s := { s with ctx := ctx, pk := kp.pk, sk := kp.sk }
  ifC (decide (kp.ret ≠ 0)) (pure { s with ret := some (-4) }) (do
    let (r, file, pk_rsp) ← ReadHex E.junk s.file s.pk_rsp P.pkBytes mPk
    let s := { s with file := file, pk_rsp := pk_rsp }
    ifC (decide (r = 0)) (pure { s with ret := some (-3) }) (do
      let (r, file, sk_rsp) ← ReadHex E.junk s.file s.sk_rsp P.skBytes mSk
      let s := { s with file := file, sk_rsp := sk_rsp }
      ifC (decide (r = 0)) (pure { s with ret := some (-3) }) (do
        let r ← memcmp s.pk s.pk_rsp P.pkBytes
        ifC (decide (r ≠ 0)) (pure { s with ret := some (-2) }) (do
          let r ← memcmp s.sk s.sk_rsp P.skBytes
          ifC (decide (r ≠ 0)) (pure { s with ret := some (-2) })
            (katEnc B E P A schedAddr skAddr s)))))

/-- One iteration of the loop of `main` (/repo/tests/PQCtestKAT_kem640.c:49-123).  `done = 1; break`
leads to the return of `KAT_SUCCESS`. -/
def katStep (B : Build) (E : Env) (P : Params) (A : AesBackend) (schedAddr skAddr : Nat) (s : KatSt) :
    C KatSt := do
  let (r, file) ← FindMarker E.junk s.file mCount
  let s := { s with file := file }
  ifC (decide (r ≠ 0))
    (do
      let (n, file) ← fscanfD s.file
      let s := { s with file := file }
      ifC (decide (n ≠ 1)) (pure { s with ret := some 0 }) (do
        let (r, file, seed) ← ReadHex E.junk s.file s.seed 48 mSeed
        let s := { s with file := file, seed := seed }
        ifC (decide (r = 0)) (pure { s with ret := some (-3) })
          (katKeys B E P A schedAddr skAddr s)))
    (pure { s with ret := some 0 })

/-- `sprintf(fn_rsp, "KAT/PQCkemKAT_%d.rsp", CRYPTO_SECRETKEYBYTES)` resp. `"..._%d_shake.rsp"`
(/repo/tests/PQCtestKAT_kem640.c:33, 41; PQCtestKAT_kem640_shake.c:41): `fn_rsp` has 32 elements. -/
def fnRsp (B : Build) (E : Env) (P : Params) : C (List U8) :=
  let digits := (Nat.toDigits 10 P.skBytes).map fun c => BitVec.ofNat 8 c.toNat
  let suffix : List U8 := match B.gen with
    | .aes => [46, 114, 115, 112, 0]
    | .shake => [95, 115, 104, 97, 107, 101, 46, 114, 115, 112, 0]
  let s : List U8 := [75, 65, 84, 47, 80, 81, 67, 107, 101, 109, 75, 65, 84, 95] ++ digits ++ suffix
  memcpy (uninit E.junk 71 8 32) 0 s 0 s.length

/-- `main` (/repo/tests/PQCtestKAT_kem640.c:30-130): the value returned.  `fopen` gives a file for a name
or fails. -/
def katMain (B : Build) (E : Env) (P : Params) (A : AesBackend) (schedAddr skAddr : Nat) (ctx : Drbg)
    (fopen : List U8 → Option (List U8)) : C Int := do
  let fn_rsp ← fnRsp B E P
  match fopen fn_rsp with
  | none => pure (-1)
  | some file =>
    let s ← whileC (fun s : KatSt => s.ret.isNone) (katStep B E P A schedAddr skAddr)
      { file := file, ctx := ctx, seed := uninit E.junk 72 8 48, ct := uninit E.junk 73 8 P.ctBytes,
        ss := uninit E.junk 74 8 P.bytes, ss1 := uninit E.junk 75 8 P.bytes,
        ct_rsp := uninit E.junk 76 8 P.ctBytes, ss_rsp := uninit E.junk 77 8 P.bytes,
        pk := uninit E.junk 78 8 P.pkBytes, sk := uninit E.junk 79 8 P.skBytes,
        pk_rsp := uninit E.junk 80 8 P.pkBytes, sk_rsp := uninit E.junk 81 8 P.skBytes, ret := none }
    pure (s.ret.getD 0)

end Frodo
