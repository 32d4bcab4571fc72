import Verif.Proof.TextDrbg
import Verif.Props.Drbg
import Verif.Props.TextRandom

/-! # Properties of the text of the generator of the known answer tests, and of the KEM linked with it -/

namespace Frodo.Props

open Spec Src

/-- C88.  The text of /repo/tests/rng.c with /repo/tests/rng.h is parsed to the functions below.  Before it is parsed, the members of
the only object with a structure type become variables, tests of pointers become calls, and `(void)security_strength;` is left
out. -/
theorem C88_parse : parseStruct rngFlags rngSources rngText = some rngFile := rng_parse

/-- The generator in memory: the tables of the AES in `bs` and `bc`, its pointer `state` in `bz`, `Key`, `V` and `reseed_counter` of
`DRBG_ctx` in `bK`, `bV` and `br`; null pointers point to `bN`. -/
structure DrbgAt (X : Ctx) (bs bc bz bN bK bV br : Nat) (m : Mem) (nx : Nat) (key V : List U8) (w : Int) : Prop where
  ctx : RngCtx X bs bc bz bN
  vars : RngVars X bK bV br
  placed : RngAt m nx bs bc bz bK bV key V
  counter : m br = counter w
  below : br < nx ∧ bN < nx
  apart : br ≠ bK ∧ br ≠ bV ∧ br ≠ bz ∧ br ≠ bs ∧ br ≠ bc

section

variable {X : Ctx} {bs bc bz bN bK bV br : Nat} {m : Mem} {nx a d : Nat} {key V : List U8} {w : Int}

/-- Blocks that do not belong to the generator. -/
def Outside (bs bc bz bK bV br b : Nat) : Prop := b ≠ bs ∧ b ≠ bc ∧ b ≠ bz ∧ b ≠ bK ∧ b ≠ bV ∧ b ≠ br

theorem DrbgAt.step (h : DrbgAt X bs bc bz bN bK bV br m nx key V w) {M : Mem} {nx' : Nat} {key' V' : List U8} {w' : Int} (h0 : nx ≤ nx')
    (l1 : key'.length = 32) (l2 : V'.length = 16) (h1 : M bK = u8s key') (h2 : M bV = u8s V') (h3 : M br = Frodo.counter w')
    (h4 : (M bz).data.length ≠ 1) (h5 : M bs = m bs) (h6 : M bc = m bc) : DrbgAt X bs bc bz bN bK bV br M nx' key' V' w' where
  ctx := h.ctx
  vars := h.vars
  placed :=
    { mem := ⟨by rw [h5, h.placed.mem.sbox], by rw [h6, h.placed.mem.rcon], h4, Nat.lt_of_lt_of_le h.placed.mem.l1 h0,
        Nat.lt_of_lt_of_le h.placed.mem.l2 h0, Nat.lt_of_lt_of_le h.placed.mem.l3 h0, h.placed.mem.n1, h.placed.mem.n2⟩
      hK := h1, hV := h2, lk := l1, lV := l2, k1 := Nat.lt_of_lt_of_le h.placed.k1 h0, k2 := Nat.lt_of_lt_of_le h.placed.k2 h0
      nKV := h.placed.nKV, apart := h.placed.apart }
  counter := h3
  below := ⟨Nat.lt_of_lt_of_le h.below.1 h0, Nat.lt_of_lt_of_le h.below.2 h0⟩
  apart := h.apart

/-- C88.  The text of `AES256_CTR_DRBG_Update`, with the AES given by its text too, returns with `CTR_DRBG_Update` of SP 800-90A in
`Key` and `V`; a null pointer stands for 48 zeros. -/
theorem C88_update (h : DrbgAt X bs bc bz bN bK bV br m nx key V w) {bp : Nat} {D : List U8} (hl : D.length = 48)
    (hD : bp ≠ bN → m bp = u8s D ∧ bp < nx ∧ Outside bs bc bz bK bV br bp) (h0 : bp = bN → D = List.replicate 48 0) :
    Ret (rngFile.run (rngProg X a (d + 2)) "AES256_CTR_DRBG_Update" [.ptr bp 0 false 1, .ptr bK 0 false 1, .ptr bV 0 false 1] m nx) fun x =>
      x.1 = .undef .void ∧ nx ≤ x.2.2 ∧ x.2.1 bK = u8s (drbgUpdate D key V).1 ∧ x.2.1 bV = u8s (drbgUpdate D key V).2 ∧
      ∀ c < nx, c ≠ bK → c ≠ bV → c ≠ bz → x.2.1 c = m c := by
  rw [run_eq rng_update]
  refine (text_update (D := D) h.ctx h.placed ⟨hl, fun e => ?_, h0⟩).mono fun x g => ⟨g.1, g.2.1, g.2.2.1, g.2.2.2.1, g.2.2.2.2.2⟩
  obtain ⟨p1, p2, p3⟩ := hD e
  exact ⟨p1, p2, p3.2.2.2.1, p3.2.2.2.2.1, p3.2.2.1⟩

/-- C88.  The text of `randombytes_init` instantiates the generator as SP 800-90A does, from whatever was in `DRBG_ctx` before; without
personalization string if the pointer is null.  Blocks outside of the generator keep their contents. -/
theorem C88_init (h : DrbgAt X bs bc bz bN bK bV br m nx key V w) {be bp : Nat} {E D : List U8} {sec : Int} (hE : m be = u8s E)
    (lE : E.length = 48) (ke : be < nx) (hl : D.length = 48) (hD : bp ≠ bN → m bp = u8s D ∧ bp < nx ∧ Outside bs bc bz bK bV br bp)
    (h0 : bp = bN → D = List.replicate 48 0) :
    Ret (rngFile.run (rngProg X a (d + 2)) "randombytes_init" [.ptr be 0 false 1, .ptr bp 0 false 1, .int true 4 sec] m nx) fun x =>
      x.1 = .undef .void ∧ nx ≤ x.2.2 ∧ DrbgAt X bs bc bz bN bK bV br x.2.1 x.2.2 (drbgInit E D).1 (drbgInit E D).2 1 ∧
      ∀ c < nx, Outside bs bc bz bK bV br c → x.2.1 c = m c := by
  obtain ⟨a1, a2, a3, a4, a5⟩ := h.apart
  obtain ⟨v1, v2, v3⟩ := h.placed.apart bV (Or.inr rfl)
  obtain ⟨u1, u2, u3⟩ := h.placed.apart bK (Or.inl rfl)
  rw [run_eq rng_init]
  refine (text_init (sec := sec) h.ctx h.vars h.placed h.counter h.below.1 a1 a2 a3 h.below.2 hE lE ke (D := D) ⟨hl, fun e => ?_, h0⟩).mono ?_
  · obtain ⟨p1, p2, p3⟩ := hD e
    exact ⟨p1, p2, p3.2.2.2.1, p3.2.2.2.2.1, p3.2.2.1⟩
  · rintro x ⟨g1, g2, g3, g4, g5, g6, g7⟩
    have l := length_drbgUpdate (List.zipWith (· ^^^ ·) E D) (List.replicate 32 0) (List.replicate 16 0)
      (by rw [List.length_zipWith]; omega)
    exact ⟨g1, g2, h.step g2 l.1 l.2 g3 g4 g5 g6 (g7 _ h.placed.mem.l1 (Ne.symm u1) (Ne.symm v1) (Ne.symm a4) h.placed.mem.n1)
      (g7 _ h.placed.mem.l2 (Ne.symm u2) (Ne.symm v2) (Ne.symm a5) h.placed.mem.n2),
      fun c c1 ⟨_, _, c4, c5, c6, c7⟩ => g7 c c1 c5 c6 c7 c4⟩

/-- C88.  Below 2^31 bytes, the text of `randombytes` returns 0, has filled the buffer with the output of `CTR_DRBG_Generate`, and has
left the state of the standard in `DRBG_ctx`; the rest of the buffer and all other blocks outside of the generator keep their
contents. -/
theorem C88_generate (h : DrbgAt X bs bc bz bN bK bV br m nx key V w) {bx off n : Nat} {L : List U8} (w0 : 0 ≤ w) (w1 : w < 2 ^ 31 - 1)
    (hL : m bx = u8s L) (lL : off + n ≤ L.length) (hn : n < 2 ^ 31) (kx : bx < nx) (ox : Outside bs bc bz bK bV br bx) :
    Ret (rngFile.run (rngProg X a (d + 2)) "randombytes" [.ptr bx off false 1, .int false 8 n] m nx) fun x =>
      x.1 = .int true 4 0 ∧ nx ≤ x.2.2 ∧ x.2.1 bx = u8s (L.take off ++ (drbgGenerate key V n).1 ++ L.drop (off + n)) ∧
      DrbgAt X bs bc bz bN bK bV br x.2.1 x.2.2 (drbgGenerate key V n).2.1 (drbgGenerate key V n).2.2 (w + 1) ∧
      ∀ c < nx, c ≠ bx → Outside bs bc bz bK bV br c → x.2.1 c = m c := by
  obtain ⟨a1, a2, a3, a4, a5⟩ := h.apart
  obtain ⟨v1, v2, v3⟩ := h.placed.apart bV (Or.inr rfl)
  obtain ⟨u1, u2, u3⟩ := h.placed.apart bK (Or.inl rfl)
  obtain ⟨o1, o2, o3, o4, o5, o6⟩ := ox
  rw [run_eq rng_bytes]
  refine (text_generate h.ctx h.vars h.placed h.counter (by omega) (by omega) h.below.1 a1 a2 a3 (Ne.symm o6) hL lL hn kx o4 o5 o3 o1 o2).mono ?_
  rintro x ⟨g1, g2, g3, g4, g5, g6, g7, g8⟩
  obtain ⟨-, l1, l2⟩ := length_drbgGenerate key V n
  exact ⟨g1, g2, g3, h.step g2 l1 l2 g4 g5 g6 g7
    (g8 _ h.placed.mem.l1 (Ne.symm o1) (Ne.symm u1) (Ne.symm v1) (Ne.symm a4) h.placed.mem.n1)
    (g8 _ h.placed.mem.l2 (Ne.symm o2) (Ne.symm u2) (Ne.symm v2) (Ne.symm a5) h.placed.mem.n2),
    fun c c1 c2 ⟨_, _, c4, c5, c6, c7⟩ => g8 c c1 c2 c5 c6 c7 c4⟩

/-- Calls of the text of `randombytes` that fill one buffer after the other: pairs of a block and its size. -/
def serveText (X : Ctx) (a d : Nat) : List (Nat × Nat) → Mem → Nat → C (Mem × Nat)
  | [], m, nx => pure (m, nx)
  | (b, n) :: l, m, nx => do
    let x ← rngFile.run (rngProg X a (d + 2)) "randombytes" [.ptr b 0 false 1, .int false 8 n] m nx
    serveText X a d l x.2.1 x.2.2

/-- C88, histories: whatever requests below 2^31 bytes are made after the instantiation, the buffers hold the outputs of the standard. -/
theorem C88_history (h : DrbgAt X bs bc bz bN bK bV br m nx key V w) (bufs : List (Nat × Nat)) (w0 : 0 ≤ w)
    (w1 : w + bufs.length < 2 ^ 31) (hd : (bufs.map Prod.fst).Nodup)
    (hb : ∀ p ∈ bufs, p.1 < nx ∧ p.2 < 2 ^ 31 ∧ Outside bs bc bz bK bV br p.1 ∧ ∃ L : List U8, m p.1 = u8s L ∧ L.length = p.2) :
    Ret (serveText X a d bufs m nx) fun x => List.Forall₂ (fun p out => x.1 p.1 = u8s out) bufs (drbgOutputs key V (bufs.map Prod.snd)) ∧
      ∀ c < nx, c ∉ bufs.map Prod.fst → Outside bs bc bz bK bV br c → x.1 c = m c := by
  induction bufs generalizing m nx key V w with
  | nil => exact Ret_pure.2 ⟨.nil, fun _ _ _ _ => rfl⟩
  | cons p l ih =>
    obtain ⟨b, n⟩ := p
    rw [List.length_cons] at w1
    rw [List.map_cons, List.nodup_cons] at hd
    obtain ⟨b1, b2, b3, L, b4, b5⟩ := hb (b, n) (by simp)
    dsimp only at b1 b2 b3 b4 b5
    rw [serveText]
    refine (C88_generate (a := a) (d := d) h (off := 0) (n := n) w0 (by omega) b4 (by omega) b2 b1 b3).bind ?_
    rintro ⟨v, M, nx'⟩ ⟨-, g2, g3, g4, g5⟩
    dsimp only at g2 g3 g4 g5 ⊢
    rw [List.take_zero, List.nil_append, List.drop_eq_nil_of_le (by omega), List.append_nil] at g3
    refine (ih g4 (by omega) (by omega) hd.2 fun p hp => ?_).mono ?_
    · obtain ⟨c1, c2, c3, L', c4, c5⟩ := hb p (by simp [hp])
      refine ⟨by omega, c2, c3, L', ?_, c5⟩
      rw [g5 _ c1 (fun e => hd.1 (by have := List.mem_map_of_mem (f := Prod.fst) hp; rwa [e] at this)) c3, c4]
    · rintro y ⟨y1, y2⟩
      refine ⟨?_, fun c c1 c2 c3 => ?_⟩
      · rw [List.map_cons, drbgOutputs]
        refine .cons ?_ y1
        rw [y2 _ (by omega) hd.1 b3, g3]
        rfl
      · rw [List.map_cons, List.mem_cons, not_or] at c2
        rw [y2 _ (by omega) c2.2 c3, g5 _ c1 c2.1 c3]

end

/-! ## The KEM with the generator from the text -/

/-- `Y k` is a machine with the variables of the AES and of the generator from block `k` on. -/
structure RngMachine (Y : Nat → Ctx) : Prop where
  ctx : ∀ k, RngCtx (Y k) k (k + 1) (k + 2) (k + 3)
  vars : ∀ k, RngVars (Y k) (k + 4) (k + 5) (k + 6)

/-- Memory with the variables of the AES and of the generator from block `k` on. -/
def rngMem (m : Mem) (k : Nat) (key V : List U8) (w : Int) : Mem :=
  ((((((m.set k (u8s sbox)).set (k + 1) (u8s rcon)).set (k + 2) ⟨false, 1, []⟩).set (k + 3) ⟨false, 1, []⟩).set (k + 4) (u8s key)).set (k + 5)
    (u8s V)).set (k + 6) (counter w)

/-- Calls of `randombytes` run the text of /repo/tests/rng.c on a machine `Y`, with `key`, `V` and `w` in `DRBG_ctx`; all other calls go to
`X`.  The variables of the generator and of the AES are in the next seven blocks, which the KEM does not use. -/
def withDrbg (X : Ctx) (Y : Nat → Ctx) (key V : List U8) (w : Int) : Ctx :=
  { X with call := fun f args m nx =>
      if f = "randombytes" then
        rngFile.run (rngProg (Y nx) 0 2) f args (rngMem m nx key V w) (nx + 7)
      else X.call f args m nx }

/-- `randombytes` as SP 800-90A has it, from the state `key`, `V`. -/
def rbGen (key V : List U8) : RandomBytes := fun buf n =>
  if n ≤ buf.length then pure ((drbgGenerate key V n).1 ++ buf.drop n, 0) else .ub .oobWrite

theorem fills_gen (key V : List U8) (n : Nat) : Fills (rbGen key V) (drbgGenerate key V n).1 := by
  intro buf hb
  rw [(length_drbgGenerate _ _ _).1] at *
  rw [rbGen, if_pos (by omega)]
  refine Ret_pure.2 ?_
  dsimp only
  rw [List.drop_eq_nil_of_le (by omega), List.append_nil]

section

variable {X : Ctx} {Y : Nat → Ctx} {key V : List U8} {w : Int}

theorem rngMem_other {m : Mem} {k b : Nat} (h : b < k) : rngMem m k key V w b = m b := by
  unfold rngMem
  rw [set_ne _ _ (by omega), set_ne _ _ (by omega), set_ne _ _ (by omega), set_ne _ _ (by omega), set_ne _ _ (by omega), set_ne _ _ (by omega),
    set_ne _ _ (by omega)]

theorem rngMem_at (hY : RngMachine Y) (lk : key.length = 32) (lV : V.length = 16) (m : Mem) (k : Nat) :
    DrbgAt (Y k) k (k + 1) (k + 2) (k + 3) (k + 4) (k + 5) (k + 6) (rngMem m k key V w) (k + 7) key V w where
  ctx := hY.ctx k
  vars := hY.vars k
  placed :=
    { mem := ⟨by simp [rngMem, Mem.set], by simp [rngMem, Mem.set], by simp [rngMem, Mem.set], by omega, by omega, by omega, by omega, by omega⟩
      hK := by simp [rngMem, Mem.set]
      hV := by simp [rngMem, Mem.set]
      lk := lk
      lV := lV
      k1 := by omega
      k2 := by omega
      nKV := by omega
      apart := by rintro b (rfl | rfl) <;> omega }
  counter := by simp [rngMem, Mem.set]
  below := by omega
  apart := by omega

theorem withDrbg_rand (hY : RngMachine Y) (lk : key.length = 32) (lV : V.length = 16) (w0 : 0 ≤ w) (w1 : w < 2 ^ 31 - 1) :
    Rand (withDrbg X Y key V w) (rbGen key V) := by
  intro N F bo ko s n L len e1 e2 e3 e4 M nx hN hM a t ha
  unfold rbGen at ha
  by_cases hl : len ≤ (L.drop ko).length
  · rw [if_pos hl] at ha
    cases ha
    rw [List.length_drop] at hl
    have := C88_generate (a := 0) (d := 0) (rngMem_at (w := w) hY lk lV M nx) (bx := bo) (off := ko) (n := len) (L := L) w0 w1
      (by rw [rngMem_other (by omega), hM _ e2, e1]) (by omega) e4 (by omega) (by unfold Outside; omega)
    obtain ⟨x, t', h, g1, g2, g3, -, g5⟩ := this
    refine ⟨x, t', ?_, ⟨g1, by omega, fun b hb => ?_⟩, nofun⟩
    · simp only [withDrbg, if_true]
      rw [← h, run_eq rng_bytes, callFun_conv (g := drbgBytesFun) (args := [.ptr bo ko false 1, .int s n len])
        (args' := [.ptr bo ko false 1, .int false 8 len]) rfl, run_eq rng_bytes]
    · dsimp only
      by_cases e : b = bo
      · rw [e, g3, set_same, List.append_assoc, List.drop_drop]
      · rw [g5 b (by omega) e (by unfold Outside; omega), rngMem_other (by omega), hM b hb, set_ne _ _ e]
  · rw [if_neg hl] at ha
    exact nomatch ha

end

theorem Placed.drbg {G : File} {X : Ctx} {m : Mem} {next : Nat} {bs : List Nat} (h : Placed G X m next bs) {Y : Nat → Ctx}
    (hY : RngMachine Y) {key V : List U8} {w : Int} (lk : key.length = 32) (lV : V.length = 16) (w0 : 0 ≤ w) (w1 : w < 2 ^ 31 - 1) :
    Ready G (withDrbg X Y key V w) (rbGen key V) m next bs where
  arch := h.arch
  rand := withDrbg_rand hY lk lV w0 w1
  table := h.table
  rounds := h.rounds
  below := h.below
  distinct := h.distinct
  apart := h.apart

section

variable {P : Params} {K : KemParams} {nm : String}

/-- C89.  The text of the KEM, of SHAKE, of the generator of the known answer tests and of the AES together: from the state that
`randombytes_init` leaves for a seed (C88_init), `crypto_kem_keypair` computes the public and the secret key of the known answer for
this seed.  From the state that this request leaves (C88_generate), `crypto_kem_enc` computes the ciphertext and the shared secret of
the known answer. -/
theorem C89_kat {G : File} (hT : KemText G P K nm) {X X' : Ctx} {Y Y' : Nat → Ctx} (hY : RngMachine Y) (hY' : RngMachine Y') {seed : List U8}
    (hs : seed.length = 48) {m : Mem} {next bp bk : Nat} (h : Placed G X m next [bp, bk]) {pk sk : List U8} (hp : m bp = u8s pk)
    (hk : m bk = u8s sk) (hlp : pk.length = P.pkBytes) (hlk : sk.length = P.skBytes) :
    let i := drbgInit seed (List.replicate 48 0)
    let g := (drbgGenerate i.1 i.2 (2 * K.len + K.lenA)).2
    Ret (callKem G (withDrbg X Y i.1 i.2 1) ("crypto_kem_keypair_" ++ nm) [bp, bk] m next) fun x => x.1 = .int true 4 0 ∧
      x.2.1 bp = u8s (katSpec K seed).1 ∧ x.2.1 bk = u8s (katSpec K seed).2.1 ∧
      ∀ (m' : Mem) (next' bt' bs' bp' : Nat) (ct ss : List U8), Placed G X' m' next' [bt', bs', bp'] → m' bt' = u8s ct →
        m' bs' = u8s ss → ct.length = P.ctBytes → ss.length = P.bytes → m' bp' = x.2.1 bp →
      Ret (callKem G (withDrbg X' Y' g.1 g.2 2) ("crypto_kem_enc_" ++ nm) [bt', bs', bp'] m' next') fun y => y.1 = .int true 4 0 ∧
        y.2.1 bt' = u8s (katSpec K seed).2.2.1 ∧ y.2.1 bs' = u8s (katSpec K seed).2.2.2 := by
  intro i g
  obtain ⟨hl, hlA, hsm⟩ := sizes_small hT.standard
  have l := length_drbgUpdate (List.zipWith (· ^^^ ·) seed (List.replicate 48 0)) (List.replicate 32 0) (List.replicate 16 0)
    (by rw [List.length_zipWith]; simp; omega)
  change i.1.length = 32 ∧ i.2.length = 16 at l
  obtain ⟨g0, g1, g2⟩ := length_drbgGenerate i.1 i.2 (2 * K.len + K.lenA)
  have hf := fills_gen i.1 i.2 (2 * K.len + K.lenA)
  generalize hB : (drbgGenerate i.1 i.2 (2 * K.len + K.lenA)).1 = B at hf g0
  have hsp : B = B.take K.len ++ (B.drop K.len).take K.len ++ B.drop (2 * K.len) := by
    rw [Nat.two_mul K.len, ← List.drop_drop, List.append_assoc, List.take_append_drop, List.take_append_drop]
  rw [hsp] at hf
  refine ((h.drbg hY l.1 l.2 (by omega) (by norm_num)).keypair hT (by rw [List.length_take]; omega)
    (by rw [List.length_take, List.length_drop]; omega) (by rw [List.length_drop]; omega) hf hp hk hlp hlk).mono ?_
  rintro x ⟨x1, x2, x3⟩
  have e : katSpec K seed = ((keygen K (B.take K.len) ((B.drop K.len).take K.len) (B.drop (2 * K.len))).1,
      (keygen K (B.take K.len) ((B.drop K.len).take K.len) (B.drop (2 * K.len))).2,
      encaps K (keygen K (B.take K.len) ((B.drop K.len).take K.len) (B.drop (2 * K.len))).1 (drbgGenerate g.1 g.2 K.len).1) := by
    rw [← hB]
    rfl
  refine ⟨x1, by rw [x2, e], by rw [x3, e], fun m' next' bt' bs' bp' ct ss h' a1 a2 a3 a4 a5 => ?_⟩
  refine ((h'.drbg hY' g1 g2 (by omega) (by norm_num)).enc hT (length_drbgGenerate _ _ _).1 (fills_gen g.1 g.2 K.len) a1 a2
    (by rw [a5, x2]) a3 a4 ?_).mono ?_
  · rw [hT.standard.pkLen]
    exact length_keygen_pk hT.standard.kwf _ _ _
  · rintro y ⟨y1, y2, y3⟩
    exact ⟨y1, by rw [y2, e], by rw [y3, e]⟩

end

/-! ## Concrete cases -/

/-- A machine with the variables of the AES and of the generator from block `k` on. -/
def demoRng (k : Nat) : Ctx where
  arch := .le
  glob x := if x = "sbox" then some (.ptr k 0 false 1) else if x = "Rcon" then some (.ptr (k + 1) 0 false 1) else
    if x = "&state" then some (.ptr (k + 2) 0 false 1) else if x = "NULL" then some (.ptr (k + 3) 0 false 1) else
    if x = "DRBG_ctx.Key" then some (.ptr (k + 4) 0 false 1) else if x = "DRBG_ctx.V" then some (.ptr (k + 5) 0 false 1) else
    if x = "&DRBG_ctx.reseed_counter" then some (.ptr (k + 6) 0 true 4) else none
  junk _ i := 5 * i + 77
  call f args m next := match args with
    | [.int _ _ v] => if f = "assert" ∧ v ≠ 0 then pure (.undef .void, m, next) else .ub .assertFailed
    | [.ptr b _ _ _] => if f = "!=NULL" then pure (.int true 4 (truth (decide (b ≠ k + 3))), m, next) else .ub .oobRead
    | _ => .ub .oobRead

theorem demoRng_machine : RngMachine demoRng where
  ctx k :=
    { aes := ⟨rfl, rfl, rfl, rfl⟩
      asserts := fun s n v m next h => by
        simp only [demoRng, true_and, if_pos h]
        exact ⟨_, _, rfl, rfl⟩
      null := rfl
      nonnull := fun b off s n m nx => by simp only [demoRng, if_true] }
  vars k := ⟨rfl, rfl, rfl, rfl⟩

/-- Memory for the cases: the generator from block 3 on, 48 bytes in the blocks 0 to 2. -/
def demoDrbg (key V : List U8) (w : Int) : Mem :=
  rngMem (fun b => if b = 0 then u8s ((List.range 48).map (BitVec.ofNat 8)) else u8s (List.replicate 48 0xEE)) 3 key V w

/-- C88_init: the seed of the known answers of NIST, `00 01 … 2f`, without personalization string. -/
example : Ret (rngFile.run (rngProg (demoRng 3) 0 2) "randombytes_init" [.ptr 0 0 false 1, .ptr 6 0 false 1, .int true 4 256]
    (demoDrbg (List.replicate 32 9) (List.replicate 16 8) (-4)) 10) fun x => x.2.1 7 = u8s nistKey ∧ x.2.1 8 = u8s nistV := by
  refine (C88_init (rngMem_at demoRng_machine (by simp) (by simp) _ 3) (E := (List.range 48).map (BitVec.ofNat 8))
    (D := List.replicate 48 0) rfl (by simp) (by omega) (by simp) (fun h => absurd rfl h) fun _ => rfl).mono ?_
  rintro x ⟨-, -, h, -⟩
  rw [nist_init] at h
  exact ⟨h.placed.hK, h.placed.hV⟩

/-- C88_init: with a personalization string. -/
example : Ret (rngFile.run (rngProg (demoRng 3) 0 2) "randombytes_init" [.ptr 0 0 false 1, .ptr 1 0 false 1, .int true 4 256]
    (demoDrbg (List.replicate 32 9) (List.replicate 16 8) (-4)) 10) fun x => x.2.1 1 = u8s (List.replicate 48 0xEE) := by
  refine (C88_init (rngMem_at demoRng_machine (by simp) (by simp) _ 3) (E := (List.range 48).map (BitVec.ofNat 8))
    (D := List.replicate 48 0xEE) rfl (by simp) (by omega) (by simp) (fun _ => ⟨rfl, by omega, by unfold Outside; omega⟩)
    (fun h => absurd h (by omega))).mono ?_
  rintro x ⟨-, -, -, h⟩
  rw [h 1 (by omega) (by unfold Outside; omega)]
  rfl

/-- C88_update: with data. -/
example : Ret (rngFile.run (rngProg (demoRng 3) 0 2) "AES256_CTR_DRBG_Update" [.ptr 0 0 false 1, .ptr 7 0 false 1, .ptr 8 0 false 1]
    (demoDrbg (List.replicate 32 9) (List.replicate 16 8) 3) 10) fun x =>
      x.2.1 8 = u8s (drbgUpdate ((List.range 48).map (BitVec.ofNat 8)) (List.replicate 32 9) (List.replicate 16 8)).2 :=
  (C88_update (rngMem_at demoRng_machine (by simp) (by simp) _ 3) (by simp) (fun _ => ⟨rfl, by omega, by unfold Outside; omega⟩)
    (fun h => absurd h (by omega))).mono fun _ h => h.2.2.2.1

/-- C88_generate: 20 bytes in the middle of a buffer. -/
example : Ret (rngFile.run (rngProg (demoRng 3) 0 2) "randombytes" [.ptr 1 5 false 1, .int false 8 20]
    (demoDrbg (List.replicate 32 9) (List.replicate 16 8) 3) 10) fun x => x.1 = .int true 4 0 ∧
      x.2.1 1 = u8s (List.replicate 5 0xEE ++ (drbgGenerate (List.replicate 32 9) (List.replicate 16 8) 20).1 ++ List.replicate 23 0xEE) :=
  (C88_generate (n := 20) (off := 5) (L := List.replicate 48 0xEE) (rngMem_at demoRng_machine (by simp) (by simp) _ 3) (by omega) (by omega) rfl
    (by simp) (by omega) (by omega) (by unfold Outside; omega)).mono fun _ h => ⟨h.1, h.2.2.1.trans (by congr 1)⟩

/-- C88_history: the first seed of the known answers of NIST, then another one. -/
example : Ret (serveText (demoRng 3) 0 0 [(1, 48), (2, 48)] (demoDrbg nistKey nistV 1) 10) fun x =>
    x.1 1 = u8s [0x06, 0x15, 0x50, 0x23, 0x4D, 0x15, 0x8C, 0x5E, 0xC9, 0x55, 0x95, 0xFE, 0x04, 0xEF, 0x7A, 0x25,
      0x76, 0x7F, 0x2E, 0x24, 0xCC, 0x2B, 0xC4, 0x79, 0xD0, 0x9D, 0x86, 0xDC, 0x9A, 0xBC, 0xFD, 0xE7,
      0x05, 0x6A, 0x8C, 0x26, 0x6F, 0x9E, 0xF9, 0x7E, 0xD0, 0x85, 0x41, 0xDB, 0xD2, 0xE1, 0xFF, 0xA1] := by
  refine (C88_history (rngMem_at demoRng_machine (by simp [nistKey]) (by simp [nistV]) _ 3) [(1, 48), (2, 48)] (by omega) (by simp) (by simp)
    ?_).mono ?_
  · simp only [List.mem_cons, List.not_mem_nil, or_false, forall_eq_or_imp, forall_eq]
    exact ⟨⟨by omega, by omega, by unfold Outside; omega, List.replicate 48 0xEE, rfl, by simp⟩,
      by omega, by omega, by unfold Outside; omega, List.replicate 48 0xEE, rfl, by simp⟩
  · rintro x ⟨h, -⟩
    rw [List.map_cons, drbgOutputs] at h
    rw [List.forall₂_cons] at h
    rw [h.1]
    simp only
    rw [nist_seed]
    rfl

/-- Memory for the next case: the table, the buffers for the keys, and the round constants. -/
def demoKat : Mem := fun b => if b = 0 then u16s frodo640.cdf else if b = 1 then u8s (List.replicate 9616 0) else if b = 9 then
  u64s KeccakF_RoundConstants else u8s (List.replicate 19888 4)

/-- C89_kat: the optimised implementation with the seed `00 01 … 2f`. -/
example : Ret (callKem unitFast640 (withDrbg (demoFips frodo640 (rbConst [])) demoRng nistKey nistV 1)
    "crypto_kem_keypair_Frodo640" [1, 2] demoKat 10) fun x => x.1 = .int true 4 0 ∧
      x.2.1 1 = u8s (katSpec (Frodo640 .shake) ((List.range 48).map (BitVec.ofNat 8))).1 := by
  have := C89_kat (X := demoFips frodo640 (rbConst [])) (X' := demoFips frodo640 (rbConst [])) .fast640 (seed := (List.range 48).map (BitVec.ofNat 8)) (m := demoKat) (bp := 1)
    (bk := 2) (pk := List.replicate 9616 0) (sk := List.replicate 19888 4) demoRng_machine demoRng_machine (by simp)
    (demo_placed _ _ _ (demoFast_loaded _ _ rfl) rfl (by decide) (by decide)) rfl rfl List.length_replicate List.length_replicate
  rw [nist_init] at this
  exact this.mono fun _ h => ⟨h.1, h.2.1⟩

end Frodo.Props
