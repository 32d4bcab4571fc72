import Verif.Props.Random
import Verif.Props.TextTrip
import Verif.Proof.TextRandom

/-! # Properties of the text of `randombytes`, and of programs linked with it -/

namespace Frodo.Props

open Spec Src

/-- C81.  The text of /repo/src/random/random.c, on Unix, is parsed to the functions below. -/
theorem C81_parse : parseDo randomFlags randomSources randomText = some randomFile := random_parse

/-- C81, program start: the value that the file gives to `lock` is the one of `OSState.init`
(/repo/src/random/random.c:15). -/
theorem C81_start : ∃ e, randomFile.global "lock" = some ⟨true, 4, "lock", false, [e]⟩ ∧
    ∀ X st, Ret (eval X e st) fun x => x = (.int true 4 OSState.init.lock, st) := by
  refine ⟨_, rfl, fun X st => ?_⟩
  exact Ret_pure.2 rfl

section

variable {X : Ctx} {W : OS} {bl bo bs b nx nbytes d : Nat} {m : Mem} {st : OSState} {pre buf : List U8}

/-- C81.  On an operating system where the device opens sometime and whose reads deliver enough bytes, whatever short and failing
reads occur, the text of `randombytes` returns 0, has filled the buffer with the next bytes of the device, and has left the rest of
the buffer and all other blocks as they were.  Afterwards `lock` holds a descriptor, and as many bytes have been consumed as were
asked for. -/
theorem C81_fills (hX : RandomPlaced X bl bs) (hK : Kernel X W bo) (ne1 : bl ≠ bo) (ne2 : bs ≠ bl) (ne3 : bs ≠ bo)
    (hW : ∀ i, -2147483648 ≤ W.openRes i ∧ W.openRes i ≤ 2147483647) (h0 : -2147483648 ≤ st.lock) (h1 : st.lock ≤ 2147483647)
    (hb1 : b ≠ bl) (hb2 : b ≠ bo) (hb3 : b ≠ bs) (hm : m bs = pathCell) (hn : nbytes < 2 ^ 31) (hb : nbytes ≤ buf.length)
    (hl : m bl = lockCell st) (ho : m bo = osCell st) (hB : m b = u8s (pre ++ buf))
    (hd : Opens W st) (hr : ∃ k, nbytes ≤ osAvail W st.reads k) :
    Ret (randomFile.run (link [randomFile] X (d + 1)) "randombytes" [.ptr b pre.length false 1, .int false 8 nbytes] m nx) fun x =>
      x.1 = .int true 4 0 ∧ x.2.1 b = u8s (pre ++ osBytes W st.pos nbytes ++ buf.drop nbytes) ∧
      (∃ st' : OSState, x.2.1 bl = lockCell st' ∧ x.2.1 bo = osCell st' ∧ st'.lock ≠ -1 ∧ st'.pos = st.pos + nbytes) ∧
      ∀ c, c ≠ b → c ≠ bl → c ≠ bo → x.2.1 c = m c := by
  have e : m = osMem (m.set b (u8s (pre ++ buf))) bl bo st := by
    funext c
    simp only [osMem, Mem.set]
    split
    · rename_i h; rw [h, ho]
    · split
      · rename_i h; rw [h, hl]
      · split
        · rename_i h; rw [h, hB]
        · rfl
  obtain ⟨r, t, er, -⟩ := (C43_returns_iff W st buf nbytes (by rwa [written_small hn])).2 ⟨hd, by rwa [written_small hn]⟩
  obtain ⟨f1, f2, f3, f4⟩ := C41_fills W st buf nbytes hn hb r t er
  obtain ⟨x, t', h, rfl, -⟩ := text_randombytes (X := link [randomFile] X (d + 1)) (nx := nx) (nb := nbytes) (s := false) (k := 8)
    (RandomCtx.ofLink hX hK ne1 ne2 ne3) hW h0 h1 rfl hb1 hb2 hb3 hm (by omega) r t er
  rw [← e] at h
  refine ⟨_, t', h, by rw [f2], ?_, ⟨r.1, osMem_lock ne1, osMem_os, f4, f3⟩, fun c h1 h2 h3 => ?_⟩
  · dsimp only
    rw [osMem_other hb1 hb2, f1, List.append_assoc]
    simp [Mem.set]
  · dsimp only
    rw [osMem_other h2 h3]
    simp [Mem.set, h1]

/-- C81, a request of 2 GiB or more and less than 4 GiB: the text returns 0 and writes nothing, as `int n = (int)nbytes` is not
positive (/repo/src/random/random.c:37, 48).  `C42_two_gib` on the text. -/
theorem C81_two_gib (hX : RandomPlaced X bl bs) (hK : Kernel X W bo) (ne1 : bl ≠ bo) (ne2 : bs ≠ bl) (ne3 : bs ≠ bo)
    (hW : ∀ i, -2147483648 ≤ W.openRes i ∧ W.openRes i ≤ 2147483647) (h0 : -2147483648 ≤ st.lock) (h1 : st.lock ≤ 2147483647)
    (hb1 : b ≠ bl) (hb2 : b ≠ bo) (hb3 : b ≠ bs) (hm : m bs = pathCell) (g1 : 2 ^ 31 ≤ nbytes) (g2 : nbytes < 2 ^ 32)
    (hl : m bl = lockCell st) (ho : m bo = osCell st) (hB : m b = u8s buf) (hd : Opens W st) :
    Ret (randomFile.run (link [randomFile] X (d + 1)) "randombytes" [.ptr b 0 false 1, .int false 8 nbytes] m nx) fun x =>
      x.1 = .int true 4 0 ∧ x.2.1 b = u8s buf := by
  have e : m = osMem (m.set b (u8s ([] ++ buf))) bl bo st := by
    funext c
    simp only [osMem, Mem.set]
    split
    · rename_i h; rw [h, ho]
    · split
      · rename_i h; rw [h, hl]
      · split
        · rename_i h; rw [h, hB]; rfl
        · rfl
  obtain ⟨r, t, er, f1, f2⟩ := C42_two_gib W st buf nbytes g1 g2 hd
  obtain ⟨x, t', h, rfl, -⟩ := text_randombytes (X := link [randomFile] X (d + 1)) (nx := nx) (nb := nbytes) (s := false) (k := 8)
    (pre := []) (off := 0) (RandomCtx.ofLink hX hK ne1 ne2 ne3) hW h0 h1 rfl hb1 hb2 hb3 hm (by omega) r t er
  rw [← e] at h
  refine ⟨_, t', h, by rw [f2], ?_⟩
  dsimp only
  rw [osMem_other hb1 hb2, f1]
  simp [Mem.set]

end

/-! ## The KEM with `randombytes` from the text -/

/-- The text of /repo/src/kem.c with its parameter file `G`, of /repo/src/util.c and of /repo/src/sha3/fips202.c is loaded; nothing
is assumed of functions from outside. -/
structure Placed (G : File) (X : Ctx) (m : Mem) (next : Nat) (bs : List Nat) : Prop where
  arch : X.arch = .le
  table : G.Loaded X m
  rounds : fipsFile.Loaded X m
  below : ∀ b ∈ bs, b < next
  distinct : bs.Nodup
  apart : ∀ x b s n, X.glob x = some (.ptr b 0 s n) → b < next ∧ b ∉ bs

theorem Placed.ready {G : File} {X : Ctx} {m : Mem} {next : Nat} {bs : List Nat} (h : Placed G X m next bs) {Y : Nat → Ctx} {W : OS}
    (hY : Machine Y W) {st : OSState} (h0 : -2147483648 ≤ st.lock) (h1 : st.lock ≤ 2147483647) :
    Ready G (withRandom X Y st) (rbNix W st) m next bs where
  arch := h.arch
  rand := withRandom_rand hY h0 h1
  table := h.table
  rounds := h.rounds
  below := h.below
  distinct := h.distinct
  apart := h.apart

section

variable {P : Params} {K : KemParams} {nm : String}

theorem sizes_small (hS : Standard P .shake K) : K.len = P.bytes ∧ K.lenA = P.seedA ∧ 2 * P.bytes + P.seedA < 2 ^ 31 :=
  ⟨by rw [← hS.kem]; rfl, by rw [← hS.kem]; rfl, by cases hS <;> decide⟩

/-- C82.  The text of the KEM, of SHAKE and of `randombytes` together, called on an operating system where the device opens sometime
and delivers enough: `crypto_kem_keypair` leaves the key pair that the specification generates from the next bytes of
/dev/urandom. -/
theorem C82_keypair {G : File} (hT : KemText G P K nm) {X : Ctx} {m : Mem} {next bp bk : Nat} (h : Placed G X m next [bp, bk])
    {Y : Nat → Ctx} {W : OS} (hY : Machine Y W) {st : OSState} (h0 : -2147483648 ≤ st.lock) (h1 : st.lock ≤ 2147483647)
    (hd : Opens W st) (hr : ∃ k, 2 * P.bytes + P.seedA ≤ osAvail W st.reads k) {pk sk : List U8}
    (hp : m bp = u8s pk) (hk : m bk = u8s sk) (hlp : pk.length = P.pkBytes) (hlk : sk.length = P.skBytes) :
    Ret (callKem G (withRandom X Y st) ("crypto_kem_keypair_" ++ nm) [bp, bk] m next) fun x => x.1 = .int true 4 0 ∧
      x.2.1 bp = u8s (keygen K (osBytes W st.pos P.bytes) (osBytes W (st.pos + P.bytes) P.bytes)
        (osBytes W (st.pos + 2 * P.bytes) P.seedA)).1 ∧
      x.2.1 bk = u8s (keygen K (osBytes W st.pos P.bytes) (osBytes W (st.pos + P.bytes) P.bytes)
        (osBytes W (st.pos + 2 * P.bytes) P.seedA)).2 := by
  obtain ⟨hl, hlA, hsm⟩ := sizes_small hT.standard
  have e := fills_nix W st _ hsm hd hr
  rw [← osBytes_append, Nat.two_mul, ← osBytes_append, ← Nat.two_mul] at e
  exact (h.ready hY h0 h1).keypair hT (by rw [length_osBytes, hl]) (by rw [length_osBytes, hl]) (by rw [length_osBytes, hlA]) e hp hk
    hlp hlk

/-- C82, encapsulation. -/
theorem C82_enc {G : File} (hT : KemText G P K nm) {X : Ctx} {m : Mem} {next bt bs bp : Nat} (h : Placed G X m next [bt, bs, bp])
    {Y : Nat → Ctx} {W : OS} (hY : Machine Y W) {st : OSState} (h0 : -2147483648 ≤ st.lock) (h1 : st.lock ≤ 2147483647)
    (hd : Opens W st) (hr : ∃ k, P.bytes ≤ osAvail W st.reads k) {ct ss pk : List U8} (ht : m bt = u8s ct) (hs : m bs = u8s ss)
    (hp : m bp = u8s pk) (hlt : ct.length = P.ctBytes) (hls : ss.length = P.bytes) (hlp : pk.length = P.pkBytes) :
    Ret (callKem G (withRandom X Y st) ("crypto_kem_enc_" ++ nm) [bt, bs, bp] m next) fun x => x.1 = .int true 4 0 ∧
      x.2.1 bt = u8s (encaps K pk (osBytes W st.pos P.bytes)).1 ∧ x.2.1 bs = u8s (encaps K pk (osBytes W st.pos P.bytes)).2 := by
  obtain ⟨hl, hlA, hsm⟩ := sizes_small hT.standard
  exact (h.ready hY h0 h1).enc hT (by rw [length_osBytes, hl]) (fills_nix W st _ (by omega) hd hr) ht hs hp hlt hls hlp

/-- C82, the exchange between three programs, each given by its text down to the system calls: if the noise drawn from the bytes of
the two devices is within the bounds of C01, both parties hold the same shared secret. -/
theorem C82_round_trip {G G' G'' : File} (hT : KemText G P K nm) (hT' : KemText G' P K nm) (hT'' : KemText G'' P K nm)
    {X X' X'' : Ctx} {Y Y' Y'' : Nat → Ctx} {W W' W'' : OS} (hY : Machine Y W) (hY' : Machine Y' W') (hY'' : Machine Y'' W'')
    {st st' st'' : OSState} (h0 : -2147483648 ≤ st.lock) (h1 : st.lock ≤ 2147483647) (h0' : -2147483648 ≤ st'.lock)
    (h1' : st'.lock ≤ 2147483647) (h0'' : -2147483648 ≤ st''.lock) (h1'' : st''.lock ≤ 2147483647) (hd : Opens W st)
    (hr : ∃ k, 2 * P.bytes + P.seedA ≤ osAvail W st.reads k) (hd' : Opens W' st') (hr' : ∃ k, P.bytes ≤ osAvail W' st'.reads k)
    {m : Mem} {next bp bk : Nat} (h : Placed G X m next [bp, bk]) {pk sk : List U8} (hp : m bp = u8s pk) (hk : m bk = u8s sk)
    (hlp : pk.length = P.pkBytes) (hlk : sk.length = P.skBytes)
    (hn : NoiseBound K (osBytes W (st.pos + P.bytes) P.bytes) (keygen K (osBytes W st.pos P.bytes)
      (osBytes W (st.pos + P.bytes) P.bytes) (osBytes W (st.pos + 2 * P.bytes) P.seedA)).1 (osBytes W' st'.pos P.bytes)) :
    Ret (callKem G (withRandom X Y st) ("crypto_kem_keypair_" ++ nm) [bp, bk] m next) fun x => x.1 = .int true 4 0 ∧
      ∀ (m' : Mem) (next' bt' bs' bp' : Nat) (ct ss : List U8), Placed G' X' m' next' [bt', bs', bp'] → m' bt' = u8s ct →
        m' bs' = u8s ss → ct.length = P.ctBytes → ss.length = P.bytes → m' bp' = x.2.1 bp →
      Ret (callKem G' (withRandom X' Y' st') ("crypto_kem_enc_" ++ nm) [bt', bs', bp'] m' next') fun y => y.1 = .int true 4 0 ∧
        ∀ (m'' : Mem) (next'' bs'' bt'' bk'' : Nat) (ss'' : List U8), Placed G'' X'' m'' next'' [bs'', bt'', bk''] →
          m'' bs'' = u8s ss'' → ss''.length = P.bytes → m'' bt'' = y.2.1 bt' → m'' bk'' = x.2.1 bk →
        Ret (callKem G'' (withRandom X'' Y'' st'') ("crypto_kem_dec_" ++ nm) [bs'', bt'', bk''] m'' next'') fun w =>
          w.1 = .int true 4 0 ∧ w.2.1 bs'' = y.2.1 bs' := by
  obtain ⟨hl, hlA, hsm⟩ := sizes_small hT.standard
  have e := fills_nix W st _ hsm hd hr
  rw [← osBytes_append, Nat.two_mul, ← osBytes_append, ← Nat.two_mul] at e
  refine (C79_round_trip hT hT' hT'' (X' := withRandom X' Y' st') (X'' := withRandom X'' Y'' st'') (rb'' := rbNix W'' st'')
    (h.ready hY h0 h1) (by rw [length_osBytes, hl]) (by rw [length_osBytes, hl]) (by rw [length_osBytes, hlA])
    (by rw [length_osBytes, hl]) e (fills_nix W' st' _ (by omega) hd' hr') hp hk hlp hlk hn).mono ?_
  rintro x ⟨x1, x2⟩
  refine ⟨x1, fun m' next' bt' bs' bp' ct ss h' a1 a2 a3 a4 a5 => ?_⟩
  refine (x2 m' next' bt' bs' bp' ct ss (h'.ready hY' h0' h1') a1 a2 a3 a4 a5).mono ?_
  rintro y ⟨y1, y2⟩
  exact ⟨y1, fun m'' next'' bs'' bt'' bk'' ss'' h'' => y2 m'' next'' bs'' bt'' bk'' ss'' (h''.ready hY'' h0'' h1'')⟩

end

/-! ## Concrete cases -/

/-- A machine with the operating system `W`, and the variable and the string of the file from block `k` on. -/
def osMachine (W : OS) (k : Nat) : Ctx where
  arch := .le
  glob x := if x = "&lock" then some (.ptr k 0 true 4) else if x = "\"/dev/urandom" then some (.ptr (k + 2) 0 true 1) else none
  junk _ _ := 0
  call f args m nx :=
    match (m (k + 1)).data, args with
    | [_, o, r, p], [.ptr _ _ _ _, .int _ _ _] =>
      if f = "open" then pure (.int true 4 (W.openRes o.toNat), m.set (k + 1) ⟨true, 8, [W.openRes o.toNat, o + 1, r, p]⟩, nx)
      else .ub .oobRead
    | [l, o, r, p], [.int _ _ _, .ptr b off _ _, .int _ _ n] =>
      if f = "read" then
        match W.readRes r.toNat with
        | none => pure (.int true 8 (-1), m.set (k + 1) ⟨true, 8, [l, o, r + 1, p]⟩, nx)
        | some a =>
          pure (.int true 8 (min a n.toNat : Nat), (m.set b ⟨false, 1, (m b).data.take off ++
            ofU8 (osBytes W p.toNat (min a n.toNat)) ++ (m b).data.drop (off + min a n.toNat)⟩).set (k + 1)
            ⟨true, 8, [l, o, r + 1, p + (min a n.toNat : Nat)]⟩, nx)
      else .ub .oobRead
    | _, _ => .ub .oobRead

theorem osMachine_machine (W : OS) (hW : ∀ i, -2147483648 ≤ W.openRes i ∧ W.openRes i ≤ 2147483647) : Machine (osMachine W) W where
  placed k := ⟨rfl, rfl, rfl⟩
  kernel k :=
    { open_ := fun {st M nx bs} _ h => by
        simp only [osMachine, h, osCell, Int.toNat_natCast, if_true, opened]
        rfl
      fails := fun {st M nx b off n} _ h hr => by
        simp only [osMachine, h, osCell, Int.toNat_natCast, if_true, hr, delivered]
        rfl
      gives := fun {st M nx b off n a k} {L} _ h hr hk _ hL _ => by
        subst hk
        simp only [osMachine, h, osCell, Int.toNat_natCast, if_true, hr, delivered, hL]
        simp only [u8s, ofU8, List.map_append, List.map_take, List.map_drop]
        rfl }
  descriptors := hW

theorem slowOS_descriptors (i : Nat) : -2147483648 ≤ slowOS.openRes i ∧ slowOS.openRes i ≤ 2147483647 := by
  simp only [slowOS]
  split <;> decide

/-- C81_fills: 20 bytes from the slow system into the middle of a buffer of 26. -/
example : ∃ m : Mem, Ret (randomFile.run (link [randomFile] (osMachine slowOS 0) 1) "randombytes" [.ptr 3 2 false 1, .int false 8 20] m 4)
    fun x => x.1 = .int true 4 0 ∧ x.2.1 3 = u8s ([1, 2] ++ ((List.range 20).map fun i => BitVec.ofNat 8 (i * i)) ++
      List.replicate 4 0xAA) :=
  ⟨fun b => if b = 0 then lockCell .init else if b = 1 then osCell .init else if b = 2 then pathCell else
      u8s ([1, 2] ++ List.replicate 24 0xAA),
    (C81_fills (X := osMachine slowOS 0) (d := 0) (bl := 0) (bo := 1) (bs := 2) (b := 3) (st := .init) (pre := [1, 2])
      (buf := List.replicate 24 0xAA) ((osMachine_machine _ slowOS_descriptors).placed 0)
      ((osMachine_machine _ slowOS_descriptors).kernel 0) (by decide) (by decide) (by decide) slowOS_descriptors (by decide) (by decide)
      (by decide) (by decide) (by decide) rfl (by decide) (by decide) rfl rfl rfl (slowOS_opens _) ⟨24, by decide +kernel⟩).mono
      fun x h => ⟨h.1, h.2.1.trans (by congr 1)⟩⟩

/-- C81_two_gib: a request for 3 GiB. -/
example : ∃ m : Mem, Ret (randomFile.run (link [randomFile] (osMachine slowOS 0) 1) "randombytes"
    [.ptr 3 0 false 1, .int false 8 (3 * 2 ^ 30 : Nat)] m 4) fun x => x.1 = .int true 4 0 ∧ x.2.1 3 = u8s [1, 2] :=
  ⟨fun b => if b = 0 then lockCell .init else if b = 1 then osCell .init else if b = 2 then pathCell else u8s [1, 2],
    C81_two_gib (X := osMachine slowOS 0) (d := 0) (bl := 0) (bo := 1) (bs := 2) (b := 3) (st := .init)
      ((osMachine_machine _ slowOS_descriptors).placed 0) ((osMachine_machine _ slowOS_descriptors).kernel 0) (by decide) (by decide)
      (by decide) slowOS_descriptors (by decide) (by decide) (by decide) (by decide) (by decide) rfl (by decide) (by decide) rfl rfl rfl
      (slowOS_opens _)⟩

/-- `Placed` in the memory of the cases of C79. -/
theorem demo_placed {G : File} (rb : RandomBytes) (m : Mem) (bs : List Nat) (hG : G.Loaded (demoFips frodo640 rb) m)
    (h9 : m 9 = u64s KeccakF_RoundConstants) (hb : ∀ b ∈ bs, 1 ≤ b ∧ b ≤ 8) (hd : bs.Nodup) :
    Placed G (demoFips frodo640 rb) m 10 bs :=
  let h := demo_ready rb m bs hG h9 hb hd
  ⟨h.arch, h.table, h.rounds, h.below, h.distinct, h.apart⟩

/-- C82_keypair: the optimised implementation on the slow system. -/
example : ∃ m : Mem, Ret (callKem unitFast640 (withRandom (demoFips frodo640 (rbConst [])) (osMachine slowOS) .init)
    "crypto_kem_keypair_Frodo640" [1, 2] m 10) fun x => x.1 = .int true 4 0 :=
  ⟨fun b => if b = 0 then u16s frodo640.cdf else if b = 1 then u8s (List.replicate 9616 0) else if b = 9 then
      u64s KeccakF_RoundConstants else u8s (List.replicate 19888 4),
    (C82_keypair .fast640 (demo_placed _ _ _ (demoFast_loaded _ _ rfl) rfl (by decide) (by decide))
      (osMachine_machine _ slowOS_descriptors) (st := .init) (by decide) (by decide) (slowOS_opens _) ⟨24, by decide +kernel⟩ rfl rfl
      List.length_replicate List.length_replicate).mono fun _ h => h.1⟩

/-- C82_enc: the reference implementation. -/
example : ∃ m : Mem, Ret (callKem unit640 (withRandom (demoFips frodo640 (rbConst [])) (osMachine slowOS) .init)
    "crypto_kem_enc_Frodo640" [1, 2, 3] m 10) fun x => x.1 = .int true 4 0 :=
  ⟨fun b => if b = 0 then u16s frodo640.cdf else if b = 1 then u8s (List.replicate 9720 0) else if b = 9 then
      u64s KeccakF_RoundConstants else if b = 2 then u8s (List.replicate 16 0) else u8s (List.replicate 9616 4),
    (C82_enc .frodo640 (demo_placed _ _ _ (demoFips_loaded _ _ rfl) rfl (by decide) (by decide))
      (osMachine_machine _ slowOS_descriptors) (st := .init) (by decide) (by decide) (slowOS_opens _) ⟨24, by decide +kernel⟩ rfl rfl rfl
      List.length_replicate List.length_replicate List.length_replicate).mono fun _ h => h.1⟩

end Frodo.Props
