import Verif.Text.Aes
import Verif.Model.Aes
import Verif.Proof.TextSponge

/-! # /repo/src/aes/aes_c.c: text and model -/

namespace Frodo

open Src

/-- Where the variables of the file are: the S-box, the round constants, the pointer `state` (/repo/src/aes/aes_c.c:22-48). -/
structure AesVars (X : Ctx) (bs bc bz : Nat) : Prop where
  sbox : X.glob "sbox" = some (.ptr bs 0 false 1)
  rcon : X.glob "Rcon" = some (.ptr bc 0 false 1)
  state : X.glob "state" = none
  cell : X.glob "&state" = some (.ptr bz 0 false 1)

/-- What is in memory: the tables, and `state` points to the block `bo` after `po` (/repo/src/aes/aes_c.c:22-48). -/
structure AesMem (m : Mem) (bs bc bz bo : Nat) (po : List Int) : Prop where
  sbox : m bs = u8s sbox
  rcon : m bc = u8s rcon
  cell : m bz = ⟨false, 1, [(bo : Int), (po.length : Int)]⟩
  ns : bs ≠ bo
  nc : bc ≠ bo
  nz : bz ≠ bo

theorem valueK_none {X : Ctx} {m : Mem} {x : String} : valueK X m x none = readStatic m (X.glob ("&" ++ x)) := rfl

theorem readStatic_ptr {m : Mem} {bz k : Nat} {s : Bool} {n bo off : Nat} (h : m bz = ⟨false, 1, [(bo : Int), (off : Int)]⟩) :
    readStatic m (some (.ptr bz k s n)) = pure (.ptr bo off s n) := by
  simp only [readStatic, h, Int.toNat_natCast]

theorem value_state {X : Ctx} {bs bc bz bo : Nat} {po : List Int} {m : Mem} (hX : AesVars X bs bc bz) (hm : AesMem m bs bc bz bo po) :
    valueK X m "state" none = pure (.ptr bo po.length false 1) := by
  rw [valueK_none, show "&" ++ "state" = "&state" from rfl, hX.cell, readStatic_ptr hm.cell]

theorem AesMem.set {bs bc bz bo : Nat} {po : List Int} {m : Mem} (hm : AesMem m bs bc bz bo po) (x : Blk) :
    AesMem (m.set bo x) bs bc bz bo po :=
  ⟨by rw [set_ne _ _ hm.ns, hm.sbox], by rw [set_ne _ _ hm.nc, hm.rcon], by rw [set_ne _ _ hm.nz, hm.cell], hm.ns, hm.nc, hm.nz⟩

theorem u8_ixor {a b : Int} : u8 (ixor a b) = u8 a ^^^ u8 b := by
  rw [ixor, u8_toInt, BitVec.setWidth_xor, setWidth_ofInt (by omega), setWidth_ofInt (by omega)]
  rfl

/-- How the text calls functions with a byte as argument and result that do not change memory (/repo/src/aes/aes_c.c:51-54, 265-268). -/
def ByteCall (X : Ctx) (f : String) (g : U8 → C U8) (m : Mem) : Prop :=
  ∀ (x : U8) (next : Nat), Refines False (g x) (X.call f [.int false 1 x.toNat] m next) fun r y => y = (.int false 1 r.toNat, m, next)

section

variable {X : Ctx} {bs bc bz bo : Nat} {po : List Int} {m : Mem}

theorem text_sbox (hX : AesVars X bs bc bz) (hs : m bs = u8s sbox) (next : Nat) (x : U8) :
    Refines False (getSBoxValue x) (aesCFile.run X "getSBoxValue" [.int false 1 x.toNat] m next)
      fun r y => y = (.int false 1 r.toNat, m, next) := by
  rw [run_eq aesC_getSBoxValue, getSBoxValueFun, getSBoxValue]
  csim [hX.sbox, hs]
  refine Refines.tail ?_
  refine Refines.rd8 fun y _ => ?_
  csim
  exact .pure rfl

theorem text_addRoundKey (hX : AesVars X bs bc bz) (hm : AesMem m bs bc bz bo po) (next br : Nat) (pr : List Int) (rk st : List U8)
    (round : Nat) (s : Bool) (n : Nat) (h : round < 16) (hr : m br = ⟨false, 1, pr ++ ofU8 rk⟩) (ho : m bo = ⟨false, 1, po ++ ofU8 st⟩) (ne : br ≠ bo) :
    Refines False (addRoundKey_c rk round st) (aesCFile.run X "AddRoundKey" [.ptr br pr.length false 1, .int s n round] m next)
      fun r x => x = (.undef .void, m.set bo ⟨false, 1, po ++ ofU8 r⟩, next) := by
  rw [run_eq aesC_AddRoundKey, AddRoundKeyFun, addRoundKey_c]
  csim [loopF_eq]
  refine Refines.tail ((Refines.forC (fun i (r : List U8) => (⟨[("j", later false 1 (i = 0) 4), ("i", .int false 1 i),
    ("RoundKey", .ptr br pr.length false 1), ("round", .int false 1 round)], m.set bo ⟨false, 1, po ++ ofU8 r⟩, next⟩ : St))
    (fun _ _ => True) (Nat.zero_le _) ?_ trivial ?_ ?_).bind ?_)
  · rw [set_self _ ho]; rfl
  · intro i r hi _
    csim [loopF_eq]
    refine Refines.branchT (by csim [decide_eq_true_eq]; omega) ?_
    refine Refines.tail ((Refines.forC (fun j (r : List U8) => (⟨[("j", .int false 1 j), ("i", .int false 1 i),
      ("RoundKey", .ptr br pr.length false 1), ("round", .int false 1 round)], m.set bo ⟨false, 1, po ++ ofU8 r⟩, next⟩ : St))
      (fun _ _ => True) (Nat.zero_le _) rfl trivial ?_ ?_).bind ?_)
    · intro j r hj _
      csim [hX.state, value_state hX (hm.set _), hr, ne]
      refine Refines.branchT (by csim [decide_eq_true_eq]; omega) ?_
      cstep
      cstep
      refine Refines.tail (Refines.wr8 ?_ fun _ _ _ => .pure ⟨rfl, trivial⟩)
      csim [u8_ixor]
    · intro r _
      csim
      exact Refines.branchF (by simp)
    · rintro r _ ⟨rfl, -⟩
      csim
      exact .pure ⟨rfl, trivial⟩
  · intro r _
    csim
    exact Refines.branchF (by simp)
  · rintro r _ ⟨rfl, -⟩
    csim
    exact .pure rfl

theorem text_subBytes (hX : AesVars X bs bc bz) (hm : AesMem m bs bc bz bo po) (next : Nat) (st : List U8)
    (ho : m bo = ⟨false, 1, po ++ ofU8 st⟩)
    (hc : ∀ r : List U8, ByteCall X "getSBoxValue" getSBoxValue (m.set bo ⟨false, 1, po ++ ofU8 r⟩)) :
    Refines False (subBytes_c st) (aesCFile.run X "SubBytes" [] m next)
      fun r x => x = (.undef .void, m.set bo ⟨false, 1, po ++ ofU8 r⟩, next) := by
  rw [run_eq aesC_SubBytes, SubBytesFun, subBytes_c]
  csim [loopF_eq]
  refine Refines.tail ((Refines.forC (fun i (r : List U8) => (⟨[("j", later false 1 (i = 0) 4), ("i", .int false 1 i)],
    m.set bo ⟨false, 1, po ++ ofU8 r⟩, next⟩ : St)) (fun _ _ => True) (Nat.zero_le _) ?_ trivial ?_ ?_).bind ?_)
  · rw [set_self _ ho]; rfl
  · intro i r hi _
    csim [loopF_eq]
    refine Refines.branchT (by csim [decide_eq_true_eq]; omega) ?_
    refine Refines.tail ((Refines.forC (fun j (r : List U8) => (⟨[("j", .int false 1 j), ("i", .int false 1 i)],
      m.set bo ⟨false, 1, po ++ ofU8 r⟩, next⟩ : St)) (fun _ _ => True) (Nat.zero_le _) rfl trivial ?_ ?_).bind ?_)
    · intro j r hj _
      csim [hX.state, value_state hX (hm.set _)]
      refine Refines.branchT (by csim [decide_eq_true_eq]; omega) ?_
      cstep
      refine (hc _ _ _).bind ?_
      rintro y _ rfl
      csim [hX.state, value_state hX (hm.set _)]
      exact Refines.tail (Refines.wr8 rfl fun _ _ _ => .pure ⟨rfl, trivial⟩)
    · intro r _
      csim
      exact Refines.branchF (by simp)
    · rintro r _ ⟨rfl, -⟩
      csim
      exact .pure ⟨rfl, trivial⟩
  · intro r _
    csim
    exact Refines.branchF (by simp)
  · rintro r _ ⟨rfl, -⟩
    csim
    exact .pure rfl

theorem text_shiftRows (hX : AesVars X bs bc bz) (hm : AesMem m bs bc bz bo po) (next : Nat) (st : List U8)
    (ho : m bo = ⟨false, 1, po ++ ofU8 st⟩) :
    Refines False (shiftRows_c st) (aesCFile.run X "ShiftRows" [] m next)
      fun r x => x = (.undef .void, m.set bo ⟨false, 1, po ++ ofU8 r⟩, next) := by
  rw [run_eq aesC_ShiftRows, ShiftRowsFun, shiftRows_c]
  have hv : ∀ x, valueK X (m.set bo x) "state" none = _ := fun x => value_state hX (hm.set x)
  csim [hX.state, value_state hX hm, hv, ho]
  repeat cstep
  refine Refines.tail (Refines.wr8 (by csim) fun _ _ _ => ?_)
  exact .pure rfl

theorem text_xtime (next : Nat) (x : U8) :
    Refines False (xtime_c x) (aesCFile.run X "xtime" [.int false 1 x.toNat] m next)
      fun r y => y = (.int false 1 r.toNat, m, next) := by
  rw [run_eq aesC_xtime, xtimeFun, xtime_c]
  csim
  cstep
  refine Refines.stepShr (by omega) (by omega) fun _ _ _ _ => ?_
  csim
  cstep
  csim
  exact .pure rfl

theorem text_mixColumns (hX : AesVars X bs bc bz) (hm : AesMem m bs bc bz bo po) (next : Nat) (st : List U8)
    (ho : m bo = ⟨false, 1, po ++ ofU8 st⟩)
    (hc : ∀ r : List U8, ByteCall X "xtime" xtime_c (m.set bo ⟨false, 1, po ++ ofU8 r⟩)) :
    Refines False (mixColumns_c st) (aesCFile.run X "MixColumns" [] m next)
      fun r x => x = (.undef .void, m.set bo ⟨false, 1, po ++ ofU8 r⟩, next) := by
  rw [run_eq aesC_MixColumns, MixColumnsFun, mixColumns_c]
  have hv : ∀ x, valueK X (m.set bo x) "state" none = _ := fun x => value_state hX (hm.set x)
  csim [loopF_eq]
  refine Refines.tail ((Refines.forRel (fun i (r : List U8) (s : St) => ∃ (c : Bool) (u v w : U8), s = ⟨[("t", later false 1 (c = true) u.toNat),
    ("Tm", later false 1 (c = true) v.toNat), ("Tmp", later false 1 (c = true) w.toNat), ("i", .int false 1 i)],
    m.set bo ⟨false, 1, po ++ ofU8 r⟩, next⟩) (Nat.zero_le _) ⟨true, 0, 0, 0, ?_⟩ ?_ ?_).bind ?_)
  · rw [set_self _ ho]; rfl
  · rintro i r _ hi ⟨c, u, v, w, rfl⟩
    rw [mixColumn_c]
    csim [hX.state, hv]
    refine Refines.branchT (by csim [decide_eq_true_eq]; omega) ?_
    iterate 7 cstep
    csim [u8_ixor]
    refine (hc _ _ _).bind ?_
    rintro y _ rfl
    csim [hX.state, hv, u8_ixor]
    cstep
    refine Refines.wr8 (by csim [u8_ixor]) fun _ _ _ => ?_
    iterate 2 cstep
    csim [u8_ixor]
    refine (hc _ _ _).bind ?_
    rintro y _ rfl
    csim [hX.state, hv, u8_ixor]
    cstep
    refine Refines.wr8 (by csim [u8_ixor]) fun _ _ _ => ?_
    iterate 2 cstep
    csim [u8_ixor]
    refine (hc _ _ _).bind ?_
    rintro y _ rfl
    csim [hX.state, hv, u8_ixor]
    cstep
    refine Refines.wr8 (by csim [u8_ixor]) fun _ _ _ => ?_
    cstep
    csim [u8_ixor]
    refine (hc _ _ _).bind ?_
    rintro y _ rfl
    csim [hX.state, hv, u8_ixor]
    cstep
    refine Refines.tail (Refines.wr8 (by csim [u8_ixor]) fun _ _ _ => ?_)
    exact .pure ⟨_, rfl, false, _, _, _, rfl⟩
  · rintro r _ ⟨c, u, v, w, rfl⟩
    csim
    exact Refines.branchF (by simp)
  · rintro r _ ⟨_, rfl, c, u, v, w, rfl⟩
    csim
    exact .pure rfl

/-- How the text calls functions that change the bytes that `state` points to (/repo/src/aes/aes_c.c:205-285). -/
def StateCall (X : Ctx) (f : String) (args : List Val) (g : List U8 → C (List U8)) (m : Mem) (bo : Nat) (po : List Int) : Prop :=
  ∀ (r : List U8) (next : Nat), Refines False (g r) (X.call f args (m.set bo ⟨false, 1, po ++ ofU8 r⟩) next)
    fun r y => y = (.undef .void, m.set bo ⟨false, 1, po ++ ofU8 r⟩, next)

theorem text_cipher (next br : Nat) (pr : List Int) (rk st : List U8) (Nr : Nat) (s : Bool) (n : Nat) (h0 : 1 ≤ Nr) (h : Nr < 16)
    (ho : m bo = ⟨false, 1, po ++ ofU8 st⟩)
    (h1 : ∀ s n (k : Nat), k < 16 →
      StateCall X "AddRoundKey" [.ptr br pr.length false 1, .int s n k] (addRoundKey_c rk k) m bo po)
    (h2 : StateCall X "SubBytes" [] subBytes_c m bo po) (h3 : StateCall X "ShiftRows" [] shiftRows_c m bo po)
    (h4 : StateCall X "MixColumns" [] mixColumns_c m bo po) :
    Refines False (cipher_c rk Nr st) (aesCFile.run X "Cipher" [.ptr br pr.length false 1, .int s n Nr] m next)
      fun r x => x = (.undef .void, m.set bo ⟨false, 1, po ++ ofU8 r⟩, next) := by
  rw [run_eq aesC_Cipher, CipherFun, cipher_c]
  csim
  have := h1 true 4 0 (by omega) st next
  rw [set_self _ ho] at this
  refine this.bind ?_
  rintro r _ rfl
  csim [loopF_eq]
  refine (Refines.forC (fun i (r : List U8) => (⟨[("round", .int false 1 i), ("RoundKey", .ptr br pr.length false 1),
    ("Nr", .int false 4 Nr)], m.set bo ⟨false, 1, po ++ ofU8 r⟩, next⟩ : St)) (fun _ _ => True) h0 rfl trivial ?_ ?_).bind ?_
  · intro i r hi _
    csim
    refine Refines.branchT (by csim [decide_eq_true_eq]; omega) ?_
    refine (h2 _ _).bind ?_
    rintro r _ rfl
    csim
    refine (h3 _ _).bind ?_
    rintro r _ rfl
    csim
    refine (h4 _ _).bind ?_
    rintro r _ rfl
    csim
    refine Refines.tail ((h1 _ _ _ (by omega) _ _).bind ?_)
    rintro r _ rfl
    csim
    exact .pure ⟨rfl, trivial⟩
  · intro r _
    csim
    exact Refines.branchF (by simp)
  · rintro r _ ⟨rfl, -⟩
    csim
    refine (h2 _ _).bind ?_
    rintro r _ rfl
    csim
    refine (h3 _ _).bind ?_
    rintro r _ rfl
    csim
    refine Refines.tail ((h1 _ _ _ (by omega) _ _).bind ?_)
    rintro r _ rfl
    csim
    exact .pure rfl

end

end Frodo
