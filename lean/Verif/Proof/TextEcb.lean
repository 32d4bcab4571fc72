import Verif.Proof.TextSched
import Verif.Proof.TextLink

/-! # The encryption of /repo/src/aes/aes_c.c and /repo/src/aes/aes.c: text and model -/

namespace Frodo

open Src

/-- The uninitialised array of the model, from that of the text, `tempa` (/repo/src/aes/aes_c.c:61, 134). -/
def aesJunk (X : Ctx) : Junk := fun _ i => (BitVec.ofInt 8 (X.junk "tempa" i)).toNat

theorem aes_globals : (aesCFile.global "sbox").map (fun g => (g.s, g.n, g.array, g.init.map Expr.const)) =
      some (false, 1, true, sbox.map fun c => (c.toNat : Int)) ∧
    (aesCFile.global "Rcon").map (fun g => (g.s, g.n, g.array, g.init.map Expr.const)) =
      some (false, 1, true, rcon.map fun c => (c.toNat : Int)) := ⟨by kernel_rfl, by kernel_rfl⟩

/-- The two files. -/
abbrev aesFiles : List File := [aesCFile, aesFile]

section

variable {X : Ctx} {bs bc bz d : Nat} {m : Mem}

theorem AesVars.link (hX : AesVars X bs bc bz) : AesVars (link aesFiles X d) bs bc bz :=
  ⟨by rw [link_glob, hX.sbox], by rw [link_glob, hX.rcon], by rw [link_glob, hX.state], by rw [link_glob, hX.cell]⟩

theorem aes_junk : (⟨false, 1, newArr (link aesFiles X d) "tempa" false 1 4 none⟩ : Blk) = u8s (uninit (aesJunk X) 0 8 4) := by
  simp only [newArr, ofU8, uninit, List.map_map, link_junk, u8s, aesJunk]
  congr 1
  apply List.map_congr_left
  intro i _
  simp only [Function.comp, BitVec.ofNat_toNat, BitVec.setWidth_eq]
  rw [BitVec.toNat_ofInt, wrap]
  simp
  omega

theorem call_c {f : String} {g : Fun} (h : aesCFile.fn f = some g) (h1 : f ≠ "memset") (h2 : f ≠ "memcpy") (args : List Val) (m : Mem)
    (next : Nat) : (link aesFiles X (d + 1)).call f args m next = aesCFile.run (link aesFiles X d) f args m next := by
  rw [link_fn (fn_first h) h1 h2, run_eq h]

theorem call_aes {f : String} {g : Fun} (h : aesFile.fn f = some g) (h0 : aesCFile.fn f = none) (h1 : f ≠ "memset") (h2 : f ≠ "memcpy")
    (args : List Val) (m : Mem) (next : Nat) : (link aesFiles X (d + 1)).call f args m next = aesFile.run (link aesFiles X d) f args m next := by
  rw [link_fn (fn_second h0 h) h1 h2, run_eq h]

theorem call_copy (bo bi : Nat) (po pi : List Int) (L I : List U8) (len : Nat) (s : Bool) (n : Nat) (h1 : m bo = ⟨false, 1, po ++ ofU8 L⟩)
    (h2 : m bi = ⟨false, 1, pi ++ ofU8 I⟩) (ne : bi ≠ bo) (hl : len < 2 ^ 31) (next : Nat) :
    Refines False (memcpy L 0 I 0 len)
      ((link aesFiles X d).call "memcpy" [.ptr bo po.length false 1, .ptr bi pi.length false 1, .int s n len] m next)
      fun r x => x = (.undef .void, m.set bo ⟨false, 1, po ++ ofU8 r⟩, next) := by
  obtain ⟨call, hc⟩ := link_string (Fs := aesFiles) (X := X) (d := d)
  intro r t e
  have e3 : wrap false 8 (len : Int) = len := wrap_size (by omega) (by omega)
  have e4 : memcpy (ofU8 L) 0 (ofU8 I) 0 len = .ok (ofU8 r) t := memcpy_map e
  have e5 : ∃ t', memcpy (po ++ ofU8 L) po.length (pi ++ ofU8 I) pi.length len = .ok (po ++ ofU8 r) t' := by
    unfold memcpy at e4 ⊢
    split at e4
    · split at e4
      · rename_i c1 c2
        rw [if_pos (by simp only [List.length_append]; omega), if_pos (by simp only [List.length_append]; omega)]
        refine ⟨_, congrArg₂ C.ok ?_ rfl⟩
        have : List.take 0 (ofU8 L) ++ List.take len (List.drop 0 (ofU8 I)) ++ List.drop (0 + len) (ofU8 L) = ofU8 r :=
          (C.ok.inj e4).1
        rw [← this]
        simp [List.drop_append]
      · cases e4
    · cases e4
  obtain ⟨t', e5⟩ := e5
  refine ⟨(.undef .void, m.set bo ⟨false, 1, po ++ ofU8 r⟩, next), t' ++ [], ?_, rfl, fun h => h.elim⟩
  rw [hc]
  unfold withString memcpyC
  simp only [if_neg (show ¬"memcpy" = "memset" by decide), if_true, h1, h2, e3, Nat.mod_one, Nat.div_one, Int.toNat_natCast,
    and_self, C.require, if_pos (Or.inl (Ne.symm ne)), pure_bind, bind_assoc]
  rw [e5]
  rfl

theorem call_clear (bo : Nat) (po : List Int) (L : List U8) (len : Nat) (s s' : Bool) (n n' : Nat) (h1 : m bo = ⟨false, 1, po ++ ofU8 L⟩)
    (hl : len < 2 ^ 31) (next : Nat) :
    Refines False (memset L 0 len)
      ((link aesFiles X d).call "memset" [.ptr bo po.length false 1, .int s n 0, .int s' n' len] m next)
      fun r x => x = (.undef .void, m.set bo ⟨false, 1, po ++ ofU8 r⟩, next) := by
  obtain ⟨call, hc⟩ := link_string (Fs := aesFiles) (X := X) (d := d)
  intro r t e
  have e3 : wrap false 8 (len : Int) = len := wrap_size (by omega) (by omega)
  rw [hc]
  unfold withString memsetC
  unfold memset at e
  split at e
  · rename_i h
    have e4 : List.replicate len 0 ++ L.drop len = r := (C.ok.inj e).1
    have e5 : wrap false 1 (joinBytes (link aesFiles X d).arch (List.replicate 1 ((0 : Int) % 256))) = 0 := by
      cases (link aesFiles X d).arch <;> rfl
    have e6 : memset (ofU8 L) 0 len = .ok (ofU8 r) t := by
      unfold memset
      rw [if_pos (by rw [length_ofU8]; exact h), ← (C.ok.inj e).2, ← e4, ofU8_append]
      refine congrArg₂ C.ok ?_ rfl
      simp [ofU8, List.map_drop]
    refine ⟨(.undef .void, m.set bo ⟨false, 1, po ++ ofU8 r⟩, next), t ++ [], ?_, rfl, fun h => h.elim⟩
    simp only [if_true, h1, e3, Nat.mod_one, Nat.div_one, Int.toNat_natCast, and_self, e5, List.drop_left, List.take_left, e6, bind_assoc, pure_bind]
    rfl
  · cases e

theorem enc_calls (hX : AesVars X bs bc bz) {bo : Nat} {po : List Int} (hm : AesMem m bs bc bz bo po) :
    StateCall (link aesFiles X (d + 2)) "SubBytes" [] subBytes_c m bo po ∧
    StateCall (link aesFiles X (d + 2)) "ShiftRows" [] shiftRows_c m bo po ∧
    StateCall (link aesFiles X (d + 2)) "MixColumns" [] mixColumns_c m bo po := by
  refine ⟨fun r next => ?_, fun r next => ?_, fun r next => ?_⟩
  · rw [call_c aesC_SubBytes (by decide) (by decide)]
    have := text_subBytes (hX.link (d := d + 1)) (hm.set ⟨false, 1, po ++ ofU8 r⟩) next r (set_same ..) fun r' x nx => by
      rw [set_set, call_c aesC_getSBoxValue (by decide) (by decide)]
      exact text_sbox hX.link (hm.set _).sbox nx x
    simpa only [set_set] using this
  · rw [call_c aesC_ShiftRows (by decide) (by decide)]
    have := text_shiftRows (hX.link (d := d + 1)) (hm.set ⟨false, 1, po ++ ofU8 r⟩) next r (set_same ..)
    simpa only [set_set] using this
  · rw [call_c aesC_MixColumns (by decide) (by decide)]
    have := text_mixColumns (hX.link (d := d + 1)) (hm.set ⟨false, 1, po ++ ofU8 r⟩) next r (set_same ..) fun r' x nx => by
      rw [set_set, call_c aesC_xtime (by decide) (by decide)]
      exact text_xtime nx x
    simpa only [set_set] using this

theorem round_call (hX : AesVars X bs bc bz) {bo br : Nat} {po pr : List Int} {rk : List U8} (hm : AesMem m bs bc bz bo po)
    (hr : m br = ⟨false, 1, pr ++ ofU8 rk⟩) (ne : br ≠ bo) (s : Bool) (n k : Nat) (hk : k < 16) :
    StateCall (link aesFiles X (d + 1)) "AddRoundKey" [.ptr br pr.length false 1, .int s n k] (addRoundKey_c rk k) m bo po := by
  intro r next
  rw [call_c aesC_AddRoundKey (by decide) (by decide)]
  have := text_addRoundKey (hX.link (d := d)) (hm.set ⟨false, 1, po ++ ofU8 r⟩) next br pr rk r k s n hk
    (by rw [set_ne _ _ ne, hr]) (set_same ..) ne
  simpa only [set_set] using this

theorem setPtr_static {x : String} {loc : List (String × Val)} {next b off k : Nat} (h : X.glob ("&" ++ x) = some (.ptr bz k false 1))
    (hz : (m bz).data.length ≠ 1) : setPtrK X x ⟨loc, m, next⟩ (.ptr b off false 1) none =
      pure (.ptr b off false 1, ⟨loc, m.set bz ⟨false, 1, [(b : Int), (off : Int)]⟩, next⟩) := by
  simp only [setPtrK, h, writeStatic, true_and, if_pos hz]

theorem text_enc128 (hX : AesVars X bs bc bz) (hs : m bs = u8s sbox) (hc : m bc = u8s rcon) (hz : (m bz).data.length ≠ 1)
    (bi br bo : Nat) (pi pr po : List Int) (inp rk out : List U8) (hi : m bi = ⟨false, 1, pi ++ ofU8 inp⟩)
    (hr : m br = ⟨false, 1, pr ++ ofU8 rk⟩) (ho : m bo = ⟨false, 1, po ++ ofU8 out⟩) (n1 : bi ≠ bo) (n2 : br ≠ bo) (n3 : bs ≠ bo)
    (n4 : bc ≠ bo) (n5 : bz ≠ bo) (n6 : br ≠ bz) (n7 : bs ≠ bz) (n8 : bc ≠ bz) (next : Nat) :
    Refines False (aes128_enc_c inp rk out) (aesCFile.run (link aesFiles X (d + 3)) "aes128_enc_c" [.ptr bi pi.length false 1,
        .ptr br pr.length false 1, .ptr bo po.length false 1] m next)
      fun r x => x = (.undef .void, (m.set bo ⟨false, 1, po ++ ofU8 r⟩).set bz ⟨false, 1, [(bo : Int), (po.length : Int)]⟩, next) := by
  rw [run_eq aesC_aes128_enc_c, aes128_enc_cFun, aes128_enc_c]
  csim
  refine (call_copy bo bi po pi out inp 16 true 4 ho hi n1 (by decide) next).bind ?_
  rintro r _ rfl
  csim [setPtr_static (X := link aesFiles X (d + 3)) (x := "state") (hX.link (d := d + 3)).cell (show ((m.set bo ⟨false, 1, po ++ ofU8 r⟩) bz).data.length ≠ 1 by rw [set_ne _ _ n5]; exact hz)]
  have hm : AesMem ((m.set bo ⟨false, 1, po ++ ofU8 r⟩).set bz ⟨false, 1, [(bo : Int), (po.length : Int)]⟩) bs bc bz bo po :=
    ⟨by rw [set_ne _ _ n7, set_ne _ _ n3, hs], by rw [set_ne _ _ n8, set_ne _ _ n4, hc], set_same .., n3, n4, n5⟩
  have hr' : ((m.set bo ⟨false, 1, po ++ ofU8 r⟩).set bz ⟨false, 1, [(bo : Int), (po.length : Int)]⟩) br = ⟨false, 1, pr ++ ofU8 rk⟩ := by
    rw [set_ne _ _ n6, set_ne _ _ n2, hr]
  obtain ⟨c1, c2, c3⟩ := enc_calls (d := d) hX hm
  rw [call_c aesC_Cipher (by decide) (by decide)]
  refine Refines.tail ((text_cipher next br pr rk r 10 true 4 (by decide) (by decide) (by rw [set_ne _ _ (Ne.symm n5), set_same])
    (fun s n k hk => round_call (d := d + 1) hX hm hr' n2 s n k hk) c1 c2 c3).bind ?_)
  rintro r' _ rfl
  rw [swap_set (Ne.symm n5), set_set, swap_set n5]
  exact .pure rfl

theorem text_enc256 (hX : AesVars X bs bc bz) (hs : m bs = u8s sbox) (hc : m bc = u8s rcon) (hz : (m bz).data.length ≠ 1)
    (bi br bo : Nat) (pi pr po : List Int) (inp rk out : List U8) (hi : m bi = ⟨false, 1, pi ++ ofU8 inp⟩)
    (hr : m br = ⟨false, 1, pr ++ ofU8 rk⟩) (ho : m bo = ⟨false, 1, po ++ ofU8 out⟩) (n1 : bi ≠ bo) (n2 : br ≠ bo) (n3 : bs ≠ bo)
    (n4 : bc ≠ bo) (n5 : bz ≠ bo) (n6 : br ≠ bz) (n7 : bs ≠ bz) (n8 : bc ≠ bz) (next : Nat) :
    Refines False (aes256_enc_c inp rk out) (aesCFile.run (link aesFiles X (d + 3)) "aes256_enc_c" [.ptr bi pi.length false 1,
        .ptr br pr.length false 1, .ptr bo po.length false 1] m next)
      fun r x => x = (.undef .void, (m.set bo ⟨false, 1, po ++ ofU8 r⟩).set bz ⟨false, 1, [(bo : Int), (po.length : Int)]⟩, next) := by
  rw [run_eq aesC_aes256_enc_c, aes256_enc_cFun, aes256_enc_c]
  csim
  refine (call_copy bo bi po pi out inp 16 true 4 ho hi n1 (by decide) next).bind ?_
  rintro r _ rfl
  csim [setPtr_static (X := link aesFiles X (d + 3)) (x := "state") (hX.link (d := d + 3)).cell (show ((m.set bo ⟨false, 1, po ++ ofU8 r⟩) bz).data.length ≠ 1 by rw [set_ne _ _ n5]; exact hz)]
  have hm : AesMem ((m.set bo ⟨false, 1, po ++ ofU8 r⟩).set bz ⟨false, 1, [(bo : Int), (po.length : Int)]⟩) bs bc bz bo po :=
    ⟨by rw [set_ne _ _ n7, set_ne _ _ n3, hs], by rw [set_ne _ _ n8, set_ne _ _ n4, hc], set_same .., n3, n4, n5⟩
  have hr' : ((m.set bo ⟨false, 1, po ++ ofU8 r⟩).set bz ⟨false, 1, [(bo : Int), (po.length : Int)]⟩) br = ⟨false, 1, pr ++ ofU8 rk⟩ := by
    rw [set_ne _ _ n6, set_ne _ _ n2, hr]
  obtain ⟨c1, c2, c3⟩ := enc_calls (d := d) hX hm
  rw [call_c aesC_Cipher (by decide) (by decide)]
  refine Refines.tail ((text_cipher next br pr rk r 14 true 4 (by decide) (by decide) (by rw [set_ne _ _ (Ne.symm n5), set_same])
    (fun s n k hk => round_call (d := d + 1) hX hm hr' n2 s n k hk) c1 c2 c3).bind ?_)
  rintro r' _ rfl
  rw [swap_set (Ne.symm n5), set_set, swap_set n5]
  exact .pure rfl

theorem text_load_schedule128 (hX : AesVars X bs bc bz) (hs : m bs = u8s sbox) (hc : m bc = u8s rcon) (bk br : Nat) (pk pr : List Int)
    (key rk : List U8) (hk : m bk = ⟨false, 1, pk ++ ofU8 key⟩) (hr : m br = ⟨false, 1, pr ++ ofU8 rk⟩) (next : Nat)
    (n1 : bk ≠ br) (n2 : bs ≠ br) (n3 : bc ≠ br) (l0 : br < next) (l1 : bk < next) (l2 : bs < next) (l3 : bc < next) :
    Refines False (aes128_load_schedule_c (aesJunk X) key rk) (aesFile.run (link aesFiles X (d + 2)) "AES128_load_schedule"
        [.ptr bk pk.length false 1, .ptr br pr.length false 1] m next)
      fun r x => ∃ t, x = (.undef .void, (m.set br ⟨false, 1, pr ++ ofU8 r⟩).set next t, next + 1) := by
  rw [run_eq aes_AES128_load_schedule, AES128_load_scheduleFun]
  csim
  rw [call_c aesC_aes128_load_schedule_c (by decide) (by decide)]
  refine Refines.tail ((text_load128 (hX.link (d := d + 1)) hc (aesJunk X) bk br pk pr key rk hk hr aes_junk n1 n3 l0 l1 l3 fun x y z nx => ?_).bind ?_)
  · rw [call_c aesC_getSBoxValue (by decide) (by decide)]
    exact text_sbox hX.link (by rw [set_ne _ _ (by omega), set_ne _ _ n2, hs]) nx z
  · rintro r _ ⟨t, rfl⟩
    exact .pure ⟨t, rfl⟩

theorem text_block128 (hX : AesVars X bs bc bz) (hs : m bs = u8s sbox) (hc : m bc = u8s rcon) (hz : (m bz).data.length ≠ 1)
    (bi br bo : Nat) (pi pr po : List Int) (inp rk out : List U8) (hi : m bi = ⟨false, 1, pi ++ ofU8 inp⟩)
    (hr : m br = ⟨false, 1, pr ++ ofU8 rk⟩) (ho : m bo = ⟨false, 1, po ++ ofU8 out⟩) (n1 : bi ≠ bo) (n2 : br ≠ bo) (n3 : bs ≠ bo)
    (n4 : bc ≠ bo) (n5 : bz ≠ bo) (n6 : br ≠ bz) (n7 : bs ≠ bz) (n8 : bc ≠ bz) (next : Nat) :
    Refines False (aes128_enc_c inp rk out) (aesFile.run (link aesFiles X (d + 4)) "aes128_enc" [.ptr bi pi.length false 1,
        .ptr br pr.length false 1, .ptr bo po.length false 1] m next)
      fun r x => x = (.undef .void, (m.set bo ⟨false, 1, po ++ ofU8 r⟩).set bz ⟨false, 1, [(bo : Int), (po.length : Int)]⟩, next) := by
  rw [run_eq aes_aes128_enc, aes128_encFun]
  csim
  rw [call_c aesC_aes128_enc_c (by decide) (by decide)]
  refine Refines.tail ((text_enc128 hX hs hc hz bi br bo pi pr po inp rk out hi hr ho n1 n2 n3 n4 n5 n6 n7 n8 next).bind ?_)
  rintro r _ rfl
  exact .pure rfl

theorem text_free128 (br : Nat) (pr : List Int) (rk : List U8) (hr : m br = ⟨false, 1, pr ++ ofU8 rk⟩) (next : Nat) :
    Refines False (AES128_free_schedule rk) (aesFile.run (link aesFiles X d) "AES128_free_schedule" [.ptr br pr.length false 1] m next)
      fun r x => x = (.undef .void, m.set br ⟨false, 1, pr ++ ofU8 r⟩, next) := by
  rw [run_eq aes_AES128_free_schedule, AES128_free_scheduleFun, AES128_free_schedule]
  csim
  refine Refines.tail ((call_clear br pr rk 176 true true 4 4 hr (by decide) next).bind ?_)
  rintro r _ rfl
  exact .pure rfl

theorem text_load_schedule256 (hX : AesVars X bs bc bz) (hs : m bs = u8s sbox) (hc : m bc = u8s rcon) (bk br : Nat) (pk pr : List Int)
    (key rk : List U8) (hk : m bk = ⟨false, 1, pk ++ ofU8 key⟩) (hr : m br = ⟨false, 1, pr ++ ofU8 rk⟩) (next : Nat)
    (n1 : bk ≠ br) (n2 : bs ≠ br) (n3 : bc ≠ br) (l0 : br < next) (l1 : bk < next) (l2 : bs < next) (l3 : bc < next) :
    Refines False (aes256_load_schedule_c (aesJunk X) key rk) (aesFile.run (link aesFiles X (d + 2)) "AES256_load_schedule"
        [.ptr bk pk.length false 1, .ptr br pr.length false 1] m next)
      fun r x => ∃ t, x = (.undef .void, (m.set br ⟨false, 1, pr ++ ofU8 r⟩).set next t, next + 1) := by
  rw [run_eq aes_AES256_load_schedule, AES256_load_scheduleFun]
  csim
  rw [call_c aesC_aes256_load_schedule_c (by decide) (by decide)]
  refine Refines.tail ((text_load256 (hX.link (d := d + 1)) hc (aesJunk X) bk br pk pr key rk hk hr aes_junk n1 n3 l0 l1 l3 fun x y z nx => ?_).bind ?_)
  · rw [call_c aesC_getSBoxValue (by decide) (by decide)]
    exact text_sbox hX.link (by rw [set_ne _ _ (by omega), set_ne _ _ n2, hs]) nx z
  · rintro r _ ⟨t, rfl⟩
    exact .pure ⟨t, rfl⟩

theorem text_block256 (hX : AesVars X bs bc bz) (hs : m bs = u8s sbox) (hc : m bc = u8s rcon) (hz : (m bz).data.length ≠ 1)
    (bi br bo : Nat) (pi pr po : List Int) (inp rk out : List U8) (hi : m bi = ⟨false, 1, pi ++ ofU8 inp⟩)
    (hr : m br = ⟨false, 1, pr ++ ofU8 rk⟩) (ho : m bo = ⟨false, 1, po ++ ofU8 out⟩) (n1 : bi ≠ bo) (n2 : br ≠ bo) (n3 : bs ≠ bo)
    (n4 : bc ≠ bo) (n5 : bz ≠ bo) (n6 : br ≠ bz) (n7 : bs ≠ bz) (n8 : bc ≠ bz) (next : Nat) :
    Refines False (aes256_enc_c inp rk out) (aesFile.run (link aesFiles X (d + 4)) "aes256_enc" [.ptr bi pi.length false 1,
        .ptr br pr.length false 1, .ptr bo po.length false 1] m next)
      fun r x => x = (.undef .void, (m.set bo ⟨false, 1, po ++ ofU8 r⟩).set bz ⟨false, 1, [(bo : Int), (po.length : Int)]⟩, next) := by
  rw [run_eq aes_aes256_enc, aes256_encFun]
  csim
  rw [call_c aesC_aes256_enc_c (by decide) (by decide)]
  refine Refines.tail ((text_enc256 hX hs hc hz bi br bo pi pr po inp rk out hi hr ho n1 n2 n3 n4 n5 n6 n7 n8 next).bind ?_)
  rintro r _ rfl
  exact .pure rfl

theorem text_free256 (br : Nat) (pr : List Int) (rk : List U8) (hr : m br = ⟨false, 1, pr ++ ofU8 rk⟩) (next : Nat) :
    Refines False (AES256_free_schedule rk) (aesFile.run (link aesFiles X d) "AES256_free_schedule" [.ptr br pr.length false 1] m next)
      fun r x => x = (.undef .void, m.set br ⟨false, 1, pr ++ ofU8 r⟩, next) := by
  rw [run_eq aes_AES256_free_schedule, AES256_free_scheduleFun, AES256_free_schedule]
  csim
  refine Refines.tail ((call_clear br pr rk 240 true true 4 4 hr (by decide) next).bind ?_)
  rintro r _ rfl
  exact .pure rfl

theorem mod_size {a : Nat} (h : a < 2 ^ 64) (k : Nat) (hk : 0 < k) :
    numOp .mod false 8 (a : Int) (k : Int) = pure (.int false 8 (a % k : Nat)) := by
  have h1 : a % k < 2 ^ 64 := Nat.lt_of_le_of_lt (Nat.mod_le _ _) h
  have e : (a : Int).tmod k = ((a % k : Nat) : Int) := rfl
  simp only [numOp, C.require, if_pos (show (k : Int) ≠ 0 by omega), pure_bind, e, arith, Bool.false_eq_true, if_false]
  have w : ∀ q : Nat, q < 2 ^ 64 → wrap false 8 (q : Int) = q := fun q hq => wrap_size (by omega) (by omega)
  exact congrArg (fun x => pure (Val.int false 8 x)) (w _ h1)

theorem Refines.atPtr {S : List U8 → δ → Prop} {b off k : Nat} {l : List U8} {f : List U8 → C (List U8)} {g : Val → C δ}
    (hm : (m b).data.length * (m b).n = off + l.length)
    (h : k ≤ l.length → Refines False (f (l.drop k)) (g (.ptr b (off + k) false 1)) fun s y => S (l.take k ++ s) y) :
    Refines False (Frodo.atPtr l k f) (movePtr m b off false 1 (k : Int) >>= g) S := by
  unfold Frodo.atPtr movePtr
  by_cases hk : k ≤ l.length
  · rw [if_pos hk, if_pos ⟨by omega, by rw [hm]; simp only [Int.toNat_natCast]; omega⟩]
    simp only [bind_assoc, pure_bind, Int.toNat_natCast]
    refine Refines.step fun _ => ?_
    rw [← bind_pure (g _)]
    exact (h hk).bind fun s y hs => .pure hs
  · rw [if_neg hk]
    exact fun a t h => nomatch h

/-- What `assert` does if its argument is not zero (C11 7.2.1.1): nothing. -/
def Asserts (X : Ctx) : Prop := ∀ (s : Bool) (n : Nat) (v : Int) (m : Mem) (next : Nat), v ≠ 0 →
  Ret (X.call "assert" [.int s n v] m next) (· = (.undef .void, m, next))

theorem no_assert : aesFiles.findSome? (·.fn "assert") = none := by
  have h1 : aesCFile.fn "assert" = none := by kernel_rfl
  have h2 : aesFile.fn "assert" = none := by kernel_rfl
  simp only [List.findSome?, h1, h2]

theorem static_calls : aesCFile.fn "aes128_enc" = none ∧ aesCFile.fn "aes256_enc" = none := ⟨by kernel_rfl, by kernel_rfl⟩

theorem text_ecb128 (hX : AesVars X bs bc bz) (hA : Asserts X) (hs : m bs = u8s sbox) (hc : m bc = u8s rcon) (hz : (m bz).data.length ≠ 1)
    (bi br bo : Nat) (pi pr po : List Int) (inp rk out : List U8) (len : Nat) (hl : len < 2 ^ 63) (hi : m bi = ⟨false, 1, pi ++ ofU8 inp⟩)
    (hr : m br = ⟨false, 1, pr ++ ofU8 rk⟩) (ho : m bo = ⟨false, 1, po ++ ofU8 out⟩) (n1 : bi ≠ bo) (n2 : br ≠ bo) (n3 : bs ≠ bo)
    (n4 : bc ≠ bo) (n5 : bz ≠ bo) (n6 : br ≠ bz) (n7 : bs ≠ bz) (n8 : bc ≠ bz) (n9 : bi ≠ bz) (next : Nat) :
    Refines False (AES128_ECB_enc_sch .c 0 inp len rk out) (aesFile.run (link aesFiles X (d + 5)) "AES128_ECB_enc_sch"
        [.ptr bi pi.length false 1, .int false 8 len, .ptr br pr.length false 1, .ptr bo po.length false 1] m next)
      fun r x => ∃ z, z.data.length ≠ 1 ∧ x = (.undef .void, (m.set bo ⟨false, 1, po ++ ofU8 r⟩).set bz z, next) := by
  have e1 : numOp .mod false 8 (len : Int) 16 = pure (.int false 8 (len % 16 : Nat)) := mod_size (by omega) 16 (by omega)
  have e2 : numOp .div false 8 (len : Int) 16 = pure (.int false 8 (len / 16 : Nat)) := div_size (by omega) 16 (by omega)
  rw [run_eq aes_AES128_ECB_enc_sch, AES128_ECB_enc_schFun, AES128_ECB_enc_sch]
  by_cases h16 : len % 16 = 0
  swap
  · rw [C.require, if_neg h16]
    exact fun _ _ h => nomatch h
  rw [C.require, if_pos h16, pure_bind]
  csim [e1, link_extern (X := X) (d := d + 5) no_assert (show "assert" ≠ "memset" by decide) (show "assert" ≠ "memcpy" by decide)]
  refine Refines.right (hA _ _ _ _ _ (by simp [h16, truth])) ?_
  csim [loopF_eq]
  refine Refines.tail ((Refines.forRel (fun i (r : List U8) (s : St) => ∃ z : Blk, z.data.length ≠ 1 ∧
    s = ⟨[("block", .int false 8 i), ("plaintext", .ptr bi pi.length false 1), ("plaintext_len", .int false 8 len),
      ("schedule", .ptr br pr.length false 1), ("ciphertext", .ptr bo po.length false 1)],
      (m.set bo ⟨false, 1, po ++ ofU8 r⟩).set bz z, next⟩) (Nat.zero_le _) ⟨m bz, hz, ?_⟩ ?_ ?_).bind ?_)
  · rw [set_self _ ho, set_self _ rfl]; rfl
  · rintro i r _ hi' ⟨z, hz', rfl⟩
    have hi16 : 16 * i < len := by omega
    csim [e2]
    refine Refines.branchT (by csim [decide_eq_true_eq]; omega) ?_
    refine Refines.ptrStep (by rw [set_ne _ _ n9, set_ne _ _ n1, hi]; simp [length_ofU8]) fun h8 => ?_
    refine Refines.atPtr (by rw [set_ne _ _ (Ne.symm n5), set_same]; simp [length_ofU8]) fun h9 => ?_
    rw [call_aes aes_aes128_enc static_calls.1 (by decide) (by decide)]
    have := text_block128 (d := d) (m := (m.set bo ⟨false, 1, po ++ ofU8 r⟩).set bz z) hX (by rw [set_ne _ _ n7, set_ne _ _ n3, hs])
      (by rw [set_ne _ _ n8, set_ne _ _ n4, hc]) (by rw [set_same]; exact hz') bi br bo (pi ++ ofU8 (inp.take (16 * i))) pr
      (po ++ ofU8 (r.take (16 * i))) (inp.drop (16 * i)) rk (r.drop (16 * i))
      (by rw [set_ne _ _ n9, set_ne _ _ n1, hi, List.append_assoc, ← ofU8_append, List.take_append_drop])
      (by rw [set_ne _ _ n6, set_ne _ _ n2, hr])
      (by rw [set_ne _ _ (Ne.symm n5), set_same, List.append_assoc, ← ofU8_append, List.take_append_drop]) n1 n2 n3 n4 n5 n6 n7 n8 next
    simp only [List.length_append, length_take8 h8, length_take8 h9] at this
    refine Refines.tail (this.bind ?_)
    rintro r' _ rfl
    refine .pure ⟨_, rfl, ⟨false, 1, [(bo : Int), ((po.length + 16 * i : Nat) : Int)]⟩, by simp, ?_⟩
    rw [swap_set n5, set_set, set_set, List.append_assoc, ← ofU8_append]
  · rintro r _ ⟨z, hz', rfl⟩
    csim [e2]
    exact Refines.branchF (by simp)
  · rintro r _ ⟨_, rfl, z, hz', rfl⟩
    csim
    exact .pure ⟨z, hz', rfl⟩

theorem text_ecb256 (hX : AesVars X bs bc bz) (hA : Asserts X) (hs : m bs = u8s sbox) (hc : m bc = u8s rcon) (hz : (m bz).data.length ≠ 1)
    (bi br bo : Nat) (pi pr po : List Int) (inp rk out : List U8) (len : Nat) (hl : len < 2 ^ 63) (hi : m bi = ⟨false, 1, pi ++ ofU8 inp⟩)
    (hr : m br = ⟨false, 1, pr ++ ofU8 rk⟩) (ho : m bo = ⟨false, 1, po ++ ofU8 out⟩) (n1 : bi ≠ bo) (n2 : br ≠ bo) (n3 : bs ≠ bo)
    (n4 : bc ≠ bo) (n5 : bz ≠ bo) (n6 : br ≠ bz) (n7 : bs ≠ bz) (n8 : bc ≠ bz) (n9 : bi ≠ bz) (next : Nat) :
    Refines False (AES256_ECB_enc_sch .c 0 inp len rk out) (aesFile.run (link aesFiles X (d + 5)) "AES256_ECB_enc_sch"
        [.ptr bi pi.length false 1, .int false 8 len, .ptr br pr.length false 1, .ptr bo po.length false 1] m next)
      fun r x => ∃ z, z.data.length ≠ 1 ∧ x = (.undef .void, (m.set bo ⟨false, 1, po ++ ofU8 r⟩).set bz z, next) := by
  have e1 : numOp .mod false 8 (len : Int) 16 = pure (.int false 8 (len % 16 : Nat)) := mod_size (by omega) 16 (by omega)
  have e2 : numOp .div false 8 (len : Int) 16 = pure (.int false 8 (len / 16 : Nat)) := div_size (by omega) 16 (by omega)
  rw [run_eq aes_AES256_ECB_enc_sch, AES256_ECB_enc_schFun, AES256_ECB_enc_sch]
  by_cases h16 : len % 16 = 0
  swap
  · rw [C.require, if_neg h16]
    exact fun _ _ h => nomatch h
  rw [C.require, if_pos h16, pure_bind]
  csim [e1, link_extern (X := X) (d := d + 5) no_assert (show "assert" ≠ "memset" by decide) (show "assert" ≠ "memcpy" by decide)]
  refine Refines.right (hA _ _ _ _ _ (by simp [h16, truth])) ?_
  csim [loopF_eq]
  refine Refines.tail ((Refines.forRel (fun i (r : List U8) (s : St) => ∃ z : Blk, z.data.length ≠ 1 ∧
    s = ⟨[("block", .int false 8 i), ("plaintext", .ptr bi pi.length false 1), ("plaintext_len", .int false 8 len),
      ("schedule", .ptr br pr.length false 1), ("ciphertext", .ptr bo po.length false 1)],
      (m.set bo ⟨false, 1, po ++ ofU8 r⟩).set bz z, next⟩) (Nat.zero_le _) ⟨m bz, hz, ?_⟩ ?_ ?_).bind ?_)
  · rw [set_self _ ho, set_self _ rfl]; rfl
  · rintro i r _ hi' ⟨z, hz', rfl⟩
    have hi16 : 16 * i < len := by omega
    csim [e2]
    refine Refines.branchT (by csim [decide_eq_true_eq]; omega) ?_
    refine Refines.ptrStep (by rw [set_ne _ _ n9, set_ne _ _ n1, hi]; simp [length_ofU8]) fun h8 => ?_
    refine Refines.atPtr (by rw [set_ne _ _ (Ne.symm n5), set_same]; simp [length_ofU8]) fun h9 => ?_
    rw [call_aes aes_aes256_enc static_calls.2 (by decide) (by decide)]
    have := text_block256 (d := d) (m := (m.set bo ⟨false, 1, po ++ ofU8 r⟩).set bz z) hX (by rw [set_ne _ _ n7, set_ne _ _ n3, hs])
      (by rw [set_ne _ _ n8, set_ne _ _ n4, hc]) (by rw [set_same]; exact hz') bi br bo (pi ++ ofU8 (inp.take (16 * i))) pr
      (po ++ ofU8 (r.take (16 * i))) (inp.drop (16 * i)) rk (r.drop (16 * i))
      (by rw [set_ne _ _ n9, set_ne _ _ n1, hi, List.append_assoc, ← ofU8_append, List.take_append_drop])
      (by rw [set_ne _ _ n6, set_ne _ _ n2, hr])
      (by rw [set_ne _ _ (Ne.symm n5), set_same, List.append_assoc, ← ofU8_append, List.take_append_drop]) n1 n2 n3 n4 n5 n6 n7 n8 next
    simp only [List.length_append, length_take8 h8, length_take8 h9] at this
    refine Refines.tail (this.bind ?_)
    rintro r' _ rfl
    refine .pure ⟨_, rfl, ⟨false, 1, [(bo : Int), ((po.length + 16 * i : Nat) : Int)]⟩, by simp, ?_⟩
    rw [swap_set n5, set_set, set_set, List.append_assoc, ← ofU8_append]
  · rintro r _ ⟨z, hz', rfl⟩
    csim [e2]
    exact Refines.branchF (by simp)
  · rintro r _ ⟨_, rfl, z, hz', rfl⟩
    csim
    exact .pure ⟨z, hz', rfl⟩

end

end Frodo
