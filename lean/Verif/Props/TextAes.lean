import Verif.Props.Aes
import Verif.Proof.TextEcb

/-! # Properties of the source text of AES

The texts of /repo/src/aes/aes_c.c and /repo/src/aes/aes.c, parsed, linked and run. -/

namespace Frodo.Props

open Spec Src

/-- C80.  The texts of /repo/src/aes/aes_c.c and /repo/src/aes/aes.c parse. -/
theorem C80_parse : parseMatrix optAes aesSources aesCText = some aesCFile ∧ parseText optAes aesSources aesText = some aesFile :=
  ⟨aesC_parse, aes_parse⟩

/-- Where the variables of the files are: the constant tables, apart from the blocks `bs`, and the pointer `state` in the block `bz`,
with or without a value (/repo/src/aes/aes_c.c:14-48). -/
structure AesPlaced (X : Ctx) (m : Mem) (next bz : Nat) (bs : List Nat) : Prop where
  tables : aesCFile.Loaded X m
  local_ : X.glob "state" = none
  static : X.glob "&state" = some (.ptr bz 0 false 1)
  cell : (m bz).data.length ≠ 1
  apart : ∀ b, X.glob "sbox" = some (.ptr b 0 false 1) ∨ X.glob "Rcon" = some (.ptr b 0 false 1) → b < next ∧ b ≠ bz ∧ b ∉ bs
  bound : bz < next
  buffers : bz ∉ bs

theorem loaded_bytes {X : Ctx} {m : Mem} {x : String} {l : List U8} (h : aesCFile.Loaded X m)
    (hg : (aesCFile.global x).map (fun g => (g.s, g.n, g.array, g.init.map Expr.const)) =
      some (false, 1, true, l.map fun c => (c.toNat : Int))) : ∃ b, X.glob x = some (.ptr b 0 false 1) ∧ m b = u8s l := by
  cases e : aesCFile.global x with
  | none => rw [e] at hg; cases hg
  | some g =>
    rw [e] at hg
    simp only [Option.map_some, Option.some.injEq, Prod.mk.injEq] at hg
    obtain ⟨h1, h2, h3, h4⟩ := hg
    have := h _ _ e
    rw [if_pos h3, h1, h2, h4] at this
    exact this

section

variable (X : Ctx) (d : Nat) (m : Mem) (next bz : Nat)

/-- C80, AES-128: the text of `AES128_load_schedule` and `AES128_ECB_enc_sch` returns, with AES-128 of each of the `n` blocks of the
plaintext under the key in the buffer for it; apart from this buffer, the schedule and the pointer `state`, memory is as before. -/
theorem C80_ecb128 (hA : Asserts X) (bk br bi bo ki ko n : Nat) (key rk pt ct : List U8) (hP : AesPlaced X m next bz [bk, br, bi, bo])
    (hk : m bk = u8s key) (hr : m br = u8s rk) (hi : m bi = u8s pt) (ho : m bo = u8s ct) (h1 : bk ≠ br) (h2 : bi ≠ br) (h3 : bo ≠ br)
    (h4 : bi ≠ bo) (l1 : bk < next) (l2 : br < next) (l3 : bi < next) (l4 : bo < next) (hlk : key.length = 16) (hlr : rk.length = 176)
    (hli : ki + 16 * n ≤ pt.length) (hlo : ko + 16 * n ≤ ct.length) (hn : 16 * n < 2 ^ 63) :
    Ret (do
        let x ← aesFile.run (link aesFiles X (d + 5)) "AES128_load_schedule" [.ptr bk 0 false 1, .ptr br 0 false 1] m next
        aesFile.run (link aesFiles X (d + 5)) "AES128_ECB_enc_sch"
          [.ptr bi ki false 1, .int false 8 ((16 * n : Nat) : Int), .ptr br 0 false 1, .ptr bo ko false 1] x.2.1 x.2.2)
      fun x => x.1 = .undef .void ∧
        x.2.1 bo = u8s (ct.take ko ++ (Spec.ecb (Spec.AES128 key) n (pt.drop ki) ++ ct.drop (ko + 16 * n))) ∧
        ∀ b, b < next → b ≠ bo → b ≠ br → b ≠ bz → x.2.1 b = m b := by
  obtain ⟨hT, z1, z2, z3, hap, z4, hbu⟩ := hP
  obtain ⟨bs, s1, s2⟩ := loaded_bytes hT aes_globals.1
  obtain ⟨bc, c1, c2⟩ := loaded_bytes hT aes_globals.2
  obtain ⟨s3, s4, s5⟩ := hap bs (.inl s1)
  obtain ⟨c3, c4, c5⟩ := hap bc (.inr c1)
  simp only [List.mem_cons, List.not_mem_nil, or_false, not_or] at s5 c5 hbu
  have hX : AesVars X bs bc bz := ⟨s1, c1, z1, z2⟩
  have r1 := AES128_load_schedule_ret (I := .c) (J := aesJunk X) (a := 0) (key := key) (rk := rk) (by intro h; cases h) (by omega) (by omega)
  refine (ret_refines (text_load_schedule128 (d := d + 3) hX s2 c2 bk br [] [] key rk hk hr next h1 s5.2.1 c5.2.1 l2 l1 s3 c3) r1
    (Q := fun x => ∃ t, x = (.undef .void, (m.set br (u8s (schedBytes 4 44 key ++ rk.drop 176))).set next t, next + 1)) ?_).bind ?_
  · rintro r x rfl ⟨t, rfl⟩
    exact ⟨t, rfl⟩
  · rintro _ ⟨t, rfl⟩
    have f : ∀ b, b < next → b ≠ br → ((m.set br (u8s (schedBytes 4 44 key ++ rk.drop 176))).set next t) b = m b := fun b e1 e2 => by
      rw [set_ne _ _ (by omega), set_ne _ _ e2]
    have r2 := AES128_ECB_ret (I := .c) (a := 0) (n := n) (pt := pt.drop ki) (ct := ct.drop ko) (key := key) (l := rk.drop 176)
      (by intro h; cases h) (by rw [List.length_drop]; omega) (by rw [List.length_drop]; omega)
    have r3 := text_ecb128 (d := d) (m := (m.set br (u8s (schedBytes 4 44 key ++ rk.drop 176))).set next t) hX hA
      (by rw [f bs s3 s5.2.1, s2]) (by rw [f bc c3 c5.2.1, c2]) (by rw [f bz z4 hbu.2.1]; exact z3) bi br bo (ofU8 (pt.take ki)) []
      (ofU8 (ct.take ko)) (pt.drop ki) (schedBytes 4 44 key ++ rk.drop 176) (ct.drop ko) (16 * n) hn
      (by rw [f bi l3 h2, hi, ← u8s_split]) (by rw [set_ne _ _ (by omega), set_same]; rfl) (by rw [f bo l4 h3, ho, ← u8s_split])
      h4 (Ne.symm h3) s5.2.2.2 c5.2.2.2 hbu.2.2.2 (Ne.symm hbu.2.1) s4 c4 (Ne.symm hbu.2.2.1) (next + 1)
    rw [length_take8 (by omega), length_take8 (by omega)] at r3
    refine ret_refines r3 r2 ?_
    rintro r x rfl ⟨z, -, rfl⟩
    rw [List.drop_drop]
    refine ⟨rfl, ?_, fun b e1 e2 e3 e4 => ?_⟩
    · dsimp only
      rw [set_ne _ _ (Ne.symm hbu.2.2.2), set_same, u8s_append]
    · dsimp only
      rw [set_ne _ _ e4, set_ne _ _ e2, f b e1 e3]

/-- C80, `AES128_free_schedule`: the text returns, and the 176 bytes of the schedule are zero. -/
theorem C80_free128 (br : Nat) (rk : List U8) (hr : m br = u8s rk) (hl : 176 ≤ rk.length) :
    Ret (aesFile.run (link aesFiles X d) "AES128_free_schedule" [.ptr br 0 false 1] m next)
      fun x => x = (.undef .void, m.set br (u8s (List.replicate 176 0 ++ rk.drop 176)), next) := by
  refine ret_refines (text_free128 br [] rk hr next) (C46_free128 rk hl) ?_
  rintro r x rfl rfl
  rfl

/-- C80, AES-256: the text of `AES256_load_schedule` and `AES256_ECB_enc_sch` returns, with AES-256 of each of the `n` blocks of the
plaintext under the key in the buffer for it; apart from this buffer, the schedule and the pointer `state`, memory is as before. -/
theorem C80_ecb256 (hA : Asserts X) (bk br bi bo ki ko n : Nat) (key rk pt ct : List U8) (hP : AesPlaced X m next bz [bk, br, bi, bo])
    (hk : m bk = u8s key) (hr : m br = u8s rk) (hi : m bi = u8s pt) (ho : m bo = u8s ct) (h1 : bk ≠ br) (h2 : bi ≠ br) (h3 : bo ≠ br)
    (h4 : bi ≠ bo) (l1 : bk < next) (l2 : br < next) (l3 : bi < next) (l4 : bo < next) (hlk : key.length = 32) (hlr : rk.length = 240)
    (hli : ki + 16 * n ≤ pt.length) (hlo : ko + 16 * n ≤ ct.length) (hn : 16 * n < 2 ^ 63) :
    Ret (do
        let x ← aesFile.run (link aesFiles X (d + 5)) "AES256_load_schedule" [.ptr bk 0 false 1, .ptr br 0 false 1] m next
        aesFile.run (link aesFiles X (d + 5)) "AES256_ECB_enc_sch"
          [.ptr bi ki false 1, .int false 8 ((16 * n : Nat) : Int), .ptr br 0 false 1, .ptr bo ko false 1] x.2.1 x.2.2)
      fun x => x.1 = .undef .void ∧
        x.2.1 bo = u8s (ct.take ko ++ (Spec.ecb (Spec.AES256 key) n (pt.drop ki) ++ ct.drop (ko + 16 * n))) ∧
        ∀ b, b < next → b ≠ bo → b ≠ br → b ≠ bz → x.2.1 b = m b := by
  obtain ⟨hT, z1, z2, z3, hap, z4, hbu⟩ := hP
  obtain ⟨bs, s1, s2⟩ := loaded_bytes hT aes_globals.1
  obtain ⟨bc, c1, c2⟩ := loaded_bytes hT aes_globals.2
  obtain ⟨s3, s4, s5⟩ := hap bs (.inl s1)
  obtain ⟨c3, c4, c5⟩ := hap bc (.inr c1)
  simp only [List.mem_cons, List.not_mem_nil, or_false, not_or] at s5 c5 hbu
  have hX : AesVars X bs bc bz := ⟨s1, c1, z1, z2⟩
  have r1 := AES256_load_schedule_ret (I := .c) (J := aesJunk X) (a := 0) (key := key) (rk := rk) (by intro h; cases h) (by omega) (by omega)
  refine (ret_refines (text_load_schedule256 (d := d + 3) hX s2 c2 bk br [] [] key rk hk hr next h1 s5.2.1 c5.2.1 l2 l1 s3 c3) r1
    (Q := fun x => ∃ t, x = (.undef .void, (m.set br (u8s (schedBytes 8 60 key ++ rk.drop 240))).set next t, next + 1)) ?_).bind ?_
  · rintro r x rfl ⟨t, rfl⟩
    exact ⟨t, rfl⟩
  · rintro _ ⟨t, rfl⟩
    have f : ∀ b, b < next → b ≠ br → ((m.set br (u8s (schedBytes 8 60 key ++ rk.drop 240))).set next t) b = m b := fun b e1 e2 => by
      rw [set_ne _ _ (by omega), set_ne _ _ e2]
    have r2 := AES256_ECB_ret (I := .c) (a := 0) (n := n) (pt := pt.drop ki) (ct := ct.drop ko) (key := key) (l := rk.drop 240)
      (by intro h; cases h) (by rw [List.length_drop]; omega) (by rw [List.length_drop]; omega)
    have r3 := text_ecb256 (d := d) (m := (m.set br (u8s (schedBytes 8 60 key ++ rk.drop 240))).set next t) hX hA
      (by rw [f bs s3 s5.2.1, s2]) (by rw [f bc c3 c5.2.1, c2]) (by rw [f bz z4 hbu.2.1]; exact z3) bi br bo (ofU8 (pt.take ki)) []
      (ofU8 (ct.take ko)) (pt.drop ki) (schedBytes 8 60 key ++ rk.drop 240) (ct.drop ko) (16 * n) hn
      (by rw [f bi l3 h2, hi, ← u8s_split]) (by rw [set_ne _ _ (by omega), set_same]; rfl) (by rw [f bo l4 h3, ho, ← u8s_split])
      h4 (Ne.symm h3) s5.2.2.2 c5.2.2.2 hbu.2.2.2 (Ne.symm hbu.2.1) s4 c4 (Ne.symm hbu.2.2.1) (next + 1)
    rw [length_take8 (by omega), length_take8 (by omega)] at r3
    refine ret_refines r3 r2 ?_
    rintro r x rfl ⟨z, -, rfl⟩
    rw [List.drop_drop]
    refine ⟨rfl, ?_, fun b e1 e2 e3 e4 => ?_⟩
    · dsimp only
      rw [set_ne _ _ (Ne.symm hbu.2.2.2), set_same, u8s_append]
    · dsimp only
      rw [set_ne _ _ e4, set_ne _ _ e2, f b e1 e3]

/-- C80, `AES256_free_schedule`: the text returns, and the 240 bytes of the schedule are zero. -/
theorem C80_free256 (br : Nat) (rk : List U8) (hr : m br = u8s rk) (hl : 240 ≤ rk.length) :
    Ret (aesFile.run (link aesFiles X d) "AES256_free_schedule" [.ptr br 0 false 1] m next)
      fun x => x = (.undef .void, m.set br (u8s (List.replicate 240 0 ++ rk.drop 240)), next) := by
  refine ret_refines (text_free256 br [] rk hr next) (C46_free256 rk hl) ?_
  rintro r x rfl rfl
  rfl

/-- C80, `AES128_ECB_enc_sch` for a length that is not a multiple of 16: the text calls `assert` with zero, and goes no further if this
does not return. -/
theorem C80_assert128 (bi br bo ki kr ko len : Nat) (hl : len < 2 ^ 64) (h : len % 16 ≠ 0)
    (hA : ∀ s n, X.call "assert" [.int s n 0] m next = .ub .assertFailed) :
    aesFile.run (link aesFiles X d) "AES128_ECB_enc_sch"
      [.ptr bi ki false 1, .int false 8 len, .ptr br kr false 1, .ptr bo ko false 1] m next = .ub .assertFailed := by
  have e1 : numOp .mod false 8 (len : Int) 16 = pure (.int false 8 (len % 16 : Nat)) := mod_size (by omega) 16 (by omega)
  have e2 : truth (decide (len % 16 = 0)) = 0 := by simp [truth, h]
  rw [run_eq aes_AES128_ECB_enc_sch, AES128_ECB_enc_schFun]
  csim [e1, link_extern (X := X) (d := d) no_assert (show "assert" ≠ "memset" by decide) (show "assert" ≠ "memcpy" by decide), e2, hA]
  rfl

/-- C80, `AES256_ECB_enc_sch` for a length that is not a multiple of 16: the text calls `assert` with zero, and goes no further if this
does not return. -/
theorem C80_assert256 (bi br bo ki kr ko len : Nat) (hl : len < 2 ^ 64) (h : len % 16 ≠ 0)
    (hA : ∀ s n, X.call "assert" [.int s n 0] m next = .ub .assertFailed) :
    aesFile.run (link aesFiles X d) "AES256_ECB_enc_sch"
      [.ptr bi ki false 1, .int false 8 len, .ptr br kr false 1, .ptr bo ko false 1] m next = .ub .assertFailed := by
  have e1 : numOp .mod false 8 (len : Int) 16 = pure (.int false 8 (len % 16 : Nat)) := mod_size (by omega) 16 (by omega)
  have e2 : truth (decide (len % 16 = 0)) = 0 := by simp [truth, h]
  rw [run_eq aes_AES256_ECB_enc_sch, AES256_ECB_enc_schFun]
  csim [e1, link_extern (X := X) (d := d) no_assert (show "assert" ≠ "memset" by decide) (show "assert" ≠ "memcpy" by decide), e2, hA]
  rfl

end

/-- A program for the examples: the tables in the blocks 5 and 6, `state` in the block 7. -/
def demoAes : Ctx where
  arch := .le
  glob x := if x = "sbox" then some (.ptr 5 0 false 1) else if x = "Rcon" then some (.ptr 6 0 false 1) else
    if x = "&state" then some (.ptr 7 0 false 1) else none
  junk _ i := 3 * i + 200
  call f args m next := if f = "assert" then
      match args with
      | [.int _ _ v] => if v = 0 then .ub .assertFailed else pure (.undef .void, m, next)
      | _ => .ub .assertFailed
    else .ub .oobRead

theorem demoAes_assert : Asserts demoAes := fun s n v m next h => by
  simp only [demoAes, if_true, if_neg h]
  exact ⟨_, _, rfl, rfl⟩

theorem demoAes_placed (m : Mem) (l : List Nat) (h5 : m 5 = u8s sbox) (h6 : m 6 = u8s rcon) (h7 : m 7 = ⟨false, 1, []⟩) (hl : ∀ b ∈ l, b < 5) :
    AesPlaced demoAes m 8 7 l where
  tables := by
    have h0 : aesCFile.globals.map (·.name) = ["sbox", "Rcon"] := by kernel_rfl
    intro x g hg
    have hx : x = "sbox" ∨ x = "Rcon" := by
      have h1 := List.find?_some hg
      have h2 : g.name ∈ aesCFile.globals.map (·.name) := List.mem_map_of_mem (List.mem_of_find?_eq_some hg)
      rw [h0] at h2
      have h3 : g.name = x := by simpa using h1
      rw [← h3]
      simpa using h2
    obtain ⟨e, e'⟩ := aes_globals
    rcases hx with rfl | rfl
    · rw [hg] at e
      simp only [Option.map_some, Option.some.injEq, Prod.mk.injEq] at e
      obtain ⟨h1, h2, h3, h4⟩ := e
      rw [if_pos h3, h1, h2, h4]
      exact ⟨5, rfl, h5⟩
    · rw [hg] at e'
      simp only [Option.map_some, Option.some.injEq, Prod.mk.injEq] at e'
      obtain ⟨h1, h2, h3, h4⟩ := e'
      rw [if_pos h3, h1, h2, h4]
      exact ⟨6, rfl, h6⟩
  local_ := rfl
  static := rfl
  cell := by rw [h7]; decide
  apart := fun b h => by
    rcases h with h | h <;> cases h
    · exact ⟨by decide, by decide, fun h => absurd (hl _ h) (by decide)⟩
    · exact ⟨by decide, by decide, fun h => absurd (hl _ h) (by decide)⟩
  bound := by decide
  buffers := fun h => absurd (hl _ h) (by decide)

/-- The memory of the examples: key, schedule, three blocks of plaintext after one byte, room for them, tables, `state`. -/
def demoAesMem (k r : Nat) : Mem := fun b =>
  if b = 1 then u8s (List.replicate k 3) else if b = 2 then u8s (List.replicate r 9) else if b = 3 then u8s (List.replicate 49 5) else
  if b = 4 then u8s (List.replicate 60 6) else if b = 5 then u8s sbox else if b = 6 then u8s rcon else ⟨false, 1, []⟩

theorem demo_apart : ∀ b ∈ [1, 2, 3, 4], b < 5 := by decide

example := C80_ecb128 demoAes 0 (demoAesMem 16 176) 8 7 demoAes_assert 1 2 3 4 1 2 3 (List.replicate 16 3) (List.replicate 176 9)
  (List.replicate 49 5) (List.replicate 60 6) (demoAes_placed _ _ rfl rfl rfl demo_apart) rfl rfl rfl rfl (by decide) (by decide)
  (by decide) (by decide) (by decide) (by decide) (by decide) (by decide) (by rw [List.length_replicate]) (by rw [List.length_replicate])
  (by rw [List.length_replicate] <;> decide) (by rw [List.length_replicate] <;> decide) (by decide)

example := C80_ecb256 demoAes 0 (demoAesMem 32 240) 8 7 demoAes_assert 1 2 3 4 1 2 3 (List.replicate 32 3) (List.replicate 240 9)
  (List.replicate 49 5) (List.replicate 60 6) (demoAes_placed _ _ rfl rfl rfl demo_apart) rfl rfl rfl rfl (by decide) (by decide)
  (by decide) (by decide) (by decide) (by decide) (by decide) (by decide) (by rw [List.length_replicate]) (by rw [List.length_replicate])
  (by rw [List.length_replicate] <;> decide) (by rw [List.length_replicate] <;> decide) (by decide)

example := C80_free128 demoAes 0 (demoAesMem 16 180) 8 2 (List.replicate 180 9) rfl (by rw [List.length_replicate] <;> decide)
example := C80_free256 demoAes 0 (demoAesMem 16 250) 8 2 (List.replicate 250 9) rfl (by rw [List.length_replicate] <;> decide)
example := C80_assert128 demoAes 0 (demoAesMem 16 176) 8 3 2 4 0 0 0 17 (by decide) (by decide) fun _ _ => rfl
example := C80_assert256 demoAes 0 (demoAesMem 32 240) 8 3 2 4 0 0 0 17 (by decide) (by decide) fun _ _ => rfl

end Frodo.Props
