import Verif.Proof.Aes

/-! # AES on natural numbers

A second formulation of the specification of AES, on natural numbers, that the kernel evaluates fast.  It is used for the
test vectors only. -/

namespace Frodo.AesFast
open Spec

/-- `f n`, with `n` evaluated first. -/
def force {α : Type} (n : Nat) (f : Nat → α) : α :=
  match n with
  | 0 => f 0
  | m + 1 => f (m + 1)

theorem force_eq {α : Type} (n : Nat) (f : Nat → α) : force n f = f n := by cases n <;> rfl

/-- The S-box in one number (/repo/src/aes/aes_c.c, `sbox`). -/
def sboxN : Nat :=
  0x16bb54b00f2d99416842e6bf0d89a18cdf2855cee9871e9b948ed9691198f8e19e1dc186b95735610ef6034866b53e708a8bbd4b1f74dde8c6b4a61c2e2578ba08ae7a65eaf4566ca94ed58d6d37c8e779e4959162acd3c25c2406490a3a32e0db0b5ede14b8ee4688902a22dc4f816073195d643d7ea7c41744975fec130ccdd2f3ff1021dab6bcf5389d928f40a351a89f3c507f02f94585334d43fbaaefd0cf584c4a39becb6a5bb1fc20ed00d153842fe329b3d63b52a05a6e1b1a2c830975b227ebe28012079a059618c323c7041531d871f1e5a534ccf73f362693fdb7c072a49cafa2d4adf04759fa7dc982ca76abd7fe2b670130c56f6bf27b777c63

/-- Four bytes. -/
structure W4 where
  (a b c d : Nat)

/-- Four columns. -/
structure S4 where
  (a b c d : W4)

def W4.force {α : Type} (w : W4) (f : W4 → α) : α :=
  AesFast.force w.a fun a => AesFast.force w.b fun b => AesFast.force w.c fun c => AesFast.force w.d fun d => f ⟨a, b, c, d⟩

def S4.force {α : Type} (s : S4) (f : S4 → α) : α :=
  s.a.force fun a => s.b.force fun b => s.c.force fun c => s.d.force fun d => f ⟨a, b, c, d⟩

theorem W4.force_eq {α : Type} (w : W4) (f : W4 → α) : w.force f = f w := by
  simp only [W4.force, AesFast.force_eq]

theorem S4.force_eq {α : Type} (s : S4) (f : S4 → α) : s.force f = f s := by
  simp only [S4.force, W4.force_eq]

def ofW (w : AWord) : W4 := ⟨(w 0).toNat, (w 1).toNat, (w 2).toNat, (w 3).toNat⟩

def ofS (s : AState) : S4 := ⟨ofW fun r => s r 0, ofW fun r => s r 1, ofW fun r => s r 2, ofW fun r => s r 3⟩

def subN (x : Nat) : Nat := (sboxN >>> (8 * x)) % 256

def xtN (x : Nat) : Nat := bif Nat.blt x 128 then 2 * x else (2 * x) ^^^ 0x11b

def W4.sub (w : W4) : W4 := ⟨subN w.a, subN w.b, subN w.c, subN w.d⟩

def W4.rot (w : W4) : W4 := ⟨w.b, w.c, w.d, w.a⟩

def W4.xor (v w : W4) : W4 := ⟨v.a ^^^ w.a, v.b ^^^ w.b, v.c ^^^ w.c, v.d ^^^ w.d⟩

def W4.mix (w : W4) : W4 :=
  ⟨xtN w.a ^^^ (xtN w.b ^^^ w.b) ^^^ w.c ^^^ w.d, w.a ^^^ xtN w.b ^^^ (xtN w.c ^^^ w.c) ^^^ w.d,
    w.a ^^^ w.b ^^^ xtN w.c ^^^ (xtN w.d ^^^ w.d), (xtN w.a ^^^ w.a) ^^^ w.b ^^^ w.c ^^^ xtN w.d⟩

def S4.sub (s : S4) : S4 := ⟨s.a.sub, s.b.sub, s.c.sub, s.d.sub⟩

def S4.shift (s : S4) : S4 :=
  ⟨⟨s.a.a, s.b.b, s.c.c, s.d.d⟩, ⟨s.b.a, s.c.b, s.d.c, s.a.d⟩, ⟨s.c.a, s.d.b, s.a.c, s.b.d⟩, ⟨s.d.a, s.a.b, s.b.c, s.c.d⟩⟩

def S4.mix (s : S4) : S4 := ⟨s.a.mix, s.b.mix, s.c.mix, s.d.mix⟩

def S4.xor (s k : S4) : S4 := ⟨s.a.xor k.a, s.b.xor k.b, s.c.xor k.c, s.d.xor k.d⟩

theorem subN_eq (x : U8) : subN x.toNat = (SBox x).toNat := by
  rw [← nth_sbox]
  refine all_u8 (p := fun x => subN x.toNat = (nth sbox x.toNat).toNat) ?_ x
  decide +kernel

theorem xtN_eq (x : U8) : xtN x.toNat = (xtime x).toNat := by
  refine all_u8 (p := fun x => xtN x.toNat = (xtime x).toNat) ?_ x
  decide +kernel

theorem ofW_sub (w : AWord) : ofW (SubWord w) = (ofW w).sub := by
  simp only [ofW, SubWord, W4.sub, subN_eq]

theorem ofW_rot (w : AWord) : ofW (RotWord w) = (ofW w).rot := rfl

theorem ofW_xor (v w : AWord) : ofW (xorWord v w) = (ofW v).xor (ofW w) := by
  simp only [ofW, xorWord, W4.xor, BitVec.toNat_xor]

theorem ofS_sub (s : AState) : ofS (SubBytes s) = (ofS s).sub := by
  simp only [ofS, ofW, SubBytes, S4.sub, W4.sub, subN_eq]

theorem ofS_shift (s : AState) : ofS (ShiftRows s) = (ofS s).shift := rfl

theorem ofS_mix (s : AState) : ofS (MixColumns s) = (ofS s).mix := by
  simp only [ofS, ofW, MixColumns, S4.mix, W4.mix, xtN_eq, gmul_two, gmul_three, BitVec.toNat_xor]

/-- The key of a round. -/
def keyS (w : Nat → AWord) (k : Nat) : S4 := ⟨ofW (w (4 * k)), ofW (w (4 * k + 1)), ofW (w (4 * k + 2)), ofW (w (4 * k + 3))⟩

theorem ofS_add (s : AState) (w : Nat → AWord) (k : Nat) : ofS (AddRoundKey s w k) = (ofS s).xor (keyS w k) := by
  simp only [ofS, ofW, AddRoundKey, S4.xor, W4.xor, keyS, BitVec.toNat_xor]
  rfl

/-- The rounds. -/
def rounds : List S4 → S4 → S4
  | [], s => s
  | k :: ks, s =>
    match ks with
    | [] => s.sub.shift.xor k
    | _ :: _ => (s.sub.shift.mix.xor k).force (rounds ks)

theorem rounds_eq (w : Nat → AWord) (e : Nat) (s : AState) (n a : Nat) :
    rounds ((List.range' a n).map (keyS w) ++ [keyS w e]) (ofS s) = ofS (AddRoundKey (ShiftRows (SubBytes
      ((List.range' a n).foldl (fun s k => AddRoundKey (MixColumns (ShiftRows (SubBytes s))) w k) s))) w e) := by
  induction n generalizing a s with
  | zero => simp only [List.range'_zero, List.map_nil, List.nil_append, rounds, List.foldl_nil, ofS_add, ofS_shift, ofS_sub]
  | succ n ih =>
    have h := ih (AddRoundKey (MixColumns (ShiftRows (SubBytes s))) w a) (a + 1)
    simp only [List.range'_succ, List.map_cons, List.foldl_cons, List.cons_append]
    rw [← h]
    generalize hl : (List.range' (a + 1) n).map (keyS w) ++ [keyS w e] = l
    cases l with
    | nil => simp at hl
    | cons x l => simp only [rounds, S4.force_eq, ofS_add, ofS_mix, ofS_shift, ofS_sub]

/-- The next word of the schedule, from the words before it, last first. -/
def next (Nk i : Nat) (ws : List W4) : W4 :=
  let t := ws.headD ⟨0, 0, 0, 0⟩
  let t := bif Nat.beq (i % Nk) 0 then t.rot.sub.xor (ofW (Rcon (i / Nk)))
    else bif Nat.blt 6 Nk && Nat.beq (i % Nk) 4 then t.sub else t
  (ws.getD (Nk - 1) ⟨0, 0, 0, 0⟩).xor t

def expand (Nk : Nat) : Nat → Nat → List W4 → List W4
  | 0, _, ws => ws
  | n + 1, i, ws => (next Nk i ws).force fun w => expand Nk n (i + 1) (w :: ws)

/-- The words `0 … i-1`, last first. -/
def upTo (w : Nat → AWord) : Nat → List W4
  | 0 => []
  | i + 1 => ofW (w i) :: upTo w i

theorem upTo_get (w : Nat → AWord) (i k : Nat) (h : k < i) : (upTo w i).getD k ⟨0, 0, 0, 0⟩ = ofW (w (i - 1 - k)) := by
  induction i generalizing k with
  | zero => omega
  | succ i ih =>
    cases k with
    | zero => rfl
    | succ k =>
      show (upTo w i).getD k _ = _
      rw [ih k (by omega), show i + 1 - 1 - (k + 1) = i - 1 - k by omega]

theorem next_eq (Nk : Nat) (key : List U8) (i : Nat) (h0 : 0 < Nk) (hi : Nk ≤ i) :
    next Nk i (upTo (keyWord Nk key) i) = ofW (keyWord Nk key i) := by
  have h1 : (upTo (keyWord Nk key) i).headD ⟨0, 0, 0, 0⟩ = ofW (keyWord Nk key (i - 1)) := by
    have := upTo_get (keyWord Nk key) i 0 (by omega)
    rw [Nat.sub_zero] at this
    rw [← this]
    cases upTo (keyWord Nk key) i <;> rfl
  have e := keyWord.eq_1 Nk key i
  rw [dif_neg (by omega)] at e
  rw [e]
  unfold next
  simp only [h1, upTo_get _ _ (Nk - 1) (show Nk - 1 < i by omega), show i - 1 - (Nk - 1) = i - Nk by omega, ofW_xor]
  congr 1
  by_cases c1 : i % Nk = 0
  · rw [if_pos c1, c1, ofW_xor, ofW_sub, ofW_rot]; rfl
  · rw [if_neg c1, show Nat.beq (i % Nk) 0 = false from by rw [Bool.eq_false_iff]; exact fun h => c1 (Nat.eq_of_beq_eq_true h), cond_false]
    by_cases c2 : 6 < Nk ∧ i % Nk = 4
    · rw [if_pos c2, c2.2, show Nat.blt 6 Nk = true from by rw [Nat.blt_eq]; exact c2.1, ofW_sub]; rfl
    · rw [if_neg c2]
      have : (Nat.blt 6 Nk && Nat.beq (i % Nk) 4) = false := by
        rw [Bool.eq_false_iff]
        intro h
        rw [Bool.and_eq_true, Nat.blt_eq] at h
        exact c2 ⟨h.1, Nat.eq_of_beq_eq_true h.2⟩
      rw [this, cond_false]

theorem expand_eq (Nk : Nat) (key : List U8) (h0 : 0 < Nk) (n i : Nat) (hi : Nk ≤ i) :
    expand Nk n i (upTo (keyWord Nk key) i) = upTo (keyWord Nk key) (i + n) := by
  induction n generalizing i with
  | zero => rfl
  | succ n ih =>
    rw [expand, W4.force_eq, next_eq Nk key i h0 hi]
    exact (ih (i + 1) (by omega)).trans (by rw [show i + 1 + n = i + (n + 1) by omega])

/-- The words of the key, evaluated. -/
def first (key : List U8) : Nat → List W4 → List W4
  | 0, ws => ws
  | n + 1, ws => (W4.mk (nth key (4 * n)).toNat (nth key (4 * n + 1)).toNat (nth key (4 * n + 2)).toNat
      (nth key (4 * n + 3)).toNat).force fun w => first key n (ws ++ [w])

theorem first_eq (Nk : Nat) (key : List U8) (n : Nat) (hn : n ≤ Nk) (ws : List W4) :
    first key n ws = ws ++ upTo (keyWord Nk key) n := by
  induction n generalizing ws with
  | zero => simp [first, upTo]
  | succ n ih =>
    rw [first, W4.force_eq, ih (by omega), upTo, List.append_assoc]
    congr 1
    have e := keyWord.eq_1 Nk key n
    rw [dif_pos (Or.inl (by omega))] at e
    rw [e]
    rfl

/-- Four words make the key of a round; the list has the last word first. -/
def group : List W4 → List S4 → List S4
  | d :: c :: b :: a :: ws, ks => group ws (⟨a, b, c, d⟩ :: ks)
  | _, ks => ks

theorem group_eq (w : Nat → AWord) (n : Nat) (ks : List S4) :
    group (upTo w (4 * n)) ks = (List.range' 0 n).map (keyS w) ++ ks := by
  induction n generalizing ks with
  | zero => rfl
  | succ n ih =>
    rw [show 4 * (n + 1) = 4 * n + 3 + 1 by omega]
    show group (upTo w (4 * n)) (keyS w n :: ks) = _
    rw [ih, List.range'_concat]
    simp

def S4.bytes (s : S4) : List Nat :=
  [s.a.a, s.a.b, s.a.c, s.a.d, s.b.a, s.b.b, s.b.c, s.b.d, s.c.a, s.c.b, s.c.c, s.c.d, s.d.a, s.d.b, s.d.c, s.d.d]

theorem bytes_eq (s : AState) : (bytesOfState s).map BitVec.toNat = (ofS s).bytes := rfl

/-- AES. -/
def aesN (Nk : Nat) (key block : List U8) : List Nat :=
  match group (expand Nk (4 * (Nk + 7) - Nk) Nk (first key Nk [])) [] with
  | [] => []
  | k :: ks => S4.bytes (S4.force ((ofS (stateOfBytes block)).force fun s => s.xor k) (rounds ks))

theorem aesN_eq (Nk : Nat) (key block : List U8) (h0 : 0 < Nk) :
    aesN Nk key block = (aes Nk key block).map BitVec.toNat := by
  unfold aesN
  rw [first_eq Nk key Nk (Nat.le_refl _), List.nil_append, expand_eq Nk key h0 _ _ (Nat.le_refl _),
    show Nk + (4 * (Nk + 7) - Nk) = 4 * (Nk + 7) by omega, group_eq, List.append_nil, show Nk + 7 = Nk + 5 + 1 + 1 by omega,
    List.range'_succ, List.range'_concat]
  simp only [List.map_cons, List.map_append, List.map_nil, S4.force_eq]
  have e := rounds_eq (keyWord Nk key) (Nk + 6) (AddRoundKey (stateOfBytes block) (keyWord Nk key) 0) (Nk + 5) 1
  rw [ofS_add] at e
  have hc : ∀ s (w : Nat → AWord), Cipher (Nk + 6) s w = AddRoundKey (ShiftRows (SubBytes
      ((List.range' 1 (Nk + 5)).foldl (fun s k => AddRoundKey (MixColumns (ShiftRows (SubBytes s))) w k)
        (AddRoundKey s w 0)))) w (Nk + 6) := by
    intro s w
    unfold Cipher
    simp only [show Nk + 6 - 1 = Nk + 5 from rfl, List.range'_eq_map_range, List.foldl_map, Nat.add_comm 1]
  rw [show 0 + 1 + 1 * (Nk + 5) = Nk + 6 by omega, show 0 + 1 = 1 from rfl, e, aes, hc, bytes_eq]

theorem map_toNat_inj {l v : List U8} (h : l.map BitVec.toNat = v.map BitVec.toNat) : l = v :=
  List.map_injective_iff.2 (fun _ _ => BitVec.eq_of_toNat_eq) h

theorem AES128_eval {key block v : List U8} (h : aesN 4 key block = v.map BitVec.toNat) : AES128 key block = v :=
  map_toNat_inj ((aesN_eq 4 key block (Nat.succ_pos _)).symm.trans h)

theorem AES256_eval {key block v : List U8} (h : aesN 8 key block = v.map BitVec.toNat) : AES256 key block = v :=
  map_toNat_inj ((aesN_eq 8 key block (Nat.succ_pos _)).symm.trans h)

set_option maxRecDepth 100000 in
example : AES256 [0x00, 0x01, 0x02, 0x03, 0x04, 0x05, 0x06, 0x07, 0x08, 0x09, 0x0a,
      0x0b, 0x0c, 0x0d, 0x0e, 0x0f, 0x10, 0x11, 0x12, 0x13, 0x14, 0x15, 0x16, 0x17, 0x18, 0x19, 0x1a,
      0x1b, 0x1c, 0x1d, 0x1e, 0x1f]
    [0x00, 0x11, 0x22, 0x33, 0x44, 0x55, 0x66, 0x77, 0x88, 0x99, 0xaa, 0xbb, 0xcc, 0xdd, 0xee,
      0xff] =
    [0x8e, 0xa2, 0xb7, 0xca, 0x51, 0x67, 0x45, 0xbf, 0xea, 0xfc, 0x49, 0x90, 0x4b, 0x49, 0x60,
      0x89] :=
  AES256_eval (by decide +kernel)

end Frodo.AesFast
