import Verif.Proof.Invert
import Verif.Proof.SnP4Fast
import Verif.Proof.AesNi
import Verif.Proof.Vectors
import Verif.Spec.GenA
import Verif.Props.Keccak4x
import Verif.Props.Aes

/-! # C69: AES can be decrypted, and the blocks of A never repeat; C70: Keccak is a permutation -/

namespace Frodo.Props

open Spec

/-! ## C69 -/

theorem length_aes (Nk : Nat) (key b : List U8) : (aes Nk key b).length = 16 := length_bytesOfState _

theorem ecb_inverse {f g : List U8 → List U8} (hf : ∀ b, (f b).length = 16) (hg : ∀ b, b.length = 16 → g (f b) = b)
    (n : Nat) (pt : List U8) (h : 16 * n ≤ pt.length) : ecb g n (ecb f n pt) = pt.take (16 * n) := by
  have hl : ∀ n, (ecb f n pt).length = 16 * n := by
    intro n
    induction n with
    | zero => rfl
    | succ n ih =>
      unfold ecb at ih ⊢
      rw [List.range_succ, List.flatMap_append, List.length_append, ih, List.flatMap_cons, List.flatMap_nil,
        List.append_nil, hf]
      omega
  induction n with
  | zero => rfl
  | succ n ih =>
    have e : ecb f (n + 1) pt = ecb f n pt ++ f ((pt.drop (16 * n)).take 16) := by
      unfold ecb
      rw [List.range_succ, List.flatMap_append, List.flatMap_cons, List.flatMap_nil, List.append_nil]
    have e2 : ∀ (l b : List U8), l.length = 16 * n → b.length = 16 → ecb g (n + 1) (l ++ b) = ecb g n l ++ g b := by
      intro l b h1 h2
      unfold ecb
      rw [List.range_succ, List.flatMap_append, List.flatMap_cons, List.flatMap_nil, List.append_nil]
      congr 1
      · simp only [List.flatMap]
        congr 1
        apply List.map_congr_left
        intro i hi
        rw [List.mem_range] at hi
        rw [List.drop_append_of_le_length (by omega), List.take_append_of_le_length (by simp; omega)]
      · rw [← h1, List.drop_left, List.take_of_length_le (by omega)]
    rw [e, e2 _ _ (hl n) (hf _), ih (by omega), hg _ (by simp; omega), show 16 * (n + 1) = 16 * n + 16 by omega,
      List.take_add]

theorem ecb_aesInv (Nk : Nat) (key : List U8) (n : Nat) (pt : List U8) (h : 16 * n ≤ pt.length) :
    ecb (aesInv Nk key) n (ecb (aes Nk key) n pt) = pt.take (16 * n) :=
  ecb_inverse (length_aes Nk key) (fun _ => aesInv_aes Nk key) n pt h

/-- C69.  What the portable code and the AES-NI code encrypt with AES-128, the decryption of FIPS 197 decrypts: for every
key, number of blocks and contents. -/
theorem C69_decrypt128 (I : AesImpl) (J : Junk) (a n : Nat) (key rk pt ct : List U8)
    (ha : I.aligned a) (hk : key.length = 16) (hrk : rk.length = 176)
    (hpt : 16 * n ≤ pt.length) (hct : 16 * n = ct.length) :
    Ret (do let rk ← AES128_load_schedule I J a key rk
            AES128_ECB_enc_sch I a pt (16 * n) rk ct)
      (fun c => ecb (aesInv 4 key) n c = pt.take (16 * n)) := by
  refine (C39_ecb128 I J a n key rk pt ct ha hk hrk hpt (by omega)).mono fun c hc => ?_
  rw [hc, List.drop_eq_nil_of_le (by omega), List.append_nil]
  exact ecb_aesInv 4 key n pt hpt

/-- C69 for AES-256, the cipher of the known answer generator. -/
theorem C69_decrypt256 (I : AesImpl) (J : Junk) (a n : Nat) (key rk pt ct : List U8)
    (ha : I.aligned a) (hk : key.length = 32) (hrk : rk.length = 240)
    (hpt : 16 * n ≤ pt.length) (hct : 16 * n = ct.length) :
    Ret (do let rk ← AES256_load_schedule I J a key rk
            AES256_ECB_enc_sch I a pt (16 * n) rk ct)
      (fun c => ecb (aesInv 8 key) n c = pt.take (16 * n)) := by
  refine (C39_ecb256 I J a n key rk pt ct ha hk hrk hpt (by omega)).mono fun c hc => ?_
  rw [hc, List.drop_eq_nil_of_le (by omega), List.append_nil]
  exact ecb_aesInv 8 key n pt hpt

/-- C69.  Even with a schedule that is no expanded key, two different blocks are never encrypted to the same one. -/
theorem C69_injective (inp inp' sch out : List U8) (hi : inp.length = 16) (hi' : inp'.length = 16)
    (hs : 176 ≤ sch.length) (ho : 16 ≤ out.length) (v : List U8)
    (h : Ret (aes128_enc_c inp sch out) (· = v)) (h' : Ret (aes128_enc_c inp' sch out) (· = v)) : inp = inp' := by
  have e := (h.unique (aes128_enc_c_ret (by omega) hs ho)).symm.trans (h'.unique (aes128_enc_c_ret (by omega) hs ho))
  have e1 := List.append_cancel_right e
  have e2 := congrArg (fun b => InvCipher 10 (stateOfBytes b) (schedWords sch)) e1
  simp only [stateOfBytes_bytesOfState, InvCipher_Cipher] at e2
  rw [← bytesOfState_stateOfBytes hi, ← bytesOfState_stateOfBytes hi', e2]

instance (w : Nat) : Finite (BitVec w) := Finite.of_injective (BitVec.toFin : BitVec w → Fin (2 ^ w)) fun a b h => by
  cases a; cases b; exact congrArg _ h

/-- A function on arrays of `n` words that always returns an array of `n` words and never the same one for two
arrays returns every array for exactly one. -/
theorem permutes_of_injective {w n : Nat} (m : List (BitVec w) → C (List (BitVec w)))
    (hm : ∀ s, s.length = n → Ret (m s) (fun t => t.length = n))
    (hi : ∀ s s' t, s.length = n → s'.length = n → Ret (m s) (· = t) → Ret (m s') (· = t) → s = s') :
    ∀ t : List (BitVec w), t.length = n → ∃! s, s.length = n ∧ Ret (m s) (· = t) := by
  have : ∀ s : List.Vector (BitVec w) n, ∃ t : List.Vector (BitVec w) n, Ret (m s.1) (· = t.1) := by
    rintro ⟨s, hs⟩
    obtain ⟨t, tr, h1, h2⟩ := hm s hs
    exact ⟨⟨t, h2⟩, t, tr, h1, rfl⟩
  choose f hf using this
  have hinj : Function.Injective f := fun a b hab =>
    Subtype.ext (hi a.1 b.1 (f a).1 a.2 b.2 (hf a) (by rw [hab]; exact hf b))
  have hsur := (Finite.injective_iff_surjective.1 hinj)
  intro t ht
  obtain ⟨s, hs⟩ := hsur ⟨t, ht⟩
  refine ⟨s.1, ⟨s.2, by have := hf s; rwa [hs] at this⟩, ?_⟩
  rintro s' ⟨h1, h2⟩
  refine hi s' s.1 t h1 s.2 h2 ?_
  have := hf s
  rwa [hs] at this

/-- C69.  With every schedule the encryption of a block is a permutation of the blocks, by the portable code and with
AES-NI. -/
theorem C69_permutation (sch out : List U8) (hs : sch.length = 176) (ho : out.length = 16) (c : List U8) (hc : c.length = 16) :
    (∃! b, b.length = 16 ∧ Ret (aes128_enc_c b sch out) (· = c)) ∧
    ∀ a, a % 16 = 0 → ∃! b, b.length = 16 ∧ Ret (aes128_enc_ni a b sch out) (· = c) := by
  constructor
  · refine permutes_of_injective (fun b => aes128_enc_c b sch out) (fun b hb => ?_) (fun b b' t hb hb' h h' =>
      C69_injective b b' sch out hb hb' (by omega) (by omega) t h h') c hc
    refine (aes128_enc_c_ret (by omega) (by omega) (by omega)).mono fun t ht => ?_
    rw [ht, List.length_append, length_bytesOfState, List.length_drop, ho]
  · intro a ha
    have hn : ∀ b, b.length = 16 → Ret (aes128_enc_ni a b sch out) (· = bytesOfState (Cipher 10 (stateOfBytes b) (schedWords sch)) ++ out.drop 16) :=
      fun b hb => aes128_enc_ni_ret ha (by omega) (by omega) (by omega)
    refine permutes_of_injective (fun b => aes128_enc_ni a b sch out) (fun b hb => ?_) (fun b b' t hb hb' h h' => ?_) c hc
    · refine (hn b hb).mono fun t ht => ?_
      rw [ht, List.length_append, length_bytesOfState, List.length_drop, ho]
    · have e := h.unique (hn b hb)
      have e' := h'.unique (hn b' hb')
      refine C69_injective b b' sch out hb hb' (by omega) (by omega) t ?_ ?_
      · rw [e]; exact aes128_enc_c_ret (by omega) (by omega) (by omega)
      · rw [e']; exact aes128_enc_c_ret (by omega) (by omega) (by omega)

theorem nth_eq_of_word16 {c c' : List U8} (hc : c.length = 16) (hc' : c'.length = 16)
    (h : ∀ t, t < 8 → word16 c t = word16 c' t) : c = c' := by
  apply ext_nth (by omega)
  intro i hi
  have := h (i / 2) (by omega)
  unfold word16 at this
  have b1 := (nth c (2 * (i / 2))).isLt
  have b2 := (nth c' (2 * (i / 2))).isLt
  apply BitVec.eq_of_toNat_eq
  by_cases c0 : i % 2 = 0
  · rw [show 2 * (i / 2) = i by omega] at this b1 b2
    omega
  · rw [show 2 * (i / 2) + 1 = i by omega] at this
    omega

theorem block_inj {i i' k k' : Nat} (hi : i < 65536) (hi' : i' < 65536) (hk : k < 65536) (hk' : k' < 65536)
    (h : le16 i ++ le16 k ++ List.replicate 12 (0 : U8) = le16 i' ++ le16 k' ++ List.replicate 12 0) :
    i = i' ∧ k = k' := by
  have h1 := List.append_cancel_right h
  simp only [le16, List.cons_append, List.nil_append, List.cons.injEq, and_true] at h1
  obtain ⟨h1, h2, h3, h4⟩ := h1
  have f : ∀ a b : Nat, BitVec.ofNat 8 a = BitVec.ofNat 8 b → a % 256 = b % 256 := by
    intro a b hab
    simpa using congrArg BitVec.toNat hab
  have := f _ _ h1
  have := f _ _ h2
  have := f _ _ h3
  have := f _ _ h4
  omega

/-- C69.  With AES the blocks of eight entries of which `A` consists are pairwise different before the reduction
modulo `q`, for every seed. -/
theorem C69_words (n : Nat) (hn : n ≤ 65536) (seedA : List U8) {i i' j j' : Nat} (hi : i < n) (hi' : i' < n)
    (hj : 8 * j < n) (hj' : 8 * j' < n)
    (h : ∀ t, t < 8 → genWord .aes n seedA i (8 * j + t) = genWord .aes n seedA i' (8 * j' + t)) : i = i' ∧ j = j' := by
  have e : AES128 seedA (le16 i ++ le16 (8 * j) ++ List.replicate 12 0) =
      AES128 seedA (le16 i' ++ le16 (8 * j') ++ List.replicate 12 0) := by
    refine nth_eq_of_word16 (length_aes _ _ _) (length_aes _ _ _) fun t ht => ?_
    have := h t ht
    simp only [genWord] at this
    rwa [show (8 * j + t) / 8 = j by omega, show (8 * j' + t) / 8 = j' by omega, show (8 * j + t) % 8 = t by omega,
      show (8 * j' + t) % 8 = t by omega] at this
  have e2 := congrArg (aesInv 4 seedA) e
  unfold AES128 at e2
  rw [aesInv_aes _ _ (by simp [le16]), aesInv_aes _ _ (by simp [le16])] at e2
  have := block_inj (by omega) (by omega) (by omega) (by omega) e2
  omega

/-- C69.  In FrodoKEM-976 and FrodoKEM-1344, where `q = 2^16`, the matrix `A` made with AES never has the same eight
entries in two places that begin at multiples of eight: a uniform matrix can.  In particular its rows are different. -/
theorem C69_blocks (n : Nat) (hn : n ≤ 65536) (h8 : n % 8 = 0) (seedA : List U8) {i i' : Fin n} {j j' : Nat} (hj : 8 * j < n)
    (hj' : 8 * j' < n)
    (h : ∀ t, (ht : t < 8) → genA .aes 16 n seedA i ⟨8 * j + t, by omega⟩ = genA .aes 16 n seedA i' ⟨8 * j' + t, by omega⟩) :
    i = i' ∧ j = j' := by
  have hw : ∀ i j, genWord .aes n seedA i j < 2 ^ 16 := by
    intro i j
    unfold genWord word16
    generalize AES128 seedA _ = c
    simp only
    have b1 := (nth c (2 * (j % 8))).isLt
    have b2 := (nth c (2 * (j % 8) + 1)).isLt
    omega
  have := C69_words n hn seedA i.isLt i'.isLt hj hj' fun t ht => by
    have := h t ht
    simp only [genA, Matrix.of_apply] at this
    rw [ZMod.natCast_eq_natCast_iff'] at this
    rwa [Nat.mod_eq_of_lt (hw _ _), Nat.mod_eq_of_lt (hw _ _)] at this
  exact ⟨Fin.ext this.1, this.2⟩

/-- The rows of `A` in FrodoKEM-976 and FrodoKEM-1344 are pairwise different. -/
example (seedA : List U8) (i i' : Fin 976) (h : genA .aes 16 976 seedA i = genA .aes 16 976 seedA i') : i = i' :=
  (C69_blocks 976 (by decide) (by decide) seedA (j := 0) (j' := 0) (by decide) (by decide) fun _ _ => congrFun h _).1

/-- The ciphertext of FIPS 197, appendix C.1. -/
example : aesInv 4 [0x00, 0x01, 0x02, 0x03, 0x04, 0x05, 0x06, 0x07, 0x08, 0x09, 0x0a, 0x0b, 0x0c, 0x0d, 0x0e, 0x0f]
    [0x69, 0xc4, 0xe0, 0xd8, 0x6a, 0x7b, 0x04, 0x30, 0xd8, 0xcd, 0xb7, 0x80, 0x70, 0xb4, 0xc5, 0x5a] =
    [0x00, 0x11, 0x22, 0x33, 0x44, 0x55, 0x66, 0x77, 0x88, 0x99, 0xaa, 0xbb, 0xcc, 0xdd, 0xee, 0xff] := by
  rw [← AES128_fips]
  exact aesInv_aes 4 _ rfl

/-! ## C70 -/

theorem kstate_inj {s s' : List U64} (h : s.length = 25) (h' : s'.length = 25) (e : kstate s = kstate s') : s = s' := by
  apply ext_nth (by omega)
  intro i hi
  apply BitVec.eq_of_getLsbD_eq
  intro b hb
  have := congrFun (congrFun (congrFun e (Fin.ofNat 5 i)) (Fin.ofNat 5 (i / 5))) ⟨b, hb⟩
  simp only [kstate, LState.bits, lanesOf, Fin.ofNat] at this
  rwa [show 5 * (i / 5 % 5) + i % 5 = i by omega] at this

theorem sbits_inj {s s' : List U64} (h : s.length = 25) (h' : s'.length = 25) (e : sbits s = sbits s') : s = s' :=
  kstate_inj h h' (by rw [← stateOfBits_sbits, ← stateOfBits_sbits, e])

theorem inst_inj {s s' : List U64} (h : s.length = 100) (h' : s'.length = 100) (e : ∀ t, inst t s = inst t s') : s = s' := by
  apply ext_nth (by omega)
  intro i hi
  have := congrArg (fun l => nth l (i / 4)) (e ⟨i % 4, by omega⟩)
  rw [nth_inst _ _ (by omega), nth_inst _ _ (by omega)] at this
  rwa [show 4 * (i / 4) + i % 4 = i by omega] at this

/-- C70.  `KeccakF1600_StatePermute` is a permutation of the states: every state is the result for exactly one. -/
theorem C70_keccakf (t : List U64) (ht : t.length = 25) :
    ∃! s, s.length = 25 ∧ Ret (KeccakF1600_StatePermute s) (· = t) := by
  refine permutes_of_injective _ (fun s hs => (KeccakF_ret hs).mono fun _ h => h.1) ?_ t ht
  intro s s' t hs hs' h h'
  obtain ⟨x, u, hx, -, h1⟩ := KeccakF_ret hs
  obtain ⟨x', u', hx', -, h1'⟩ := KeccakF_ret hs'
  have e := h.unique ⟨x, u, hx, rfl⟩
  have e' := h'.unique ⟨x', u', hx', rfl⟩
  subst e e'
  exact kstate_inj hs hs' ((rounds_bijective (List.range 24)).1 (h1.symm.trans h1'))

theorem keccakPbits_inj {nr : Nat} {s s' : List U64} (hs : s.length = 25) (hs' : s'.length = 25)
    (h : keccakPbits nr (sbits s) = keccakPbits nr (sbits s')) : s = s' := by
  unfold keccakPbits keccakPn at h
  rw [stateOfBits_sbits, stateOfBits_sbits] at h
  have hb : ∀ A B : KState, bitsOfState A = bitsOfState B → A = B := by
    intro A B e
    funext x y z
    have := congrArg (fun l => l.getD (64 * (5 * y.val + x) + z) false) e
    unfold bitsOfState at this
    rw [getD_range_map, getD_range_map] at this
    have hx := x.isLt
    have hy := y.isLt
    have hz := z.isLt
    rw [if_pos (by omega), if_pos (by omega)] at this
    have e1 : Fin.ofNat 5 ((64 * (5 * y.val + x) + z) / 64) = x := Fin.ext (by simp only [Fin.ofNat]; omega)
    have e2 : Fin.ofNat 5 ((64 * (5 * y.val + x) + z) / 64 / 5) = y := Fin.ext (by simp only [Fin.ofNat]; omega)
    have e3 : Fin.ofNat 64 (64 * (5 * y.val + x) + z) = z := Fin.ext (by simp only [Fin.ofNat]; omega)
    rwa [e1, e2, e3] at this
  have := hb _ _ h
  exact kstate_inj hs hs' ((rounds_bijective ((List.range nr).map fun i => 24 - nr + i)).1
    (by simpa only [List.foldl_map] using this))

/-- C70.  The permutation of four states is a permutation of the 100 words. -/
theorem C70_times4 {E : Env} (hE : E.addr .rho8 % 32 = 0 ∧ E.addr .rho56 % 32 = 0) (t : List U64) (ht : t.length = 100) :
    (∃! s, s.length = 100 ∧ Ret (KeccakP1600times4_PermuteAll_24rounds E s) (· = t)) ∧
    ∃! s, s.length = 100 ∧ Ret (KeccakP1600times4_PermuteAll_12rounds E s) (· = t) := by
  constructor
  · refine permutes_of_injective _ (fun s hs => (PermuteAll_ret hE hs).mono fun _ h => h.1) ?_ t ht
    intro s s' t hs hs' h h'
    obtain ⟨x, u, hx, -, h1⟩ := PermuteAll_kstate hE hs
    obtain ⟨x', u', hx', -, h1'⟩ := PermuteAll_kstate hE hs'
    have e := h.unique ⟨x, u, hx, rfl⟩
    have e' := h'.unique ⟨x', u', hx', rfl⟩
    subst e e'
    exact inst_inj hs hs' fun t => kstate_inj (length_inst _ _) (length_inst _ _)
      ((rounds_bijective (List.range 24)).1 ((h1 t).symm.trans (h1' t)))
  · refine permutes_of_injective _ (fun s hs => (Permute12_ret hE hs).mono fun _ h => h.1) ?_ t ht
    intro s s' t hs hs' h h'
    obtain ⟨x, u, hx, -, h1⟩ := Permute12_ret hE hs
    obtain ⟨x', u', hx', -, h1'⟩ := Permute12_ret hE hs'
    have e := h.unique ⟨x, u, hx, rfl⟩
    have e' := h'.unique ⟨x', u', hx', rfl⟩
    subst e e'
    exact inst_inj hs hs' fun t => keccakPbits_inj (length_inst _ _) (length_inst _ _) ((h1 t).symm.trans (h1' t))

/-- C70.  Any number of blocks can be squeezed without losing anything: the state afterwards determines the state before. -/
theorem C70_squeeze (out out' : List U8) (n r : Nat) (hr0 : 0 < r) (hr : r ≤ 200) (hr8 : r % 8 = 0) (s s' : List U64) (hs : s.length = 25)
    (hs' : s'.length = 25) (ho : n * r ≤ out.length) (ho' : n * r ≤ out'.length) {x x' : List U8 × List U64}
    (h : Ret (keccak_squeezeblocks out n s r) (· = x)) (h' : Ret (keccak_squeezeblocks out' n s' r) (· = x'))
    (e : x.2 = x'.2) : s = s' := by
  obtain ⟨y, u, hy, -, h1, h2⟩ := keccak_squeezeblocks_ret (h := out) hs hr0 hr hr8 ho
  obtain ⟨y', u', hy', -, h1', h2'⟩ := keccak_squeezeblocks_ret (h := out') hs' hr0 hr hr8 ho'
  have e1 := h.unique ⟨y, u, hy, rfl⟩
  have e1' := h'.unique ⟨y', u', hy', rfl⟩
  subst e1 e1'
  rw [e] at h2
  have key : ∀ (n : Nat) (s s' : List U64), s.length = 25 → s'.length = 25 →
      keccakF^[n] (sbits s) = keccakF^[n] (sbits s') → s = s' := by
    intro n
    induction n with
    | zero => exact fun s s' h h' e => sbits_inj h h' e
    | succ n ih =>
      intro s s' hs hs' e
      obtain ⟨t, -, -, ht, h1⟩ := KeccakF_bits hs
      obtain ⟨t', -, -, ht', h1'⟩ := KeccakF_bits hs'
      rw [Function.iterate_succ_apply, Function.iterate_succ_apply, ← h1, ← h1'] at e
      have := ih t t' ht ht' e
      rw [this, h1', ← keccakPbits_24, ← keccakPbits_24] at h1
      exact (keccakPbits_inj hs' hs h1).symm
  exact key n s s' hs hs' (h2.symm.trans h2')

/-- There is a state that the permutation maps to zero, and it is not zero. -/
example : ∃ s : List U64, s.length = 25 ∧ Ret (KeccakF1600_StatePermute s) (· = List.replicate 25 0) :=
  (C70_keccakf _ (by simp)).exists

end Frodo.Props
