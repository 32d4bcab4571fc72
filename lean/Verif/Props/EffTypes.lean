import Verif.Proof.EffTypes

/-! # C71: through which types memory is accessed -/

namespace Frodo.Props

open Eff Make

/-- The specification of the accesses that break the rule when `A` is generated: with AES none; with SHAKE the first two bytes of an array of
bytes are written as `uint16_t`, and with vectors the constants of Keccak are read as `double`. -/
def GenViolation (B : Cfg) (e : Ev) : Prop :=
  B.gen = .shake ∧
  ((B.impl ≠ .avx2 ∧ e = .wr (.loc "seed_A_separated" .u8) 0 .u16) ∨
   (B.impl = .avx2 ∧
    (e = .wr (.loc "seed_A_separated_0" .u8) 0 .u16 ∨ e = .wr (.loc "seed_A_separated_1" .u8) 0 .u16 ∨
     e = .wr (.loc "seed_A_separated_2" .u8) 0 .u16 ∨ e = .wr (.loc "seed_A_separated_3" .u8) 0 .u16 ∨
     ∃ i < 24, e = .rd (.loc "KeccakF1600RoundConstants" .ull) (8 * i) .dbl)))

theorem genViolation_iff (B : Cfg) (e : Ev) : GenViolation B e ↔ genBad B e := by
  unfold GenViolation genBad
  refine and_congr_right fun _ => ?_
  by_cases h : B.impl = .avx2
  · rw [if_pos h]
    simp [h, rows4Bad, seedEv, rcEv, or_assoc]
  · rw [if_neg h]
    simp [h, seedEv]

/-- `crypto_kem_keypair`, in every build and whatever buffers it is given, breaks the rule with these accesses and no other: those of the generation
of `A`, and outside the reference code each half of `E` read, and each pair of elements of `B` written, as one `uint32_t`. -/
theorem C71_keypair (B : Cfg) {P : Params} (hn : 8 ≤ P.n) (σ : State) (e : Ev) :
    e ∈ bad σ (keypair B P) ↔ GenViolation B e ∨
      (B.impl ≠ .reference ∧ ∃ i < P.n * P.nbar / 2,
        e = .rd (.loc "S" .u16) (2 * (P.n * P.nbar) + 4 * i) .u32 ∨ e = .wr (.loc "B" .u16) (4 * i) .u32) := by
  rw [(bad_keypair B hn).mem_bad, genViolation_iff]
  simp only [copyBad, Nat.zero_add]

/-- `crypto_kem_enc` breaks it in the generation of `A` only. -/
theorem C71_enc (B : Cfg) {P : Params} (hn : 8 ≤ P.n) (σ : State) (e : Ev) : e ∈ bad σ (enc B P) ↔ GenViolation B e := by
  rw [(bad_enc B hn).mem_bad, genViolation_iff]

/-- `crypto_kem_dec` breaks it in the generation of `A`, and where it reads `S` in the secret key as `uint16_t`: unless the byte order is
unknown, at every element whose two bytes are not known to be free of types or those of a `uint16_t`. -/
theorem C71_dec (B : Cfg) {P : Params} (hn : 8 ≤ P.n) (σ : State) (e : Ev) : e ∈ bad σ (dec B P) ↔ GenViolation B e ∨
    (B.order ≠ .bytes ∧ ∃ i < P.n * P.nbar, e = .rd (.buf .sk) (P.bytes + P.pkBytes + 2 * i) .u16 ∧
      ¬ ((∀ T k, (σ .sk).types (P.bytes + P.pkBytes + 2 * i) = some (T, k) → (T = .u16 ∨ T = .i16) ∧ k = 0) ∧
         (∀ T k, (σ .sk).types (P.bytes + P.pkBytes + 2 * i + 1) = some (T, k) → (T = .u16 ∨ T = .i16) ∧ k = 1))) := by
  rw [mem_bad_dec B hn, genViolation_iff]
  have key : ∀ (o : Option (Ty × Nat)) (j : Nat), byteOk .u16 j o = true ↔ ∀ T k, o = some (T, k) → (T = .u16 ∨ T = .i16) ∧ k = j := by
    intro o j
    rcases o with _ | ⟨T, k⟩
    · simp [byteOk]
    · simp only [byteOk, Option.some.injEq, Prod.mk.injEq]
      cases T <;> simp [Ty.same, Ty.component]
  simp only [fits_u16, Bool.eq_false_iff, ne_eq, Bool.and_eq_true, key]

/-- With AES, encapsulation never breaks the rule, and key generation does not in the reference code. -/
theorem C71_clean {B : Cfg} {P : Params} (hn : 8 ≤ P.n) (hg : B.gen = .aes) (σ : State) :
    bad σ (enc B P) = [] ∧ (B.impl = .reference → bad σ (keypair B P) = []) := by
  constructor
  · refine List.eq_nil_iff_forall_not_mem.2 fun e he => ?_
    rw [C71_enc B hn, GenViolation, hg] at he
    exact absurd he.1 (by decide)
  · intro hi
    refine List.eq_nil_iff_forall_not_mem.2 fun e he => ?_
    rw [C71_keypair B hn, GenViolation, hg, hi] at he
    rcases he with he | he
    · exact absurd he.1 (by decide)
    · exact he.1 rfl

/-- A secret key in an array of bytes, as in the programs of /repo/tests: whatever was done before, every element of `S` is read against the rule. -/
theorem C71_dec_declared (B : Cfg) {P : Params} (hn : 8 ≤ P.n) (ho : B.order ≠ .bytes) {σ : State} (hσ : σ .sk = ofDecl .u8) (before : List Ev)
    {i : Nat} (hi : i < P.n * P.nbar) : .rd (.buf .sk) (P.bytes + P.pkBytes + 2 * i) .u16 ∈ bad (final σ before) (dec B P) := by
  rw [C71_dec B hn, final_declared before (by rw [hσ]; rfl), hσ]
  refine .inr ⟨ho, i, hi, rfl, fun h => ?_⟩
  have := h.1 .u8 _ rfl
  simp at this

/-- The same when the bytes of such an array are copied to allocated memory. -/
theorem C71_dec_copy (B : Cfg) {P : Params} (hn : 8 ≤ P.n) (ho : B.order ≠ .bytes) {σ : State} (hσ : (σ .sk).declared = false) {len : Nat}
    (hlen : P.bytes + P.pkBytes + 2 * (P.n * P.nbar) ≤ len) (name : String) {i : Nat} (hi : i < P.n * P.nbar) :
    .rd (.buf .sk) (P.bytes + P.pkBytes + 2 * i) .u16 ∈ bad (final σ (Eff.memcpy (buf .sk) (loc name .u8) len)) (dec B P) := by
  rw [C71_dec B hn]
  refine .inr ⟨ho, i, hi, rfl, fun h => ?_⟩
  have := h.1 .u8 ((P.bytes + P.pkBytes + 2 * i) % 1) ?_
  · simp at this
  · show (step σ (.cpy (.buf .sk) 0 (.loc name .u8) 0 len) .sk).types _ = _
    simp only [step, retype, hσ, typesOf]
    rw [if_neg (by decide), if_pos rfl]
    dsimp only
    rw [if_pos (by omega)]
    simp [Ty.size]

/-- An allocated secret key that `crypto_kem_keypair` has filled, after any encapsulation: `S` is read as what it is. -/
theorem C71_session (B B' B'' : Cfg) {P : Params} (hn : 8 ≤ P.n) {σ : State} (hσ : (σ .sk).declared = false) (e : Ev) :
    e ∈ bad (final (final σ (keypair B P)) (enc B' P)) (dec B'' P) ↔ GenViolation B'' e := by
  have hs : final (final σ (keypair B P)) (enc B' P) .sk = final σ (keypair B P) .sk :=
    final_of_noMod (nomod_enc B' P (by decide) (by decide)) _
  rw [C71_dec B'' hn, hs]
  refine or_iff_left ?_
  rintro ⟨_, i, hi, _, h⟩
  have hlt : 2 * i + 1 < 2 * P.n * P.nbar := by
    rw [Nat.mul_assoc]
    omega
  refine h ⟨fun T k hT => ?_, fun T k hT => ?_⟩
  · rw [sk_after_keypair B P hσ (j := 2 * i) (by omega)] at hT
    cases hT
    exact ⟨.inl rfl, by omega⟩
  · rw [Nat.add_assoc, sk_after_keypair B P hσ hlt] at hT
    cases hT
    exact ⟨.inl rfl, by omega⟩

/-- An allocated secret key whose bytes were written one by one, as `fread` does. -/
theorem C71_dec_read (B : Cfg) {P : Params} (hn : 8 ≤ P.n) {σ : State} (hσ : (σ .sk).declared = false) {len : Nat}
    (hlen : P.bytes + P.pkBytes + 2 * (P.n * P.nbar) ≤ len) (e : Ev) :
    e ∈ bad (final σ (wrs (buf .sk) .u8 len)) (dec B P) ↔ GenViolation B e := by
  have key : ∀ len k, k < len → (final σ (wrs (buf .sk) .u8 len) .sk).types k = none := by
    intro len
    induction len with
    | zero => intro k hk; omega
    | succ m ih =>
      intro k hk
      have hw : wrs (buf .sk) .u8 (m + 1) = wrs (buf .sk) .u8 m ++ [wrE (buf .sk) .u8 m] := by
        simp [wrs, List.range_succ]
      rw [hw, final_append]
      have hd : (final σ (wrs (buf .sk) .u8 m) .sk).declared = false := by rw [declared_final, hσ]
      show (step _ (.wr (.buf .sk) (0 + Ty.u8.size * m) .u8) .sk).types k = none
      simp only [step, retype, hd]
      rw [if_neg (by decide), if_pos rfl]
      dsimp only
      simp only [Ty.size, Nat.zero_add, Nat.one_mul, if_true]
      by_cases h : m ≤ k ∧ k < m + 1
      · rw [if_pos h]
      · rw [if_neg h]
        exact ih k (by omega)
  rw [C71_dec B hn]
  refine or_iff_left ?_
  rintro ⟨_, i, hi, _, h⟩
  refine h ⟨fun T k hT => ?_, fun T k hT => ?_⟩
  · rw [key _ _ (by omega)] at hT
    cases hT
  · rw [key _ _ (by omega)] at hT
    cases hT

/-- `kem_test` changes a digit of the ciphertext: every access through a wider type breaks the rule. -/
theorem C71_kem_test {σ : State} (hσ : σ .ct = ofDecl .u8) (zero : Bool) (pos : Nat) : bad σ (tamper zero pos) =
    [.rd (.loc "bytes" .u8) 0 .u32, .wr (.loc "bytes" .u8) 0 .u32, .rd (.loc "bytes" .u8) 0 .u32] ++
    (if zero then [.wr (.loc "bytes" .u8) 0 .u32] else []) ++
    [.rd (.loc "bytes" .u8) 0 .u32, .rd (.loc "bytes" .u8) 0 .u32, .rd (.buf .ct) (2 * pos) .u16, .wr (.buf .ct) (2 * pos) .u16] := by
  have hl : ∀ l : List Ev, final σ l .ct = ofDecl .u8 := fun l => by rw [final_declared l (by rw [hσ]; rfl), hσ]
  have h4 : ∀ (τ : State), ok τ (rdE (loc "bytes" .u8) .u32 0) = false := fun τ => rfl
  have h4' : ∀ (τ : State), ok τ (wrE (loc "bytes" .u8) .u32 0) = false := fun τ => rfl
  have h2 : ∀ (τ : State), τ .ct = ofDecl .u8 → ok τ (rdE (buf .ct) .u16 pos) = false := fun τ h => by
    simp [rdE, buf, ok, typesOf, h, ofDecl, fits_u16, byteOk, Ty.same, Ty.component]
  have h2' : ∀ (τ : State), τ .ct = ofDecl .u8 → ok τ (wrE (buf .ct) .u16 pos) = false := fun τ h => by
    simp [wrE, buf, ok, typesOf, isDeclared, h, ofDecl, fits_u16, byteOk, Ty.same, Ty.component]
  have s4 : ∀ (τ : State) k, step τ (wrE (loc "bytes" .u8) .u32 k) = τ := fun τ k => rfl
  have sr : ∀ (τ : State) p t k, step τ (rdE p t k) = τ := fun τ p t k => rfl
  have hr : bad σ (randombytes (loc "bytes" .u8) 4) = [] :=
    List.eq_nil_iff_forall_not_mem.2 fun e => ((fine_randombytes _ _).bad.mem_bad σ e).1
  unfold tamper
  simp only [List.append_assoc]
  rw [bad_append, hr]
  have hc := hl (randombytes (loc "bytes" .u8) 4)
  generalize final σ (randombytes (loc "bytes" .u8) 4) = τ at hc
  have e1 : rdE (loc "bytes" .u8) .u32 0 = .rd (.loc "bytes" .u8) 0 .u32 := rfl
  have e2 : wrE (loc "bytes" .u8) .u32 0 = .wr (.loc "bytes" .u8) 0 .u32 := rfl
  have e3 : rdE (buf .ct) .u16 pos = .rd (.buf .ct) (2 * pos) .u16 := by simp [rdE, buf, Ty.size]
  have e4 : wrE (buf .ct) .u16 pos = .wr (.buf .ct) (2 * pos) .u16 := by simp [wrE, buf, Ty.size]
  cases zero <;> simp only [if_true, List.cons_append, h4, h4', s4, sr, h2 τ hc, h2' τ hc, bad, Bool.false_eq_true, if_false, List.nil_append, List.append_nil]
  all_goals rw [e1, e2, e3, e4]

/-! ## Cases -/

/-- The builds of FrodoKEM-640 with the code path `FAST`, AES and SHAKE. -/
example : .rd (.loc "S" .u16) 10240 .u32 ∈ bad (fun _ => ofDecl .u8) (keypair ⟨.avx2, .ni, .aes, .same⟩ frodo640) :=
  (C71_keypair _ (by decide) _ _).2 (.inr ⟨by decide, 0, by decide, .inl rfl⟩)

example : .wr (.loc "seed_A_separated" .u8) 0 .u16 ∈ bad (fun _ => ofMalloc) (enc ⟨.generic, .c, .shake, .same⟩ frodo976) :=
  (C71_enc _ (by decide) _ _).2 ⟨rfl, .inl ⟨by decide, rfl⟩⟩

example : bad (fun _ => ofDecl .u8) (enc ⟨.avx2, .ni, .aes, .same⟩ frodo1344) = [] := (C71_clean (by decide) rfl _).1

example : .rd (.buf .sk) 9632 .u16 ∈ bad (final (fun _ => ofDecl .u8) (keypair ⟨.generic, .c, .aes, .same⟩ frodo640))
    (dec ⟨.generic, .c, .aes, .same⟩ frodo640) :=
  C71_dec_declared ⟨.generic, .c, .aes, .same⟩ (P := frodo640) (by decide) (by decide) rfl _ (i := 0) (by decide)

example : ∀ e, e ∉ bad (final (final (fun _ => ofMalloc) (keypair ⟨.reference, .c, .aes, .same⟩ frodo640)) (enc ⟨.reference, .c, .aes, .same⟩ frodo640))
    (dec ⟨.reference, .c, .aes, .same⟩ frodo640) := fun e he =>
  absurd ((C71_session _ _ _ (P := frodo640) (by decide) rfl e).1 he).1 (by decide)

/-- The rule: a type may be accessed through itself, its other sign and bytes, and not through another. -/
example : ok (fun _ => ofDecl .u8) (.rd (.loc "A" .i16) 6 .u16) = true ∧ ok (fun _ => ofDecl .u8) (.rd (.loc "A" .i16) 5 .u16) = false ∧
    ok (fun _ => ofDecl .u8) (.rd (.loc "A" .i16) 5 .u8) = true ∧ ok (fun _ => ofDecl .u8) (.rd (.loc "A" .i16) 4 .u32) = false ∧
    ok (fun _ => ofDecl .u8) (.wr (.buf .ct) 4 .u16) = false ∧ ok (fun _ => ofMalloc) (.wr (.buf .ct) 4 .u16) = true := by decide

end Frodo.Props
