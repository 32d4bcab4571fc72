import Verif.Proof.KemAlias
import Verif.Props.Kem2

/-! # The KEM functions on arguments that may overlap

All the buffers of the caller lie in one memory, an argument is an offset. -/

namespace Frodo.Props

open Spec

variable {P : Params} {K : KemParams}

theorem Standard.lenPk {g : MatGen} (h : Standard P g K) : P.pkBytes = K.lenPk := h.pkLen
theorem Standard.lenSk {g : MatGen} (h : Standard P g K) : P.skBytes = K.lenSk := h.skLen
theorem Standard.lenCt {g : MatGen} (h : Standard P g K) : P.ctBytes = K.lenCt := h.ctLen

/-! ## Decapsulation -/

/-- C57, decapsulation.  Wherever the shared secret, the ciphertext and the secret key lie, also if they overlap,
`crypto_kem_dec` puts the shared secret of Algorithm 14 for the old contents in place and changes nothing else. -/
theorem C57_dec (B : Build) (E : Env) (addr : Nat) (mem : List U8) (ss ct sk : Nat)
    (hS : Standard P B.gen K) (hB : Good B) (ha : AlignedKem B E P) (hal : (addr + sk) % 2 = 0)
    (hss : ss + K.len ≤ mem.length) (hct : ct + K.lenCt ≤ mem.length)
    (hsk : sk + K.lenSk ≤ mem.length) :
    Ret (decShared B E P addr mem ss ct sk) (fun o => o.1 = decapsMem K mem ss ct sk ∧ o.2 = 0) := by
  have hev : (P.bytes + P.pkBytes) % 2 = 0 := by cases hS <;> rfl
  refine (decShared_ret hS.wf ha.1 ha.2 (by omega) (by rw [hS.ssLen]; exact hss)
    (by rw [hS.lenCt]; exact hct) (by rw [hS.lenSk]; exact hsk)).mono fun o ho => ?_
  rw [matA_kem hS hB, hS.lenCt, hS.lenSk] at ho
  exact ho

/-- C57, what `decapsMem` means: the shared secret is in its place, every other byte is as before. -/
theorem C57_dec_bytes {g : MatGen} (hS : Standard P g K) (mem : List U8) (ss ct sk : Nat)
    (hss : ss + K.len ≤ mem.length) :
    (decapsMem K mem ss ct sk).length = mem.length ∧
    load (decapsMem K mem ss ct sk) ss K.len =
      decaps K (load mem ct K.lenCt) (load mem sk K.lenSk) ∧
    ∀ i, i < ss ∨ ss + K.len ≤ i → nth (decapsMem K mem ss ct sk) i = nth mem i := by
  have hl := length_decaps hS.kwf (load mem ct K.lenCt) (load mem sk K.lenSk)
  unfold decapsMem
  refine ⟨length_put (by omega), ?_, fun i hi => ?_⟩
  · have := load_store (m := mem) (v := decaps K (load mem ct K.lenCt) (load mem sk K.lenSk)) (a := ss)
      (by omega)
    rw [hl] at this
    exact this
  · rw [nth_put (by omega), if_neg (by omega)]

/-! ## Encapsulation -/

/-- C57, encapsulation: the exact effect of `crypto_kem_enc` on the memory for all positions of its arguments. -/
theorem C57_enc (B : Build) (E : Env) (rb : RandomBytes) (mem mu : List U8) (ct ss pk : Nat)
    (hS : Standard P B.gen K) (hB : Good B) (ha : AlignedKem B E P) (hmu : mu.length = K.len)
    (hrb : Fills rb mu) (hpk : pk + K.lenPk ≤ mem.length) (hct : ct + K.lenCt ≤ mem.length)
    (hss : ss + K.len ≤ mem.length) :
    Ret (encShared B E P rb mem ct ss pk) (fun o => o.1 = encapsMem K mu mem ct ss pk ∧ o.2 = 0) := by
  have hl := hS.ssLen
  have hb := hS.wf.bytes
  have hr := hrb ((uninit E.junk 42 8 (P.bytes + P.bytesMu)).drop P.bytes) (by simp; omega)
  rw [show mu.length = P.bytesMu by omega] at hr
  refine (encShared_ret hS.wf ha.1 ha.2 hr (by omega) (by rw [hS.lenPk]; exact hpk)
    (by rw [hS.lenCt]; exact hct) (by omega)).mono fun o ho => ?_
  rw [matA_kem hS hB] at ho
  exact ho

theorem length_c1 (K : KemParams) (pk mu sd : List U8) :
    (packMat (encrypt K pk mu sd).1).length = K.lenB := by
  rw [length_packMat, Nat.mul_right_comm]; rfl

theorem length_c2 (K : KemParams) (pk mu sd : List U8) :
    (packMat (encrypt K pk mu sd).2).length = K.lenC := length_packMat _

/-- The seeds of an encapsulation for the public key bytes `p`. -/
def seeds (K : KemParams) (p mu : List U8) : List U8 × List U8 := deriveSeeds K (K.shake p K.len) mu

/-- The memory of `crypto_kem_enc` when it reads the matrix `B`: the first part of the ciphertext is stored. -/
def encMem1 (K : KemParams) (mu mem : List U8) (ct pk : Nat) : List U8 :=
  store mem ct (packMat (encrypt K (load mem pk K.lenPk) mu (seeds K (load mem pk K.lenPk) mu).1).1)

theorem encapsMem_eq (K : KemParams) (mu mem : List U8) (ct ss pk : Nat)
    (hct : ct + K.lenCt ≤ mem.length) : encapsMem K mu mem ct ss pk =
    store (store mem ct (packMat (encrypt K (load mem pk K.lenPk) mu (seeds K (load mem pk K.lenPk) mu).1).1 ++
        packMat (encrypt K (load (encMem1 K mu mem ct pk) pk K.lenPk) mu
          (seeds K (load mem pk K.lenPk) mu).1).2)) ss
      (K.shake (packMat (encrypt K (load mem pk K.lenPk) mu (seeds K (load mem pk K.lenPk) mu).1).1 ++
        packMat (encrypt K (load (encMem1 K mu mem ct pk) pk K.lenPk) mu
          (seeds K (load mem pk K.lenPk) mu).1).2 ++ (seeds K (load mem pk K.lenPk) mu).2) K.len) := by
  have e : encapsMem K mu mem ct ss pk =
    store (store (encMem1 K mu mem ct pk) (ct + K.lenB)
        (packMat (encrypt K (load (encMem1 K mu mem ct pk) pk K.lenPk) mu
          (seeds K (load mem pk K.lenPk) mu).1).2)) ss
      (K.shake (load (store (encMem1 K mu mem ct pk) (ct + K.lenB)
        (packMat (encrypt K (load (encMem1 K mu mem ct pk) pk K.lenPk) mu
          (seeds K (load mem pk K.lenPk) mu).1).2)) ct K.lenCt ++
          (seeds K (load mem pk K.lenPk) mu).2) K.len) := rfl
  rw [e]
  have l1 := length_c1 K (load mem pk K.lenPk) mu (seeds K (load mem pk K.lenPk) mu).1
  have l2 := length_c2 K (load (encMem1 K mu mem ct pk) pk K.lenPk) mu
    (seeds K (load mem pk K.lenPk) mu).1
  have hc : K.lenCt = K.lenB + K.lenC := rfl
  generalize hc2 : packMat (encrypt K (load (encMem1 K mu mem ct pk) pk K.lenPk) mu
    (seeds K (load mem pk K.lenPk) mu).1).2 = c2 at l2
  unfold encMem1
  generalize hc1 : packMat (encrypt K (load mem pk K.lenPk) mu
    (seeds K (load mem pk K.lenPk) mu).1).1 = c1 at l1
  have h1 : store (store mem ct c1) (ct + K.lenB) c2 = store mem ct (c1 ++ c2) := by
    rw [← l1]; exact store_store (by omega)
  have h2 : load (store mem ct (c1 ++ c2)) ct K.lenCt = c1 ++ c2 := by
    rw [hc, ← l1, ← l2, ← List.length_append]
    exact load_store (by rw [List.length_append]; omega)
  rw [h1, h2]

/-- C57, encapsulation in a layout in which the first part of the ciphertext does not overlap the second part of
the public key.  (It may overlap `seedA`, the second part of the ciphertext and the shared secret may overlap
anything.)  The ciphertext and then the shared secret of Algorithm 13 are stored. -/
theorem C57_enc_apart (mem mu : List U8) (ct ss pk : Nat)
    (hpk : pk + K.lenPk ≤ mem.length) (hct : ct + K.lenCt ≤ mem.length)
    (hd : Apart ct K.lenB (pk + K.lenA) K.lenB) :
    encapsMem K mu mem ct ss pk =
      store (store mem ct (encaps K (load mem pk K.lenPk) mu).1) ss
        (encaps K (load mem pk K.lenPk) mu).2 := by
  have hc : K.lenCt = K.lenB + K.lenC := rfl
  have hp : K.lenPk = K.lenA + K.lenB := rfl
  have l1 := length_c1 K (load mem pk K.lenPk) mu (seeds K (load mem pk K.lenPk) mu).1
  have hdrop : ∀ m : List U8, (load m pk K.lenPk).drop K.lenA = load m (pk + K.lenA) K.lenB := by
    intro m
    unfold load
    rw [List.drop_take, List.drop_drop, hp, Nat.add_sub_cancel_left]
  have hb : (load (encMem1 K mu mem ct pk) pk K.lenPk).drop K.lenA =
      (load mem pk K.lenPk).drop K.lenA := by
    rw [hdrop, hdrop]
    exact load_store_apart (by omega) (by omega) (by rw [l1]; exact hd)
  have h2 : ∀ sd, (encrypt K (load (encMem1 K mu mem ct pk) pk K.lenPk) mu sd).2 =
      (encrypt K (load mem pk K.lenPk) mu sd).2 := by
    intro sd
    show modQ K.D _ * unpackMat K.D K.n K.nbar ((load (encMem1 K mu mem ct pk) pk K.lenPk).drop K.lenA) +
      _ + _ = _
    rw [hb]; rfl
  rw [encapsMem_eq K mu mem ct ss pk hct, h2]
  rfl

/-- C57, encapsulation in such a layout: the shared secret is that of Algorithm 13; the ciphertext is too if the
shared secret is not written over it; all other bytes are as before. -/
theorem C57_enc_apart_bytes {g : MatGen} (hS : Standard P g K) (mem mu : List U8) (ct ss pk : Nat)
    (hpk : pk + K.lenPk ≤ mem.length) (hct : ct + K.lenCt ≤ mem.length)
    (hss : ss + K.len ≤ mem.length) (hd : Apart ct K.lenB (pk + K.lenA) K.lenB) :
    load (encapsMem K mu mem ct ss pk) ss K.len = (encaps K (load mem pk K.lenPk) mu).2 ∧
    (Apart ss K.len ct K.lenCt →
      load (encapsMem K mu mem ct ss pk) ct K.lenCt = (encaps K (load mem pk K.lenPk) mu).1) ∧
    ∀ i, (i < ss ∨ ss + K.len ≤ i) → (i < ct ∨ ct + K.lenCt ≤ i) →
      nth (encapsMem K mu mem ct ss pk) i = nth mem i := by
  rw [C57_enc_apart mem mu ct ss pk hpk hct hd]
  have hc : K.lenCt = K.lenB + K.lenC := rfl
  have l1 := length_encaps_ct K (load mem pk K.lenPk) mu
  have l2 := length_encaps_ss hS.kwf (load mem pk K.lenPk) mu
  generalize (encaps K (load mem pk K.lenPk) mu).1 = c at *
  generalize (encaps K (load mem pk K.lenPk) mu).2 = k at *
  have lm : (store mem ct c).length = mem.length := length_put (by omega)
  refine ⟨?_, fun h => ?_, fun i h1 h2 => ?_⟩
  · rw [← l2]; exact load_store (by omega)
  · rw [load_store_apart (by omega) (by omega) (by rw [l2]; exact h), hc, ← l1]
    exact load_store (by omega)
  · rw [nth_put (by omega), if_neg (by omega), nth_put (by omega), if_neg (by omega)]

/-- C57, encapsulation in any other layout: the ciphertext is the right one if and only if the product of `S'`
with the overwritten matrix is that with the matrix of the public key. -/
theorem C57_enc_iff {g : MatGen} (hS : Standard P g K) (mem mu : List U8) (ct ss pk : Nat)
    (hct : ct + K.lenCt ≤ mem.length) (hss : ss + K.len ≤ mem.length)
    (hd : Apart ss K.len ct K.lenCt) :
    load (encapsMem K mu mem ct ss pk) ct K.lenCt = (encaps K (load mem pk K.lenPk) mu).1 ↔
    modQ K.D (encapsNoise K (seeds K (load mem pk K.lenPk) mu).1).1 *
        unpackMat K.D K.n K.nbar ((load (encMem1 K mu mem ct pk) pk K.lenPk).drop K.lenA) =
      modQ K.D (encapsNoise K (seeds K (load mem pk K.lenPk) mu).1).1 *
        unpackMat K.D K.n K.nbar ((load mem pk K.lenPk).drop K.lenA) := by
  have hk := hS.kwf
  have hc : K.lenCt = K.lenB + K.lenC := rfl
  have l1 := length_c1 K (load mem pk K.lenPk) mu (seeds K (load mem pk K.lenPk) mu).1
  have l2 := length_c2 K (load (encMem1 K mu mem ct pk) pk K.lenPk) mu
    (seeds K (load mem pk K.lenPk) mu).1
  have hen : (encaps K (load mem pk K.lenPk) mu).1 =
      packMat (encrypt K (load mem pk K.lenPk) mu (seeds K (load mem pk K.lenPk) mu).1).1 ++
      packMat (encrypt K (load mem pk K.lenPk) mu (seeds K (load mem pk K.lenPk) mu).1).2 := rfl
  have hM : ∀ p sd, (encrypt K p mu sd).2 = modQ K.D (encapsNoise K sd).1 *
      unpackMat K.D K.n K.nbar (p.drop K.lenA) +
      (modQ K.D (encapsNoise K sd).2.2 + encode K.D K.B K.nbar K.nbar mu) := by
    intro p sd
    rw [← add_assoc]; rfl
  rw [encapsMem_eq K mu mem ct ss pk hct, hen]
  generalize hX : (encrypt K (load (encMem1 K mu mem ct pk) pk K.lenPk) mu
    (seeds K (load mem pk K.lenPk) mu).1).2 = X at l2
  generalize hY : (encrypt K (load mem pk K.lenPk) mu (seeds K (load mem pk K.lenPk) mu).1).2 = Y
  generalize packMat (encrypt K (load mem pk K.lenPk) mu (seeds K (load mem pk K.lenPk) mu).1).1 = c1
    at l1
  have lv : (c1 ++ packMat X).length = K.lenCt := by rw [List.length_append]; omega
  have lm : (store mem ct (c1 ++ packMat X)).length = mem.length := length_put (by omega)
  have lsh : ∀ x, (K.shake x K.len).length = K.len := fun x => hk.shake x _
  rw [load_store_apart (by rw [lsh]; omega) (by omega) (by rw [lsh]; exact hd), ← lv,
    load_store (by omega), List.append_cancel_left_eq]
  have h8 : 8 ∣ K.D * K.nbar * K.nbar := hk.nbar8.mul_left _
  have hi : packMat X = packMat Y ↔ X = Y := by
    refine ⟨fun h => ?_, fun h => by rw [h]⟩
    have := congrArg (unpackMat K.D K.nbar K.nbar) h
    rwa [unpackMat_packMat hk.D_pos hk.D_le h8, unpackMat_packMat hk.D_pos hk.D_le h8] at this
  rw [hi, ← hX, ← hY, hM, hM, add_left_inj]

/-- C57, encapsulation in place (`ct == pk`): the matrix `B` is then read from the first part of the ciphertext
and the last bytes of the public key, and not from the public key. -/
theorem C57_enc_in_place {g : MatGen} (hS : Standard P g K) (mem mu : List U8) (pk : Nat)
    (hct : pk + K.lenCt ≤ mem.length) :
    (load (encMem1 K mu mem pk pk) pk K.lenPk).drop K.lenA =
      (packMat (encrypt K (load mem pk K.lenPk) mu (seeds K (load mem pk K.lenPk) mu).1).1).drop K.lenA ++
        load mem (pk + K.lenB) K.lenA := by
  have hc : K.lenCt = K.lenB + K.lenC := rfl
  have hp : K.lenPk = K.lenB + K.lenA := Nat.add_comm _ _
  have hAC : K.lenA ≤ K.lenC := by
    cases hS
    · exact (by norm_num : 16 ≤ 15 * 8 * 8 / 8)
    · exact (by norm_num : 16 ≤ 16 * 8 * 8 / 8)
    · exact (by norm_num : 16 ≤ 16 * 8 * 8 / 8)
  have hAB : K.lenA ≤ K.lenB := by
    cases hS
    · exact (by norm_num : 16 ≤ 15 * 640 * 8 / 8)
    · exact (by norm_num : 16 ≤ 16 * 976 * 8 / 8)
    · exact (by norm_num : 16 ≤ 16 * 1344 * 8 / 8)
  have l1 := length_c1 K (load mem pk K.lenPk) mu (seeds K (load mem pk K.lenPk) mu).1
  unfold encMem1
  generalize packMat (encrypt K (load mem pk K.lenPk) mu (seeds K (load mem pk K.lenPk) mu).1).1 = c1
    at l1
  have h1 : load (store mem pk c1) pk K.lenB = c1 := by rw [← l1]; exact load_store (by omega)
  have h2 : load (store mem pk c1) (pk + K.lenB) K.lenA = load mem (pk + K.lenB) K.lenA :=
    load_store_apart (by omega) (by omega) (.inl (by omega))
  rw [hp, load_add, h1, h2, List.drop_append_of_le_length (by omega)]

/-! ## Key generation -/

/-- C57, key generation: the exact effect of `crypto_kem_keypair` on the memory for all positions at which the
public key does not overlap its own copy in the secret key. -/
theorem C57_keypair (B : Build) (E : Env) (rb : RandomBytes) (mem s seedSE z : List U8) (pk sk : Nat)
    (hS : Standard P B.gen K) (ha : AlignedKeypair B E P)
    (hs : s.length = K.len) (hse : seedSE.length = K.len) (hz : z.length = K.lenA)
    (hrb : Fills rb (s ++ seedSE ++ z)) (hpk : pk + K.lenPk ≤ mem.length)
    (hsk : sk + K.lenSk ≤ mem.length) (hd : Apart (sk + K.len) K.lenPk pk K.lenPk) :
    Ret (keypairShared B E P rb mem pk sk) (fun o =>
      o.1 = keygenMem K s seedSE z mem pk sk ∧ o.2 = 0) := by
  have hl : K.len = P.bytes := hS.ssLen.symm
  have hlA : K.lenA = P.seedA := by rw [← hS.kem]; rfl
  have hlS : K.lenS = 2 * P.n * P.nbar := by rw [← hS.kem]; rfl
  have hlR : (s ++ seedSE ++ z).length = 2 * P.bytes + P.seedA := by
    simp only [List.length_append]; omega
  have hr := hrb (uninit E.junk 41 8 (2 * P.bytes + P.seedA)) (by simp; omega)
  rw [hlR, Nat.two_mul, ← Nat.two_mul] at hr
  have e1 : (s ++ seedSE ++ z).take P.bytes = s := by
    rw [List.append_assoc]; exact List.take_left' (by omega)
  have e2 : ((s ++ seedSE ++ z).drop P.bytes).take P.bytes = seedSE := by
    rw [List.append_assoc, List.drop_left' (by omega)]; exact List.take_left' (by omega)
  have e3 : (s ++ seedSE ++ z).drop (2 * P.bytes) = z :=
    List.drop_left' (by rw [List.length_append]; omega)
  have lpk := length_keygen_pk hS.kwf s seedSE z
  have hp : K.lenPk = K.lenA + K.lenB := rfl
  have hsk' : K.lenSk = K.len + K.lenPk + K.lenS + K.len := rfl
  unfold keypairShared
  refine (keypairHead_ret (R := s ++ seedSE ++ z) hS.wf ha (by rw [← Nat.two_mul]; exact hr) hlR
    (by rw [hS.lenPk]; exact hpk) (by rw [hS.lenSk]; exact hsk)).bind ?_
  rintro ⟨m, S, R, inp⟩ ⟨h1, h2, h3, h4, h5⟩
  simp only at h1 h2 h3 h4 h5 ⊢
  rw [e1, e2, e3, hS.kem] at h1
  rw [e2, hS.kem] at h3
  have lm0 : (store mem pk (keygen K s seedSE z).1).length = mem.length := length_put (by omega)
  have lm : m.length = mem.length := by rw [h1, length_put (by omega)]; exact lm0
  refine (keypairTail_ret hS.wf h2 (by rw [h4]; omega) h5 (by rw [← hl, hS.lenPk]; exact hd)
    (by rw [lm, hS.lenPk]; exact hpk) (by rw [lm, hS.lenSk]; exact hsk) rfl rfl).mono fun o ho => ?_
  refine ⟨?_, ho.2⟩
  rw [ho.1, h3, ← hl, hS.lenPk, ← hlS, h1, show P.shake.fn = K.shake by rw [← hS.kem]; rfl]
  rfl

/-- C57, key generation: if the public key overlaps its own copy in the secret key, the call of `memcpy` is
undefined, in every build and for every random generator that returns. -/
theorem C57_keypair_overlap (B : Build) (E : Env) (rb : RandomBytes) (mem s seedSE z : List U8)
    (pk sk : Nat) (hS : Standard P B.gen K) (ha : AlignedKeypair B E P)
    (hs : s.length = K.len) (hse : seedSE.length = K.len) (hz : z.length = K.lenA)
    (hrb : Fills rb (s ++ seedSE ++ z)) (hpk : pk + K.lenPk ≤ mem.length)
    (hsk : sk + K.lenSk ≤ mem.length) (hd : ¬ Apart (sk + K.len) K.lenPk pk K.lenPk) :
    keypairShared B E P rb mem pk sk = .ub .overlap := by
  have hl : K.len = P.bytes := hS.ssLen.symm
  have hlA : K.lenA = P.seedA := by rw [← hS.kem]; rfl
  have hlR : (s ++ seedSE ++ z).length = 2 * P.bytes + P.seedA := by
    simp only [List.length_append]; omega
  have hr := hrb (uninit E.junk 41 8 (2 * P.bytes + P.seedA)) (by simp; omega)
  rw [hlR, Nat.two_mul, ← Nat.two_mul] at hr
  unfold keypairShared
  obtain ⟨⟨m, S, R, inp⟩, t, ht, -⟩ := keypairHead_ret (B := B) (E := E) (P := P) (rb := rb) (mem := mem)
    (pk := pk) (sk := sk) (R := s ++ seedSE ++ z) hS.wf ha
    (by rw [← Nat.two_mul]; exact hr) hlR (by rw [hS.lenPk]; exact hpk) (by rw [hS.lenSk]; exact hsk)
  rw [ht]
  show C.bind' (.ok () t) (fun _ => keypairTail B E P m pk sk S R inp) = _
  rw [keypairTail_ub (by rw [← hl, hS.lenPk]; exact hd)]
  rfl

/-- C57, key generation: the call is defined exactly for the layouts in which the public key does not overlap its
copy. -/
theorem C57_keypair_safe_iff (B : Build) (E : Env) (rb : RandomBytes) (mem s seedSE z : List U8)
    (pk sk : Nat) (hS : Standard P B.gen K) (ha : AlignedKeypair B E P)
    (hs : s.length = K.len) (hse : seedSE.length = K.len) (hz : z.length = K.lenA)
    (hrb : Fills rb (s ++ seedSE ++ z)) (hpk : pk + K.lenPk ≤ mem.length)
    (hsk : sk + K.lenSk ≤ mem.length) :
    Safe (keypairShared B E P rb mem pk sk) ↔ Apart (sk + K.len) K.lenPk pk K.lenPk := by
  by_cases hd : Apart (sk + K.len) K.lenPk pk K.lenPk
  · refine ⟨fun _ => hd, fun _ => ?_⟩
    exact Safe.of_ret (C57_keypair B E rb mem s seedSE z pk sk hS ha hs hse hz hrb hpk hsk hd)
  · refine ⟨fun h => ?_, fun h => absurd h hd⟩
    exact absurd (C57_keypair_overlap B E rb mem s seedSE z pk sk hS ha hs hse hz hrb hpk hsk hd)
      (h.2 _)

/-- The memory before the hash of the public key is written. -/
def keyMem4 (K : KemParams) (s seedSE z mem : List U8) (pk sk : Nat) : List U8 :=
  let m := store (store mem pk (keygen K s seedSE z).1) sk s
  store (store m (sk + K.len) (load m pk K.lenPk)) (sk + K.len + K.lenPk)
    (encodeS (keygenNoise K seedSE).1)

/-- C57, key generation, byte by byte: what is at an address is what was written there last, where `s`, the copy of
the public key, the matrix `Sᵀ` and the hash are written in this order after the public key. -/
theorem C57_keypair_bytes {g : MatGen} (hS : Standard P g K) (mem s seedSE z : List U8) (pk sk i : Nat)
    (hs : s.length = K.len) (hpk : pk + K.lenPk ≤ mem.length) (hsk : sk + K.lenSk ≤ mem.length)
    {o1 o2 o3 : Nat} (h1 : o1 = sk + K.len) (h2 : o2 = o1 + K.lenPk) (h3 : o3 = o2 + K.lenS) :
    nth (keygenMem K s seedSE z mem pk sk) i =
      if o3 ≤ i ∧ i < o3 + K.len then
        nth (K.shake (load (keyMem4 K s seedSE z mem pk sk) pk K.lenPk) K.len) (i - o3)
      else if o2 ≤ i ∧ i < o3 then nth (encodeS (keygenNoise K seedSE).1) (i - o2)
      else if o1 ≤ i ∧ i < o2 then
        nth (store (store mem pk (keygen K s seedSE z).1) sk s) (pk + (i - o1))
      else if sk ≤ i ∧ i < o1 then nth s (i - sk)
      else if pk ≤ i ∧ i < pk + K.lenPk then nth (keygen K s seedSE z).1 (i - pk)
      else nth mem i := by
  have hk := hS.kwf
  have lpk := length_keygen_pk hk s seedSE z
  have hp : K.lenPk = K.lenA + K.lenB := rfl
  have hsk' : K.lenSk = K.len + K.lenPk + K.lenS + K.len := rfl
  have lE : (encodeS (keygenNoise K seedSE).1).length = K.lenS := by
    rw [length_encodeS, Nat.mul_comm K.nbar, ← Nat.mul_assoc]; rfl
  have e : keygenMem K s seedSE z mem pk sk = store (keyMem4 K s seedSE z mem pk sk) o3
      (K.shake (load (keyMem4 K s seedSE z mem pk sk) pk K.lenPk) K.len) := by
    rw [h3, h2, h1]; rfl
  rw [e]
  have lsh := hk.shake (load (keyMem4 K s seedSE z mem pk sk) pk K.lenPk) K.len
  generalize K.shake (load (keyMem4 K s seedSE z mem pk sk) pk K.lenPk) K.len = hsh at lsh
  have e4 : keyMem4 K s seedSE z mem pk sk = store (store (store (store mem pk (keygen K s seedSE z).1) sk s)
      o1 (load (store (store mem pk (keygen K s seedSE z).1) sk s) pk K.lenPk)) o2
      (encodeS (keygenNoise K seedSE).1) := by
    rw [h2, h1]; rfl
  rw [e4]
  clear e e4
  generalize encodeS (keygenNoise K seedSE).1 = ES at lE
  generalize (keygen K s seedSE z).1 = pkv at lpk
  have l1 : (store mem pk pkv).length = mem.length := length_put (by omega)
  have l2 : (store (store mem pk pkv) sk s).length = mem.length := by rw [length_put (by omega)]; exact l1
  have ll : (load (store (store mem pk pkv) sk s) pk K.lenPk).length = K.lenPk := length_load (by omega)
  have l3 : (store (store (store mem pk pkv) sk s) o1
      (load (store (store mem pk pkv) sk s) pk K.lenPk)).length = mem.length := by
    rw [length_put (by omega)]; exact l2
  have l4 : (store (store (store (store mem pk pkv) sk s) o1
      (load (store (store mem pk pkv) sk s) pk K.lenPk)) o2 ES).length = mem.length := by
    rw [length_put (by omega)]; exact l3
  rw [nth_put (v := hsh) (by omega), lsh]
  by_cases c3 : o3 ≤ i ∧ i < o3 + K.len
  · rw [if_pos c3, if_pos c3]
  rw [if_neg c3, if_neg c3, nth_put (v := ES) (by omega), lE, ← h3]
  by_cases c2 : o2 ≤ i ∧ i < o3
  · rw [if_pos c2, if_pos c2]
  rw [if_neg c2, if_neg c2, nth_put (by omega), ll, ← h2]
  by_cases c1 : o1 ≤ i ∧ i < o2
  · rw [if_pos c1, if_pos c1, nth_load (by omega)]
  rw [if_neg c1, if_neg c1, nth_put (v := s) (by omega), hs, ← h1]
  by_cases c0 : sk ≤ i ∧ i < o1
  · rw [if_pos c0, if_pos c0]
  rw [if_neg c0, if_neg c0, nth_put (by omega), lpk, ← hp]

/-- C57, key generation with separate ranges: both keys of Algorithm 12 are stored and nothing else changes. -/
theorem C57_keypair_apart {g : MatGen} (hS : Standard P g K) (mem s seedSE z : List U8) (pk sk : Nat)
    (hs : s.length = K.len) (hpk : pk + K.lenPk ≤ mem.length) (hsk : sk + K.lenSk ≤ mem.length)
    (hd : Apart sk K.lenSk pk K.lenPk) :
    keygenMem K s seedSE z mem pk sk =
      store (store mem pk (keygen K s seedSE z).1) sk (keygen K s seedSE z).2 := by
  have hk := hS.kwf
  have lpk := length_keygen_pk hk s seedSE z
  have hp : K.lenPk = K.lenA + K.lenB := rfl
  have hsk' : K.lenSk = K.len + K.lenPk + K.lenS + K.len := rfl
  unfold Apart at hd
  have lE : (encodeS (keygenNoise K seedSE).1).length = K.lenS := by
    rw [length_encodeS, Nat.mul_comm K.nbar, ← Nat.mul_assoc]; rfl
  have lsh := hk.shake (keygen K s seedSE z).1 K.len
  unfold keygenMem
  simp only
  rw [keygen_snd]
  generalize encodeS (keygenNoise K seedSE).1 = ES at lE
  generalize (keygen K s seedSE z).1 = pkv at lpk lsh
  have l1 : (store mem pk pkv).length = mem.length := length_put (by omega)
  have a1 : load (store mem pk pkv) pk K.lenPk = pkv := by
    rw [hp, ← lpk]; exact load_store (by omega)
  generalize store mem pk pkv = m at l1 a1
  have a2 : load (store m sk s) pk K.lenPk = pkv := by
    rw [load_store_apart (by omega) (by omega) (by unfold Apart; omega)]; exact a1
  rw [a2]
  have a3 : store (store m sk s) (sk + K.len) pkv = store m sk (s ++ pkv) := by
    rw [← hs]; exact store_store (by omega)
  rw [a3]
  have la : (s ++ pkv).length = K.len + K.lenPk := by rw [List.length_append]; omega
  have a4 : store (store m sk (s ++ pkv)) (sk + K.len + K.lenPk) ES = store m sk (s ++ pkv ++ ES) := by
    rw [Nat.add_assoc, ← la]; exact store_store (by omega)
  rw [a4]
  have lb : (s ++ pkv ++ ES).length = K.len + K.lenPk + K.lenS := by rw [List.length_append]; omega
  have a5 : load (store m sk (s ++ pkv ++ ES)) pk K.lenPk = pkv := by
    rw [load_store_apart (by omega) (by omega) (by unfold Apart; omega)]; exact a1
  rw [a5]
  have a6 : store (store m sk (s ++ pkv ++ ES)) (sk + K.len + K.lenPk + K.lenS) (K.shake pkv K.len) =
      store m sk (s ++ pkv ++ ES ++ K.shake pkv K.len) := by
    rw [show sk + K.len + K.lenPk + K.lenS = sk + (s ++ pkv ++ ES).length by omega]
    exact store_store (by omega)
  rw [a6]
  simp only [List.append_assoc]

/-- C57, key generation with separate ranges: the two keys are in their places, all other bytes are as before. -/
theorem C57_keypair_apart_bytes {g : MatGen} (hS : Standard P g K) (mem s seedSE z : List U8)
    (pk sk : Nat) (hs : s.length = K.len) (hpk : pk + K.lenPk ≤ mem.length)
    (hsk : sk + K.lenSk ≤ mem.length) (hd : Apart sk K.lenSk pk K.lenPk) :
    (keygenMem K s seedSE z mem pk sk).length = mem.length ∧
    load (keygenMem K s seedSE z mem pk sk) pk K.lenPk = (keygen K s seedSE z).1 ∧
    load (keygenMem K s seedSE z mem pk sk) sk K.lenSk = (keygen K s seedSE z).2 ∧
    ∀ i, (i < pk ∨ pk + K.lenPk ≤ i) → (i < sk ∨ sk + K.lenSk ≤ i) →
      nth (keygenMem K s seedSE z mem pk sk) i = nth mem i := by
  have hk := hS.kwf
  have lpk : (keygen K s seedSE z).1.length = K.lenPk := length_keygen_pk hk s seedSE z
  have lsk : (keygen K s seedSE z).2.length = K.lenSk := length_keygen_sk hk hs seedSE z
  rw [C57_keypair_apart hS mem s seedSE z pk sk hs hpk hsk hd]
  generalize (keygen K s seedSE z).1 = p at lpk
  generalize (keygen K s seedSE z).2 = k at lsk
  have l1 : (store mem pk p).length = mem.length := length_put (by omega)
  refine ⟨by rw [length_put (by omega)]; exact l1, ?_, ?_, fun i h1 h2 => ?_⟩
  · rw [load_store_apart (by omega) (by omega) (by rw [lsk]; exact hd), ← lpk]
    exact load_store (by omega)
  · rw [← lsk]; exact load_store (by omega)
  · rw [nth_put (by omega), if_neg (by omega), nth_put (by omega), if_neg (by omega)]

/-- C57, a trap: if the public key ends inside the first part of the secret key, the call is defined, but the bytes
of the secret `s` are then part of the public key, and the copy and the hash are those of this wrong key. -/
theorem C57_keypair_leak {g : MatGen} (hS : Standard P g K) (mem s seedSE z : List U8) (pk sk i : Nat)
    (hs : s.length = K.len) (hpk : pk + K.lenPk ≤ mem.length) (hsk : sk + K.lenSk ≤ mem.length)
    (hd : pk + K.lenPk ≤ sk + K.len) (h1 : i < K.lenPk) (h2 : sk ≤ pk + i) :
    Apart (sk + K.len) K.lenPk pk K.lenPk ∧
    nth (load (keygenMem K s seedSE z mem pk sk) pk K.lenPk) i = nth s (pk + i - sk) ∧
    nth (load (keygenMem K s seedSE z mem pk sk) (sk + K.len) K.lenPk) i = nth s (pk + i - sk) := by
  have hp : K.lenPk = K.lenA + K.lenB := rfl
  have lpk := length_keygen_pk hS.kwf s seedSE z
  refine ⟨.inr hd, ?_, ?_⟩
  · rw [nth_load h1, C57_keypair_bytes hS mem s seedSE z pk sk _ hs hpk hsk rfl rfl rfl,
      if_neg (by omega), if_neg (by omega), if_neg (by omega), if_pos (by omega)]
  · have l1 : (store mem pk (keygen K s seedSE z).1).length = mem.length := length_put (by omega)
    have hsk' : K.lenSk = K.len + K.lenPk + K.lenS + K.len := rfl
    rw [nth_load h1, C57_keypair_bytes hS mem s seedSE z pk sk _ hs hpk hsk rfl rfl rfl,
      if_neg (by omega), if_neg (by omega), if_pos (by omega), Nat.add_sub_cancel_left,
      nth_put (by omega), if_pos (by omega)]

/-! ## The three functions together -/

/-- C57.  An exchange in one memory: the two keys are separate, the ciphertext is apart from the secret key and its
first part from the second part of the public key, the first shared secret is apart from the ciphertext and from the
secret key, and the second shared secret is anywhere.  If the noise is within bounds, both secrets are equal. -/
theorem C57_round_trip (B B' B'' : Build) (E E' E'' : Env) (rb rb' : RandomBytes) (addr : Nat)
    (mem s seedSE z mu : List U8) (pk sk ct ss ss' : Nat)
    (hS : Standard P B.gen K) (hg' : B'.gen = B.gen) (hg'' : B''.gen = B.gen)
    (hB' : Good B') (hB'' : Good B'')
    (ha : AlignedKeypair B E P) (ha' : AlignedKem B' E' P) (ha'' : AlignedKem B'' E'' P)
    (hal : (addr + sk) % 2 = 0)
    (hs : s.length = K.len) (hse : seedSE.length = K.len) (hz : z.length = K.lenA)
    (hmu : mu.length = K.len) (hrb : Fills rb (s ++ seedSE ++ z)) (hrb' : Fills rb' mu)
    (hpk : pk + K.lenPk ≤ mem.length) (hsk : sk + K.lenSk ≤ mem.length)
    (hct : ct + K.lenCt ≤ mem.length) (hss : ss + K.len ≤ mem.length)
    (hss' : ss' + K.len ≤ mem.length)
    (h1 : Apart sk K.lenSk pk K.lenPk) (h2 : Apart ct K.lenB (pk + K.lenA) K.lenB)
    (h3 : Apart ct K.lenCt sk K.lenSk) (h4 : Apart ss K.len ct K.lenCt)
    (h5 : Apart ss K.len sk K.lenSk)
    (hn : NoiseBound K seedSE (keygen K s seedSE z).1 mu) :
    Ret (do
      let (m, _) ← keypairShared B E P rb mem pk sk
      let (m, _) ← encShared B' E' P rb' m ct ss pk
      let k := load m ss K.len
      let (m, _) ← decShared B'' E'' P addr m ss' ct sk
      pure (k, load m ss' K.len))
      (fun r => r.1 = r.2 ∧ r.1 = (encaps K (keygen K s seedSE z).1 mu).2) := by
  have hS' : Standard P B'.gen K := by rw [hg']; exact hS
  have hS'' : Standard P B''.gen K := by rw [hg'']; exact hS
  have hk := hS.kwf
  have hsk' : K.lenSk = K.len + K.lenPk + K.lenS + K.len := rfl
  have hd : Apart (sk + K.len) K.lenPk pk K.lenPk := by unfold Apart at h1 ⊢; omega
  refine (C57_keypair B E rb mem s seedSE z pk sk hS ha hs hse hz hrb hpk hsk hd).bind ?_
  rintro ⟨m, _⟩ ⟨hm, _⟩
  simp only at hm ⊢
  obtain ⟨lm, k1, k2, -⟩ := C57_keypair_apart_bytes hS mem s seedSE z pk sk hs hpk hsk h1
  rw [← hm] at lm k1 k2
  refine (C57_enc B' E' rb' m mu ct ss pk hS' hB' ha' hmu hrb' (by omega) (by omega)
    (by omega)).bind ?_
  rintro ⟨m2, _⟩ ⟨hm2, _⟩
  simp only at hm2 ⊢
  obtain ⟨q1, q2, -⟩ := C57_enc_apart_bytes hS' m mu ct ss pk (by omega) (by omega) (by omega) h2
  have q2 := q2 h4
  have q3 : load (encapsMem K mu m ct ss pk) sk K.lenSk = load m sk K.lenSk := by
    rw [C57_enc_apart m mu ct ss pk (by omega) (by omega) h2]
    have l1 := length_encaps_ct K (load m pk K.lenPk) mu
    have l2 := length_encaps_ss hk (load m pk K.lenPk) mu
    have hc : K.lenCt = K.lenB + K.lenC := rfl
    have l3 : (store m ct (encaps K (load m pk K.lenPk) mu).1).length = m.length := length_put (by omega)
    rw [load_store_apart (by omega) (by omega) (by rw [l2]; exact h5),
      load_store_apart (by omega) (by omega) (by rw [l1, ← hc]; exact h3)]
  have q4 : (encapsMem K mu m ct ss pk).length = m.length := by
    rw [C57_enc_apart m mu ct ss pk (by omega) (by omega) h2]
    have l1 := length_encaps_ct K (load m pk K.lenPk) mu
    have l2 := length_encaps_ss hk (load m pk K.lenPk) mu
    have hc : K.lenCt = K.lenB + K.lenC := rfl
    have l3 : (store m ct (encaps K (load m pk K.lenPk) mu).1).length = m.length := length_put (by omega)
    rw [length_put (by omega)]; exact l3
  rw [← hm2] at q1 q2 q3 q4
  refine (C57_dec B'' E'' addr m2 ss' ct sk hS'' hB'' ha'' hal (by omega) (by omega)
    (by omega)).bind ?_
  rintro ⟨m3, _⟩ ⟨hm3, _⟩
  simp only at hm3 ⊢
  obtain ⟨-, q5, -⟩ := C57_dec_bytes hS m2 ss' ct sk (by omega)
  rw [← hm3, q2, q3, k1, k2,
    decaps_encaps hk hs hmu (fun i j => ⟨_, (hn i j).1, (hn i j).2, rfl⟩)] at q5
  rw [Ret_pure]
  rw [k1] at q1
  exact ⟨by rw [q1, q5], q1⟩

/-! ## The hypotheses can be met -/

theorem lens640 (g : MatGen) : (Frodo640 g).len = 16 ∧ (Frodo640 g).lenA = 16 ∧ (Frodo640 g).lenB = 9600 ∧
    (Frodo640 g).lenPk = 9616 ∧ (Frodo640 g).lenSk = 19888 ∧ (Frodo640 g).lenCt = 9720 := by
  refine ⟨rfl, rfl, (by norm_num : 15 * 640 * 8 / 8 = 9600), (by norm_num : 16 + 15 * 640 * 8 / 8 = 9616),
    (by norm_num : 16 + (16 + 15 * 640 * 8 / 8) + 2 * 640 * 8 + 16 = 19888),
    (by norm_num : 15 * 640 * 8 / 8 + 15 * 8 * 8 / 8 = 9720)⟩

/-- The secret is written over the ciphertext that it belongs to, and over a part of the secret key. -/
example (B : Build) (hB : Good B) (mem : List U8) (h : mem.length = 40000) :
    Ret (decShared B E0 frodo640 4096 mem 20000 20000 0) (fun o =>
      o.1 = decapsMem (Frodo640 B.gen) mem 20000 20000 0 ∧ o.2 = 0) ∧
    Ret (decShared B E0 frodo640 4096 mem 0 20000 0) (fun o =>
      o.1 = decapsMem (Frodo640 B.gen) mem 0 20000 0 ∧ o.2 = 0) := by
  obtain ⟨h1, -, -, -, h5, h6⟩ := lens640 B.gen
  exact ⟨C57_dec B E0 4096 mem _ _ _ (.frodo640 _) hB (E0_kem B) rfl (by omega) (by omega) (by omega),
    C57_dec B E0 4096 mem _ _ _ (.frodo640 _) hB (E0_kem B) rfl (by omega) (by omega) (by omega)⟩

/-- The three kinds of layout of key generation: apart, undefined, and the trap. -/
example (g : MatGen) : Apart 9616 (Frodo640 g).lenSk 0 (Frodo640 g).lenPk ∧
    ¬ Apart (0 + (Frodo640 g).len) (Frodo640 g).lenPk 16 (Frodo640 g).lenPk ∧
    (100 + (Frodo640 g).lenPk ≤ 9700 + (Frodo640 g).len ∧ 9615 < (Frodo640 g).lenPk ∧ 9700 ≤ 100 + 9615) := by
  obtain ⟨h1, h2, h3, h4, h5, h6⟩ := lens640 g
  unfold Apart
  omega

/-- A layout of encapsulation in which the ciphertext overlaps `seedA`, and one in which it overlaps `B`. -/
example (g : MatGen) : Apart 0 (Frodo640 g).lenB (9590 + (Frodo640 g).lenA) (Frodo640 g).lenB ∧
    ¬ Apart 0 (Frodo640 g).lenCt 9590 (Frodo640 g).lenPk ∧
    ¬ Apart 0 (Frodo640 g).lenB (0 + (Frodo640 g).lenA) (Frodo640 g).lenB := by
  obtain ⟨h1, h2, h3, h4, h5, h6⟩ := lens640 g
  unfold Apart
  omega

end Frodo.Props
