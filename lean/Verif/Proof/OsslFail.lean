import Verif.Model.Kem

/-! # Failures of OpenSSL propagate to the end of the program -/

namespace Frodo

variable {α β σ : Type}

/-- The first program ends in `abort`, or it is the second one. -/
def AbortOr (m m' : C α) : Prop := m = .ub .aborted ∨ m = m'

theorem AbortOr.refl (m : C α) : AbortOr m m := .inr rfl

theorem AbortOr.bind {m m' : C α} {f f' : α → C β} (h : AbortOr m m') (hf : ∀ a, AbortOr (f a) (f' a)) :
    AbortOr (m >>= f) (m' >>= f') := by
  rcases h with rfl | rfl
  · exact .inl rfl
  · cases m with
    | div => exact .inr rfl
    | ub u => exact .inr rfl
    | ok a t =>
      rcases hf a with h | h
      · exact .inl (by simp only [C.bind_def, C.bind', h])
      · exact .inr (by simp only [C.bind_def, C.bind', h])

theorem AbortOr.forLoop {step : Nat} {f f' : Nat → σ → C σ} (h : ∀ i s, AbortOr (f i s) (f' i s)) :
    ∀ k i s, AbortOr (Frodo.forLoop step f k i s) (Frodo.forLoop step f' k i s) := by
  intro k
  induction k with
  | zero => intro i s; exact AbortOr.refl _
  | succ k ih =>
    intro i s
    exact (AbortOr.refl _).bind fun _ => (h i s).bind fun s => ih _ s

theorem AbortOr.forC {lo hi step : Nat} {s : σ} {f f' : Nat → σ → C σ}
    (h : ∀ i s, AbortOr (f i s) (f' i s)) : AbortOr (Frodo.forC lo hi step s f) (Frodo.forC lo hi step s f') :=
  AbortOr.forLoop h _ _ _

theorem AbortOr.asBytes {a : Arch} {l : List U16} {off : Nat} {f f' : List U8 → C (List U8)}
    (h : ∀ b, AbortOr (f b) (f' b)) : AbortOr (Frodo.asBytes a l off f) (Frodo.asBytes a l off f') := by
  unfold Frodo.asBytes
  split
  · refine (AbortOr.refl _).bind fun _ => ?_
    exact (h _).bind fun _ => AbortOr.refl _
  · exact AbortOr.refl _

/-- The execution with an OpenSSL that never fails (proof device). -/
abbrev Env.sane (E : Env) : Env := { E with ossl := .ok }

theorem handleErrors_bind {f : α → C β} : (handleErrors >>= f) = .ub .aborted := rfl

theorem emit_abort {e : Event} : (C.emit e >>= fun _ => (.ub .aborted : C α)) = .ub .aborted := rfl

theorem AbortOr.evpSetup {L : OsslCode} {O : OsslRun} {c : EvpCipher} {key data : List U8} :
    AbortOr (Frodo.evpSetup L O c key data) (Frodo.evpSetup L .ok c key data) := by
  unfold Frodo.evpSetup EVP_CIPHER_CTX_new EVP_EncryptInit_ex
  cases O.new data with
  | false => exact .inl rfl
  | true =>
    simp only [OsslRun.ok, if_true, pure_bind]
    refine (AbortOr.refl _).bind fun _ => ?_
    simp only [bind_assoc]
    refine (AbortOr.refl _).bind fun _ => ?_
    cases O.init c (key.take c.keyLen) with
    | false => exact .inl rfl
    | true => exact AbortOr.refl _

theorem AbortOr.evpUpdate {L : OsslCode} {O : OsslRun} {ctx : EvpCtx} {out inp : List U8} {n : Nat} :
    AbortOr (Frodo.evpUpdate L O ctx out inp n) (Frodo.evpUpdate L .ok ctx out inp n) := by
  unfold Frodo.evpUpdate EVP_EncryptUpdate
  simp only [bind_assoc]
  refine (AbortOr.refl _).bind fun _ => ?_
  refine (AbortOr.refl _).bind fun _ => ?_
  cases ctx.key with
  | none => exact AbortOr.refl _
  | some k =>
    simp only [bind_assoc]
    refine (AbortOr.refl _).bind fun _ => ?_
    refine (AbortOr.refl _).bind fun _ => ?_
    cases O.update k.1 k.2 (inp.take n) with
    | false => exact .inl rfl
    | true => exact AbortOr.refl _

variable {A : AesBackend} {B : Build} {E : Env} {P : Params}

theorem AbortOr.setup128 {seed : List U8} :
    AbortOr (Frodo.setup128 A E seed) (Frodo.setup128 A E.sane seed) := by
  cases A with
  | standalone I => exact AbortOr.refl _
  | openssl L => exact AbortOr.evpSetup.bind fun _ => AbortOr.refl _

theorem AbortOr.encrypt128 {pt ct : List U8} {n : Nat} {s : Sched} :
    AbortOr (Frodo.encrypt128 A E pt n s ct) (Frodo.encrypt128 A E.sane pt n s ct) := by
  cases A <;> cases s <;> first | exact AbortOr.refl _ | exact AbortOr.evpUpdate

theorem AbortOr.encrypt128_inplace {b : List U8} {n : Nat} {s : Sched} :
    AbortOr (Frodo.encrypt128_inplace A E n s b) (Frodo.encrypt128_inplace A E.sane n s b) := by
  cases A <;> cases s <;> first | exact AbortOr.refl _ | exact AbortOr.evpUpdate

theorem AbortOr.genA_reference {seed : List U8} :
    AbortOr (Frodo.genA_reference B E P seed) (Frodo.genA_reference B E.sane P seed) := by
  unfold Frodo.genA_reference genA_memory
  refine AbortOr.bind ?_ fun _ => AbortOr.refl _
  cases B.gen
  · refine (AbortOr.refl _).bind fun _ => AbortOr.setup128.bind fun _ => ?_
    exact (AbortOr.asBytes fun _ => AbortOr.encrypt128_inplace).bind fun _ => AbortOr.refl _
  · exact AbortOr.refl _

theorem AbortOr.as_reference {out s e : List U16} {seed : List U8} :
    AbortOr (as_plus_e_reference B E P out s e seed) (as_plus_e_reference B E.sane P out s e seed) :=
  (AbortOr.genA_reference.bind fun _ => AbortOr.refl _).bind fun _ => AbortOr.refl _

theorem AbortOr.sa_reference {out s e : List U16} {seed : List U8} :
    AbortOr (sa_plus_e_reference B E P out s e seed) (sa_plus_e_reference B E.sane P out s e seed) :=
  (AbortOr.genA_reference.bind fun _ => AbortOr.refl _).bind fun _ => AbortOr.refl _

theorem AbortOr.as_loop {γ : Type} {s : List U16} {gen gen' : Nat → List U16 × γ → C (List U16 × γ)}
    {a_row : List U16} {g : γ} {out : List U16} (h : ∀ i st, AbortOr (gen i st) (gen' i st)) :
    AbortOr (Frodo.as_loop B P s gen a_row g out) (Frodo.as_loop B P s gen' a_row g out) := by
  unfold Frodo.as_loop
  refine AbortOr.bind (AbortOr.forC fun i s => ?_) fun _ => AbortOr.refl _
  exact (h _ _).bind fun _ => AbortOr.refl _

theorem AbortOr.sa_loop {γ : Type} {eAddr : Nat} {s : List U16}
    {gen gen' : Nat → List U16 × γ → C (List U16 × γ)}
    {A : List U16} {g : γ} {e : List U16} (h : ∀ i st, AbortOr (gen i st) (gen' i st)) :
    AbortOr (Frodo.sa_loop B E P eAddr s gen A g e) (Frodo.sa_loop B E.sane P eAddr s gen' A g e) := by
  unfold Frodo.sa_loop
  refine AbortOr.bind (AbortOr.forC fun i s => ?_) fun _ => AbortOr.refl _
  refine (h _ _).bind fun _ => AbortOr.bind ?_ fun _ => AbortOr.refl _
  unfold sa_accumulate
  cases B.impl <;> exact AbortOr.refl _

theorem AbortOr.as_optimized {a b : Nat} {out s e : List U16} {seed : List U8} :
    AbortOr (as_plus_e_optimized B E P a b out s e seed) (as_plus_e_optimized B E.sane P a b out s e seed) := by
  unfold as_plus_e_optimized as_plus_e_optimized_full
  refine AbortOr.bind ?_ fun _ => AbortOr.refl _
  refine (AbortOr.refl _).bind fun _ => ?_
  cases B.gen
  · refine AbortOr.setup128.bind fun _ => (AbortOr.refl _).bind fun _ => ?_
    refine AbortOr.bind (AbortOr.as_loop fun i st => ?_) fun _ => AbortOr.refl _
    refine (AbortOr.refl _).bind fun _ => ?_
    exact (AbortOr.asBytes fun _ => AbortOr.encrypt128).bind fun _ => AbortOr.refl _
  · cases B.impl <;> exact AbortOr.refl _

theorem AbortOr.sa_optimized {eAddr : Nat} {out s e : List U16} {seed : List U8} :
    AbortOr (sa_plus_e_optimized B E P eAddr out s e seed)
      (sa_plus_e_optimized B E.sane P eAddr out s e seed) := by
  unfold sa_plus_e_optimized sa_plus_e_optimized_full sa_plus_e_core
  refine AbortOr.bind (AbortOr.bind ?_ fun _ => AbortOr.refl _) fun _ => AbortOr.refl _
  cases B.gen
  · refine AbortOr.setup128.bind fun _ => (AbortOr.refl _).bind fun _ => ?_
    refine AbortOr.bind (AbortOr.sa_loop fun i st => ?_) fun _ => AbortOr.refl _
    refine (AbortOr.refl _).bind fun _ => ?_
    exact (AbortOr.asBytes fun _ => AbortOr.encrypt128).bind fun _ => AbortOr.refl _
  · cases B.impl <;> refine (AbortOr.refl _).bind fun _ => ?_
    · exact (AbortOr.refl _).bind fun _ =>
        (AbortOr.sa_loop fun _ _ => AbortOr.refl _).bind fun _ => AbortOr.refl _
    · exact (AbortOr.refl _).bind fun _ =>
        (AbortOr.sa_loop fun _ _ => AbortOr.refl _).bind fun _ => AbortOr.refl _
    · exact (AbortOr.sa_loop fun _ _ => AbortOr.refl _).bind fun _ => AbortOr.refl _

theorem AbortOr.as_plus_e {a b : Nat} {out s e : List U16} {seed : List U8} :
    AbortOr (frodo_mul_add_as_plus_e B E P a b out s e seed)
      (frodo_mul_add_as_plus_e B E.sane P a b out s e seed) := by
  unfold frodo_mul_add_as_plus_e
  cases B.impl
  · exact AbortOr.as_reference
  · exact AbortOr.as_optimized
  · exact AbortOr.as_optimized

theorem AbortOr.sa_plus_e {eAddr : Nat} {out s e : List U16} {seed : List U8} :
    AbortOr (frodo_mul_add_sa_plus_e B E P eAddr out s e seed)
      (frodo_mul_add_sa_plus_e B E.sane P eAddr out s e seed) := by
  unfold frodo_mul_add_sa_plus_e
  cases B.impl
  · exact AbortOr.sa_reference.bind fun _ => AbortOr.refl _
  · exact AbortOr.sa_optimized
  · exact AbortOr.sa_optimized

theorem AbortOr.keypair {rb : RandomBytes} {pk sk : List U8} :
    AbortOr (crypto_kem_keypair B E P rb pk sk) (crypto_kem_keypair B E.sane P rb pk sk) := by
  unfold crypto_kem_keypair
  iterate 6 refine (AbortOr.refl _).bind fun _ => ?_
  exact AbortOr.as_plus_e.bind fun _ => AbortOr.refl _

theorem AbortOr.mulSA {Bp Sp : List U16} {seedA : List U8} :
    AbortOr (Frodo.mulSA B E P Bp Sp seedA) (Frodo.mulSA B E.sane P Bp Sp seedA) := by
  unfold Frodo.mulSA
  refine (AbortOr.refl _).bind fun _ => ?_
  exact AbortOr.sa_plus_e.bind fun _ => AbortOr.refl _

theorem AbortOr.enc {rb : RandomBytes} {ct ss pk : List U8} :
    AbortOr (crypto_kem_enc B E P rb ct ss pk) (crypto_kem_enc B E.sane P rb ct ss pk) := by
  unfold crypto_kem_enc
  iterate 5 refine (AbortOr.refl _).bind fun _ => ?_
  exact AbortOr.mulSA.bind fun _ => AbortOr.refl _

theorem AbortOr.dec {skAddr : Nat} {ss ct sk : List U8} :
    AbortOr (crypto_kem_dec B E P skAddr ss ct sk) (crypto_kem_dec B E.sane P skAddr ss ct sk) := by
  unfold crypto_kem_dec
  iterate 6 refine (AbortOr.refl _).bind fun _ => ?_
  exact AbortOr.mulSA.bind fun _ => AbortOr.refl _

/-! ## A failure is noticed -/

/-- If the second program returns, the first one ends in `abort` (proof device). -/
def Aborts (m m' : C α) : Prop := ∀ a t, m' = .ok a t → m = .ub .aborted

theorem of_bind_ok {m : C α} {f : α → C β} {b : β} {t : List Event} (h : (m >>= f) = .ok b t) :
    ∃ a u v, m = .ok a u ∧ f a = .ok b v := by
  cases m with
  | div => cases h
  | ub u => cases h
  | ok a u =>
    simp only [C.bind_def, C.bind'] at h
    cases hf : f a with
    | div => rw [hf] at h; cases h
    | ub u => rw [hf] at h; cases h
    | ok b' v =>
      rw [hf] at h
      cases h
      exact ⟨a, u, v, rfl, hf⟩

theorem Aborts.bind {m m' : C α} {f f' : α → C β} (h : Aborts m m') : Aborts (m >>= f) (m' >>= f') := by
  intro b t hb
  obtain ⟨a, u, v, h1, -⟩ := of_bind_ok hb
  rw [h a u h1]
  rfl

theorem Aborts.after {m : C α} {f f' : α → C β} (h : ∀ a, Aborts (f a) (f' a)) :
    Aborts (m >>= f) (m >>= f') := by
  intro b t hb
  obtain ⟨a, u, v, h1, h2⟩ := of_bind_ok hb
  simp only [h1, C.bind_def, C.bind', h a b v h2]

theorem Aborts.later {m m' : C α} {f f' : α → C β} (hm : AbortOr m m')
    (h : ∀ a t, m' = .ok a t → Aborts (f a) (f' a)) : Aborts (m >>= f) (m' >>= f') := by
  rcases hm with rfl | rfl
  · exact fun _ _ _ => rfl
  · intro b t hb
    obtain ⟨a, u, v, h1, h2⟩ := of_bind_ok hb
    simp only [h1, C.bind_def, C.bind', h a u h1 b v h2]

theorem Aborts.forC {hi step : Nat} {s : σ} {f f' : Nat → σ → C σ} (hs : 0 < step) (hh : 0 < hi)
    (h : ∀ i s, Aborts (f i s) (f' i s)) : Aborts (Frodo.forC 0 hi step s f) (Frodo.forC 0 hi step s f') := by
  unfold Frodo.forC
  obtain ⟨k, hk⟩ : ∃ k, (hi - 0 + (step - 1)) / step = k + 1 :=
    Nat.exists_eq_succ_of_ne_zero (Nat.pos_iff_ne_zero.mp (Nat.div_pos (by omega) hs))
  rw [hk]
  exact Aborts.after fun _ => (h _ _).bind

theorem Aborts.asBytes {a : Arch} {l : List U16} {off : Nat} {f f' : List U8 → C (List U8)}
    (h : ∀ b, Aborts (f b) (f' b)) : Aborts (Frodo.asBytes a l off f) (Frodo.asBytes a l off f') := by
  unfold Frodo.asBytes
  split
  · exact Aborts.after fun _ => (h _).bind
  · exact fun _ _ h => nomatch h

/-- A function of OpenSSL that fails whenever it is called for AES128. -/
def OsslRun.broken (O : OsslRun) : Prop :=
  (∀ d, O.new d = false) ∨ (∀ k, O.init .aes_128_ecb k = false) ∨ ∀ k d, O.update .aes_128_ecb k d = false

/-- One of the functions that set up the context fails (proof device). -/
def OsslRun.brokenInit (O : OsslRun) : Prop :=
  (∀ d, O.new d = false) ∨ ∀ k, O.init .aes_128_ecb k = false

theorem Aborts.evpSetup {L : OsslCode} {O : OsslRun} {key data : List U8} (h : O.brokenInit) :
    Aborts (Frodo.evpSetup L O .aes_128_ecb key data) (Frodo.evpSetup L .ok .aes_128_ecb key data) := by
  unfold Frodo.evpSetup EVP_CIPHER_CTX_new EVP_EncryptInit_ex
  cases hn : O.new data with
  | false => exact fun _ _ _ => rfl
  | true =>
    rcases h with h | h
    · rw [h data] at hn; cases hn
    · simp only [OsslRun.ok, if_true, pure_bind, h]
      refine Aborts.after fun _ => ?_
      simp only [bind_assoc]
      exact Aborts.after fun _ _ _ _ => rfl

theorem Aborts.evpUpdate {L : OsslCode} {O : OsslRun} {key out inp : List U8} {n : Nat}
    (h : ∀ k d, O.update .aes_128_ecb k d = false) :
    Aborts (Frodo.evpUpdate L O ⟨some (.aes_128_ecb, key)⟩ out inp n)
      (Frodo.evpUpdate L .ok ⟨some (.aes_128_ecb, key)⟩ out inp n) := by
  unfold Frodo.evpUpdate EVP_EncryptUpdate
  simp only [bind_assoc, h]
  exact Aborts.after fun _ => Aborts.after fun _ => Aborts.after fun _ => Aborts.after fun _ _ _ _ => rfl

theorem evpSetup_ok {L : OsslCode} {O : OsslRun} {c : EvpCipher} {key data : List U8} {ctx : EvpCtx}
    {t : List Event} (h : evpSetup L O c key data = .ok ctx t) : ctx = ⟨some (c, key.take c.keyLen)⟩ := by
  unfold evpSetup EVP_CIPHER_CTX_new EVP_EncryptInit_ex at h
  cases hn : O.new data with
  | false => rw [hn] at h; cases h
  | true =>
    simp only [hn, if_true, pure_bind, bind_assoc] at h
    obtain ⟨_, _, _, _, h⟩ := of_bind_ok h
    obtain ⟨_, _, _, _, h⟩ := of_bind_ok h
    obtain ⟨_, _, _, _, h⟩ := of_bind_ok h
    cases hi : O.init c (key.take c.keyLen) with
    | false =>
      rw [hi] at h
      simp [ifC, C.bind_def, C.bind', C.emit, handleErrors] at h
    | true =>
      rw [hi] at h
      simp [ifC, C.bind_def, C.pure_def, C.bind', C.emit] at h
      exact h.1.symm

/-- Set up and use of the key (proof device). -/
theorem Aborts.setup {L : OsslCode} {seed : List U8} {f f' : Sched → C β} (h : E.ossl.broken)
    (hf : (∀ k d, E.ossl.update .aes_128_ecb k d = false) →
      ∀ key, Aborts (f (.evp ⟨some (.aes_128_ecb, key)⟩)) (f' (.evp ⟨some (.aes_128_ecb, key)⟩))) :
    Aborts (setup128 (.openssl L) E seed >>= f) (setup128 (.openssl L) E.sane seed >>= f') := by
  rcases h with h | h | h
  · exact (Aborts.evpSetup (.inl h)).bind.bind
  · exact (Aborts.evpSetup (.inr h)).bind.bind
  · refine Aborts.later AbortOr.setup128 fun a t ha => ?_
    obtain ⟨ctx, u, v, h1, h2⟩ := of_bind_ok (show (Frodo.evpSetup _ _ _ _ _ >>= _) = _ from ha)
    rw [evpSetup_ok h1] at h2
    cases h2
    exact hf h _

theorem Aborts.encrypt128 {L : OsslCode} {pt ct key : List U8} {n : Nat}
    (h : ∀ k d, E.ossl.update .aes_128_ecb k d = false) :
    Aborts (Frodo.encrypt128 (.openssl L) E pt n (.evp ⟨some (.aes_128_ecb, key)⟩) ct)
      (Frodo.encrypt128 (.openssl L) E.sane pt n (.evp ⟨some (.aes_128_ecb, key)⟩) ct) :=
  Aborts.evpUpdate h

theorem Aborts.encrypt128_inplace {L : OsslCode} {b key : List U8} {n : Nat}
    (h : ∀ k d, E.ossl.update .aes_128_ecb k d = false) :
    Aborts (Frodo.encrypt128_inplace (.openssl L) E n (.evp ⟨some (.aes_128_ecb, key)⟩) b)
      (Frodo.encrypt128_inplace (.openssl L) E.sane n (.evp ⟨some (.aes_128_ecb, key)⟩) b) :=
  Aborts.evpUpdate h

theorem Aborts.genA_reference {L : OsslCode} {seed : List U8} (hg : B.gen = .aes) (hL : B.aes = .openssl L)
    (h : E.ossl.broken) :
    Aborts (Frodo.genA_reference B E P seed) (Frodo.genA_reference B E.sane P seed) := by
  unfold Frodo.genA_reference genA_memory
  simp only [hg, hL]
  refine Aborts.bind (Aborts.after fun _ => Aborts.setup h fun hu key => ?_)
  exact (Aborts.asBytes fun _ => Aborts.encrypt128_inplace hu).bind

theorem Aborts.as_plus_e {L : OsslCode} {a b : Nat} {out s e : List U16} {seed : List U8} (hn : 0 < P.n)
    (hg : B.gen = .aes) (hL : B.aes = .openssl L) (h : E.ossl.broken) :
    Aborts (frodo_mul_add_as_plus_e B E P a b out s e seed)
      (frodo_mul_add_as_plus_e B E.sane P a b out s e seed) := by
  have h2 : Aborts (as_plus_e_optimized B E P a b out s e seed)
      (as_plus_e_optimized B E.sane P a b out s e seed) := by
    unfold as_plus_e_optimized as_plus_e_optimized_full
    simp only [hg, hL]
    refine Aborts.bind (Aborts.after fun _ => Aborts.setup h fun hu key => Aborts.after fun _ => ?_)
    refine Aborts.bind (Aborts.bind (Aborts.forC (by decide) hn fun i st => Aborts.bind ?_))
    unfold as_gen_aes
    simp only [hL]
    exact Aborts.after fun _ => (Aborts.asBytes fun _ => Aborts.encrypt128 hu).bind
  unfold frodo_mul_add_as_plus_e
  cases B.impl
  · exact (Aborts.genA_reference hg hL h).bind.bind
  · exact h2
  · exact h2

theorem Aborts.sa_plus_e {L : OsslCode} {eAddr : Nat} {out s e : List U16} {seed : List U8}
    (hn : 0 < P.n) (hg : B.gen = .aes) (hL : B.aes = .openssl L) (h : E.ossl.broken) :
    Aborts (frodo_mul_add_sa_plus_e B E P eAddr out s e seed)
      (frodo_mul_add_sa_plus_e B E.sane P eAddr out s e seed) := by
  have h2 : Aborts (sa_plus_e_optimized B E P eAddr out s e seed)
      (sa_plus_e_optimized B E.sane P eAddr out s e seed) := by
    unfold sa_plus_e_optimized sa_plus_e_optimized_full sa_plus_e_core
    simp only [hg, hL]
    refine Aborts.bind (Aborts.bind (Aborts.setup h fun hu key => Aborts.after fun _ => ?_))
    refine Aborts.bind (Aborts.bind (Aborts.forC (by decide) hn fun i st => Aborts.bind ?_))
    unfold sa_gen_aes
    simp only [hL]
    exact Aborts.after fun _ => (Aborts.asBytes fun _ => Aborts.encrypt128 hu).bind
  unfold frodo_mul_add_sa_plus_e
  cases B.impl
  · exact (Aborts.genA_reference hg hL h).bind.bind.bind
  · exact h2
  · exact h2

theorem Aborts.keypair {L : OsslCode} {rb : RandomBytes} {pk sk : List U8} (hn : 0 < P.n)
    (hg : B.gen = .aes) (hL : B.aes = .openssl L) (h : E.ossl.broken) :
    Aborts (crypto_kem_keypair B E P rb pk sk) (crypto_kem_keypair B E.sane P rb pk sk) := by
  unfold crypto_kem_keypair
  iterate 6 refine Aborts.after fun _ => ?_
  exact (Aborts.as_plus_e hn hg hL h).bind

theorem Aborts.mulSA {L : OsslCode} {Bp Sp : List U16} {seedA : List U8} (hn : 0 < P.n)
    (hg : B.gen = .aes) (hL : B.aes = .openssl L) (h : E.ossl.broken) :
    Aborts (Frodo.mulSA B E P Bp Sp seedA) (Frodo.mulSA B E.sane P Bp Sp seedA) := by
  unfold Frodo.mulSA
  exact Aborts.after fun _ => (Aborts.sa_plus_e hn hg hL h).bind

theorem Aborts.enc {L : OsslCode} {rb : RandomBytes} {ct ss pk : List U8} (hn : 0 < P.n)
    (hg : B.gen = .aes) (hL : B.aes = .openssl L) (h : E.ossl.broken) :
    Aborts (crypto_kem_enc B E P rb ct ss pk) (crypto_kem_enc B E.sane P rb ct ss pk) := by
  unfold crypto_kem_enc
  iterate 5 refine Aborts.after fun _ => ?_
  exact (Aborts.mulSA hn hg hL h).bind

theorem Aborts.dec {L : OsslCode} {skAddr : Nat} {ss ct sk : List U8} (hn : 0 < P.n)
    (hg : B.gen = .aes) (hL : B.aes = .openssl L) (h : E.ossl.broken) :
    Aborts (crypto_kem_dec B E P skAddr ss ct sk) (crypto_kem_dec B E.sane P skAddr ss ct sk) := by
  unfold crypto_kem_dec
  iterate 6 refine Aborts.after fun _ => ?_
  exact (Aborts.mulSA hn hg hL h).bind

end Frodo
