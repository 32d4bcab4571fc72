import Verif.Model.Ossl
import Verif.Proof.CtAes

/-! # Traces of the AES back ends

Nothing is known about the leakage of OpenSSL, except that it is a function of key and data. -/

namespace Frodo

theorem take_getElem? {α : Type} {l l' : List α} {n : Nat} (h : l.take n = l'.take n) (t : Nat)
    (ht : t < n) : l[t]? = l'[t]? := by
  have h1 := congrArg (fun l => l[t]?) h
  simpa [List.getElem?_take, ht] using h1

/-- How much two executions have in common: everything, except for AES-NI (proof device). -/
def AesBackend.same (A : AesBackend) {α : Type} (x y : α) : Prop := A ≠ .ni → x = y

theorem Rel.leak {t : List Event} : Rel (C.ok () t) (C.ok () t) (fun _ _ => True) :=
  Rel.refl.mono fun _ _ _ => trivial

theorem EVP_CIPHER_CTX_new_rel {O O' : OsslRun} {d d' : List U8} :
    Rel (EVP_CIPHER_CTX_new O d) (EVP_CIPHER_CTX_new O' d')
      (fun x y => x = none ∨ y = none ∨ x = y) := by
  unfold EVP_CIPHER_CTX_new
  refine Rel.pure ?_
  cases O.new d <;> cases O'.new d' <;> simp

theorem EVP_EncryptInit_ex_rel {L : OsslCode} {O O' : OsslRun} {ctx ctx' : EvpCtx} {c : EvpCipher}
    {key key' : List U8} (hk : key.take c.keyLen = key'.take c.keyLen) :
    Rel (EVP_EncryptInit_ex L O ctx c key) (EVP_EncryptInit_ex L O' ctx' c key')
      (fun x y => x.2 ≠ 1 ∨ y.2 ≠ 1 ∨ x = y) := by
  unfold EVP_EncryptInit_ex
  rw [hk]
  refine Rel.bind Rel.require fun _ _ _ => ?_
  refine Rel.bind Rel.leak fun _ _ _ => ?_
  refine Rel.pure ?_
  cases O.init c (key'.take c.keyLen) <;> cases O'.init c (key'.take c.keyLen) <;> simp

/-- The test of a result: executions in which it fails end in `abort`. -/
theorem rel_checked {α : Type} {r r' : Int} {x y : α} (h : r ≠ 1 ∨ r' ≠ 1 ∨ x = y) :
    Rel (Frodo.ifC (r != 1) handleErrors (pure x)) (Frodo.ifC (r' != 1) handleErrors (pure y)) (· = ·) := by
  unfold Frodo.ifC
  by_cases h1 : r = 1
  · by_cases h2 : r' = 1
    · subst h1 h2
      refine Rel.bind (Rel.emit _) fun _ _ _ => ?_
      exact Rel.pure (by simpa using h)
    · intro a t b u _ h4
      have : (r' != 1) = true := by simpa using h2
      rw [this] at h4
      simp [C.bind_def, C.bind', C.emit, handleErrors] at h4
  · intro a t b u h4 _
    have : (r != 1) = true := by simpa using h1
    rw [this] at h4
    simp [C.bind_def, C.bind', C.emit, handleErrors] at h4

theorem evpSetup_rel {L : OsslCode} {O O' : OsslRun} {c : EvpCipher} {key key' d d' : List U8}
    (hk : key.take c.keyLen = key'.take c.keyLen) :
    Rel (evpSetup L O c key d) (evpSetup L O' c key' d') (· = ·) := by
  unfold evpSetup
  refine Rel.bind EVP_CIPHER_CTX_new_rel fun x y hxy => ?_
  cases x with
  | none =>
    intro a t b u h _
    simp [C.bind_def, C.bind', C.emit, handleErrors] at h
  | some x =>
    cases y with
    | none =>
      intro a t b u _ h
      simp [C.bind_def, C.bind', C.emit, handleErrors] at h
    | some y =>
      refine Rel.bind (Rel.emit _) fun _ _ _ => ?_
      refine Rel.bind (R := fun _ _ => True) (Rel.pure trivial) fun ctx ctx' _ => ?_
      refine Rel.bind (EVP_EncryptInit_ex_rel hk) ?_
      rintro ⟨x, r⟩ ⟨y, r'⟩ h
      refine rel_checked ?_
      rcases h with h | h | h
      · exact .inl h
      · exact .inr (.inl h)
      · exact .inr (.inr (Prod.mk.inj h).1)

theorem evpUpdate_rel {L : OsslCode} {O O' : OsslRun} {ctx : EvpCtx} {out inp : List U8} {n : Nat} :
    Rel (evpUpdate L O ctx out inp n) (evpUpdate L O' ctx out inp n) (· = ·) := by
  unfold evpUpdate EVP_EncryptUpdate
  refine Rel.bind (R := fun x y : List U8 × Int => x.2 ≠ 1 ∨ y.2 ≠ 1 ∨ x.1 = y.1) ?_ ?_
  · refine Rel.bind Rel.require fun _ _ _ => ?_
    refine Rel.bind Rel.require fun _ _ _ => ?_
    cases ctx.key with
    | none => exact Rel.pure (by simp)
    | some k =>
      obtain ⟨c, key⟩ := k
      simp only
      refine Rel.bind Rel.require fun _ _ _ => ?_
      refine Rel.bind Rel.require fun _ _ _ => ?_
      refine Rel.bind Rel.leak fun _ _ _ => ?_
      refine Rel.pure ?_
      cases O.update c key (inp.take n) <;> cases O'.update c key (inp.take n) <;> simp
  · rintro ⟨x, r⟩ ⟨y, r'⟩ h
    exact rel_checked h

theorem AesBackend.same_c {α : Type} {x y : α} {I : AesImpl}
    (h : (AesBackend.standalone I).same x y) : I.same x y := by
  rintro rfl
  exact h nofun

theorem AesImpl.same.backend {α : Type} {x y : α} {I : AesImpl} (h : I.same x y) :
    (AesBackend.standalone I).same x y := by
  intro hn
  cases I
  · exact h rfl
  · exact absurd rfl hn

theorem setup128_rel {A : AesBackend} {E E' : Env} {s s' : List U8}
    (hs : A.same (s.take 16) (s'.take 16)) : Rel (setup128 A E s) (setup128 A E' s') A.same := by
  cases A with
  | standalone I =>
    refine Rel.bind (AES128_load_schedule_rel (fun h => take_getElem? (AesBackend.same_c hs h)) (by simp)
      (by simp)) fun k k' hk => ?_
    exact Rel.pure (AesImpl.same.backend fun h => by rw [hk h])
  | openssl L =>
    refine Rel.bind (evpSetup_rel (c := .aes_128_ecb) (hs nofun)) ?_
    rintro k _ rfl
    exact Rel.pure fun _ => rfl

theorem encrypt128_rel {A : AesBackend} {E E' : Env} {n : Nat} {p p' c c' : List U8} {s s' : Sched}
    (hp : A.same p p') (hs : A.same s s') (hc : A.same c c') :
    Rel (encrypt128 A E p n s c) (encrypt128 A E' p' n s' c') A.same := by
  cases A with
  | standalone I =>
    cases s <;> cases s' <;> first | exact Rel.ub_left | exact Rel.ub_right | skip
    exact (AES128_ECB_enc_sch_rel (AesBackend.same_c hp)
      (fun h => Sched.bytes.inj (AesBackend.same_c hs h)) (AesBackend.same_c hc)).mono
      fun _ _ h => AesImpl.same.backend h
  | openssl L =>
    rw [hp nofun, hs nofun, hc nofun]
    cases s' <;> first | exact Rel.ub_left | skip
    exact evpUpdate_rel.mono fun _ _ h _ => h

theorem encrypt128_inplace_rel {A : AesBackend} {E E' : Env} {n : Nat} {c c' : List U8} {s s' : Sched}
    (hs : A.same s s') (hc : A.same c c') :
    Rel (encrypt128_inplace A E n s c) (encrypt128_inplace A E' n s' c') A.same := by
  cases A with
  | standalone I =>
    cases s <;> cases s' <;> first | exact Rel.ub_left | exact Rel.ub_right | skip
    exact (AES128_ECB_enc_sch_inplace_rel
      (fun h => Sched.bytes.inj (AesBackend.same_c hs h)) (AesBackend.same_c hc)).mono
      fun _ _ h => AesImpl.same.backend h
  | openssl L =>
    rw [hs nofun, hc nofun]
    cases s' <;> first | exact Rel.ub_left | skip
    exact evpUpdate_rel.mono fun _ _ h _ => h

theorem free128_rel {A : AesBackend} {s s' : Sched} : SameTrace (free128 A s) (free128 A s') := by
  cases A <;> cases s <;> cases s' <;>
    first | exact Rel.ub_left | exact Rel.ub_right | exact Rel.pure trivial | skip
  unfold free128 AES128_free_schedule
  ct_steps

end Frodo
