import Verif.Proof.Random
import Verif.Props.Kem

/-! # Properties of `randombytes` (C41-C43) -/

namespace Frodo.Props
open Frodo Frodo.Spec

/-- Number of bytes that `randombytes` writes on Unix when asked for `nbytes`. -/
def written (nbytes : Nat) : Nat := if nbytes % 2 ^ 32 < 2 ^ 31 then nbytes % 2 ^ 32 else 0

theorem i32_toNat (nbytes : Nat) : (i32 nbytes).toNat = written nbytes := by
  unfold i32 written
  rw [BitVec.toInt_eq_toNat_cond, BitVec.toNat_ofNat]
  split <;> split <;> omega

theorem written_small {nbytes : Nat} (h : nbytes < 2 ^ 31) : written nbytes = nbytes := by
  unfold written
  rw [Nat.mod_eq_of_lt (by omega), if_pos h]

/-- C43.  `randombytes` returns if and only if the device opens sometime and the calls of `read` deliver
together as many bytes as it needs; this holds for every behaviour of the operating system. -/
theorem C43_returns_iff (W : OS) (st : OSState) (buf : List U8) (nbytes : Nat)
    (hb : written nbytes ≤ buf.length) :
    Ret (randombytes_nix W st buf nbytes) (fun _ => True) ↔
      Opens W st ∧ ∃ K, written nbytes ≤ osAvail W st.reads K := by
  rw [← i32_toNat] at *
  constructor
  · rintro ⟨r, t, e, -⟩
    by_contra hcon
    rw [randombytes_nix_div hb] at e
    · cases e
    · by_cases ho : Opens W st
      · right
        intro K
        by_contra h
        exact hcon ⟨ho, K, by omega⟩
      · exact Or.inl ho
  · rintro ⟨ho, K, hK⟩
    exact (randombytes_nix_ret ho hb hK).mono fun _ _ => trivial

/-- C43.  In particular it returns if reads deliver something again and again, however short they are and
however often they are interrupted. -/
theorem C43_delivers (W : OS) (st : OSState) (buf : List U8) (nbytes : Nat)
    (hb : written nbytes ≤ buf.length) (ho : Opens W st)
    (hr : ∀ k, ∃ i m, k ≤ i ∧ W.readRes i = some m ∧ 0 < m) :
    Ret (randombytes_nix W st buf nbytes) (fun _ => True) := by
  refine (C43_returns_iff W st buf nbytes hb).2 ⟨ho, ?_⟩
  have split : ∀ a s b, osAvail W s (a + b) = osAvail W s a + osAvail W (s + a) b := by
    intro a
    induction a with
    | zero => intro s b; simp [osAvail]
    | succ a ih =>
      intro s b
      rw [show a + 1 + b = (a + b) + 1 by omega, osAvail, osAvail, ih,
        show s + 1 + a = s + (a + 1) by omega, Nat.add_assoc]
  generalize written nbytes = N
  induction N with
  | zero => exact ⟨0, Nat.zero_le _⟩
  | succ N ih =>
    obtain ⟨K, hK⟩ := ih
    obtain ⟨i, m, hi, hm, h0⟩ := hr (st.reads + K)
    refine ⟨K + (i - (st.reads + K)) + 1, ?_⟩
    rw [split, split, show st.reads + (K + (i - (st.reads + K))) = i by omega]
    simp only [osAvail, hm, Option.getD_some]
    omega

/-- C43.  It never returns if `open` fails forever. -/
theorem C43_no_device (W : OS) (st : OSState) (buf : List U8) (nbytes : Nat)
    (hb : written nbytes ≤ buf.length) (hl : st.lock = -1) (h : ∀ i, W.openRes i = -1) :
    randombytes_nix W st buf nbytes = .div :=
  randombytes_nix_div (by rwa [i32_toNat]) <| Or.inl <| by
    rintro (h1 | ⟨d, h1⟩)
    · exact h1 hl
    · exact h1 (h _)

/-- C43.  It never returns if every `read` reports an error or the end of the file, unless nothing is
wanted. -/
theorem C43_end_of_file (W : OS) (st : OSState) (buf : List U8) (nbytes : Nat)
    (hb : written nbytes ≤ buf.length) (hn : 0 < written nbytes)
    (h : ∀ i, W.readRes (st.reads + i) = none ∨ W.readRes (st.reads + i) = some 0) :
    randombytes_nix W st buf nbytes = .div := by
  refine randombytes_nix_div (by rwa [i32_toNat]) <| Or.inr fun K => ?_
  rw [i32_toNat]
  suffices ∀ K s, (∀ i, W.readRes (s + i) = none ∨ W.readRes (s + i) = some 0) →
      osAvail W s K = 0 by rw [this K _ h]; exact hn
  intro K
  induction K with
  | zero => intro s _; rfl
  | succ K ih =>
    intro s h
    rw [osAvail, ih (s + 1) fun i => by
      have := h (i + 1)
      rwa [show s + (i + 1) = s + 1 + i by omega] at this]
    rcases h 0 with h0 | h0 <;> rw [Nat.add_zero] at h0 <;> rw [h0] <;> rfl

/-- C42.  What `randombytes` does with every length: whenever it returns, it reports success and has
written `written nbytes` bytes of the device and nothing else. -/
theorem C42_every_length (W : OS) (st : OSState) (buf : List U8) (nbytes : Nat)
    (hb : written nbytes ≤ buf.length) (r : OSState × List U8 × Int) (t : List Event)
    (h : randombytes_nix W st buf nbytes = .ok r t) :
    r.2.1 = osBytes W st.pos (written nbytes) ++ buf.drop (written nbytes) ∧ r.2.2 = 0 ∧
      r.1.pos = st.pos + written nbytes ∧ r.1.lock ≠ -1 := by
  obtain ⟨ho, K, hK⟩ := (C43_returns_iff W st buf nbytes hb).1 ⟨r, t, h, trivial⟩
  rw [← i32_toNat] at *
  obtain ⟨r', t', e, hr⟩ := randombytes_nix_ret ho hb hK
  rw [h] at e
  injection e with e1 _
  subst e1
  exact hr

/-- C41.  For every behaviour of the operating system: when `randombytes` returns, the first `nbytes`
bytes of the buffer are the next `nbytes` bytes of the device, in order; the rest of the buffer is
unchanged, exactly these bytes were consumed, and the result is 0. -/
theorem C41_fills (W : OS) (st : OSState) (buf : List U8) (nbytes : Nat) (hn : nbytes < 2 ^ 31)
    (hb : nbytes ≤ buf.length) (r : OSState × List U8 × Int) (t : List Event)
    (h : randombytes_nix W st buf nbytes = .ok r t) :
    r.2.1 = osBytes W st.pos nbytes ++ buf.drop nbytes ∧ r.2.2 = 0 ∧ r.1.pos = st.pos + nbytes ∧
      r.1.lock ≠ -1 := by
  have := C42_every_length W st buf nbytes (by rwa [written_small hn]) r t h
  rwa [written_small hn] at this

/-- C41.  It has no undefined behaviour: it returns or it waits forever. -/
theorem C41_no_ub (W : OS) (st : OSState) (buf : List U8) (nbytes : Nat)
    (hb : written nbytes ≤ buf.length) (u : UB) : randombytes_nix W st buf nbytes ≠ .ub u := by
  intro h
  by_cases hr : Opens W st ∧ ∃ K, written nbytes ≤ osAvail W st.reads K
  · obtain ⟨r, t, e, -⟩ := (C43_returns_iff W st buf nbytes hb).2 hr
    rw [h] at e
    cases e
  · rw [← i32_toNat] at *
    rw [randombytes_nix_div hb] at h
    · cases h
    · by_cases ho : Opens W st
      · right
        intro K
        by_contra h'
        exact hr ⟨ho, K, by omega⟩
      · exact Or.inl ho

/-- C41.  Two calls one after the other get different bytes of the device: the second starts where the
first stopped. -/
theorem C41_consecutive (W : OS) (st : OSState) (b₁ b₂ : List U8) (n₁ n₂ : Nat) (h₁ : n₁ < 2 ^ 31)
    (h₂ : n₂ < 2 ^ 31) (hb₁ : b₁.length = n₁) (hb₂ : b₂.length = n₂)
    (r₁ r₂ : OSState × List U8 × Int) (t₁ t₂ : List Event)
    (e₁ : randombytes_nix W st b₁ n₁ = .ok r₁ t₁) (e₂ : randombytes_nix W r₁.1 b₂ n₂ = .ok r₂ t₂) :
    r₁.2.1 ++ r₂.2.1 = osBytes W st.pos (n₁ + n₂) := by
  obtain ⟨x1, -, x3, -⟩ := C41_fills W st b₁ n₁ h₁ (by omega) _ _ e₁
  obtain ⟨y1, -, -, -⟩ := C41_fills W r₁.1 b₂ n₂ h₂ (by omega) _ _ e₂
  rw [x1, y1, x3, List.drop_eq_nil_of_le (by omega), List.drop_eq_nil_of_le (by omega),
    List.append_nil, List.append_nil, osBytes_append]

/-- C42 is false: from 2 GiB on, below 4 GiB, `randombytes` reports success and writes nothing. -/
theorem C42_two_gib (W : OS) (st : OSState) (buf : List U8) (nbytes : Nat) (h1 : 2 ^ 31 ≤ nbytes)
    (h2 : nbytes < 2 ^ 32) (ho : Opens W st) :
    Ret (randombytes_nix W st buf nbytes) (fun r => r.2.1 = buf ∧ r.2.2 = 0) := by
  have hw : written nbytes = 0 := by
    unfold written; rw [Nat.mod_eq_of_lt h2, if_neg (by omega)]
  obtain ⟨r, t, e, -⟩ := (C43_returns_iff W st buf nbytes (by omega)).2 ⟨ho, 0, by omega⟩
  have := C42_every_length W st buf nbytes (by omega) r t e
  refine ⟨r, t, e, ?_, this.2.1⟩
  rw [this.1, hw]
  rfl

/-- C42 on Windows: success means that `nbytes mod 2^32` bytes were written; a failure leaves the buffer
as it was and is reported. -/
theorem C42_windows (gen : Nat → Option (List U8)) (buf : List U8) (nbytes : Nat)
    (hg : ∀ k l, gen k = some l → l.length = k) (hb : nbytes % 2 ^ 32 ≤ buf.length) :
    Ret (randombytes_windows gen buf nbytes) (fun r =>
      (r.2 = 0 ∧ ∃ l, gen (nbytes % 2 ^ 32) = some l ∧ r.1 = l ++ buf.drop (nbytes % 2 ^ 32)) ∨
      (r.2 = 1 ∧ gen (nbytes % 2 ^ 32) = none ∧ r.1 = buf)) := by
  unfold randombytes_windows
  simp only
  rcases h : gen (nbytes % 2 ^ 32) with _ | l
  · exact ⟨_, [], rfl, Or.inr ⟨rfl, rfl, rfl⟩⟩
  · have hl := hg _ _ h
    simp only
    rw [Ret_memcpy_bind]
    refine ⟨by omega, by omega, _, [], rfl, Or.inl ⟨rfl, l, rfl, ?_⟩⟩
    simp only [List.take_zero, List.nil_append, List.drop_zero, Nat.zero_add]
    rw [List.take_of_length_le (by omega)]

/-- The operating system that delivers gives `randombytes` in the sense of C05 and C06: it fills a
buffer with the next bytes of the device. -/
theorem fills_nix (W : OS) (st : OSState) (n : Nat) (hn : n < 2 ^ 31) (ho : Opens W st)
    (hr : ∃ K, n ≤ osAvail W st.reads K) : Fills (rbNix W st) (osBytes W st.pos n) := by
  intro buf hb
  rw [length_osBytes] at *
  obtain ⟨r, t, e, -⟩ := (C43_returns_iff W st buf n (by rw [written_small hn]; omega)).2
    ⟨ho, by rwa [written_small hn]⟩
  have := C41_fills W st buf n hn (by omega) r t e
  unfold rbNix
  refine Ret.bind ((⟨r, t, e, this.1⟩ : Ret _ fun r => r.2.1 = osBytes W st.pos n ++ buf.drop n)) ?_
  rintro ⟨a, b, c⟩ h
  refine ⟨_, [], rfl, ?_⟩
  rw [List.drop_eq_nil_of_le (by omega), List.append_nil] at h
  exact h

/-- C41 and C05 together: on Unix, `crypto_kem_keypair` generates the key pair of the specification from
the next bytes of /dev/urandom, whatever short and interrupted reads occur. -/
theorem C41_keypair {P : Params} {K : KemParams} (B : Build) (E : Env) (W : OS) (st : OSState)
    (pk sk : List U8) (hS : Standard P B.gen K) (ha : AlignedKeypair B E P) (ho : Opens W st)
    (hr : ∃ k, 2 * P.bytes + P.seedA ≤ osAvail W st.reads k)
    (hpk : P.pkBytes ≤ pk.length) (hsk : P.skBytes ≤ sk.length) :
    Ret (crypto_kem_keypair B E P (rbNix W st) pk sk) (fun o =>
      o.pk = (keygen K (osBytes W st.pos P.bytes) (osBytes W (st.pos + P.bytes) P.bytes)
        (osBytes W (st.pos + 2 * P.bytes) P.seedA)).1 ++ pk.drop P.pkBytes ∧
      o.sk = (keygen K (osBytes W st.pos P.bytes) (osBytes W (st.pos + P.bytes) P.bytes)
        (osBytes W (st.pos + 2 * P.bytes) P.seedA)).2 ++ sk.drop P.skBytes ∧ o.ret = 0) := by
  have hl : K.len = P.bytes := by rw [← hS.kem]; rfl
  have hlA : K.lenA = P.seedA := by rw [← hS.kem]; rfl
  have hsm : 2 * P.bytes + P.seedA < 2 ^ 31 := by
    cases hS <;> decide
  refine C05_keypair B E _ pk sk _ _ _ hS ha (by rw [length_osBytes, hl])
    (by rw [length_osBytes, hl]) (by rw [length_osBytes, hlA]) ?_ hpk hsk
  have e := fills_nix W st _ hsm ho hr
  rwa [← osBytes_append, Nat.two_mul, ← osBytes_append, ← Nat.two_mul] at e

/-- C41 and C06 together, for encapsulation. -/
theorem C41_enc {P : Params} {K : KemParams} (B : Build) (E : Env) (W : OS) (st : OSState)
    (ct ss pk : List U8) (hS : Standard P B.gen K) (hB : Good B) (ha : AlignedKem B E P)
    (ho : Opens W st) (hr : ∃ k, P.bytes ≤ osAvail W st.reads k)
    (hpk : P.pkBytes ≤ pk.length) (hct : P.ctBytes ≤ ct.length) (hss : P.bytes ≤ ss.length) :
    Ret (crypto_kem_enc B E P (rbNix W st) ct ss pk) (fun o =>
      o.ct = (encaps K (pk.take P.pkBytes) (osBytes W st.pos P.bytes)).1 ++ ct.drop P.ctBytes ∧
      o.ss = (encaps K (pk.take P.pkBytes) (osBytes W st.pos P.bytes)).2 ++ ss.drop P.bytes ∧
      o.ret = 0) := by
  have hl : K.len = P.bytes := by rw [← hS.kem]; rfl
  have hsm : P.bytes < 2 ^ 31 := by
    cases hS <;> decide
  exact C06_enc B E _ ct ss pk _ hS hB ha (by rw [length_osBytes, hl])
    (fills_nix W st _ hsm ho hr) hpk hct hss

/-! ## Concrete cases -/

/-- A system whose device opens at the third attempt and that delivers 7 bytes at every third read,
nothing at some and errors at the others. -/
def slowOS : OS where
  openRes k := if k < 2 then -1 else 3
  readRes k := if k % 3 = 0 then none else if k % 3 = 1 then some 7 else some 0
  stream i := BitVec.ofNat 8 (i * i)

theorem slowOS_opens (st : OSState) : Opens slowOS st := by
  right
  refine ⟨2, ?_⟩
  simp only [slowOS]
  rw [if_neg (by omega)]
  decide

/-- C43_delivers applies to it. -/
theorem slowOS_reads : ∀ k, ∃ i m, k ≤ i ∧ slowOS.readRes i = some m ∧ 0 < m := fun k => by
  refine ⟨3 * k + 1, 7, by omega, ?_, by omega⟩
  simp only [slowOS]
  rw [if_neg (by omega), if_pos (by omega)]

/-- C41 on this system: 20 bytes arrive although no read delivers more than 7. -/
example : Ret (randombytes_nix slowOS .init (List.replicate 24 0xAA) 20) (fun r =>
    r.2.1 = ((List.range 20).map fun i => BitVec.ofNat 8 (i * i)) ++ List.replicate 4 0xAA) := by
  obtain ⟨r, t, e, -⟩ := C43_delivers slowOS .init (List.replicate 24 0xAA) 20 (by decide)
    (slowOS_opens _) slowOS_reads
  refine ⟨r, t, e, ?_⟩
  have := (C41_fills slowOS .init (List.replicate 24 0xAA) 20 (by decide) (by decide) r t e).1
  simp only [this]
  decide

/-- C43_end_of_file: a device that is at its end. -/
example : randombytes_nix { slowOS with readRes := fun _ => some 0 } .init (List.replicate 24 0) 20 =
    .div := C43_end_of_file _ _ _ _ (by decide) (by decide) fun _ => Or.inr rfl

/-- C43_no_device: a system without /dev/urandom. -/
example : randombytes_nix { slowOS with openRes := fun _ => -1 } .init (List.replicate 24 0) 20 =
    .div := C43_no_device _ _ _ _ (by decide) rfl fun _ => rfl

/-- C42_two_gib: a request for 3 GiB. -/
example : Ret (randombytes_nix slowOS .init [1, 2] (3 * 2 ^ 30)) (fun r => r.2.1 = [1, 2] ∧ r.2.2 = 0) :=
  C42_two_gib _ _ _ _ (by decide) (by decide) (slowOS_opens _)

/-- C42_windows: a request for 4 GiB and two bytes. -/
example : Ret (randombytes_windows (fun k => some (List.replicate k 5)) [0, 0, 0] (2 ^ 32 + 2))
    (fun r => r.2 = 0 ∧ r.1 = [5, 5, 0]) :=
  (C42_windows _ _ _ (by rintro k l ⟨⟩; simp) (by decide)).mono (by
    rintro r (⟨h, l, h1, h2⟩ | ⟨h, h1, h2⟩)
    · refine ⟨h, ?_⟩
      rw [h2]
      injection h1 with h1
      subst h1
      decide
    · cases h1)

/-- C41_keypair: FrodoKEM-640 in every build on the slow system. -/
example (B : Build) : Ret (crypto_kem_keypair B E0 frodo640 (rbNix slowOS .init)
    (List.replicate 9616 0) (List.replicate 19888 0)) (fun o => o.ret = 0) :=
  (C41_keypair B E0 slowOS .init _ _ (.frodo640 _) (E0_keypair _)
    (slowOS_opens _) ⟨24, by decide +kernel⟩ (List.length_replicate ▸ Nat.le_refl 9616)
    (List.length_replicate ▸ Nat.le_refl 19888)).mono fun _ h => h.2.2

/-- C41_enc: the same for encapsulation. -/
example (B : Build) (hB : Good B) : Ret (crypto_kem_enc B E0 frodo640 (rbNix slowOS .init)
    (List.replicate 9720 0) (List.replicate 16 0) (List.replicate 9616 5)) (fun o => o.ret = 0) :=
  (C41_enc B E0 slowOS .init _ _ _ (.frodo640 _) hB
    (E0_kem _) (slowOS_opens _)
    ⟨24, by decide +kernel⟩ (List.length_replicate ▸ Nat.le_refl 9616)
    (List.length_replicate ▸ Nat.le_refl 9720) (List.length_replicate ▸ Nat.le_refl 16)).mono
    fun _ h => h.2.2

end Frodo.Props
