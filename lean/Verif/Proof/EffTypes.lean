import Verif.Model.EffTypes
import Verif.Proof.EffAttr

/-! # Lemmas for the types of accesses (C71) -/

namespace Frodo.Eff

open Spec (MatGen)
open Make (Order)

/-! ## Lists of accesses -/

/-- An access of the list that breaks the rule in this state. -/
def V (σ : State) (e : Ev) (l : List Ev) : Prop := e ∈ l ∧ ok σ e = false

/-- Every access of the list respects the rule in every state. -/
def Fine (l : List Ev) : Prop := ∀ e ∈ l, ∀ σ, ok σ e = true

/-- The object an access modifies. -/
def dst : Ev → Option Obj
  | .rd .. => none
  | .wr o _ _ => some o
  | .cpy d _ _ _ _ => some d

/-- No access of the list modifies the object. -/
def NoMod (o : Obj) (l : List Ev) : Prop := ∀ e ∈ l, dst e ≠ some o

/-- Whether the access respects the rule depends on the secret key at most. -/
def OnlySk (l : List Ev) : Prop := ∀ e ∈ l, ∀ σ σ' : State, σ .sk = σ' .sk → ok σ e = ok σ' e

/-- Whether the access respects the rule depends on no state. -/
def Static (l : List Ev) : Prop := ∀ e ∈ l, ∀ σ σ' : State, ok σ e = ok σ' e

theorem V_nil (σ e) : V σ e [] ↔ False := by simp [V]

theorem V_cons (σ e a l) : V σ e (a :: l) ↔ V σ e [a] ∨ V σ e l := by
  simp only [V, List.mem_cons, List.not_mem_nil, or_false]
  tauto

theorem V_append (σ e l l') : V σ e (l ++ l') ↔ V σ e l ∨ V σ e l' := by
  simp only [V, List.mem_append]
  tauto

theorem V_flatMap {α : Type} (σ e) (l : List α) (f : α → List Ev) : V σ e (l.flatMap f) ↔ ∃ a ∈ l, V σ e (f a) := by
  simp only [V, List.mem_flatMap]
  constructor
  · rintro ⟨⟨a, h, h'⟩, h''⟩
    exact ⟨a, h, h', h''⟩
  · rintro ⟨a, h, h', h''⟩
    exact ⟨⟨a, h, h'⟩, h''⟩

theorem Fine.V {l : List Ev} (h : Fine l) (σ e) : V σ e l ↔ False := by
  simp only [Eff.V, iff_false, not_and, Bool.not_eq_false]
  exact fun h' => h e h' σ

theorem Fine.static {l : List Ev} (h : Fine l) : Static l := fun e he σ σ' => by rw [h e he, h e he]

theorem Static.onlySk {l : List Ev} (h : Static l) : OnlySk l := fun e he σ σ' _ => h e he σ σ'

theorem Fine_nil : Fine [] := by simp [Fine]

theorem Fine_cons (a : Ev) (l : List Ev) : Fine (a :: l) ↔ (∀ σ, ok σ a = true) ∧ Fine l := by simp [Fine]

theorem Fine_append (l l' : List Ev) : Fine (l ++ l') ↔ Fine l ∧ Fine l' := by
  simp only [Fine, List.mem_append]
  exact ⟨fun h => ⟨fun e he => h e (.inl he), fun e he => h e (.inr he)⟩, fun h e he => he.elim (h.1 e) (h.2 e)⟩

theorem Fine_flatMap {α : Type} (l : List α) (f : α → List Ev) : Fine (l.flatMap f) ↔ ∀ a ∈ l, Fine (f a) := by
  simp only [Fine, List.mem_flatMap]
  exact ⟨fun h a ha e he => h e ⟨a, ha, he⟩, fun h e ⟨a, ha, he⟩ => h a ha e he⟩

theorem Fine_map {α : Type} (l : List α) (f : α → Ev) : Fine (l.map f) ↔ ∀ a ∈ l, ∀ σ, ok σ (f a) = true := by
  simp [Fine]

theorem Static_nil : Static [] := by simp [Static]

theorem Static_cons (a : Ev) (l : List Ev) : Static (a :: l) ↔ Static [a] ∧ Static l := by simp [Static]

theorem Static_append (l l' : List Ev) : Static (l ++ l') ↔ Static l ∧ Static l' := by
  simp only [Static, List.mem_append]
  exact ⟨fun h => ⟨fun e he => h e (.inl he), fun e he => h e (.inr he)⟩, fun h e he => he.elim (h.1 e) (h.2 e)⟩

theorem Static_flatMap {α : Type} (l : List α) (f : α → List Ev) : Static (l.flatMap f) ↔ ∀ a ∈ l, Static (f a) := by
  simp only [Static, List.mem_flatMap]
  exact ⟨fun h a ha e he => h e ⟨a, ha, he⟩, fun h e ⟨a, ha, he⟩ => h a ha e he⟩

theorem OnlySk_append (l l' : List Ev) : OnlySk (l ++ l') ↔ OnlySk l ∧ OnlySk l' := by
  simp only [OnlySk, List.mem_append]
  exact ⟨fun h => ⟨fun e he => h e (.inl he), fun e he => h e (.inr he)⟩, fun h e he => he.elim (h.1 e) (h.2 e)⟩

theorem NoMod_nil (o) : NoMod o [] := by simp [NoMod]

theorem NoMod_cons (o) (a : Ev) (l : List Ev) : NoMod o (a :: l) ↔ dst a ≠ some o ∧ NoMod o l := by simp [NoMod]

theorem NoMod_append (o) (l l' : List Ev) : NoMod o (l ++ l') ↔ NoMod o l ∧ NoMod o l' := by
  simp only [NoMod, List.mem_append]
  exact ⟨fun h => ⟨fun e he => h e (.inl he), fun e he => h e (.inr he)⟩, fun h e he => he.elim (h.1 e) (h.2 e)⟩

theorem NoMod_flatMap {α : Type} (o) (l : List α) (f : α → List Ev) : NoMod o (l.flatMap f) ↔ ∀ a ∈ l, NoMod o (f a) := by
  simp only [NoMod, List.mem_flatMap]
  exact ⟨fun h a ha e he => h e ⟨a, ha, he⟩, fun h e ⟨a, ha, he⟩ => h a ha e he⟩

theorem NoMod_map {α : Type} (o) (l : List α) (f : α → Ev) : NoMod o (l.map f) ↔ ∀ a ∈ l, dst (f a) ≠ some o := by
  simp [NoMod]

/-! ## States -/

theorem step_of_dst {e : Ev} {b : Buf} (h : dst e ≠ some (.buf b)) (σ : State) : step σ e b = σ b := by
  cases e with
  | rd o off t => rfl
  | wr o off t =>
    cases o with
    | loc n t' => rfl
    | buf c =>
      have hc : b ≠ c := fun hc => h (by rw [hc]; rfl)
      simp only [step, retype]
      split <;> simp [hc]
  | cpy d doff s soff len =>
    cases d with
    | loc n t' => rfl
    | buf c =>
      have hc : b ≠ c := fun hc => h (by rw [hc]; rfl)
      simp only [step, retype]
      split <;> simp [hc]

theorem final_of_noMod {b : Buf} : ∀ {l : List Ev}, NoMod (.buf b) l → ∀ σ : State, final σ l b = σ b
  | [], _, _ => rfl
  | e :: l, h, σ => by
    rw [NoMod_cons] at h
    show final (step σ e) l b = _
    rw [final_of_noMod h.2, step_of_dst h.1]

theorem final_append (σ : State) (l l' : List Ev) : final σ (l ++ l') = final (final σ l) l' := List.foldl_append

theorem bad_append : ∀ (l l' : List Ev) (σ : State), bad σ (l ++ l') = bad σ l ++ bad (final σ l) l'
  | [], _, _ => rfl
  | e :: l, l', σ => by
    show _ ++ bad (step σ e) (l ++ l') = (_ ++ bad (step σ e) l) ++ _
    rw [bad_append, List.append_assoc]
    rfl

theorem declared_step (σ : State) (e : Ev) (b : Buf) : (step σ e b).declared = (σ b).declared := by
  have key : ∀ o off len f, (retype σ o off len f b).declared = (σ b).declared := by
    intro o off len f
    cases o with
    | loc n t => rfl
    | buf c =>
      simp only [retype]
      split
      · rfl
      · dsimp only
        split
        · rename_i h h'
          subst h'
          simpa using h
        · rfl
  cases e with
  | rd => rfl
  | wr => exact key ..
  | cpy => exact key ..

theorem declared_final : ∀ (l : List Ev) (σ : State) (b : Buf), (final σ l b).declared = (σ b).declared
  | [], _, _ => rfl
  | e :: l, σ, b => by
    show (final (step σ e) l b).declared = _
    rw [declared_final, declared_step]

theorem step_declared {σ : State} {b : Buf} (h : (σ b).declared = true) (e : Ev) : step σ e b = σ b := by
  have key : ∀ o off len f, retype σ o off len f b = σ b := by
    intro o off len f
    cases o with
    | loc n t => rfl
    | buf c =>
      simp only [retype]
      split
      · rfl
      · dsimp only
        split
        · rename_i h' h''
          subst h''
          exact absurd h h'
        · rfl
  cases e with
  | rd => rfl
  | wr o off t => rw [step]; exact key ..
  | cpy d doff s soff len => rw [step]; exact key ..

/-- The type of a declared object never changes. -/
theorem final_declared {b : Buf} : ∀ (l : List Ev) {σ : State}, (σ b).declared = true → final σ l b = σ b
  | [], _, _ => rfl
  | e :: l, σ, h => by
    show final (step σ e) l b = _
    rw [final_declared l (by rw [step_declared h]; exact h), step_declared h]

theorem mem_bad_static : ∀ {l : List Ev}, Static l → ∀ (σ : State) (e : Ev), e ∈ bad σ l ↔ V σ e l
  | [], _, σ, e => by simp [bad, V]
  | a :: l, h, σ, e => by
    have hl : Static l := fun e he => h e (List.mem_cons_of_mem _ he)
    rw [V_cons, bad, List.mem_append, mem_bad_static hl]
    refine or_congr ?_ ?_
    · simp only [V, List.mem_singleton]
      constructor
      · intro h'
        split at h'
        · simp at h'
        · rename_i hh
          simp only [List.mem_singleton] at h'
          subst h'
          exact ⟨rfl, by simpa using hh⟩
      · rintro ⟨rfl, h'⟩
        simp [h']
    · simp only [V]
      exact and_congr_right fun he => by rw [hl e he _ σ]

theorem mem_bad_sk : ∀ {l : List Ev}, OnlySk l → NoMod (.buf .sk) l → ∀ (σ : State) (e : Ev), e ∈ bad σ l ↔ V σ e l
  | [], _, _, σ, e => by simp [bad, V]
  | a :: l, h, hn, σ, e => by
    have hl : OnlySk l := fun e he => h e (List.mem_cons_of_mem _ he)
    rw [NoMod_cons] at hn
    rw [V_cons, bad, List.mem_append, mem_bad_sk hl hn.2]
    refine or_congr ?_ ?_
    · simp only [V, List.mem_singleton]
      constructor
      · intro h'
        split at h'
        · simp at h'
        · rename_i hh
          simp only [List.mem_singleton] at h'
          subst h'
          exact ⟨rfl, by simpa using hh⟩
      · rintro ⟨rfl, h'⟩
        simp [h']
    · simp only [V]
      exact and_congr_right fun he => by rw [hl e he _ σ (step_of_dst hn.1 σ)]

/-! ## Single accesses -/

/-- A pointer into an array that the library declares, to elements that may be accessed through the type. -/
def Pt (p : Ptr) (t : Ty) : Prop := ∃ n T, p.o = .loc n T ∧ T.same t = true ∧ T.size = t.size ∧ t.size ∣ p.off

theorem Pt.loc {n : String} {T t : Ty} (h : T.same t = true) (h' : T.size = t.size) : Pt (loc n T) t :=
  ⟨n, T, rfl, h, h', ⟨0, rfl⟩⟩

theorem Pt.add {p : Ptr} {t : Ty} (h : Pt p t) {k : Nat} (hk : t.size ∣ k) : Pt (p.add k) t := by
  obtain ⟨n, T, h1, h2, h3, h4⟩ := h
  exact ⟨n, T, h1, h2, h3, Nat.dvd_add h4 hk⟩

theorem fits_of_loc {T t : Ty} (h : T.same t = true) (h' : T.size = t.size) {off : Nat} (hd : t.size ∣ off) :
    fits (fun b => some (T, b % T.size)) off t = true := by
  simp only [fits, Bool.or_eq_true, List.all_eq_true, List.mem_range]
  refine .inr fun i hi => ?_
  obtain ⟨c, rfl⟩ := hd
  simp [byteOk, h, h', Nat.mod_eq_of_lt hi]

theorem ok_rdE {p : Ptr} {t : Ty} (h : Pt p t) (i : Nat) (σ : State) : ok σ (rdE p t i) = true := by
  obtain ⟨n, T, h1, h2, h3, h4⟩ := h
  simp only [rdE, ok, h1, typesOf]
  exact fits_of_loc h2 h3 (Nat.dvd_add h4 ⟨i, rfl⟩)

theorem ok_wrE {p : Ptr} {t : Ty} (h : Pt p t) (i : Nat) (σ : State) : ok σ (wrE p t i) = true := by
  obtain ⟨n, T, h1, h2, h3, h4⟩ := h
  simp only [wrE, ok, h1, typesOf, Bool.or_eq_true]
  exact .inr (fits_of_loc h2 h3 (Nat.dvd_add h4 ⟨i, rfl⟩))

theorem ok_rd_any {t : Ty} (h : t.any = true) (o : Obj) (off : Nat) (σ : State) : ok σ (.rd o off t) = true := by
  simp [ok, fits, h]

theorem ok_wr_any {t : Ty} (h : t.any = true) (o : Obj) (off : Nat) (σ : State) : ok σ (.wr o off t) = true := by
  simp [ok, fits, h]

theorem ok_rdE_any {t : Ty} (h : t.any = true) (p : Ptr) (i : Nat) (σ : State) : ok σ (rdE p t i) = true := ok_rd_any h ..

theorem ok_wrE_any {t : Ty} (h : t.any = true) (p : Ptr) (i : Nat) (σ : State) : ok σ (wrE p t i) = true := ok_wr_any h ..

theorem ok_cpy (d doff s soff len) (σ : State) : ok σ (.cpy d doff s soff len) = true := rfl

theorem fits_component {i : Nat} : fits (fun b => some (Ty.v256, b % Ty.v256.size)) (Ty.ull.size * i) .ull = true := by
  simp only [fits, Bool.or_eq_true, List.all_eq_true, List.mem_range]
  refine .inr fun k hk => ?_
  simp only [Ty.size] at hk ⊢
  simp only [byteOk, Ty.same, Ty.component, Ty.size, Bool.or_eq_true, Bool.and_eq_true, beq_iff_eq]
  refine .inr ⟨trivial, ?_⟩
  omega

theorem ok_rdE_component (n : String) (i : Nat) (σ : State) : ok σ (rdE (loc n .v256) .ull i) = true := by
  simp only [rdE, ok, typesOf, loc, Nat.zero_add]
  exact fits_component

theorem ok_wrE_component (n : String) (i : Nat) (σ : State) : ok σ (wrE (loc n .v256) .ull i) = true := by
  simp only [wrE, ok, typesOf, loc, Nat.zero_add, Bool.or_eq_true]
  exact .inr fits_component

theorem static_rd_loc (n T off t) : Static [.rd (.loc n T) off t] := by
  simp only [Static, List.mem_singleton, forall_eq]
  exact fun _ _ => rfl

theorem static_wr_loc (n T off t) : Static [.wr (.loc n T) off t] := by
  simp only [Static, List.mem_singleton, forall_eq]
  exact fun _ _ => rfl

/-! ## The functions that respect the rule -/

theorem ok_rd_u8 (o off σ) : ok σ (.rd o off .u8) = true := ok_rd_any rfl ..
theorem ok_rdE_u8 (p i σ) : ok σ (rdE p .u8 i) = true := ok_rd_any rfl ..
theorem ok_wrE_u8 (p i σ) : ok σ (wrE p .u8 i) = true := ok_wr_any rfl ..
theorem ok_rdE_v128 (p i σ) : ok σ (rdE p .v128 i) = true := ok_rd_any rfl ..
theorem ok_wrE_v128 (p i σ) : ok σ (wrE p .v128 i) = true := ok_wr_any rfl ..
theorem ok_rdE_v256 (p i σ) : ok σ (rdE p .v256 i) = true := ok_rd_any rfl ..
theorem ok_wrE_v256 (p i σ) : ok σ (wrE p .v256 i) = true := ok_wr_any rfl ..

attribute [fine] Fine_nil Fine_cons Fine_append Fine_flatMap Fine_map rds wrs rws memcpy ok_cpy ok_rd_u8 ok_rdE_u8 ok_wrE_u8
  ok_rdE_v128 ok_wrE_v128 ok_rdE_v256 ok_wrE_v256 implies_true and_self and_true true_and

theorem fine_rds {p : Ptr} {t : Ty} (h : Pt p t) (n : Nat) : Fine (rds p t n) := by
  simp only [fine]; exact fun _ _ σ => ok_rdE h _ σ

theorem fine_wrs {p : Ptr} {t : Ty} (h : Pt p t) (n : Nat) : Fine (wrs p t n) := by
  simp only [fine]; exact fun _ _ σ => ok_wrE h _ σ

theorem fine_rws {p : Ptr} {t : Ty} (h : Pt p t) (n : Nat) : Fine (rws p t n) := by
  simp only [fine]; exact fun _ _ => ⟨fun σ => ok_rdE h _ σ, fun σ => ok_wrE h _ σ⟩

theorem fine_rds_any {t : Ty} (h : t.any = true) (p : Ptr) (n : Nat) : Fine (rds p t n) := by
  simp only [fine]; exact fun _ _ σ => ok_rdE_any h _ _ σ

theorem fine_wrs_any {t : Ty} (h : t.any = true) (p : Ptr) (n : Nat) : Fine (wrs p t n) := by
  simp only [fine]; exact fun _ _ σ => ok_wrE_any h _ _ σ

theorem fine_rws_any {t : Ty} (h : t.any = true) (p : Ptr) (n : Nat) : Fine (rws p t n) := by
  simp only [fine]; exact fun _ _ => ⟨fun σ => ok_rdE_any h _ _ σ, fun σ => ok_wrE_any h _ _ σ⟩

theorem fine_memcpy (d s : Ptr) (n : Nat) : Fine (memcpy d s n) := by simp only [fine]

theorem fine_leToUint16 {p : Ptr} {t : Ty} (h : Pt p t) (o : Order) (i : Nat) : Fine (leToUint16 o p t i) := by
  cases o <;> simp only [leToUint16, ok_rdE h, fine]

theorem pt_y : Pt (loc "y" .u16) .u16 := .loc rfl rfl

theorem fine_uint16ToLe (o : Order) : Fine (uint16ToLe o) := by
  cases o <;> simp only [uint16ToLe, ok_rdE pt_y, fine]

theorem fine_leLoop {p : Ptr} {t : Ty} (h : Pt p t) (o : Order) (n : Nat) : Fine (leLoop o p t n) := by
  simp only [leLoop, fine_leToUint16 h, ok_wrE h, fine]

theorem fine_keccakF {s : Ptr} (h : Pt s .u64) : Fine (keccakF s) := by
  rw [keccakF]
  exact (Fine_append ..).2 ⟨(Fine_append ..).2 ⟨fine_rds h _, fine_rds (.loc rfl rfl) _⟩, fine_wrs h _⟩

theorem fine_xorLane {s : Ptr} (h : Pt s .u64) (i : Nat) (m : Ptr) : Fine (xorLane s i m) := by
  simp only [xorLane, ok_rdE h, ok_wrE h, fine]

theorem fine_absorb {s : Ptr} (h : Pt s .u64) (r : Nat) (m : Ptr) (mlen : Nat) : Fine (keccak_absorb s r m mlen) := by
  simp only [keccak_absorb, fine_xorLane h, fine_keccakF h, fine]

theorem fine_squeeze {s : Ptr} (h : Pt s .u64) (o : Ptr) (n r : Nat) : Fine (keccak_squeezeblocks o n s r) := by
  simp only [keccak_squeezeblocks, fine_keccakF h, ok_rdE h, fine]

theorem pt_s : Pt (loc "s" .u64) .u64 := .loc rfl rfl

theorem fine_shakeR (r : Nat) (out : Ptr) (n : Nat) (inp : Ptr) (m : Nat) : Fine (shakeR r out n inp m) := by
  unfold shakeR
  split
  all_goals simp only [fine_absorb pt_s, fine_squeeze pt_s, ok_wrE pt_s, fine]

theorem fine_shake (P : Params) (out : Ptr) (n : Nat) (inp : Ptr) (m : Nat) : Fine (shake P out n inp m) := by
  unfold shake
  cases P.shake <;> exact fine_shakeR _ _ _ _ _

theorem fine_aes_load (a : Aes) (k s : Ptr) : Fine (aes_load a k s) := by cases a <;> simp only [aes_load, fine]

theorem fine_aes_enc (a : Aes) (i s o : Ptr) : Fine (aes_enc a i s o) := by
  cases a <;> simp only [aes_enc, List.cons_append, fine]

theorem fine_aes_ecb (a : Aes) (i : Ptr) (n : Nat) (s o : Ptr) : Fine (aes_ecb a i n s o) := by
  simp only [aes_ecb, fine_aes_enc, fine]

theorem fine_aes_free (a : Aes) (s : Ptr) : Fine (aes_free a s) := by cases a <;> simp only [aes_free, fine]

theorem fine_freeSchedule (B : Cfg) : Fine (freeSchedule B) := by
  unfold freeSchedule
  split
  · exact fine_aes_free _ _
  · exact Fine_nil

theorem fine_mul_bs (P : Params) {o b s : Ptr} (ho : Pt o .u16) (hb : Pt b .u16) (hs : Pt s .u16) : Fine (mul_bs P o b s) := by
  simp only [mul_bs, List.cons_append, ok_rdE ho, ok_wrE ho, ok_rdE hb, ok_rdE hs, fine]

theorem fine_mul_add_sb (P : Params) {o b s e : Ptr} (ho : Pt o .u16) (hb : Pt b .u16) (hs : Pt s .u16) (he : Pt e .u16) :
    Fine (mul_add_sb P o b s e) := by
  simp only [mul_add_sb, List.cons_append, ok_rdE ho, ok_wrE ho, ok_rdE hb, ok_rdE hs, ok_rdE he, fine]

theorem fine_addSub (P : Params) {o a b : Ptr} (ho : Pt o .u16) (ha : Pt a .u16) (hb : Pt b .u16) : Fine (addSub P o a b) := by
  simp only [addSub, ok_wrE ho, ok_rdE ha, ok_rdE hb, fine]

theorem fine_key_encode (P : Params) {o : Ptr} (ho : Pt o .u16) (i : Ptr) : Fine (key_encode P o i) := by
  simp only [key_encode, ok_wrE ho, fine]

theorem fine_key_decode (P : Params) (o : Ptr) {i : Ptr} (hi : Pt i .u16) : Fine (key_decode P o i) := by
  simp only [key_decode, ok_rdE hi, fine]

theorem fine_pack (o : Ptr) (n : Nat) {i : Ptr} (hi : Pt i .u16) (m : Nat) : Fine (pack o n i m) := by
  simp only [pack, ok_rdE hi, fine]

theorem fine_unpack {o : Ptr} (ho : Pt o .u16) (n : Nat) (i : Ptr) (m : Nat) : Fine (unpack o n i m) := by
  simp only [unpack, ok_rdE ho, ok_wrE ho, fine]

theorem pt_cdf : Pt (loc "CDF_TABLE" .u16) .u16 := .loc rfl rfl

theorem fine_sample_n (P : Params) {s : Ptr} (hs : Pt s .u16) (n : Nat) : Fine (sample_n P s n) := by
  simp only [sample_n, List.cons_append, ok_rdE hs, ok_wrE hs, ok_rdE pt_cdf, fine]

theorem fine_clear (p : Ptr) (n : Nat) : Fine (clear p n) := by simp only [clear, fine]

theorem fine_randombytes (p : Ptr) (n : Nat) : Fine (randombytes p n) := by simp only [randombytes, fine]

/-! ## The functions that break it -/

/-- The accesses of the list that break the rule are those of the set, in every state. -/
def Bad (l : List Ev) (S : Ev → Prop) : Prop := Static l ∧ ∀ σ e, V σ e l ↔ S e

theorem Fine.bad {l : List Ev} (h : Fine l) : Bad l fun _ => False := ⟨h.static, h.V⟩

theorem Bad.congr {l : List Ev} {S S' : Ev → Prop} (h : Bad l S) (h' : ∀ e, S e ↔ S' e) : Bad l S' :=
  ⟨h.1, fun σ e => (h.2 σ e).trans (h' e)⟩

theorem Bad.append {l l' : List Ev} {S S' : Ev → Prop} (h : Bad l S) (h' : Bad l' S') : Bad (l ++ l') fun e => S e ∨ S' e :=
  ⟨(Static_append ..).2 ⟨h.1, h'.1⟩, fun σ e => by rw [V_append, h.2, h'.2]⟩

theorem Bad.append_fine {l l' : List Ev} {S : Ev → Prop} (h : Bad l S) (h' : Fine l') : Bad (l ++ l') S :=
  (h.append h'.bad).congr fun _ => by rw [or_false]

theorem Bad.fine_append {l l' : List Ev} {S : Ev → Prop} (h : Fine l) (h' : Bad l' S) : Bad (l ++ l') S :=
  (h.bad.append h').congr fun _ => by rw [false_or]

theorem Bad.flatMap {α : Type} {l : List α} {f : α → List Ev} {S : α → Ev → Prop} (h : ∀ a ∈ l, Bad (f a) (S a)) :
    Bad (l.flatMap f) fun e => ∃ a ∈ l, S a e :=
  ⟨(Static_flatMap ..).2 fun a ha => (h a ha).1, fun σ e => by
    rw [V_flatMap]
    exact ⟨fun ⟨a, ha, h'⟩ => ⟨a, ha, ((h a ha).2 σ e).1 h'⟩, fun ⟨a, ha, h'⟩ => ⟨a, ha, ((h a ha).2 σ e).2 h'⟩⟩⟩

theorem Bad.loop {n : Nat} (hn : 0 < n) {f : Nat → List Ev} {S : Ev → Prop} (h : ∀ i, Bad (f i) S) :
    Bad ((List.range n).flatMap f) S :=
  (Bad.flatMap fun i _ => h i).congr fun _ =>
    ⟨fun ⟨_, _, h⟩ => h, fun h => ⟨0, List.mem_range.2 hn, h⟩⟩

theorem Bad.single {e : Ev} (hs : Static [e]) (h : ∀ σ, ok σ e = false) : Bad [e] (· = e) :=
  ⟨hs, fun σ e' => by
    simp only [V, List.mem_singleton]
    exact ⟨fun h => h.1, fun h' => ⟨h', by rw [h', h]⟩⟩⟩

theorem Bad.mem_bad {l : List Ev} {S : Ev → Prop} (h : Bad l S) (σ e) : e ∈ bad σ l ↔ S e := by
  rw [mem_bad_static h.1, h.2]

/-- `seed_A_origin[0]` for an array of bytes. -/
def seedEv (n : String) : Ev := .wr (.loc n .u8) 0 .u16

theorem bad_seedWrite (B : Cfg) (n : String) : Bad (seedWrite B (loc n .u8)) (· = seedEv n) :=
  .fine_append (fine_uint16ToLe _) (.single (static_wr_loc _ _ _ _) fun _ => rfl)

theorem bad_shakeRow (B : Cfg) (P : Params) (out : Ptr) : Bad (shakeRow B P out) (· = seedEv "seed_A_separated") :=
  (bad_seedWrite B _).append_fine (fine_shakeR _ _ _ _ _)

/-- A constant of Keccak through `double`. -/
def rcEv (i : Nat) : Ev := .rd (.loc "KeccakF1600RoundConstants" .ull) (8 * i) .dbl

theorem exists_lt_8 : ∃ x, x < 8 := ⟨0, by decide⟩

theorem not_fits_dbl (off : Nat) : fits (fun b => some (Ty.ull, b % Ty.ull.size)) off .dbl = false := by
  simp [fits, Ty.any, Ty.size, byteOk, Ty.same, Ty.component, exists_lt_8]

theorem bad_rc (i : Nat) : Bad [rdE (loc "KeccakF1600RoundConstants" .ull) .dbl i] (· = rcEv i) := by
  refine (Bad.single (static_rd_loc _ _ _ _) fun σ => ?_).congr fun e => ?_
  · exact not_fits_dbl _
  · simp [rcEv, loc, Ty.size]

theorem bad_permute4 (s : Ptr) : Bad (permute4 s) fun e => ∃ i < 24, e = rcEv i := by
  unfold permute4
  refine ((Bad.fine_append (fine_rds_any rfl _ _) (Bad.flatMap (S := fun i e => e = rcEv i) fun i _ => ?_)).append_fine
    (fine_wrs_any rfl _ _)).congr fun e => by simp
  exact .fine_append (l := [_, _]) (by simp only [fine]) (bad_rc i)

theorem fine_xorLane4 (n : String) (i : Nat) (m : Fin 4 → Ptr) : Fine (xorLane4 (loc n .v256) i m) := by
  simp only [xorLane4, ok_rdE_component, ok_wrE_component, fine]

theorem bad_absorb4x {r mlen : Nat} (n : String) (m : Fin 4 → Ptr) :
    Bad (keccak_absorb4x (loc n .v256) r m mlen) fun e => 0 < mlen / r ∧ ∃ i < 24, e = rcEv i := by
  unfold keccak_absorb4x
  refine (((Bad.flatMap (S := fun _ e => ∃ i < 24, e = rcEv i) fun k _ => .fine_append ?_ (bad_permute4 _)).append_fine ?_).append_fine ?_).congr
    fun e => ?_
  · simp only [fine_xorLane4, fine]
  · simp only [fine]
  · simp only [fine_xorLane4, fine]
  · constructor
    · rintro ⟨k, hk, h⟩
      exact ⟨Nat.lt_of_le_of_lt (Nat.zero_le _) (List.mem_range.1 hk), h⟩
    · rintro ⟨h, h'⟩
      exact ⟨0, List.mem_range.2 h, h'⟩

theorem bad_squeeze4x (h : Fin 4 → Ptr) (n : Nat) (s : String) (r : Nat) :
    Bad (keccak_squeezeblocks4x h n (loc s .v256) r) fun e => 0 < n ∧ ∃ i < 24, e = rcEv i := by
  unfold keccak_squeezeblocks4x
  refine (Bad.flatMap (S := fun _ e => ∃ i < 24, e = rcEv i) fun k _ => (bad_permute4 _).append_fine ?_).congr fun e => ?_
  · simp only [ok_rdE_component, fine]
  · constructor
    · rintro ⟨k, hk, h⟩
      exact ⟨Nat.lt_of_le_of_lt (Nat.zero_le _) (List.mem_range.1 hk), h⟩
    · rintro ⟨h, h'⟩
      exact ⟨0, List.mem_range.2 h, h'⟩

theorem bad_shake128_4x (out : Fin 4 → Ptr) {n : Nat} (hn : 0 < n) (inp : Fin 4 → Ptr) (m : Nat) :
    Bad (shake128_4x out n inp m) fun e => ∃ i < 24, e = rcEv i := by
  unfold shake128_4x
  have h0 : Fine (rws (loc "s" .v256) .v256 25) := fine_rws_any rfl _ _
  split
  · rename_i h
    have h' : 0 < n / 168 := by omega
    refine (((Bad.fine_append h0 (bad_absorb4x _ _)).append (bad_squeeze4x _ _ _ _)).append_fine Fine_nil).congr fun e => ?_
    simp only [h', true_and]
    tauto
  · refine (((Bad.fine_append h0 (bad_absorb4x _ _)).append (bad_squeeze4x _ _ _ _)).append
      ((bad_squeeze4x _ _ _ _).append_fine ?_)).congr fun e => ?_
    · simp only [fine]
    · simp only [Nat.lt_add_one, true_and]
      tauto

/-- The accesses that break the rule when four rows of `A` are generated at once. -/
def rows4Bad (e : Ev) : Prop :=
  e ∈ ["seed_A_separated_0", "seed_A_separated_1", "seed_A_separated_2", "seed_A_separated_3"].map seedEv ∨ ∃ i < 24, e = rcEv i

theorem bad_shakeRows4 (B : Cfg) {P : Params} (hn : 0 < P.n) (out : Ptr) : Bad (shakeRows4 B P out) rows4Bad := by
  unfold shakeRows4
  refine ((Bad.flatMap fun j _ => bad_seedWrite B _).append (bad_shake128_4x _ (by omega) _ _)).congr fun e => ?_
  refine or_congr_left ?_
  simp only [List.mem_map]
  constructor
  · rintro ⟨j, _, rfl⟩
    refine ⟨_, ?_, rfl⟩
    revert j
    decide
  · rintro ⟨n, hn, rfl⟩
    simp only [List.mem_cons, List.not_mem_nil, or_false] at hn
    rcases hn with rfl | rfl | rfl | rfl
    · exact ⟨0, List.mem_finRange _, rfl⟩
    · exact ⟨1, List.mem_finRange _, rfl⟩
    · exact ⟨2, List.mem_finRange _, rfl⟩
    · exact ⟨3, List.mem_finRange _, rfl⟩

/-- The accesses that break the rule in the generation of `A`. -/
def genBad (B : Cfg) (e : Ev) : Prop :=
  B.gen = .shake ∧ if B.impl = .avx2 then rows4Bad e else e = seedEv "seed_A_separated"

theorem pt_A : Pt (loc "A" .i16) .i16 := .loc rfl rfl
theorem pt_Au : Pt (loc "A" .u16) .u16 := .loc rfl rfl
theorem pt_row : Pt (loc "a_row" .i16) .i16 := .loc rfl rfl
theorem pt_temp : Pt (loc "a_row_temp" .i16) .i16 := .loc rfl rfl
theorem pt_init : Pt (loc "Ainit" .u16) .u16 := .loc rfl rfl
theorem pt_sum : Pt (loc "sum" .u16) .u16 := .loc rfl rfl
theorem pt_sp : Pt (loc "sp" .i16) .i16 := .loc rfl rfl

theorem bad_genAReference (B : Cfg) (hB : B.impl ≠ .avx2) {P : Params} (hn : 0 < P.n) (seed : Ptr) :
    Bad (genAReference B P seed) (genBad B) := by
  unfold genAReference
  refine (Bad.fine_append (fine_wrs pt_A _) ?_).append_fine (fine_leLoop pt_A _ _)
  cases hg : B.gen with
  | aes =>
    refine (Fine.bad ?_).congr fun e => by simp [genBad, hg]
    simp only [fine_uint16ToLe, ok_wrE pt_A, fine_aes_load, fine_aes_ecb, fine]
  | shake =>
    refine (Bad.fine_append (fine_memcpy _ _ _) (Bad.loop hn fun i => bad_shakeRow B P _)).congr fun e => ?_
    simp [genBad, hg, hB]

theorem bad_asReference (B : Cfg) (hB : B.impl ≠ .avx2) {P : Params} (hn : 0 < P.n) {out s e : Ptr} (ho : Pt out .u16) (hs : Pt s .u16)
    (seed : Ptr) : Bad (asReference B P out s e seed) (genBad B) := by
  unfold asReference
  refine (((bad_genAReference B hB hn seed).append_fine (fine_memcpy _ _ _)).append_fine ?_).append_fine (fine_freeSchedule B)
  simp only [ok_rdE pt_A, ok_rdE hs, ok_rdE ho, ok_wrE ho, fine]

theorem bad_saReference (B : Cfg) (hB : B.impl ≠ .avx2) {P : Params} (hn : 0 < P.n) {out s e : Ptr} (ho : Pt out .u16) (hs : Pt s .u16)
    (seed : Ptr) : Bad (saReference B P out s e seed) (genBad B) := by
  unfold saReference
  refine (((bad_genAReference B hB hn seed).append_fine (fine_memcpy _ _ _)).append_fine ?_).append_fine (fine_freeSchedule B)
  simp only [ok_rdE pt_A, ok_rdE hs, ok_rdE ho, ok_wrE ho, fine]

theorem bad_fourRows (B : Cfg) {P : Params} (hn : 0 < P.n) : Bad (fourRows B P) (genBad B) := by
  unfold fourRows
  cases hg : B.gen with
  | aes =>
    refine (Fine.bad ?_).congr fun e => by simp [genBad, hg]
    simp only [fine_uint16ToLe, ok_wrE pt_temp, fine_aes_ecb, fine]
  | shake =>
    cases hi : B.impl with
    | avx2 => exact (bad_shakeRows4 B hn _).congr fun e => by simp [genBad, hg, hi]
    | _ => exact (Bad.loop (by omega) fun i => bad_shakeRow B P _).congr fun e => by simp [genBad, hg, hi]

theorem bad_eightRows (B : Cfg) {P : Params} (hn : 0 < P.n) : Bad (eightRows B P) (genBad B) := by
  unfold eightRows
  cases hg : B.gen with
  | aes =>
    refine (Fine.bad ?_).congr fun e => by simp [genBad, hg]
    simp only [fine_uint16ToLe, ok_wrE pt_init, fine_aes_ecb, fine]
  | shake =>
    cases hi : B.impl with
    | avx2 => exact ((bad_shakeRows4 B hn _).append (bad_shakeRows4 B hn _)).congr fun e => by simp [genBad, hg, hi]
    | _ => exact (Bad.loop (by omega) fun i => bad_shakeRow B P _).congr fun e => by simp [genBad, hg, hi]

theorem fine_asSetup (B : Cfg) (P : Params) (seed : Ptr) : Fine (asSetup B P seed) := by
  unfold asSetup
  cases B.gen with
  | aes => simp only [fine_uint16ToLe, ok_wrE pt_temp, fine_aes_load, fine]
  | shake => cases B.impl <;> simp only [fine]

theorem fine_saSetup (B : Cfg) (P : Params) (seed : Ptr) : Fine (saSetup B P seed) := by
  unfold saSetup
  cases B.gen with
  | aes => simp only [fine_uint16ToLe, ok_wrE pt_init, fine_aes_load, fine]
  | shake => cases B.impl <;> simp only [fine]

theorem fine_saMul (B : Cfg) (P : Params) {s e : Ptr} (hs : Pt s .u16) (he : Pt e .u16) (i : Nat) : Fine (saMul B P s e i) := by
  unfold saMul
  cases B.impl <;>
    simp only [List.cons_append, ok_rdE hs, ok_wrE pt_sp, ok_rdE pt_sp, ok_rdE he, ok_wrE he, ok_rdE pt_Au, fine]

/-- The accesses of the loop of `frodo_macrify.c:28-30`, to an array `e` and an array `out`. -/
def copyBad (P : Params) (out e : Ptr) (ev : Ev) : Prop :=
  ∃ i < P.n * P.nbar / 2, ev = .rd e.o (e.off + 4 * i) .u32 ∨ ev = .wr out.o (out.off + 4 * i) .u32

theorem not_fits_u32 (off : Nat) : fits (fun b => some (Ty.u16, b % Ty.u16.size)) off .u32 = false := by
  simp [fits, Ty.any, Ty.size, byteOk, Ty.same, Ty.component]
  exact ⟨0, by decide⟩

theorem bad_copyE (P : Params) (n n' : String) (k k' : Nat) :
    Bad (copyE P ⟨.loc n .u16, k⟩ ⟨.loc n' .u16, k'⟩) (copyBad P ⟨.loc n .u16, k⟩ ⟨.loc n' .u16, k'⟩) := by
  unfold copyE
  refine (Bad.flatMap fun i _ => ((Bad.single (static_rd_loc _ _ _ _) fun σ => ?_).append
    (Bad.single (static_wr_loc _ _ _ _) fun σ => ?_))).congr fun e => ?_
  · exact not_fits_u32 _
  · simp only [ok, isDeclared, Bool.not_true, Bool.false_or]
    exact not_fits_u32 _
  · simp only [List.mem_range, copyBad, Ty.size]

theorem bad_as_plus_e (B : Cfg) {P : Params} (hn : 8 ≤ P.n) {n n' : String} {k k' : Nat} (hk : 2 ∣ k) {s : Ptr} (hs : Pt s .u16) (seed : Ptr) :
    Bad (as_plus_e B P ⟨.loc n .u16, k⟩ s ⟨.loc n' .u16, k'⟩ seed)
      fun e => genBad B e ∨ B.impl ≠ .reference ∧ copyBad P ⟨.loc n .u16, k⟩ ⟨.loc n' .u16, k'⟩ e := by
  have ho : Pt ⟨.loc n .u16, k⟩ .u16 := ⟨n, .u16, rfl, rfl, rfl, hk⟩
  have main : ∀ hi : B.impl ≠ .reference, Bad (wrs (loc "a_row" .i16) .i16 (4 * P.n) ++ copyE P ⟨.loc n .u16, k⟩ ⟨.loc n' .u16, k'⟩ ++
      asSetup B P seed ++
      ((List.range (P.n / 4)).flatMap fun i => fourRows B P ++ leLoop B.order (loc "a_row" .i16) .i16 (4 * P.n) ++
        (List.range P.nbar).flatMap fun kk =>
        wrs (loc "sum" .u16) .u16 4 ++
        ((List.range P.n).flatMap fun j => rdE s .u16 (kk * P.n + j) :: (List.range 4).flatMap fun m =>
          [rdE (loc "sum" .u16) .u16 m, rdE (loc "a_row" .i16) .i16 (m * P.n + j), wrE (loc "sum" .u16) .u16 m]) ++
        (List.range 4).flatMap fun m => [rdE (loc "sum" .u16) .u16 m,
          rdE ⟨.loc n .u16, k⟩ .u16 ((4 * i + m) * P.nbar + kk), wrE ⟨.loc n .u16, k⟩ .u16 ((4 * i + m) * P.nbar + kk)]) ++
      freeSchedule B)
      fun e => genBad B e ∨ B.impl ≠ .reference ∧ copyBad P ⟨.loc n .u16, k⟩ ⟨.loc n' .u16, k'⟩ e := by
    intro hi
    refine (((((Bad.fine_append (fine_wrs pt_row _) (bad_copyE P _ _ _ _)).append_fine (fine_asSetup B P seed))).append
      (Bad.loop (by omega) fun i => ((bad_fourRows B (by omega)).append_fine (fine_leLoop pt_row _ _)).append_fine ?_)).append_fine
      (fine_freeSchedule B)).congr fun e => ?_
    · simp only [ok_rdE pt_sum, ok_wrE pt_sum, ok_rdE hs, ok_rdE ho, ok_wrE ho, ok_rdE pt_row, fine]
    · simp only [hi, not_false_eq_true, true_and, ne_eq]
      exact or_comm
  unfold as_plus_e
  cases hi : B.impl with
  | reference =>
    refine (bad_asReference B (by rw [hi]; decide) (by omega) ho hs seed).congr fun e => ?_
    simp
  | generic => exact (main (by rw [hi]; decide)).congr fun e => by rw [hi]
  | avx2 => exact (main (by rw [hi]; decide)).congr fun e => by rw [hi]

theorem bad_sa_plus_e (B : Cfg) {P : Params} (hn : 8 ≤ P.n) {out s e : Ptr} (ho : Pt out .u16) (hs : Pt s .u16) (he : Pt e .u16) (seed : Ptr) :
    Bad (sa_plus_e B P out s e seed) (genBad B) := by
  have main : Bad (wrs (loc "A" .u16) .u16 (P.n * 8) ++ saSetup B P seed ++
      ((List.range (P.n / 8)).flatMap fun i => eightRows B P ++ saMul B P s e i) ++ memcpy out e (2 * P.n * P.nbar) ++ freeSchedule B)
      (genBad B) :=
    (((Bad.fine_append ((Fine_append ..).2 ⟨fine_wrs pt_Au _, fine_saSetup B P seed⟩)
      (Bad.loop (by omega) fun i => (bad_eightRows B (by omega)).append_fine (fine_saMul B P hs he i))).append_fine
        (fine_memcpy _ _ _)).append_fine (fine_freeSchedule B))
  unfold sa_plus_e
  cases hi : B.impl with
  | reference => exact bad_saReference B (by rw [hi]; decide) (by omega) ho hs seed
  | generic => exact main
  | avx2 => exact main

/-! ## The KEM -/

theorem pt_B : Pt (loc "B" .u16) .u16 := .loc rfl rfl
theorem pt_S : Pt (loc "S" .u16) .u16 := .loc rfl rfl
theorem pt_Sp : Pt (loc "Sp" .u16) .u16 := .loc rfl rfl
theorem pt_V : Pt (loc "V" .u16) .u16 := .loc rfl rfl
theorem pt_W : Pt (loc "W" .u16) .u16 := .loc rfl rfl
theorem pt_C : Pt (loc "C" .u16) .u16 := .loc rfl rfl
theorem pt_CC : Pt (loc "CC" .u16) .u16 := .loc rfl rfl
theorem pt_Bp : Pt (loc "Bp" .u16) .u16 := .loc rfl rfl
theorem pt_BBp : Pt (loc "BBp" .u16) .u16 := .loc rfl rfl

theorem fine_ite (c : Prop) [Decidable c] (l l' : List Ev) : Fine (if c then l else l') ↔ (c → Fine l) ∧ (¬ c → Fine l') := by
  split <;> simp_all

/-- Everything before the product in `crypto_kem_keypair`. -/
def keypairPre (B : Cfg) (P : Params) : List Ev :=
  wrs (loc "B" .u16) .u16 (P.n * P.nbar) ++ wrs (loc "S" .u16) .u16 (2 * P.n * P.nbar) ++
  randombytes (loc "randomness" .u8) (2 * P.bytes + P.seedA) ++
  shake P (buf .pk) P.seedA ((loc "randomness" .u8).add (2 * P.bytes)) P.seedA ++
  wrE (loc "shake_input_seedSE" .u8) .u8 0 :: memcpy ((loc "shake_input_seedSE" .u8).add 1) ((loc "randomness" .u8).add P.bytes) P.bytes ++
  shake P (loc "S" .u16) (2 * P.n * P.nbar * 2) (loc "shake_input_seedSE" .u8) (1 + P.bytes) ++
  leLoop B.order (loc "S" .u16) .u16 (2 * P.n * P.nbar) ++
  sample_n P (loc "S" .u16) (P.n * P.nbar) ++ sample_n P ((loc "S" .u16).add (2 * (P.n * P.nbar))) (P.n * P.nbar)

/-- What comes after it, up to the copy of `S`. -/
def keypairMid (B : Cfg) (P : Params) : List Ev :=
  pack ((buf .pk).add P.seedA) (P.pkBytes - P.seedA) (loc "B" .u16) (P.n * P.nbar) ++
  memcpy (buf .sk) (loc "randomness" .u8) P.bytes ++ memcpy ((buf .sk).add P.bytes) (buf .pk) P.pkBytes ++
  ((List.range (P.n * P.nbar)).flatMap fun i =>
    (if B.order = .swap then [rdE (loc "S" .u16) .u16 i] else []) ++ rdE (loc "S" .u16) .u16 i :: uint16ToLe B.order ++
      [wrE (loc "S" .u16) .u16 i])

/-- What comes after the copy. -/
def keypairEnd (P : Params) : List Ev :=
  shake P ((buf .sk).add (P.bytes + P.pkBytes + 2 * P.n * P.nbar)) P.bytes (buf .pk) P.pkBytes ++
  (clear (loc "S" .u16) (P.n * P.nbar * 2) ++ clear ((loc "S" .u16).add (2 * (P.n * P.nbar))) (P.n * P.nbar * 2) ++
    clear (loc "randomness" .u8) (2 * P.bytes) ++ clear (loc "shake_input_seedSE" .u8) (1 + P.bytes))

theorem keypair_eq (B : Cfg) (P : Params) : keypair B P =
    keypairPre B P ++ as_plus_e B P ⟨.loc "B" .u16, 0⟩ (loc "S" .u16) ⟨.loc "S" .u16, 2 * (P.n * P.nbar)⟩ (buf .pk) ++ keypairMid B P ++
      memcpy ((buf .sk).add (P.bytes + P.pkBytes)) (loc "S" .u16) (2 * P.n * P.nbar) ++ keypairEnd P := by
  have h1 : (⟨.loc "B" .u16, 0⟩ : Ptr) = loc "B" .u16 := rfl
  have h2 : (⟨.loc "S" .u16, 2 * (P.n * P.nbar)⟩ : Ptr) = (loc "S" .u16).add (2 * (P.n * P.nbar)) := by simp [loc, Ptr.add]
  rw [h1, h2]
  unfold keypair keypairPre keypairMid keypairEnd
  simp only [List.append_assoc, List.cons_append]

theorem fine_keypairPre (B : Cfg) (P : Params) : Fine (keypairPre B P) := by
  have hE := pt_S.add (k := 2 * (P.n * P.nbar)) ⟨_, rfl⟩
  simp only [keypairPre, List.cons_append, List.append_assoc, ok_wrE pt_B, ok_wrE pt_S, fine_randombytes, fine_shake, fine_leLoop pt_S,
    fine_sample_n P pt_S, fine_sample_n P hE, fine]

theorem fine_keypairMid (B : Cfg) (P : Params) : Fine (keypairMid B P) := by
  simp only [keypairMid, List.cons_append, List.append_assoc, fine_pack _ _ pt_B, fine_ite, ok_rdE pt_S, ok_wrE pt_S, fine_uint16ToLe, fine]

theorem fine_keypairEnd (P : Params) : Fine (keypairEnd P) := by
  simp only [keypairEnd, fine_shake, fine_clear, fine]

theorem bad_keypair (B : Cfg) {P : Params} (hn : 8 ≤ P.n) : Bad (keypair B P) fun e =>
    genBad B e ∨ B.impl ≠ .reference ∧ copyBad P ⟨.loc "B" .u16, 0⟩ ⟨.loc "S" .u16, 2 * (P.n * P.nbar)⟩ e := by
  rw [keypair_eq]
  exact ((((Bad.fine_append (fine_keypairPre B P) (bad_as_plus_e B hn ⟨0, rfl⟩ pt_S _)).append_fine (fine_keypairMid B P)).append_fine
    (fine_memcpy _ _ _)).append_fine (fine_keypairEnd P))

theorem bad_encrypt (B : Cfg) {P : Params} (hn : 8 ≤ P.n) {Bm Bp V C mu seedSE seedA b : Ptr} {o : List Ev} (hBm : Pt Bm .u16)
    (hBp : Pt Bp .u16) (hV : Pt V .u16) (hC : Pt C .u16) (ho : Fine o) :
    Bad (encrypt B P Bm Bp V C mu seedSE seedA b o) (genBad B) := by
  have hE := pt_Sp.add (k := 2 * (P.n * P.nbar)) ⟨_, rfl⟩
  have hE' := pt_Sp.add (k := 2 * (2 * P.n * P.nbar)) ⟨_, rfl⟩
  have key := bad_sa_plus_e B hn hBp pt_Sp hE seedA
  unfold encrypt
  simp only [List.append_assoc, List.cons_append]
  refine .fine_append (l := [_]) (by simp only [fine]) ?_
  refine .fine_append (fine_memcpy _ _ _) (.fine_append (fine_shake _ _ _ _ _) (.fine_append (fine_leLoop pt_Sp _ _)
    (.fine_append (fine_sample_n _ pt_Sp _) (.fine_append (fine_sample_n _ hE _) (key.append_fine ?_)))))
  simp only [ho, fine_sample_n P hE', fine_unpack hBm, fine_mul_add_sb P hV hBm pt_Sp hE', fine_key_encode P hC, fine_addSub P hC hV hC, fine]

theorem bad_enc (B : Cfg) {P : Params} (hn : 8 ≤ P.n) : Bad (enc B P) (genBad B) := by
  have key := bad_encrypt B hn (Bm := loc "B" .u16) (Bp := loc "Bp" .u16) (V := loc "V" .u16) (C := loc "C" .u16)
    (mu := (loc "G2in" .u8).add P.bytes) (seedSE := loc "G2out" .u8) (seedA := buf .pk) (b := (buf .pk).add P.seedA)
    pt_B pt_Bp pt_V pt_C (fine_pack (buf .ct) (P.logq * P.n * P.nbar / 8) pt_Bp (P.n * P.nbar))
  unfold enc
  simp only [List.append_assoc]
  refine .fine_append (fine_wrs pt_B _) (.fine_append (fine_wrs pt_V _) (.fine_append (fine_wrs pt_C _) (.fine_append (fine_wrs pt_Bp _)
    (.fine_append (fine_wrs pt_Sp _) (.fine_append (fine_shake _ _ _ _ _) (.fine_append (fine_randombytes _ _)
      (.fine_append (fine_shake _ _ _ _ _) (key.append_fine ?_))))))))
  simp only [fine_pack _ _ pt_C, fine_shake, fine_clear, fine]

theorem bad_decRest (B : Cfg) {P : Params} (hn : 8 ≤ P.n) : Bad (decRest B P) (genBad B) := by
  have key := bad_encrypt B hn (Bm := loc "B" .u16) (Bp := loc "BBp" .u16) (V := loc "W" .u16) (C := loc "CC" .u16)
    (mu := (loc "G2in" .u8).add P.bytes) (seedSE := loc "G2out" .u8) (seedA := (buf .sk).add P.bytes)
    (b := (buf .sk).add (P.bytes + P.seedA)) pt_B pt_BBp pt_W pt_CC Fine_nil
  unfold decRest
  simp only [List.append_assoc]
  refine .fine_append (fine_unpack pt_Bp _ _ _) (.fine_append (fine_unpack pt_C _ _ _) (.fine_append (fine_mul_bs P pt_W pt_Bp pt_S)
    (.fine_append (fine_addSub P pt_W pt_C pt_W) (.fine_append (fine_key_decode P _ pt_W) (.fine_append (fine_memcpy _ _ _)
      (.fine_append (fine_shake _ _ _ _ _) (key.append_fine ?_)))))))
  simp only [ok_rdE pt_BBp, ok_wrE pt_BBp, ok_rdE pt_Bp, ok_rdE pt_C, ok_rdE pt_CC, fine_shake, fine_clear, fine]

theorem V_loadS (B : Cfg) (P : Params) (σ : State) (e : Ev) : V σ e (loadS B P) ↔
    B.order ≠ .bytes ∧ ∃ i < P.n * P.nbar, e = .rd (.buf .sk) (P.bytes + P.pkBytes + 2 * i) .u16 ∧
      fits (σ .sk).types (P.bytes + P.pkBytes + 2 * i) .u16 = false := by
  have hr : ∀ i, rdE ((buf .sk).add (P.bytes + P.pkBytes)) .u16 i = .rd (.buf .sk) (P.bytes + P.pkBytes + 2 * i) .u16 := fun i => by
    simp [rdE, buf, Ptr.add, Ty.size]
  have one : ∀ i, V σ e [Ev.rd (.buf .sk) (P.bytes + P.pkBytes + 2 * i) .u16] ↔ e = .rd (.buf .sk) (P.bytes + P.pkBytes + 2 * i) .u16 ∧
      fits (σ .sk).types (P.bytes + P.pkBytes + 2 * i) .u16 = false := fun i => by
    simp only [V, List.mem_singleton]
    exact and_congr_right fun h => by rw [h]; rfl
  have w : ∀ i, V σ e [wrE (loc "S" .u16) .u16 i] ↔ False := fun i => Fine.V (by simp only [ok_wrE pt_S, fine]) σ e
  unfold loadS
  simp only [V_flatMap, V_append, w, or_false, List.mem_range]
  cases B.order with
  | swap =>
    simp only [leToUint16, hr]
    rw [show (∃ a < P.n * P.nbar, _) ↔ _ from exists_congr fun i => and_congr_right fun _ => by rw [V_cons, one, or_self]]
    simp
  | same =>
    simp only [leToUint16, hr]
    rw [show (∃ a < P.n * P.nbar, _) ↔ _ from exists_congr fun i => and_congr_right fun _ => one i]
    simp
  | bytes =>
    have hf : ∀ i, Fine (leToUint16 .bytes ((buf .sk).add (P.bytes + P.pkBytes)) .u16 i) := fun i => by
      simp only [leToUint16, fine]
    simp only [(hf _).V]
    simp

/-! ## What the functions modify -/

theorem dst_rdE (p t i) : dst (rdE p t i) = none := rfl
theorem dst_wrE (p t i) : dst (wrE p t i) = some p.o := rfl
theorem dst_rd (o off t) : dst (.rd o off t) = none := rfl
theorem dst_cpy (d doff s soff len) : dst (.cpy d doff s soff len) = some d := rfl
theorem o_add (p : Ptr) (k : Nat) : (p.add k).o = p.o := rfl
theorem o_loc (n t) : (loc n t).o = .loc n t := rfl
theorem o_buf (b) : (buf b).o = .buf b := rfl

attribute [nomod] NoMod_nil NoMod_cons NoMod_append NoMod_flatMap NoMod_map rds wrs rws memcpy dst_rdE dst_wrE dst_rd dst_cpy o_add o_loc o_buf
  ne_eq reduceCtorEq not_false_eq_true Option.some.injEq implies_true and_self and_true true_and Obj.buf.injEq

section
variable {b : Buf}

theorem nomod_uint16ToLe (o : Order) : NoMod (.buf b) (uint16ToLe o) := by cases o <;> simp only [uint16ToLe, nomod]

theorem nomod_leToUint16 (o : Order) (p t i) : NoMod (.buf b) (leToUint16 o p t i) := by cases o <;> simp only [leToUint16, nomod]

theorem nomod_leLoop (o : Order) {p : Ptr} (h : p.o ≠ .buf b) (t n) : NoMod (.buf b) (leLoop o p t n) := by
  simp only [leLoop, nomod_leToUint16, h, nomod]

theorem nomod_keccakF {s : Ptr} (h : s.o ≠ .buf b) : NoMod (.buf b) (keccakF s) := by simp only [keccakF, h, nomod]

theorem nomod_xorLane {s : Ptr} (h : s.o ≠ .buf b) (i m) : NoMod (.buf b) (xorLane s i m) := by simp only [xorLane, h, nomod]

theorem nomod_shakeR (r : Nat) {out : Ptr} (h : out.o ≠ .buf b) (n inp m) : NoMod (.buf b) (shakeR r out n inp m) := by
  have hs : (loc "s" .u64).o ≠ .buf b := by simp only [nomod]
  unfold shakeR keccak_absorb keccak_squeezeblocks
  split <;> simp only [nomod_keccakF hs, nomod_xorLane hs, h, nomod]

theorem nomod_shake (P : Params) {out : Ptr} (h : out.o ≠ .buf b) (n inp m) : NoMod (.buf b) (shake P out n inp m) := by
  unfold shake
  cases P.shake <;> exact nomod_shakeR _ h _ _ _

theorem nomod_permute4 {s : Ptr} (h : s.o ≠ .buf b) : NoMod (.buf b) (permute4 s) := by simp only [permute4, h, nomod]

theorem nomod_xorLane4 {s : Ptr} (h : s.o ≠ .buf b) (i m) : NoMod (.buf b) (xorLane4 s i m) := by simp only [xorLane4, h, nomod]

theorem nomod_shake128_4x {out : Fin 4 → Ptr} (h : ∀ j, (out j).o ≠ .buf b) (n inp m) : NoMod (.buf b) (shake128_4x out n inp m) := by
  have hs : (loc "s" .v256).o ≠ .buf b := by simp only [nomod]
  unfold shake128_4x keccak_absorb4x keccak_squeezeblocks4x
  split <;> simp only [nomod_permute4 hs, nomod_xorLane4 hs, h, t4, nomod]

theorem nomod_aes_load (a : Aes) (k : Ptr) {s : Ptr} (h : s.o ≠ .buf b) : NoMod (.buf b) (aes_load a k s) := by
  cases a <;> simp only [aes_load, h, nomod]

theorem nomod_aes_ecb (a : Aes) (i n s) {o : Ptr} (h : o.o ≠ .buf b) : NoMod (.buf b) (aes_ecb a i n s o) := by
  cases a <;> simp only [aes_ecb, aes_enc, List.cons_append, h, nomod]

theorem nomod_freeSchedule (B : Cfg) : NoMod (.buf b) (freeSchedule B) := by
  unfold freeSchedule
  cases B.gen <;> cases B.aes <;> simp only [aes_free, schedule, nomod]

theorem nomod_shakeRow (B P) {out : Ptr} (h : out.o ≠ .buf b) : NoMod (.buf b) (shakeRow B P out) := by
  simp only [shakeRow, seedWrite, seedSep1, nomod_uint16ToLe, nomod_shakeR _ h, nomod]

theorem nomod_shakeRows4 (B) (P : Params) {out : Ptr} (h : out.o ≠ .buf b) : NoMod (.buf b) (shakeRows4 B P out) := by
  have h' : ∀ j : Fin 4, (out.add (2 * (j * P.n))).o ≠ .buf b := fun j => h
  simp only [shakeRows4, seedWrite, seedSep, nomod_uint16ToLe, nomod_shake128_4x h', nomod]

theorem nomod_genAReference (B P seed) : NoMod (.buf b) (genAReference B P seed) := by
  have hA : (loc "A" .i16).o ≠ .buf b := by simp only [nomod]
  have hA' : ∀ k, ((loc "A" .i16).add k).o ≠ .buf b := fun k => hA
  have hs : schedule.o ≠ .buf b := by simp only [schedule, nomod]
  unfold genAReference
  cases B.gen <;> simp only [nomod_uint16ToLe, nomod_aes_load _ _ hs, nomod_aes_ecb _ _ _ _ hA, seedSep1, nomod_shakeRow B P (hA' _),
    nomod_leLoop _ hA, nomod]

theorem nomod_rows (B P) : NoMod (.buf b) (fourRows B P) ∧ NoMod (.buf b) (eightRows B P) := by
  have h1 : ∀ k, ((loc "a_row" .i16).add k).o ≠ .buf b := fun k => by simp only [nomod]
  have h2 : ∀ k, ((loc "A" .u16).add k).o ≠ .buf b := fun k => by simp only [nomod]
  have h3 : (loc "a_row" .i16).o ≠ .buf b := by simp only [nomod]
  have h4 : (loc "A" .u16).o ≠ .buf b := by simp only [nomod]
  unfold fourRows eightRows
  cases B.gen <;> cases B.impl <;> simp only [nomod_uint16ToLe, nomod_aes_ecb _ _ _ _ h3, nomod_aes_ecb _ _ _ _ h4,
    nomod_shakeRow B P (h1 _), nomod_shakeRow B P (h2 _), nomod_shakeRows4 B P h3, nomod_shakeRows4 B P h4,
    nomod_shakeRows4 B P (h2 _), nomod]

theorem nomod_setup (B P seed) : NoMod (.buf b) (asSetup B P seed) ∧ NoMod (.buf b) (saSetup B P seed) := by
  have hs : schedule.o ≠ .buf b := by simp only [schedule, nomod]
  unfold asSetup saSetup
  cases B.gen <;> cases B.impl <;> simp only [nomod_uint16ToLe, nomod_aes_load _ _ hs, seedSep1, seedSep, nomod]

theorem nomod_as_plus_e (B P) {out : Ptr} (h : out.o ≠ .buf b) (s e seed) : NoMod (.buf b) (as_plus_e B P out s e seed) := by
  have h3 : (loc "a_row" .i16).o ≠ .buf b := by simp only [nomod]
  unfold as_plus_e asReference copyE
  cases B.impl <;> simp only [nomod_genAReference, nomod_freeSchedule, (nomod_rows B P).1, (nomod_setup B P seed).1, nomod_leLoop _ h3, h, nomod]

theorem nomod_sa_plus_e (B P) {out e : Ptr} (h : out.o ≠ .buf b) (he : e.o ≠ .buf b) (s seed) :
    NoMod (.buf b) (sa_plus_e B P out s e seed) := by
  unfold sa_plus_e saReference saMul
  cases B.impl <;> simp only [nomod_genAReference, nomod_freeSchedule, (nomod_rows B P).2, (nomod_setup B P seed).2, h, he, List.cons_append, nomod]

theorem nomod_encrypt (B P) {Bm Bp V C : Ptr} (h1 : Bm.o ≠ .buf b) (h2 : Bp.o ≠ .buf b) (h3 : V.o ≠ .buf b) (h4 : C.o ≠ .buf b)
    (mu seedSE seedA bb) {o : List Ev} (ho : NoMod (.buf b) o) : NoMod (.buf b) (encrypt B P Bm Bp V C mu seedSE seedA bb o) := by
  have hSp : (loc "Sp" .u16).o ≠ .buf b := by simp only [nomod]
  have hSp' : ∀ k, ((loc "Sp" .u16).add k).o ≠ .buf b := fun k => by simp only [nomod]
  unfold encrypt
  simp only [List.cons_append, sample_n, unpack, mul_add_sb, key_encode, addSub, nomod_shake P hSp, nomod_leLoop _ hSp,
    nomod_sa_plus_e B P h2 (hSp' _), h1, h3, h4, ho, nomod]

theorem nomod_dec (B P) (hb : b ≠ .ss) : NoMod (.buf b) (dec B P) := by
  have h : ∀ n t, (loc n t).o ≠ .buf b := fun n t => by simp only [nomod]
  have hss : (buf .ss).o ≠ .buf b := by simpa only [nomod] using hb.symm
  unfold dec decRest loadS
  simp only [unpack, mul_bs, addSub, key_decode, clear, nomod_shake P (h _ _), nomod_shake P hss, nomod_leToUint16,
    nomod_encrypt B P (h _ _) (h _ _) (h _ _) (h _ _) _ _ _ _ (NoMod_nil _), List.cons_append, nomod]

theorem nomod_enc (B P) (hb : b ≠ .ss) (hb' : b ≠ .ct) : NoMod (.buf b) (enc B P) := by
  have h : ∀ n t, (loc n t).o ≠ .buf b := fun n t => by simp only [nomod]
  have hss : (buf .ss).o ≠ .buf b := by simpa only [nomod] using hb.symm
  have hct : Buf.ct ≠ b := hb'.symm
  have hp : NoMod (.buf b) (pack (buf .ct) (P.logq * P.n * P.nbar / 8) (loc "Bp" .u16) (P.n * P.nbar)) := by
    simp only [pack, hct, nomod]
  unfold enc
  simp only [clear, randombytes, nomod_shake P (h _ _), nomod_shake P hss,
    nomod_encrypt B P (h _ _) (h _ _) (h _ _) (h _ _) _ _ _ _ hp, nomod]
  simp only [pack, hct, nomod]

end

/-- Where a modification begins. -/
def wfrom : Ev → Nat
  | .rd _ off _ => off
  | .wr _ off _ => off
  | .cpy _ doff _ _ _ => doff

/-- The accesses modify the object from this place on only. -/
def Abv (o : Obj) (m : Nat) (l : List Ev) : Prop := ∀ e ∈ l, dst e = some o → m ≤ wfrom e

theorem NoMod.abv {o : Obj} {l : List Ev} (h : NoMod o l) (m : Nat) : Abv o m l := fun e he h' => absurd h' (h e he)

theorem Abv_append (o m) (l l' : List Ev) : Abv o m (l ++ l') ↔ Abv o m l ∧ Abv o m l' := by
  simp only [Abv, List.mem_append]
  exact ⟨fun h => ⟨fun e he => h e (.inl he), fun e he => h e (.inr he)⟩, fun h e he => he.elim (h.1 e) (h.2 e)⟩

theorem Abv_flatMap {α : Type} (o m) (l : List α) (f : α → List Ev) : Abv o m (l.flatMap f) ↔ ∀ a ∈ l, Abv o m (f a) := by
  simp only [Abv, List.mem_flatMap]
  exact ⟨fun h a ha e he => h e ⟨a, ha, he⟩, fun h e ⟨a, ha, he⟩ => h a ha e he⟩

theorem Abv_cons (o m) (a : Ev) (l : List Ev) : Abv o m (a :: l) ↔ (dst a = some o → m ≤ wfrom a) ∧ Abv o m l := by simp [Abv]

theorem Abv_wrs (p : Ptr) (t n) : Abv p.o p.off (wrs p t n) := by
  simp only [Abv, wrs, List.mem_map]
  rintro e ⟨i, _, rfl⟩ _
  exact Nat.le_add_right ..

theorem Abv.mono {o m m'} {l : List Ev} (h : Abv o m l) (hm : m' ≤ m) : Abv o m' l := fun e he h' => hm.trans (h e he h')

theorem step_abv {σ : State} {e : Ev} {b : Buf} {m : Nat} (h : dst e = some (.buf b) → m ≤ wfrom e) {k : Nat} (hk : k < m) :
    (step σ e b).types k = (σ b).types k := by
  have key : ∀ c off len f, (Obj.buf c = .buf b → m ≤ off) → (retype σ (.buf c) off len f b).types k = (σ b).types k := by
    intro c off len f h
    simp only [retype]
    split
    · rfl
    · dsimp only
      split
      · rename_i hc
        subst hc
        have := h rfl
        dsimp only
        rw [if_neg (by omega)]
      · rfl
  cases e with
  | rd o off t => rfl
  | wr o off t =>
    cases o with
    | loc n t' => rfl
    | buf c => exact key c off _ _ fun h' => h (by rw [← h']; rfl)
  | cpy d doff s soff len =>
    cases d with
    | loc n t' => rfl
    | buf c => exact key c doff _ _ fun h' => h (by rw [← h']; rfl)

theorem final_abv {b : Buf} {m : Nat} : ∀ {l : List Ev}, Abv (.buf b) m l → ∀ (σ : State) {k : Nat}, k < m →
    (final σ l b).types k = (σ b).types k
  | [], _, _, _, _ => rfl
  | e :: l, h, σ, k, hk => by
    rw [Abv_cons] at h
    show (final (step σ e) l b).types k = _
    rw [final_abv h.2 _ hk, step_abv h.1 hk]

theorem abv_shakeR (r : Nat) (b : Buf) (k : Nat) (n inp m) : Abv (.buf b) k (shakeR r ⟨.buf b, k⟩ n inp m) := by
  have hs : (loc "s" .u64).o ≠ .buf b := by simp only [nomod]
  have sq : ∀ j, Abv (.buf b) k (keccak_squeezeblocks ⟨.buf b, k⟩ j (loc "s" .u64) r) := by
    intro j
    unfold keccak_squeezeblocks
    simp only [Abv_flatMap, Abv_append, Abv_cons, dst_rdE, reduceCtorEq, false_implies, true_and]
    intro a _
    refine ⟨(nomod_keccakF hs).abv _, fun i _ => ?_⟩
    exact (Abv_wrs (Ptr.add ⟨.buf b, k⟩ (a * r + 8 * i)) .u8 8).mono (Nat.le_add_right ..)
  have ab : NoMod (.buf b) (wrs (loc "s" .u64) .u64 25 ++ keccak_absorb (loc "s" .u64) r inp m) := by
    unfold keccak_absorb
    simp only [nomod_keccakF hs, nomod_xorLane hs, nomod]
  have sq' : NoMod (.buf b) (keccak_squeezeblocks (loc "t" .u8) 1 (loc "s" .u64) r) := by
    unfold keccak_squeezeblocks
    simp only [nomod_keccakF hs, nomod]
  unfold shakeR
  split
  · exact (Abv_append ..).2 ⟨(Abv_append ..).2 ⟨ab.abv _, sq _⟩, (NoMod_nil _).abv _⟩
  · refine (Abv_append ..).2 ⟨(Abv_append ..).2 ⟨ab.abv _, sq _⟩, (Abv_append ..).2 ⟨sq'.abv _, ?_⟩⟩
    simp only [Abv_flatMap, Abv_cons, dst_rdE, reduceCtorEq, false_implies, true_and, dst_wrE]
    intro i _
    refine ⟨fun _ => ?_, (NoMod_nil _).abv _⟩
    simp only [wfrom, wrE, Ptr.add]
    omega

theorem abv_shake (P : Params) (b : Buf) (k : Nat) (n inp m) : Abv (.buf b) k (shake P ⟨.buf b, k⟩ n inp m) := by
  unfold shake
  cases P.shake <;> exact abv_shakeR _ _ _ _ _ _

/-- After `crypto_kem_keypair` the part `S` of an allocated secret key has the type `uint16_t`. -/
theorem sk_after_keypair (B : Cfg) (P : Params) {σ : State} (hσ : (σ .sk).declared = false) {j : Nat} (hj : j < 2 * P.n * P.nbar) :
    (final σ (keypair B P) .sk).types (P.bytes + P.pkBytes + j) = some (.u16, j % 2) := by
  rw [keypair_eq, final_append]
  have hend : Abv (.buf .sk) (P.bytes + P.pkBytes + 2 * P.n * P.nbar) (keypairEnd P) := by
    have hcl : NoMod (.buf .sk) (clear (loc "S" .u16) (P.n * P.nbar * 2) ++ clear ((loc "S" .u16).add (2 * (P.n * P.nbar))) (P.n * P.nbar * 2) ++
        clear (loc "randomness" .u8) (2 * P.bytes) ++ clear (loc "shake_input_seedSE" .u8) (1 + P.bytes)) := by
      simp only [clear, nomod]
    have h := abv_shake P .sk (P.bytes + P.pkBytes + 2 * P.n * P.nbar) P.bytes (buf .pk) P.pkBytes
    have e : (⟨.buf .sk, P.bytes + P.pkBytes + 2 * P.n * P.nbar⟩ : Ptr) = (buf .sk).add (P.bytes + P.pkBytes + 2 * P.n * P.nbar) := by
      simp [buf, Ptr.add]
    rw [e] at h
    exact (Abv_append ..).2 ⟨h, hcl.abv _⟩
  rw [final_abv hend _ (by omega), final_append]
  generalize hτ : final σ _ = τ
  have hd : (τ .sk).declared = false := by rw [← hτ, declared_final, hσ]
  show (step τ (.cpy (.buf .sk) (0 + (P.bytes + P.pkBytes)) (.loc "S" .u16) 0 (2 * P.n * P.nbar)) .sk).types _ = _
  simp only [step, retype, hd, typesOf]
  rw [if_neg (by decide), if_pos rfl]
  dsimp only
  rw [if_pos (by omega)]
  simp only [Ty.size]
  congr 3
  omega

theorem onlySk_loadS (B : Cfg) (P : Params) : OnlySk (loadS B P) := by
  have key : ∀ e ∈ loadS B P, (∃ off t, e = .rd (.buf .sk) off t) ∨ ∀ σ, ok σ e = true := by
    intro e he
    simp only [loadS, List.mem_flatMap, List.mem_append, List.mem_singleton] at he
    obtain ⟨i, _, he | rfl⟩ := he
    · left
      revert he
      cases B.order <;> simp only [leToUint16, List.mem_cons, List.not_mem_nil, or_false, or_self] <;> intro he
      · exact ⟨_, _, he⟩
      · exact ⟨_, _, he⟩
      · rcases he with h | h <;> exact ⟨_, _, h⟩
    · exact .inr fun σ => ok_wrE pt_S _ σ
  intro e he σ σ' h
  rcases key e he with ⟨off, t, rfl⟩ | h'
  · simp only [ok, typesOf, h]
  · rw [h', h']

theorem mem_bad_dec (B : Cfg) {P : Params} (hn : 8 ≤ P.n) (σ : State) (e : Ev) : e ∈ bad σ (dec B P) ↔
    genBad B e ∨ B.order ≠ .bytes ∧ ∃ i < P.n * P.nbar, e = .rd (.buf .sk) (P.bytes + P.pkBytes + 2 * i) .u16 ∧
      fits (σ .sk).types (P.bytes + P.pkBytes + 2 * i) .u16 = false := by
  have hpre : Fine (wrs (loc "B" .u16) .u16 (P.n * P.nbar) ++ wrs (loc "Bp" .u16) .u16 (P.n * P.nbar) ++
      wrs (loc "W" .u16) .u16 (P.nbar * P.nbar) ++ wrs (loc "C" .u16) .u16 (P.nbar * P.nbar) ++
      wrs (loc "CC" .u16) .u16 (P.nbar * P.nbar) ++ wrs (loc "BBp" .u16) .u16 (P.n * P.nbar) ++
      wrs (loc "Sp" .u16) .u16 ((2 * P.n + P.nbar) * P.nbar)) := by
    simp only [ok_wrE pt_B, ok_wrE pt_Bp, ok_wrE pt_W, ok_wrE pt_C, ok_wrE pt_CC, ok_wrE pt_BBp, ok_wrE pt_Sp, fine]
  have hrest := bad_decRest B hn
  have honly : OnlySk (dec B P) :=
    (OnlySk_append ..).2 ⟨(OnlySk_append ..).2 ⟨hpre.static.onlySk, onlySk_loadS B P⟩, hrest.1.onlySk⟩
  rw [mem_bad_sk honly (nomod_dec B P (by decide))]
  unfold dec
  rw [V_append, V_append, hpre.V, hrest.2, V_loadS, false_or, or_comm]

theorem fits_u16 (f : Types) (off : Nat) : fits f off .u16 = (byteOk .u16 0 (f off) && byteOk .u16 1 (f (off + 1))) := by
  simp [fits, Ty.any, Ty.size, List.range_succ]

end Frodo.Eff
