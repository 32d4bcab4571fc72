import Verif.Proof.SnP4Align
import Verif.Proof.SnP4Shake
import Verif.Props.Align

/-! # C56: the interface of four parallel Keccak states

Every function of /repo/src/sha3/keccak4x/KeccakP-1600-times4-SnP.h, for all arguments in range: the
effect on the bytes of the four states, and exactly the addresses that are needed. -/

namespace Frodo.Props

open Spec

/-- Some lane of the state lies completely in the range of bytes. -/
def WholeLane (offset length : Nat) : Prop := ∃ l, offset ≤ 8 * l ∧ 8 * l + 8 ≤ offset + length

theorem whole_iff {offset length : Nat} : Whole offset length ↔ WholeLane offset length := by
  unfold Whole WholeLane
  constructor
  · intro h
    exact ⟨(offset + 7) / 8, by omega, by omega⟩
  · rintro ⟨l, h1, h2⟩
    omega

variable {sAddr dAddr : Nat} {ss : List U64} {data : List U8}

/-- C56.  `KeccakP1600times4_InitializeAll` sets all bytes of the four states to 0. -/
theorem C56_initializeAll (h : ss.length = 100) :
    Ret (KeccakP1600times4_InitializeAll ss) (fun s' => s'.length = 100 ∧
      ∀ k, k < 4 → ∀ i, i < 200 → stByte s' k i = 0) :=
  InitializeAll_ret h

/-- C56.  The macro `KeccakP1600times4_AddByte` changes exactly one byte of one state. -/
theorem C56_addByte (h : ss.length = 100) {k o : Nat} (hk : k < 4) (ho : o < 200) (b : U8) :
    Ret (KeccakP1600times4_AddByte ss k b o) (fun s' => s'.length = 100 ∧
      ∀ j, j < 4 → ∀ i, i < 200 → stByte s' j i =
        if j = k ∧ i = o then stByte ss j i ^^^ b else stByte ss j i) :=
  AddByte_ret h hk ho b

/-- C56.  `KeccakP1600times4_AddBytes` adds `length` bytes to state `k` from `offset` on, and changes no
other byte of the four states. -/
theorem C56_addBytes (h : ss.length = 100) {k offset length : Nat} (hk : k < 4)
    (hd : length ≤ data.length) (ho : offset + length ≤ 200) (hsA : sAddr % 8 = 0)
    (hA : WholeLane offset length → dAddr % 8 = offset % 8) :
    Ret (KeccakP1600times4_AddBytes sAddr ss k dAddr data offset length) (fun s' => s'.length = 100 ∧
      ∀ j, j < 4 → ∀ i, i < 200 → stByte s' j i =
        if j = k ∧ offset ≤ i ∧ i < offset + length then stByte ss j i ^^^ nth data (i - offset)
        else stByte ss j i) :=
  AddBytes_ret hsA h hk hd ho fun hw => hA (whole_iff.1 hw)

/-- C56.  `KeccakP1600times4_OverwriteBytes` likewise, with replacement. -/
theorem C56_overwriteBytes (h : ss.length = 100) {k offset length : Nat} (hk : k < 4)
    (hd : length ≤ data.length) (ho : offset + length ≤ 200) (hsA : sAddr % 8 = 0)
    (hA : WholeLane offset length → dAddr % 8 = offset % 8) :
    Ret (KeccakP1600times4_OverwriteBytes sAddr ss k dAddr data offset length)
      (fun s' => s'.length = 100 ∧ ∀ j, j < 4 → ∀ i, i < 200 → stByte s' j i =
        if j = k ∧ offset ≤ i ∧ i < offset + length then nth data (i - offset) else stByte ss j i) :=
  OverwriteBytes_ret hsA h hk hd ho fun hw => hA (whole_iff.1 hw)

/-- C56.  `KeccakP1600times4_OverwriteWithZeroes` sets the first `n` bytes of state `k` to 0. -/
theorem C56_overwriteWithZeroes (h : ss.length = 100) {k n : Nat} (hk : k < 4) (hn : n ≤ 200)
    (hsA : sAddr % 8 = 0) :
    Ret (KeccakP1600times4_OverwriteWithZeroes sAddr ss k n) (fun s' => s'.length = 100 ∧
      ∀ j, j < 4 → ∀ i, i < 200 → stByte s' j i = if j = k ∧ i < n then 0 else stByte ss j i) := by
  refine (OverwriteWithZeroes_ret hsA h hk hn).mono fun s' hs => ⟨hs.1, fun j hj i hi => ?_⟩
  rw [hs.2 j hj i hi]
  by_cases c : j = k ∧ i < n
  · rw [if_pos c, if_pos ⟨c.1, Nat.zero_le _, by omega⟩]
  · rw [if_neg c, if_neg (fun c' => c ⟨c'.1, by omega⟩)]

/-- C56.  `KeccakP1600times4_ExtractBytes` writes `length` bytes of state `k` from `offset` on to the
beginning of `data`, and no other byte. -/
theorem C56_extractBytes (h : ss.length = 100) {k offset length : Nat} (hk : k < 4)
    (hd : length ≤ data.length) (ho : offset + length ≤ 200) (hsA : sAddr % 8 = 0)
    (hA : WholeLane offset length → dAddr % 8 = offset % 8) :
    Ret (KeccakP1600times4_ExtractBytes sAddr ss k dAddr data offset length) (fun d' =>
      d'.length = data.length ∧
      ∀ p, nth d' p = if p < length then stByte ss k (offset + p) else nth data p) :=
  ExtractBytes_ret hsA h hk hd ho fun hw => hA (whole_iff.1 hw)

/-- C56.  `KeccakP1600times4_ExtractAndAddBytes` adds `input` to the bytes extracted. -/
theorem C56_extractAndAddBytes (h : ss.length = 100) {k iAddr oAddr offset length : Nat}
    {input output : List U8} (hk : k < 4) (hi : length ≤ input.length) (hd : length ≤ output.length)
    (ho : offset + length ≤ 200) (hsA : sAddr % 8 = 0)
    (hA : WholeLane offset length → iAddr % 8 = offset % 8 ∧ oAddr % 8 = offset % 8) :
    Ret (KeccakP1600times4_ExtractAndAddBytes sAddr ss k iAddr input oAddr output offset length)
      (fun o' => o'.length = output.length ∧ ∀ p, nth o' p =
        if p < length then nth input p ^^^ stByte ss k (offset + p) else nth output p) :=
  ExtractAndAddBytes_ret hsA h hk hi hd ho fun hw => hA (whole_iff.1 hw)

/-- C56, addresses: the functions on bytes are free of undefined behaviour if and only if the states are at
a multiple of 8 and, whenever some whole lane is accessed, the data has the same position modulo 8 as
the first byte of the state: so neither aligned data nor unaligned data is fine for all offsets. -/
theorem C56_bytes_safe_iff (h : ss.length = 100) {k offset length : Nat} (hk : k < 4)
    (hd : length ≤ data.length) (ho : offset + length ≤ 200) :
    (Safe (KeccakP1600times4_AddBytes sAddr ss k dAddr data offset length) ↔
      sAddr % 8 = 0 ∧ (WholeLane offset length → dAddr % 8 = offset % 8)) ∧
    (Safe (KeccakP1600times4_OverwriteBytes sAddr ss k dAddr data offset length) ↔
      sAddr % 8 = 0 ∧ (WholeLane offset length → dAddr % 8 = offset % 8)) ∧
    (Safe (KeccakP1600times4_ExtractBytes sAddr ss k dAddr data offset length) ↔
      sAddr % 8 = 0 ∧ (WholeLane offset length → dAddr % 8 = offset % 8)) := by
  refine ⟨⟨fun hs => ?_, fun ha => Safe.of_ret (C56_addBytes h hk hd ho ha.1 ha.2)⟩,
    ⟨fun hs => ?_, fun ha => Safe.of_ret (C56_overwriteBytes h hk hd ho ha.1 ha.2)⟩,
    ⟨fun hs => ?_, fun ha => Safe.of_ret (C56_extractBytes h hk hd ho ha.1 ha.2)⟩⟩
  · rw [← whole_iff]; exact hs.needs Needs.AddBytes
  · rw [← whole_iff]; exact hs.needs Needs.OverwriteBytes
  · rw [← whole_iff]; exact hs.needs Needs.ExtractBytes

/-- C56, addresses for `KeccakP1600times4_ExtractAndAddBytes`: input and output need the same position
modulo 8 as the first byte of the state. -/
theorem C56_extractAndAddBytes_safe_iff (h : ss.length = 100) {k iAddr oAddr offset length : Nat}
    {input output : List U8} (hk : k < 4) (hi : length ≤ input.length) (hd : length ≤ output.length)
    (ho : offset + length ≤ 200) :
    Safe (KeccakP1600times4_ExtractAndAddBytes sAddr ss k iAddr input oAddr output offset length) ↔
      sAddr % 8 = 0 ∧
        (WholeLane offset length → iAddr % 8 = offset % 8 ∧ oAddr % 8 = offset % 8) :=
  ⟨fun hs => by rw [← whole_iff]; exact hs.needs Needs.ExtractAndAddBytes,
    fun ha => Safe.of_ret (C56_extractAndAddBytes h hk hi hd ho ha.1 ha.2)⟩

/-- C56.  `KeccakP1600times4_AddLanesAll` adds `n` lanes to each state; the data of state `k` begins at
byte `8 * L * k`. -/
theorem C56_addLanesAll (h : ss.length = 100) {n L : Nat} (hn : n ≤ 25) (hL : 24 * L < 2 ^ 32)
    (hd : 8 * (3 * L + n) ≤ data.length) (hsA : sAddr % 32 = 0) (hA : dAddr % 8 = 0) :
    Ret (KeccakP1600times4_AddLanesAll sAddr ss dAddr data n L) (fun s' => s'.length = 100 ∧
      ∀ k, k < 4 → ∀ i, i < 200 → stByte s' k i =
        if i < 8 * n then stByte ss k i ^^^ nth data (8 * L * k + i) else stByte ss k i) :=
  (AddLanesAll_ret hsA h hA hn hL hd).mono fun _ hs => ⟨hs.1, fun _ hk i _ => hs.bytes_xor hk i⟩

/-- C56.  `KeccakP1600times4_OverwriteLanesAll` likewise, with replacement. -/
theorem C56_overwriteLanesAll (h : ss.length = 100) {n L : Nat} (hn : n ≤ 25) (hL : 24 * L < 2 ^ 32)
    (hd : 8 * (3 * L + n) ≤ data.length) (hsA : sAddr % 32 = 0) (hA : dAddr % 8 = 0) :
    Ret (KeccakP1600times4_OverwriteLanesAll sAddr ss dAddr data n L) (fun s' => s'.length = 100 ∧
      ∀ k, k < 4 → ∀ i, i < 200 → stByte s' k i =
        if i < 8 * n then nth data (8 * L * k + i) else stByte ss k i) :=
  (OverwriteLanesAll_ret hsA h hA hn hL hd).mono fun _ hs => ⟨hs.1, fun _ hk i _ => hs.bytes_set hk i⟩

/-- C56.  `KeccakP1600times4_ExtractLanesAll` writes the first `n` lanes of state `k` to byte `8 * L * k`
on, and no other byte. -/
theorem C56_extractLanesAll (h : ss.length = 100) {n L : Nat} (hn : n ≤ 25) (hnL : n ≤ L)
    (hL : 24 * L < 2 ^ 32) (hd : 8 * (3 * L + n) ≤ data.length) (hsA : sAddr % 32 = 0)
    (hA : dAddr % 8 = 0) :
    Ret (KeccakP1600times4_ExtractLanesAll sAddr ss dAddr data n L) (fun d' =>
      d'.length = data.length ∧
      (∀ k, k < 4 → ∀ i, i < 8 * n → nth d' (8 * L * k + i) = stByte ss k i) ∧
      ∀ p, (∀ k, k < 4 → ¬ (8 * L * k ≤ p ∧ p < 8 * L * k + 8 * n)) → nth d' p = nth data p) :=
  (ExtractLanesAll_ret hsA h hA hn hnL hL hd).mono fun _ hs =>
    ⟨hs.1, fun _ hk _ hi => hs.at hnL hk hi, fun _ hp => hs.other hp⟩

/-- C56.  `KeccakP1600times4_ExtractAndAddLanesAll` adds `input`. -/
theorem C56_extractAndAddLanesAll (h : ss.length = 100) {iAddr oAddr n L : Nat}
    {input output : List U8} (hn : n ≤ 25) (hnL : n ≤ L) (hL : 24 * L < 2 ^ 32)
    (hi : 8 * (3 * L + n) ≤ input.length) (hd : 8 * (3 * L + n) ≤ output.length)
    (hsA : sAddr % 32 = 0) (hiA : iAddr % 8 = 0) (hoA : oAddr % 8 = 0) :
    Ret (KeccakP1600times4_ExtractAndAddLanesAll sAddr ss iAddr input oAddr output n L) (fun o' =>
      o'.length = output.length ∧
      (∀ k, k < 4 → ∀ i, i < 8 * n →
        nth o' (8 * L * k + i) = nth input (8 * L * k + i) ^^^ stByte ss k i) ∧
      ∀ p, (∀ k, k < 4 → ¬ (8 * L * k ≤ p ∧ p < 8 * L * k + 8 * n)) → nth o' p = nth output p) :=
  (ExtractAndAddLanesAll_ret hsA h hiA hoA hn hnL hL hi hd).mono fun _ hs =>
    ⟨hs.1, fun _ hk _ hi => hs.at hnL hk hi, fun _ hp => hs.other hp⟩

/-- C56, addresses: the functions on lanes are free of undefined behaviour if and only if the states are
at a multiple of 32 and the data at a multiple of 8, even though the loads and stores of 4 lanes at once
are unaligned ones. -/
theorem C56_lanes_safe_iff (h : ss.length = 100) {n L : Nat} (hn : n ≤ 25) (hnL : n ≤ L)
    (hL : 24 * L < 2 ^ 32) (hd : 8 * (3 * L + n) ≤ data.length) :
    (Safe (KeccakP1600times4_AddLanesAll sAddr ss dAddr data n L) ↔ sAddr % 32 = 0 ∧ dAddr % 8 = 0) ∧
    (Safe (KeccakP1600times4_OverwriteLanesAll sAddr ss dAddr data n L) ↔
      sAddr % 32 = 0 ∧ dAddr % 8 = 0) ∧
    (Safe (KeccakP1600times4_ExtractLanesAll sAddr ss dAddr data n L) ↔
      sAddr % 32 = 0 ∧ dAddr % 8 = 0) :=
  ⟨⟨fun hs => hs.needs Needs.AddLanesAll,
      fun ha => Safe.of_ret (C56_addLanesAll h hn hL hd ha.1 ha.2)⟩,
    ⟨fun hs => hs.needs Needs.OverwriteLanesAll,
      fun ha => Safe.of_ret (C56_overwriteLanesAll h hn hL hd ha.1 ha.2)⟩,
    ⟨fun hs => hs.needs Needs.ExtractLanesAll,
      fun ha => Safe.of_ret (C56_extractLanesAll h hn hnL hL hd ha.1 ha.2)⟩⟩

/-- C56, addresses for `KeccakP1600times4_ExtractAndAddLanesAll`. -/
theorem C56_extractAndAddLanesAll_safe_iff (h : ss.length = 100) {iAddr oAddr n L : Nat}
    {input output : List U8} (hn : n ≤ 25) (hnL : n ≤ L) (hL : 24 * L < 2 ^ 32)
    (hi : 8 * (3 * L + n) ≤ input.length) (hd : 8 * (3 * L + n) ≤ output.length) :
    Safe (KeccakP1600times4_ExtractAndAddLanesAll sAddr ss iAddr input oAddr output n L) ↔
      sAddr % 32 = 0 ∧ iAddr % 8 = 0 ∧ oAddr % 8 = 0 :=
  ⟨fun hs => hs.needs Needs.ExtractAndAddLanesAll,
    fun ha => Safe.of_ret (C56_extractAndAddLanesAll h hn hnL hL hi hd ha.1 ha.2.1 ha.2.2)⟩

/-- C56.  `KeccakP1600times4_PermuteAll_12rounds` applies Keccak-p[1600, 12], the last 12 rounds of
Keccak-f[1600], to each of the four states. -/
theorem C56_permute12 {E : Env} (hE : E.addr .rho8 % 32 = 0 ∧ E.addr .rho56 % 32 = 0)
    (h : ss.length = 100) :
    Ret (KeccakP1600times4_PermuteAll_12rounds E ss) (fun s' => s'.length = 100 ∧
      ∀ t : Fin 4, bytesToBits (instBytes s' t) = keccakPbits 12 (bytesToBits (instBytes ss t))) :=
  (Permute12_ret hE h).mono fun _ hs => ⟨hs.1, fun t => by rw [← sbits_inst, ← sbits_inst, hs.2]⟩

/-- The specification with 24 rounds is Keccak-f[1600] of FIPS 202. -/
theorem C56_keccakPbits_24 (S : List Bool) : keccakPbits 24 S = keccakF S := keccakPbits_24 S

/-! ## The fast loops -/

/-- The blocks for state `t`: block `j` consists of `n` lanes and begins `los * j + lop * t` lanes after
the beginning of the data. -/
def fastBlock (data : List U8) (n lop los : Nat) (t j : Nat) : List U8 :=
  (data.drop (8 * (los * j + lop * t))).take (8 * n)

/-- What a fast loop with `nr` rounds has to do: absorb as many blocks as fit, and return the number of
bytes by which the data has been advanced. -/
def FastLoopDoes (nr : Nat) (ss : List U64) (n lop los : Nat) (data : List U8) (len : Nat)
    (r : List U64 × Nat) : Prop :=
  let N := fastBlocks (8 * (3 * lop + n)) (8 * los) len
  r.1.length = 100 ∧ r.2 = N * (8 * los) ∧
    ∀ t : Fin 4, bytesToBits (instBytes r.1 t) = absorbBlocks nr (bytesToBits (instBytes ss t))
      ((List.range N).map (fastBlock data n lop los t))

theorem rounds24_pn (v : VLanes) : Ret (rounds24 v) (fun v' => ∀ t,
    (v'.lane t).get.bits = keccakPn 24 (v.lane t).get.bits) :=
  (rounds24_ret v).mono fun _ h t => by rw [keccakPn_24]; exact h t

theorem permute24_pn {E : Env} (hE : E.rhoAligned) (s : List U64) (hs : s.length = 100) :
    Ret (KeccakP1600times4_PermuteAll_24rounds E s) (fun s' => s'.length = 100 ∧
      ∀ t, sbits (inst t s') = keccakPbits 24 (sbits (inst t s))) :=
  (PermuteAll_ret hE hs).mono fun _ h => ⟨h.1, fun t => by rw [keccakPbits_24]; exact h.2 t⟩

theorem fastLoop_does {rounds : VLanes → C VLanes} {permute : List U64 → C (List U64)} {nr : Nat}
    {E : Env} {n lop los len : Nat}
    (hr : ∀ v, Ret (rounds v) (fun v' => ∀ t,
      (v'.lane t).get.bits = keccakPn nr (v.lane t).get.bits))
    (hp : ∀ s, s.length = 100 → Ret (permute s) (fun s' => s'.length = 100 ∧
      ∀ t, sbits (inst t s') = keccakPbits nr (sbits (inst t s))))
    (hE : E.rhoAligned) (hsA : sAddr % 32 = 0) (h : ss.length = 100) (hA : dAddr % 8 = 0) (hn : n ≤ 25)
    (hw : 8 * (3 * lop + n) < 2 ^ 32) (hlos : 8 * los < 2 ^ 32) (h0 : 0 < los)
    (hlen : len ≤ data.length) (h64 : len < 2 ^ 64)
    (hB : fastBlocks (8 * (3 * lop + n)) (8 * los) len * (8 * los) ≤ len)
    (h21 : n = 21 →
      8 * (3 * lop + fastBlocks (8 * (3 * lop + n)) (8 * los) len * los) ≤ data.length) :
    Ret (fastLoopAbsorb rounds permute E sAddr ss n lop los dAddr data len)
      (FastLoopDoes nr ss n lop los data len) := by
  refine (fastLoop_ret hr hp hE hsA h hA hn hw hlos h0 hlen h64 hB h21).mono fun r hr => ?_
  exact ⟨hr.1, hr.2.1, fun t => by rw [← sbits_inst, ← sbits_inst, hr.2.2]; rfl⟩

/-- C56.  `KeccakF1600times4_FastLoop_Absorb` absorbs all whole blocks into the four states with
Keccak-f[1600], whenever the pointers stay inside the data. -/
theorem C56_fastLoop24 {E : Env} {n lop los len : Nat}
    (hE : E.addr .rho8 % 32 = 0 ∧ E.addr .rho56 % 32 = 0) (hsA : sAddr % 32 = 0) (h : ss.length = 100)
    (hA : dAddr % 8 = 0) (hn : n ≤ 25) (hw : 8 * (3 * lop + n) < 2 ^ 32) (hlos : 8 * los < 2 ^ 32)
    (h0 : 0 < los) (hlen : len ≤ data.length) (h64 : len < 2 ^ 64)
    (hB : fastBlocks (8 * (3 * lop + n)) (8 * los) len * (8 * los) ≤ len)
    (h21 : n = 21 →
      8 * (3 * lop + fastBlocks (8 * (3 * lop + n)) (8 * los) len * los) ≤ data.length) :
    Ret (KeccakF1600times4_FastLoop_Absorb E sAddr ss n lop los dAddr data len)
      (FastLoopDoes 24 ss n lop los data len) :=
  fastLoop_does rounds24_pn (permute24_pn hE) hE hsA h hA hn hw hlos h0 hlen h64 hB h21

/-- C56.  `KeccakP1600times4_12rounds_FastLoop_Absorb` does the same with Keccak-p[1600, 12]. -/
theorem C56_fastLoop12 {E : Env} {n lop los len : Nat}
    (hE : E.addr .rho8 % 32 = 0 ∧ E.addr .rho56 % 32 = 0) (hsA : sAddr % 32 = 0) (h : ss.length = 100)
    (hA : dAddr % 8 = 0) (hn : n ≤ 25) (hw : 8 * (3 * lop + n) < 2 ^ 32) (hlos : 8 * los < 2 ^ 32)
    (h0 : 0 < los) (hlen : len ≤ data.length) (h64 : len < 2 ^ 64)
    (hB : fastBlocks (8 * (3 * lop + n)) (8 * los) len * (8 * los) ≤ len)
    (h21 : n = 21 →
      8 * (3 * lop + fastBlocks (8 * (3 * lop + n)) (8 * los) len * los) ≤ data.length) :
    Ret (KeccakP1600times4_12rounds_FastLoop_Absorb E sAddr ss n lop los dAddr data len)
      (FastLoopDoes 12 ss n lop los data len) :=
  fastLoop_does rounds12_ret (fun _ hs => Permute12_ret hE hs) hE hsA h hA hn hw hlos h0 hlen h64 hB h21

/-- C56.  The conditions on the sizes are exact: called on a whole array of fewer than 2^64 bytes, the fast
loop is free of undefined behaviour if and only if the step of the last block does not lead beyond the
end, and with 21 lanes not even the pointer of the last state, which is one of those that are advanced. -/
theorem C56_fastLoop24_safe_iff {E : Env} {n lop los : Nat}
    (hE : E.addr .rho8 % 32 = 0 ∧ E.addr .rho56 % 32 = 0) (hsA : sAddr % 32 = 0) (h : ss.length = 100)
    (hA : dAddr % 8 = 0) (hn : n ≤ 25) (hw : 8 * (3 * lop + n) < 2 ^ 32) (hlos : 8 * los < 2 ^ 32)
    (h0 : 0 < los) (h64 : data.length < 2 ^ 64) {N : Nat}
    (hN : N = fastBlocks (8 * (3 * lop + n)) (8 * los) data.length) :
    Safe (KeccakF1600times4_FastLoop_Absorb E sAddr ss n lop los dAddr data data.length) ↔
      N * (8 * los) ≤ data.length ∧ (n = 21 → 8 * (3 * lop + N * los) ≤ data.length) := by
  subst hN
  exact ⟨fun hs => hs.needs (Needs.fastLoop hw hlos h0 h64), fun hc => Safe.of_ret
    (C56_fastLoop24 hE hsA h hA hn hw hlos h0 (Nat.le_refl _) h64 hc.1 hc.2)⟩

/-- C56, the same for 12 rounds. -/
theorem C56_fastLoop12_safe_iff {E : Env} {n lop los : Nat}
    (hE : E.addr .rho8 % 32 = 0 ∧ E.addr .rho56 % 32 = 0) (hsA : sAddr % 32 = 0) (h : ss.length = 100)
    (hA : dAddr % 8 = 0) (hn : n ≤ 25) (hw : 8 * (3 * lop + n) < 2 ^ 32) (hlos : 8 * los < 2 ^ 32)
    (h0 : 0 < los) (h64 : data.length < 2 ^ 64) {N : Nat}
    (hN : N = fastBlocks (8 * (3 * lop + n)) (8 * los) data.length) :
    Safe (KeccakP1600times4_12rounds_FastLoop_Absorb E sAddr ss n lop los dAddr data data.length) ↔
      N * (8 * los) ≤ data.length ∧ (n = 21 → 8 * (3 * lop + N * los) ≤ data.length) := by
  subst hN
  exact ⟨fun hs => hs.needs (Needs.fastLoop hw hlos h0 h64), fun hc => Safe.of_ret
    (C56_fastLoop12 hE hsA h hA hn hw hlos h0 (Nat.le_refl _) h64 hc.1 hc.2)⟩

/-- C56, the special case of 21 lanes is not equivalent to the general one: with the blocks of the four
states interleaved (`lop` = n, `los` = 4 n), every read is inside the data; with any other number of
lanes the call is fine, with 21 lanes the pointers leave the data and the behaviour is undefined. -/
theorem C56_interleaved {E : Env} {n b : Nat}
    (hE : E.addr .rho8 % 32 = 0 ∧ E.addr .rho56 % 32 = 0) (hsA : sAddr % 32 = 0) (h : ss.length = 100)
    (hA : dAddr % 8 = 0) (hn0 : 0 < n) (hn : n ≤ 25) (hb : 0 < b) (hd : data.length = 32 * n * b)
    (h64 : data.length < 2 ^ 64) :
    Safe (KeccakF1600times4_FastLoop_Absorb E sAddr ss n n (4 * n) dAddr data data.length) ↔ n ≠ 21 := by
  have hnb : n ≤ n * b := Nat.le_mul_of_pos_right _ hb
  have e : 32 * n * b = 32 * (n * b) := Nat.mul_assoc _ _ _
  have hN : fastBlocks (8 * (3 * n + n)) (8 * (4 * n)) data.length = b := by
    unfold fastBlocks
    rw [if_neg (by omega), hd, show 32 * n * b - 8 * (3 * n + n) = (b - 1) * (8 * (4 * n)) by
      rw [Nat.sub_mul, show b * (8 * (4 * n)) = 32 * (n * b) by
        rw [show 8 * (4 * n) = 32 * n by omega, Nat.mul_left_comm, Nat.mul_comm b]]
      omega, Nat.mul_div_cancel _ (by omega)]
    omega
  rw [C56_fastLoop24_safe_iff hE hsA h hA hn (by omega) (by omega) (by omega) h64 hN.symm, hd, e,
    show b * (8 * (4 * n)) = 32 * (n * b) by
      rw [show 8 * (4 * n) = 32 * n by omega, Nat.mul_left_comm, Nat.mul_comm b],
    show b * (4 * n) = 4 * (n * b) by rw [Nat.mul_left_comm, Nat.mul_comm b]]
  constructor
  · rintro ⟨-, h2⟩ rfl
    have := h2 rfl
    omega
  · exact fun hne => ⟨Nat.le_refl _, fun h => absurd h hne⟩

/-- C56, a step of 0 lanes: with enough data for one block, neither fast loop ends. -/
theorem C56_fastLoop_step0 {E : Env} {n lop len : Nat}
    (hE : E.addr .rho8 % 32 = 0 ∧ E.addr .rho56 % 32 = 0) (hsA : sAddr % 32 = 0) (h : ss.length = 100)
    (hA : dAddr % 8 = 0) (hn : n ≤ 25) (hw : 8 * (3 * lop + n) < 2 ^ 32)
    (hlen : len ≤ data.length) (h64 : len < 2 ^ 64) (hT : 8 * (3 * lop + n) ≤ len) :
    KeccakF1600times4_FastLoop_Absorb E sAddr ss n lop 0 dAddr data len = .div ∧
      KeccakP1600times4_12rounds_FastLoop_Absorb E sAddr ss n lop 0 dAddr data len = .div :=
  ⟨fastLoop_div rounds24_pn (permute24_pn hE) hE hsA h hA hn hw hlen h64 hT,
    fastLoop_div rounds12_ret (fun _ hs => Permute12_ret hE hs) hE hsA h hA hn hw hlen h64 hT⟩

/-! ## SHAKE with this interface -/

/-- The padded message of SHAKE with rate `r` bits (FIPS 202, 5.1, 6.2). -/
def paddedMessage (r : Nat) (M : List U8) : List Bool :=
  let N := bytesToBits M ++ [true, true] ++ [true, true]
  N ++ pad101 r N.length

theorem padded_message (r : Nat) (M : List U8) : paddedMessage (8 * r) M = padded r M := by
  unfold paddedMessage padded
  simp [List.append_assoc]

/-- Initialise, absorb four padded messages of `b` blocks of `n` lanes each that lie one after the other,
extract `length` bytes of state `t`. -/
def shakeTimes4 (E : Env) (sAddr : Nat) (ss : List U64) (n b dAddr : Nat) (data : List U8) (t oAddr : Nat)
    (out : List U8) (length : Nat) : C (List U8) := do
  let s ← KeccakP1600times4_InitializeAll ss
  let r ← KeccakF1600times4_FastLoop_Absorb E sAddr s n (n * b) n dAddr data data.length
  KeccakP1600times4_ExtractBytes sAddr r.1 t oAddr out 0 length

theorem shakeTimes4_ret {E : Env} {n b : Nat} {M : Fin 4 → List U8} {oAddr length : Nat}
    {out : List U8} (hE : E.rhoAligned) (hsA : sAddr % 32 = 0) (h : ss.length = 100)
    (hA : dAddr % 8 = 0) (hoA : oAddr % 8 = 0) (hn0 : 0 < n) (hn : n ≤ 25) (hb : 0 < b)
    (hd : data.length = 4 * (8 * n * b)) (hw : data.length < 2 ^ 32)
    (hP : ∀ t : Fin 4, bytesToBits ((data.drop (8 * n * b * t)).take (8 * n * b)) =
      paddedMessage (8 * (8 * n)) (M t)) (t : Fin 4) (hl : length ≤ 8 * n) (ho : length ≤ out.length) :
    Ret (shakeTimes4 E sAddr ss n b dAddr data t oAddr out length) (fun o =>
      o.take length = (List.range length).map (xofByte (8 * n) (M t)) ∧
      o.drop length = out.drop length) := by
  unfold shakeTimes4
  have key := shake4_state (E := E) (sAddr := sAddr) (ss := ss) (n := n) (b := b) (dAddr := dAddr)
    (data := data) (M := M) hE hsA h hA hn0 hn hb hd hw fun t => by rw [hP, padded_message]
  refine Ret_assoc.1 (key.bind fun r hr => ?_)
  refine (ExtractBytes_ret (by omega) hr.1 t.isLt ho (by omega) (fun _ => by omega)).mono fun o hO => ?_
  have hlen : o.length = out.length := hO.1
  constructor
  · refine ext_nth (by simp; omega) fun p hp => ?_
    have hp : p < length := by simp at hp; omega
    rw [nth_take, if_pos hp, hO.2, if_pos hp, nth_range_map, if_pos hp]
    simp only [Nat.zero_add]
    rw [stByte_sq (by omega) (by omega) (hr.2.2 t)]
  · refine ext_nth (by simp; omega) fun p hp => ?_
    rw [nth_drop, nth_drop, hO.2, if_neg (by omega)]

/-- C56.  SHAKE128 of four messages: four padded messages of `b` blocks of 168 bytes, absorbed by
`KeccakF1600times4_FastLoop_Absorb` and extracted, give SHAKE128 of each message (FIPS 202). -/
theorem C56_shake128 {E : Env} {b : Nat} {M : Fin 4 → List U8} {oAddr length : Nat} {out : List U8}
    (hE : E.addr .rho8 % 32 = 0 ∧ E.addr .rho56 % 32 = 0) (hsA : sAddr % 32 = 0) (h : ss.length = 100)
    (hA : dAddr % 8 = 0) (hoA : oAddr % 8 = 0) (hb : 0 < b) (hd : data.length = 672 * b)
    (hw : data.length < 2 ^ 32)
    (hP : ∀ t : Fin 4, bytesToBits ((data.drop (168 * b * t)).take (168 * b)) =
      paddedMessage 1344 (M t)) (t : Fin 4) (hl : length ≤ 168) (ho : length ≤ out.length) :
    Ret (shakeTimes4 E sAddr ss 21 b dAddr data t oAddr out length) (fun o =>
      o.take length = SHAKE128 (M t) length ∧ o.drop length = out.drop length) :=
  (shakeTimes4_ret hE hsA h hA hoA (by omega) (by omega) hb (by omega) hw hP t hl ho).mono
    fun _ ho => ⟨by rw [ho.1, SHAKE128_eq], ho.2⟩

/-- C56.  SHAKE256 of four messages, with the general path of the loop (17 lanes). -/
theorem C56_shake256 {E : Env} {b : Nat} {M : Fin 4 → List U8} {oAddr length : Nat} {out : List U8}
    (hE : E.addr .rho8 % 32 = 0 ∧ E.addr .rho56 % 32 = 0) (hsA : sAddr % 32 = 0) (h : ss.length = 100)
    (hA : dAddr % 8 = 0) (hoA : oAddr % 8 = 0) (hb : 0 < b) (hd : data.length = 544 * b)
    (hw : data.length < 2 ^ 32)
    (hP : ∀ t : Fin 4, bytesToBits ((data.drop (136 * b * t)).take (136 * b)) =
      paddedMessage 1088 (M t)) (t : Fin 4) (hl : length ≤ 136) (ho : length ≤ out.length) :
    Ret (shakeTimes4 E sAddr ss 17 b dAddr data t oAddr out length) (fun o =>
      o.take length = SHAKE256 (M t) length ∧ o.drop length = out.drop length) :=
  (shakeTimes4_ret hE hsA h hA hoA (by omega) (by omega) hb (by omega) hw hP t hl ho).mono
    fun _ ho => ⟨by rw [ho.1, SHAKE256_eq], ho.2⟩

/-! ## Concrete cases -/

/-- Addresses for the examples: everything at a multiple of 64. -/
def snpEnv : Env := ⟨fun _ _ => 0xA5, fun _ => 64, .ok⟩

/-- Data for the examples. -/
def snpData (n : Nat) : List U8 := (List.range n).map fun i => BitVec.ofNat 8 (i * i + 5)

@[simp] theorem length_snpData (n : Nat) : (snpData n).length = n := by simp [snpData]

/-- States for the examples: word `i` is `i + 1`. -/
def snpStates : List U64 := (List.range 100).map fun i => BitVec.ofNat 64 (i + 1)

example : Ret (KeccakP1600times4_InitializeAll snpStates) (fun s' => s'.length = 100 ∧
    ∀ k, k < 4 → ∀ i, i < 200 → stByte s' k i = 0) := C56_initializeAll rfl

example : Ret (KeccakP1600times4_AddByte snpStates 2 0x80 135) (fun s' => s'.length = 100 ∧
    ∀ j, j < 4 → ∀ i, i < 200 → stByte s' j i =
      if j = 2 ∧ i = 135 then stByte snpStates j i ^^^ 0x80 else stByte snpStates j i) :=
  C56_addByte rfl (by omega) (by omega) _

/-- 20 bytes at offset 11: the end of one lane, a whole lane, the beginning of another. -/
example : Safe (KeccakP1600times4_AddBytes 32 snpStates 2 3 (snpData 20) 11 20) :=
  (C56_bytes_safe_iff rfl (by omega) (by simp) (by omega)).1.2 ⟨rfl, fun _ => rfl⟩

/-- The same with aligned data is undefined. -/
example : ¬ Safe (KeccakP1600times4_AddBytes 32 snpStates 2 8 (snpData 20) 11 20) := fun h =>
  absurd (((C56_bytes_safe_iff rfl (by omega) (by simp) (by omega)).1.1 h).2 ⟨2, by omega, by omega⟩)
    (by decide)

example : ¬ Safe (KeccakP1600times4_ExtractBytes 32 snpStates 0 1 (snpData 8) 0 8) := fun h =>
  absurd (((C56_bytes_safe_iff rfl (by omega) (by simp) (by omega)).2.2.1 h).2 ⟨0, by omega, by omega⟩)
    (by decide)

example : Ret (KeccakP1600times4_OverwriteBytes 32 snpStates 1 3 (snpData 20) 11 20)
    (fun s' => s'.length = 100 ∧ ∀ j, j < 4 → ∀ i, i < 200 → stByte s' j i =
      if j = 1 ∧ 11 ≤ i ∧ i < 11 + 20 then nth (snpData 20) (i - 11)
      else stByte snpStates j i) :=
  C56_overwriteBytes rfl (by omega) (by simp) (by omega) rfl fun _ => rfl

example : Ret (KeccakP1600times4_AddBytes 32 snpStates 1 3 (snpData 20) 11 20)
    (fun s' => s'.length = 100 ∧ ∀ j, j < 4 → ∀ i, i < 200 → stByte s' j i =
      if j = 1 ∧ 11 ≤ i ∧ i < 11 + 20 then stByte snpStates j i ^^^ nth (snpData 20) (i - 11)
      else stByte snpStates j i) :=
  C56_addBytes rfl (by omega) (by simp) (by omega) rfl fun _ => rfl

example : Ret (KeccakP1600times4_OverwriteWithZeroes 32 snpStates 3 13) (fun s' => s'.length = 100 ∧
    ∀ j, j < 4 → ∀ i, i < 200 → stByte s' j i = if j = 3 ∧ i < 13 then 0 else stByte snpStates j i) :=
  C56_overwriteWithZeroes rfl (by omega) (by omega) rfl

example : Ret (KeccakP1600times4_ExtractBytes 32 snpStates 1 3 (snpData 30) 11 20) (fun d' =>
    d'.length = (snpData 30).length ∧ ∀ p, nth d' p = if p < 20 then stByte snpStates 1 (11 + p)
      else nth (snpData 30) p) :=
  C56_extractBytes rfl (by omega) (by simp) (by omega) rfl fun _ => rfl

example : Safe (KeccakP1600times4_ExtractAndAddBytes 32 snpStates 1 3 (snpData 20) 11
    (snpData 20) 11 20) :=
  (C56_extractAndAddBytes_safe_iff rfl (by omega) (by simp) (by simp) (by omega)).2
    ⟨rfl, fun _ => ⟨rfl, rfl⟩⟩

example : Safe (KeccakP1600times4_AddLanesAll 32 snpStates 8 (snpData 704) 21 22) :=
  (C56_lanes_safe_iff rfl (by omega) (by omega) (by omega) (by simp)).1.2 ⟨rfl, rfl⟩

example : ¬ Safe (KeccakP1600times4_ExtractLanesAll 32 snpStates 4 (snpData 704) 21 22) :=
  fun h => absurd ((C56_lanes_safe_iff rfl (by omega) (by omega) (by omega) (by simp)).2.2.1 h).2
    (by decide)

example : Ret (KeccakP1600times4_AddLanesAll 32 snpStates 8 (snpData 704) 21 22) (fun s' =>
    s'.length = 100 ∧ ∀ k, k < 4 → ∀ i, i < 200 → stByte s' k i =
      if i < 8 * 21 then stByte snpStates k i ^^^ nth (snpData 704) (8 * 22 * k + i)
      else stByte snpStates k i) :=
  C56_addLanesAll rfl (by omega) (by omega) (by simp) rfl rfl

example : Safe (KeccakP1600times4_ExtractAndAddLanesAll 32 snpStates 8 (snpData 704) 16
    (snpData 704) 17 22) :=
  (C56_extractAndAddLanesAll_safe_iff rfl (by omega) (by omega) (by omega) (by simp) (by simp)).2
    ⟨rfl, rfl, rfl⟩

example : Ret (KeccakP1600times4_PermuteAll_12rounds snpEnv snpStates) (fun s' => s'.length = 100 ∧
    ∀ t : Fin 4, bytesToBits (instBytes s' t) =
      keccakPbits 12 (bytesToBits (instBytes snpStates t))) :=
  C56_permute12 ⟨rfl, rfl⟩ rfl

/-- Two blocks of 21 lanes per state, one state after the other. -/
example : Ret (KeccakF1600times4_FastLoop_Absorb snpEnv 32 snpStates 21 42 21 8
    (snpData 1344) 1344)
    (FastLoopDoes 24 snpStates 21 42 21 (snpData 1344) 1344) :=
  C56_fastLoop24 ⟨rfl, rfl⟩ rfl rfl rfl (by omega) (by omega) (by omega) (by omega) (by simp)
    (by omega) (by decide) (fun _ => by rw [length_snpData]; decide)

/-- Three blocks of 16 lanes per state, interleaved, and some bytes that are left. -/
example : Ret (KeccakP1600times4_12rounds_FastLoop_Absorb snpEnv 32 snpStates 16 16 64 8
    (snpData 1540) 1540)
    (FastLoopDoes 12 snpStates 16 16 64 (snpData 1540) 1540) :=
  C56_fastLoop12 ⟨rfl, rfl⟩ rfl rfl rfl (by omega) (by omega) (by omega) (by omega) (by simp)
    (by omega) (by decide) (fun h => absurd h (by omega))

example : fastBlocks (8 * (3 * 16 + 16)) (8 * 64) 1540 = 3 := by decide

example : ¬ Safe (KeccakF1600times4_FastLoop_Absorb snpEnv 32 snpStates 21 21 (4 * 21) 8
    (snpData 1344) (snpData 1344).length) := fun h =>
  (C56_interleaved (b := 2) ⟨rfl, rfl⟩ rfl rfl rfl (by omega) (by omega) (by omega) (by simp)
    (by simp)).1 h rfl

example : Safe (KeccakF1600times4_FastLoop_Absorb snpEnv 32 snpStates 17 17 (4 * 17) 8
    (snpData 1088) (snpData 1088).length) :=
  (C56_interleaved (b := 2) ⟨rfl, rfl⟩ rfl rfl rfl (by omega) (by omega) (by omega) (by simp)
    (by simp)).2 (by omega)

/-- A step longer than the data: the last step leaves the data. -/
example : ¬ Safe (KeccakP1600times4_12rounds_FastLoop_Absorb snpEnv 32 snpStates 17 17 69 8
    (snpData 544) (snpData 544).length) := fun h =>
  absurd ((C56_fastLoop12_safe_iff ⟨rfl, rfl⟩ rfl rfl rfl (by omega) (by omega) (by omega) (by omega)
    (by simp) (N := 1) (by rw [length_snpData]; decide)).1 h).1
    (by rw [length_snpData]; decide)

example : KeccakF1600times4_FastLoop_Absorb snpEnv 32 snpStates 17 17 0 8 (snpData 544) 544 =
    .div :=
  (C56_fastLoop_step0 ⟨rfl, rfl⟩ rfl rfl rfl (by omega) (by omega) (by simp) (by omega) (by omega)).1

/-- Four padded messages of one byte each, for SHAKE128. -/
def snpMessages : List U8 :=
  (List.range 4).flatMap fun i => BitVec.ofNat 8 i :: 0x1F :: List.replicate 165 0 ++ [0x80]

example (t : Fin 4) : Ret (shakeTimes4 snpEnv 32 snpStates 21 1 8 snpMessages t 8
    (snpData 100) 100) (fun o => o.take 100 = SHAKE128 [BitVec.ofNat 8 t] 100 ∧
      o.drop 100 = (snpData 100).drop 100) :=
  C56_shake128 (M := fun t => [BitVec.ofNat 8 t]) ⟨rfl, rfl⟩ rfl rfl rfl rfl (by omega)
    (by decide +kernel) (by decide +kernel) (by decide +kernel) t (by omega) (by simp)

/-- Four padded messages of one byte each, for SHAKE256. -/
def snpMessages256 : List U8 :=
  (List.range 4).flatMap fun i => BitVec.ofNat 8 i :: 0x1F :: List.replicate 133 0 ++ [0x80]

example (t : Fin 4) : Ret (shakeTimes4 snpEnv 32 snpStates 17 1 8 snpMessages256 t 8
    (snpData 100) 100) (fun o => o.take 100 = SHAKE256 [BitVec.ofNat 8 t] 100 ∧
      o.drop 100 = (snpData 100).drop 100) :=
  C56_shake256 (M := fun t => [BitVec.ofNat 8 t]) ⟨rfl, rfl⟩ rfl rfl rfl rfl (by omega)
    (by decide +kernel) (by decide +kernel) (by decide +kernel) t (by omega) (by simp)

end Frodo.Props
