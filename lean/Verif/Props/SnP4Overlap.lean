import Verif.Proof.SnP4Overlap
import Verif.Props.SnP4

/-! # C56: the interface of four parallel Keccak states, input and output in one buffer

`KeccakP1600times4_ExtractAndAddBytes` is what a stream cipher needs, and a stream cipher works in place. -/

namespace Frodo.Props

open Spec

variable {sAddr mAddr : Nat} {ss : List U64} {mem : List U8}

/-- The output is the input added to the state, as the input was before the call. -/
def AddsState (ss : List U64) (k offset length ip op : Nat) (mem mem' : List U8) : Prop :=
  ∀ p, p < length → nth mem' (op + p) = nth mem (ip + p) ^^^ stByte ss k (offset + p)

/-- C56.  Input and output at any positions of one buffer: only the output is written; if it does not begin
after the input, it is the input added to the state; otherwise the input is the one found after the
call, that is, partly output. -/
theorem C56_overlap (h : ss.length = 100) {k ip op offset length : Nat} (hk : k < 4)
    (hi : ip + length ≤ mem.length) (hd : op + length ≤ mem.length) (ho : offset + length ≤ 200)
    (hsA : sAddr % 8 = 0)
    (hA : WholeLane offset length → (mAddr + ip) % 8 = offset % 8 ∧ (mAddr + op) % 8 = offset % 8) :
    Ret (KeccakP1600times4_ExtractAndAddBytes_mem sAddr ss k mAddr mem ip op offset length)
      (fun m => m.length = mem.length ∧ (∀ q, ¬ (op ≤ q ∧ q < op + length) → nth m q = nth mem q) ∧
        AddsState ss k offset length ip op (if ip < op then m else mem) m) := by
  refine (ExtractAndAddBytes_mem_ret hsA h hk hi hd ho fun hw => hA (whole_iff.1 hw)).mono fun m hm =>
    ⟨hm.1, fun q hq => by rw [hm.2, if_neg hq], fun p hp => ?_⟩
  rw [hm.2, if_pos (by omega), Nat.add_sub_cancel_left, chain]
  by_cases c : ip < op
  · rw [if_pos c]
    by_cases c2 : op ≤ ip + p
    · rw [dif_pos ⟨c, c2⟩, hm.2, if_pos (by omega)]
      congr 2; omega
    · rw [dif_neg (by omega), hm.2, if_neg (by omega)]
  · rw [if_neg c, dif_neg (by omega)]

/-- C56, addresses: the same ones as for separate buffers. -/
theorem C56_overlap_safe_iff (h : ss.length = 100) {k ip op offset length : Nat} (hk : k < 4)
    (hi : ip + length ≤ mem.length) (hd : op + length ≤ mem.length) (ho : offset + length ≤ 200) :
    Safe (KeccakP1600times4_ExtractAndAddBytes_mem sAddr ss k mAddr mem ip op offset length) ↔
      sAddr % 8 = 0 ∧ (WholeLane offset length →
        (mAddr + ip) % 8 = offset % 8 ∧ (mAddr + op) % 8 = offset % 8) :=
  ⟨fun hs => by rw [← whole_iff]; exact hs.needs Needs.ExtractAndAddBytes_mem,
    fun ha => Safe.of_ret (C56_overlap h hk hi hd ho ha.1 ha.2)⟩

/-- C56.  The output is right for every content of the buffer if and only if it does not begin inside the
input after its first byte.  In particular the function works in place, `ip = op`. -/
theorem C56_overlap_right_iff (h : ss.length = 100) {k ip op offset length M : Nat} (hk : k < 4)
    (hi : ip + length ≤ M) (hd : op + length ≤ M) (ho : offset + length ≤ 200) (hsA : sAddr % 8 = 0)
    (hA : WholeLane offset length → (mAddr + ip) % 8 = offset % 8 ∧ (mAddr + op) % 8 = offset % 8) :
    (∀ mem : List U8, mem.length = M →
      Ret (KeccakP1600times4_ExtractAndAddBytes_mem sAddr ss k mAddr mem ip op offset length)
        (AddsState ss k offset length ip op mem)) ↔ op ≤ ip ∨ ip + length ≤ op := by
  constructor
  · intro hr
    by_contra hc
    have c1 : ip < op := by omega
    have c2 : op < ip + length := by omega
    let mem : List U8 := (List.replicate M 0).set op (stByte ss k offset ^^^ 1)
    have hl : mem.length = M := by simp [mem]
    obtain ⟨m, -, -, hm1, hm2⟩ := (hr mem hl).and
      (C56_overlap (mAddr := mAddr) h hk (by omega) (by omega) ho hsA hA)
    obtain ⟨-, hm3, hm4⟩ := hm2
    rw [if_pos c1] at hm4
    have e0 := hm4 0 (by omega)
    have e1 := hm4 (op - ip) (by omega)
    have e2 := hm1 (op - ip) (by omega)
    rw [show ip + (op - ip) = op by omega] at e1 e2
    rw [Nat.add_zero, Nat.add_zero, Nat.add_zero] at e0
    have z1 : nth mem ip = 0 := by
      simp only [mem, nth_set]
      rw [if_neg (by omega)]
      rw [nth_replicate, if_pos (by omega)]
    have z2 : nth mem op = stByte ss k offset ^^^ 1 := by
      simp only [mem, nth_set]
      rw [if_pos ⟨trivial, by simp; omega⟩]
    rw [hm3 ip (by omega), z1] at e0
    rw [e1, e0, z2] at e2
    have e3 := congrArg (· ^^^ stByte ss k (offset + (op - ip))) e2
    simp only [BitVec.xor_assoc, BitVec.xor_self, BitVec.xor_zero] at e3
    revert e3
    generalize stByte ss k offset = b
    revert b
    decide
  · intro hc mem hl
    refine (C56_overlap (mAddr := mAddr) h hk (by omega) (by omega) ho hsA hA).mono fun m hm p hp => ?_
    have := hm.2.2 p hp
    by_cases c : ip < op
    · rw [if_pos c] at this
      rw [this, hm.2.1 (ip + p) (by omega)]
    · rwa [if_neg c] at this

/-- C56.  `KeccakP1600times4_ExtractAndAddLanesAll` in place adds `n` lanes of each state to the data, and
changes nothing else. -/
theorem C56_extractAndAddLanesAll_inPlace (h : ss.length = 100) {dAddr n L : Nat} {data : List U8}
    (hn : n ≤ 25) (hnL : n ≤ L) (hL : 24 * L < 2 ^ 32) (hd : 8 * (3 * L + n) ≤ data.length)
    (hsA : sAddr % 32 = 0) (hA : dAddr % 8 = 0) :
    Ret (KeccakP1600times4_ExtractAndAddLanesAll_inPlace sAddr ss dAddr data n L) (fun o' =>
      o'.length = data.length ∧
      (∀ k, k < 4 → ∀ i, i < 8 * n →
        nth o' (8 * L * k + i) = nth data (8 * L * k + i) ^^^ stByte ss k i) ∧
      ∀ p, (∀ k, k < 4 → ¬ (8 * L * k ≤ p ∧ p < 8 * L * k + 8 * n)) → nth o' p = nth data p) :=
  (ExtractAndAddLanesAll_inPlace_ret hsA h hA hn hnL hL hd).mono fun _ hs =>
    ⟨hs.1, fun _ hk _ hi => hs.at hnL hk hi, fun _ hp => hs.other hp⟩

/-! ## Examples -/

/-- 20 bytes from byte 3 of state 1, in place, at an address that fits. -/
example (mem : List U8) (hm : mem.length = 64) (h : ss.length = 100) :
    Ret (KeccakP1600times4_ExtractAndAddBytes_mem 64 ss 1 1024 mem 19 19 3 20)
      (AddsState ss 1 3 20 19 19 mem) :=
  (C56_overlap_right_iff (mAddr := 1024) (M := 64) h (by decide) (by decide) (by decide) (by decide) (by decide)
    fun _ => ⟨by decide, by decide⟩).2 (Or.inl (by decide)) mem hm

/-- The same with the output one word after the input is wrong for some content. -/
example (h : ss.length = 100) : ¬ ∀ mem : List U8, mem.length = 64 →
    Ret (KeccakP1600times4_ExtractAndAddBytes_mem 64 ss 1 1024 mem 19 27 3 20) (AddsState ss 1 3 20 19 27 mem) := by
  rw [C56_overlap_right_iff (mAddr := 1024) (M := 64) h (by decide) (by decide) (by decide) (by decide) (by decide)
    fun _ => ⟨by decide, by decide⟩]
  decide

example (data : List U8) (hd : data.length = 800) (h : ss.length = 100) :
    Ret (KeccakP1600times4_ExtractAndAddLanesAll_inPlace 64 ss 128 data 21 25)
      (fun o' => nth o' 200 = nth data 200 ^^^ stByte ss 1 0) :=
  (C56_extractAndAddLanesAll_inPlace h (by decide) (by decide) (by decide) (by omega) (by decide)
    (by decide)).mono fun _ hs => hs.2.1 1 (by decide) 0 (by decide)

end Frodo.Props
