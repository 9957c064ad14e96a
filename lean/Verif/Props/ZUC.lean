import Verif.Proof.ZUCMac
import Verif.Props.Hash

/-! Properties C38, C39, C40: ZUC, 128-EEA3 and 128-EIA3 -/

namespace Verif.Props
open Verif.Model

/-! ## C39: the ZUC generator -/

/-- C39: for register contents in `0 … 2^31 - 1`, the addition of the LFSR is addition modulo `2^31 - 1`, with a result in the same range
which is `0` only for `0 + 0`. For all 32 bit inputs the last addition does not overflow, so debug builds do not panic. -/
theorem C39_add (a b : BitVec 32) :
    ((a + b) &&& 0x7fffffff#32).toNat + ((a + b) >>> 31).toNat < 2 ^ 32 ∧
    (a.toNat ≤ 2 ^ 31 - 1 → b.toNat ≤ 2 ^ 31 - 1 →
      (ZUC.addMod31 a b).toNat % (2 ^ 31 - 1) = (a.toNat + b.toNat) % (2 ^ 31 - 1) ∧ (ZUC.addMod31 a b).toNat ≤ 2 ^ 31 - 1 ∧
      ((ZUC.addMod31 a b).toNat = 0 ↔ a.toNat = 0 ∧ b.toNat = 0)) := by
  refine ⟨ZUC.addMod31_sum _, fun ha hb => ?_⟩
  obtain ⟨h1, h2, h3⟩ := ZUC.addMod31_spec (a := a) (b := b) ha hb
  exact ⟨h2, h1, h3⟩

example : ZUC.addMod31 0x7fffffff#32 0x7ffffffe#32 = 0x7ffffffe#32 := by decide

/-- `n` calls of `zuc()`: the words returned and the object afterwards. -/
def zucWords : Nat → ZUC.State → List (BitVec 32) × ZUC.State
  | 0, s => ([], s)
  | n + 1, s => let (w, s) := ZUC.zuc s; let (ws, s) := zucWords n s; (w :: ws, s)

theorem zucWords_R {key iv : Bytes} : ∀ (n k : Nat) (s : ZUC.State), ZUC.R s (Spec.ZUC.stateAt key iv k) →
    (zucWords n s).1 = (List.range n).map (fun i => Spec.ZUC.word key iv (k + i)) ∧ ZUC.R (zucWords n s).2 (Spec.ZUC.stateAt key iv (k + n))
  | 0, k, s, h => ⟨rfl, h⟩
  | n + 1, k, s, h => by
    obtain ⟨h1, h2⟩ := h.next
    obtain ⟨h3, h4⟩ := zucWords_R n (k + 1) _ h2
    refine ⟨?_, ?_⟩
    · simp only [zucWords]
      have : ∀ i ∈ List.range n, Spec.ZUC.word key iv (k + 1 + i) = ((fun i => Spec.ZUC.word key iv (k + i)) ∘ Nat.succ) i := by
        intro i _
        rw [Function.comp, show k + 1 + i = k + i.succ by omega]
      rw [h1, h3, List.range_succ_eq_map, List.map_cons, List.map_map, List.map_congr_left this, Nat.add_zero]
    · rw [show k + (n + 1) = k + 1 + n by omega]; exact h4

/-- C39: keys and initial vectors of 16 bytes are accepted, all other lengths are refused. After construction, or after `set_slice` at any
time, `n` calls return the first `n` words of the ZUC keystream of GM/T 0001, and every register cell is in `1 … 2^31 - 1`. -/
theorem C39_keystream (key iv : Bytes) :
    (key.length ≠ 16 ∨ iv.length ≠ 16 → ZUC.fromSlice key iv = .error (.err .invalidParameter)) ∧
    (key.length = 16 → iv.length = 16 → ∃ s, ZUC.fromSlice key iv = .ok s ∧ ∀ n,
      (zucWords n s).1 = (List.range n).map (Spec.ZUC.word key iv) ∧
      (∀ i < 16, 1 ≤ (ZUC.cell (zucWords n s).2.lfsr i).toNat ∧ (ZUC.cell (zucWords n s).2.lfsr i).toNat ≤ 2 ^ 31 - 1) ∧
      ∀ key' iv' : Bytes, key'.length = 16 → iv'.length = 16 → ∃ s', ZUC.setSlice (zucWords n s).2 key' iv' = .ok s' ∧
        ∀ k, (zucWords k s').1 = (List.range k).map (Spec.ZUC.word key' iv')) := by
  refine ⟨fun h => by rw [ZUC.fromSlice, if_pos h], fun hk hv => ?_⟩
  obtain ⟨s, e, h⟩ := ZUC.fromSlice_R hk hv
  refine ⟨s, e, fun n => ?_⟩
  obtain ⟨h1, h2⟩ := zucWords_R n 0 s h
  refine ⟨by simpa using h1, fun i hi => h2.rng i hi, fun key' iv' hk' hv' => ?_⟩
  obtain ⟨s', e', h'⟩ := ZUC.setSlice_R h2.len hk' hv'
  exact ⟨s', e', fun k => by simpa using (zucWords_R k 0 s' h').1⟩

/-- The first test vector of the standard. -/
def zeroWords : List (BitVec 32) :=
  match ZUC.fromSlice (List.replicate 16 0#8) (List.replicate 16 0#8) with
  | .ok s => (zucWords 2 s).1
  | .error _ => []

example : zeroWords = [0x27bede74#32, 0x018082da#32] := by decide +kernel

/-- C39: the two S-boxes are permutations. -/
theorem C39_sbox (x y : Byte) : (lookup ZUC.s0 x = lookup ZUC.s0 y → x = y) ∧ (lookup ZUC.s1 x = lookup ZUC.s1 y → x = y) := by
  have inj : ∀ (T : List Byte), T.length = 256 → T.Nodup → lookup T x = lookup T y → x = y := by
    intro T hl hd h
    unfold lookup at h
    have hx : x.toNat < T.length := by rw [hl]; exact x.isLt
    have hy : y.toNat < T.length := by rw [hl]; exact y.isLt
    rw [List.getD_eq_getElem _ _ hx, List.getD_eq_getElem _ _ hy] at h
    exact BitVec.eq_of_toNat_eq ((List.getElem_inj hd).mp h)
  exact ⟨inj _ (by decide +kernel) (by decide +kernel), inj _ (by decide +kernel) (by decide +kernel)⟩

/-! ## C38: the stream cipher -/

/-- Run a history of calls on a cipher object: output and reported length of each `encrypt`/`decrypt` call. -/
def runCipher : ZUCCipher.State → List Spec.ZUC.Call → Res (List (Bytes × Nat))
  | _, [] => .ok []
  | s, .encrypt m :: rest =>
    match ZUCCipher.encrypt s m with
    | .ok (out, n, s) => (runCipher s rest).map ((out, n) :: ·)
    | .error e => .error e
  | s, .decrypt m :: rest =>
    match ZUCCipher.decrypt s m with
    | .ok (out, n, s) => (runCipher s rest).map ((out, n) :: ·)
    | .error e => .error e
  | s, .reset :: rest =>
    match ZUCCipher.reset s with
    | .ok s => runCipher s rest
    | .error e => .error e

/-- The lengths the code reports: `0` if the call is served from the unused bytes of the last keystream word. -/
def counts : Nat → List Spec.ZUC.Call → List Nat
  | _, [] => []
  | pos, .encrypt m :: rest => (if m.length ≤ (4 - pos % 4) % 4 then 0 else m.length) :: counts (pos + m.length) rest
  | pos, .decrypt m :: rest => (if m.length ≤ (4 - pos % 4) % 4 then 0 else m.length) :: counts (pos + m.length) rest
  | _, .reset :: rest => counts 0 rest

theorem runCipher_at {key iv : Bytes} (hk : key.length = 16) (hv : iv.length = 16) : ∀ (calls : List Spec.ZUC.Call) (pos : Nat)
    (s : ZUCCipher.State), ZUCCipher.At s key iv pos →
    runCipher s calls = .ok ((Spec.ZUC.outputs key iv pos calls).zip (counts pos calls)) ∧
      (Spec.ZUC.outputs key iv pos calls).length = (counts pos calls).length := by
  have e : ∀ pos, 4 * ((pos + 3) / 4) - pos = (4 - pos % 4) % 4 := by intro pos; omega
  intro calls
  induction calls with
  | nil => intro pos s _; exact ⟨rfl, rfl⟩
  | cons c rest ih =>
    intro pos s h
    cases c with
    | encrypt m =>
      obtain ⟨s', e1, h1⟩ := ZUCCipher.encrypt_at h m
      obtain ⟨h2, h3⟩ := ih _ s' h1
      simp only [runCipher, e1, h2, Except.map, Spec.ZUC.outputs, counts, List.zip_cons_cons, List.length_cons, h3, e]
      exact ⟨trivial, trivial⟩
    | decrypt m =>
      obtain ⟨s', e1, h1⟩ := ZUCCipher.encrypt_at h m
      obtain ⟨h2, h3⟩ := ih _ s' h1
      simp only [runCipher, ZUCCipher.decrypt, e1, h2, Except.map, Spec.ZUC.outputs, counts, List.zip_cons_cons, List.length_cons, h3, e]
      exact ⟨trivial, trivial⟩
    | reset =>
      obtain ⟨s', e1, h1⟩ := ZUCCipher.reset_at h hk hv
      obtain ⟨h2, h3⟩ := ih _ s' h1
      simp only [runCipher, e1, h2, Spec.ZUC.outputs, counts, h3]
      exact ⟨trivial, trivial⟩

theorem length_eea3Iv (count : BitVec 32) (bearer : BitVec 5) (direction : BitVec 1) : (Spec.ZUC.eea3Iv count bearer direction).length = 16 := by
  simp [Spec.ZUC.eea3Iv, be32]

/-- C38: for every history of `encrypt`, `decrypt` and `reset` calls no call fails and the outputs are those of 128-EEA3: each call
continues the keystream where the previous one stopped, `reset` goes back to its start. -/
theorem C38_outputs (count : BitVec 32) (bearer : Byte) (direction : Bool) (ck : Bytes) (hk : ck.length = 16) (calls : List Spec.ZUC.Call) :
    ∃ s r, ZUCCipher.fromSlice count bearer direction ck = .ok s ∧ runCipher s calls = .ok r ∧
      r.map Prod.fst = Spec.ZUC.outputs ck (Spec.ZUC.eea3Iv count (bearer.setWidth 5) (BitVec.ofBool direction)) 0 calls := by
  obtain ⟨s, e, h⟩ := ZUCCipher.fromSlice_at count bearer direction hk
  obtain ⟨h1, h2⟩ := runCipher_at hk (length_eea3Iv _ _ _) calls 0 s h
  exact ⟨s, _, e, h1, List.map_fst_zip (by omega)⟩

/-- Test vector 1 of 128-EEA3 (first two words), in two chunks. -/
def eeaTest : Res (List (Bytes × Nat)) :=
  match ZUCCipher.fromSlice 0x66035492#32 0xf#8 false
      [0x17, 0x3d, 0x14, 0xba, 0x50, 0x03, 0x73, 0x1d, 0x7a, 0x60, 0x04, 0x94, 0x70, 0xf0, 0x0a, 0x29] with
  | .ok s => runCipher s [.encrypt [0x6c, 0xf6, 0x53, 0x40, 0x73], .reset, .decrypt [0xa6], .encrypt [0xc8]]
  | .error e => .error e

example : eeaTest = .ok [([0xa6, 0xc8, 0x5f, 0xc6, 0x6a], 5), ([0x6c], 1), ([0xf6], 0)] := by decide +kernel

/-- C38: any other key length is refused. -/
theorem C38_key_length (count : BitVec 32) (bearer : Byte) (direction : Bool) (ck : Bytes) (hk : ck.length ≠ 16) :
    ZUCCipher.fromSlice count bearer direction ck = .error (.err .invalidParameter) ∧
      ZUCMac.fromSlice count bearer direction ck = .error (.err .invalidParameter) := by
  rw [ZUCCipher.fromSlice, if_pos hk, ZUCMac.fromSlice, if_pos hk]; exact ⟨rfl, rfl⟩

example : ([1, 2, 3] : Bytes).length ≠ 16 := by decide

/-- Concatenated outputs of a run. -/
def joined (r : Res (List (Bytes × Nat))) : Option Bytes :=
  match r with
  | .ok r => some (r.map Prod.fst).flatten
  | .error _ => none

theorem xorFrom_append (key iv : Bytes) (pos : Nat) (a b : Bytes) :
    Spec.ZUC.xorFrom key iv pos (a ++ b) = Spec.ZUC.xorFrom key iv pos a ++ Spec.ZUC.xorFrom key iv (pos + a.length) b := by
  rw [ZUCCipher.xorFrom_eq, ZUCCipher.xorFrom_eq, ZUCCipher.xorFrom_eq, List.length_append, ZUCCipher.ks_add, ZUCCipher.xorBytes_append (by simp)]

theorem outputs_encrypt (key iv : Bytes) : ∀ (ms : List Bytes) (pos : Nat),
    (Spec.ZUC.outputs key iv pos (ms.map .encrypt)).flatten = Spec.ZUC.xorFrom key iv pos ms.flatten
  | [], pos => by simp [Spec.ZUC.outputs, Spec.ZUC.xorFrom]
  | m :: ms, pos => by
    rw [List.map_cons, Spec.ZUC.outputs, List.flatten_cons, outputs_encrypt key iv ms, List.flatten_cons, xorFrom_append]

theorem outputs_decrypt (key iv : Bytes) : ∀ (ms : List Bytes) (pos : Nat),
    (Spec.ZUC.outputs key iv pos (ms.map .decrypt)).flatten = Spec.ZUC.xorFrom key iv pos ms.flatten
  | [], pos => by simp [Spec.ZUC.outputs, Spec.ZUC.xorFrom]
  | m :: ms, pos => by
    rw [List.map_cons, Spec.ZUC.outputs, List.flatten_cons, outputs_decrypt key iv ms, List.flatten_cons, xorFrom_append]

theorem length_xorFrom (key iv : Bytes) (pos : Nat) (m : Bytes) : (Spec.ZUC.xorFrom key iv pos m).length = m.length := by
  simp [Spec.ZUC.xorFrom]

theorem getElem_xorFrom (key iv : Bytes) (pos : Nat) (m : Bytes) (i : Nat) (h : i < m.length) :
    (Spec.ZUC.xorFrom key iv pos m)[i]'(by rw [length_xorFrom]; exact h) = m[i] ^^^ Spec.ZUC.byte key iv (pos + i) := by
  simp only [Spec.ZUC.xorFrom, List.getElem_map, List.getElem_range, List.getD_eq_getElem _ _ h]

theorem xorFrom_invol (key iv : Bytes) (pos : Nat) (m : Bytes) : Spec.ZUC.xorFrom key iv pos (Spec.ZUC.xorFrom key iv pos m) = m := by
  apply List.ext_getElem
  · simp [length_xorFrom]
  · intro i h1 h2
    rw [getElem_xorFrom _ _ _ _ _ (by rw [length_xorFrom]; exact h2), getElem_xorFrom _ _ _ _ _ h2, BitVec.xor_assoc, BitVec.xor_self, BitVec.xor_zero]

/-- C38: encrypt a message in any chunks, decrypt the ciphertext in any other chunks with an object constructed the same way: the message
comes back, and the ciphertext has its length. -/
theorem C38_roundtrip (count : BitVec 32) (bearer : Byte) (direction : Bool) (ck : Bytes) (hk : ck.length = 16) (ms cs : List Bytes) :
    ∃ s c, ZUCCipher.fromSlice count bearer direction ck = .ok s ∧ joined (runCipher s (ms.map .encrypt)) = some c ∧
      c.length = ms.flatten.length ∧ (cs.flatten = c → joined (runCipher s (cs.map .decrypt)) = some ms.flatten) := by
  obtain ⟨s, r, e, h1, h2⟩ := C38_outputs count bearer direction ck hk (ms.map .encrypt)
  obtain ⟨s', r', e', h1', h2'⟩ := C38_outputs count bearer direction ck hk (cs.map .decrypt)
  obtain rfl : s = s' := by rw [e] at e'; exact Except.ok.inj e'
  refine ⟨s, _, e, by rw [h1, joined, h2, outputs_encrypt], length_xorFrom _ _ _ _, fun hc => ?_⟩
  rw [h1', joined, h2', outputs_decrypt, hc, xorFrom_invol]

/-- Non-vacuity of the condition on `cs`. -/
example : ∃ ms cs : List Bytes, ms.flatten ≠ [] ∧ cs.flatten = Spec.ZUC.xorFrom [] [] 0 ms.flatten :=
  ⟨[[1], [2, 3]], [Spec.ZUC.xorFrom [] [] 0 [1, 2, 3]], by decide, by simp⟩

/-- C38, the part about the returned length is false: the second of these two calls writes one byte to `dst` and returns `Ok(0)`. -/
theorem C38_count_refuted : ¬ ∀ (count : BitVec 32) (bearer : Byte) (direction : Bool) (ck : Bytes) (s : ZUCCipher.State) (calls : List Spec.ZUC.Call)
    (r : List (Bytes × Nat)), ZUCCipher.fromSlice count bearer direction ck = .ok s → runCipher s calls = .ok r → ∀ x ∈ r, x.2 = x.1.length := by
  intro h
  obtain ⟨s, e, hs⟩ := ZUCCipher.fromSlice_at 0#32 0#8 false (ck := List.replicate 16 0#8) (by simp)
  obtain ⟨h1, _⟩ := runCipher_at (by simp) (length_eea3Iv _ _ _) [.encrypt [1#8], .encrypt [2#8]] 0 s hs
  have := h _ _ _ _ s _ _ e h1 (_, 0) (List.mem_cons_of_mem _ (List.mem_cons_self ..))
  simp [length_xorFrom] at this

/-- C38, what is returned: the length of the output, except `0` when the whole input was covered by unused bytes of the last keystream
word. After `pos` bytes there are `(4 - pos mod 4) mod 4` of them. -/
theorem C38_count_partial (count : BitVec 32) (bearer : Byte) (direction : Bool) (ck : Bytes) (hk : ck.length = 16) (calls : List Spec.ZUC.Call) :
    ∃ s r, ZUCCipher.fromSlice count bearer direction ck = .ok s ∧ runCipher s calls = .ok r ∧ r.map Prod.snd = counts 0 calls := by
  obtain ⟨s, e, h⟩ := ZUCCipher.fromSlice_at count bearer direction hk
  obtain ⟨h1, h2⟩ := runCipher_at hk (length_eea3Iv _ _ _) calls 0 s h
  exact ⟨s, _, e, h1, List.map_snd_zip (by omega)⟩

example : counts 0 [.encrypt [1, 2, 3, 4, 5], .decrypt [6], .encrypt [7, 8, 9]] = [5, 0, 3] := by decide

/-! ## C40: the MAC -/

/-- The specification's `z_i` is made of the 32 keystream bits `i, …, i + 31`. -/
theorem C40_spec_z (key iv : Bytes) (i j : Nat) (hj : j < 32) : (Spec.ZUC.z key iv i).getMsbD j = Spec.ZUC.bit key iv (i + j) := by
  unfold Spec.ZUC.z Spec.ZUC.bit
  have hr : i % 32 < 32 := Nat.mod_lt _ (by omega)
  rw [BitVec.getMsbD_eq_getLsbD, BitVec.getLsbD_extractLsb', BitVec.getLsbD_append]
  have e1 : decide (j < 32) = true := by simpa using hj
  have e2 : decide (32 - 1 - j < 32) = true := by simp; omega
  rw [e1, e2, Bool.true_and, Bool.true_and]
  by_cases h : i % 32 + j < 32
  · have e3 : (i + j) / 32 = i / 32 := by omega
    have e4 : (i + j) % 32 = i % 32 + j := by omega
    have e5 : ¬ (32 - i % 32 + (32 - 1 - j) < 32) := by omega
    rw [e3, e4, if_neg (by simpa using e5), BitVec.getMsbD_eq_getLsbD, decide_eq_true h, Bool.true_and]
    congr 1; omega
  · have e3 : (i + j) / 32 = i / 32 + 1 := by omega
    have e4 : (i + j) % 32 = i % 32 + j - 32 := by omega
    have e5 : 32 - i % 32 + (32 - 1 - j) < 32 := by omega
    have e6 : i % 32 + j - 32 < 32 := by omega
    rw [e3, e4, if_pos (by simpa using e5), BitVec.getMsbD_eq_getLsbD, decide_eq_true e6, Bool.true_and]
    congr 1; omega

example : (31 : Nat) < 32 := by decide

theorem runMac_alive {key iv : Bytes} (hk : key.length = 16) (hv : iv.length = 16) : ∀ (ops : List DOp) (s : ZUCMac.State), ZUCMac.Alive s key iv →
    ∃ s' xs, runDigest ZUCMac.digest s ops = .ok (s', xs) ∧ ZUCMac.Alive s' key iv
  | [], s, h => ⟨s, [], rfl, h⟩
  | .write x :: rest, s, h => by
    obtain ⟨s1, e1, h1⟩ := ZUCMac.write_alive h x
    obtain ⟨s2, xs, e2, h2⟩ := runMac_alive hk hv rest s1 h1
    refine ⟨s2, xs, ?_, h2⟩
    simp only [runDigest, ZUCMac.digest, e1, bind, Except.bind]
    exact e2
  | .checksum :: rest, s, h => by
    obtain ⟨s1, d, e1, h1⟩ := ZUCMac.checksum_alive h
    obtain ⟨s2, xs, e2, h2⟩ := runMac_alive hk hv rest s1 h1
    refine ⟨s2, d :: xs, ?_, h2⟩
    simp only [runDigest, bind, Except.bind, e2, show ZUCMac.digest.checksum s = .ok (s1, d) from e1]
  | .reset :: rest, s, h => by
    obtain ⟨s1, e1, h1⟩ := ZUCMac.reset_alive h hk hv
    obtain ⟨s2, xs, e2, h2⟩ := runMac_alive hk hv rest s1 h1.alive
    refine ⟨s2, xs, ?_, h2⟩
    simp only [runDigest, ZUCMac.digest, e1, bind, Except.bind]
    exact e2

theorem runDigest_append {S : Type} (d : Digest S) : ∀ (a b : List DOp) (s s1 : S) (xs : List Bytes), runDigest d s a = .ok (s1, xs) →
    runDigest d s (a ++ b) = (runDigest d s1 b).map fun r => (r.1, xs ++ r.2)
  | [], b, s, s1, xs, h => by
    simp only [runDigest, Except.ok.injEq, Prod.mk.injEq] at h
    obtain ⟨rfl, rfl⟩ := h
    cases h : runDigest d s b <;> simp [h, Except.map]
  | .write x :: a, b, s, s1, xs, h => by
    simp only [runDigest, List.cons_append, bind, Except.bind] at h ⊢
    cases hw : d.write s x with
    | error e => rw [hw] at h; cases h
    | ok s2 => rw [hw] at h; simp only at h ⊢; exact runDigest_append d a b s2 s1 xs h
  | .reset :: a, b, s, s1, xs, h => by
    simp only [runDigest, List.cons_append, bind, Except.bind] at h ⊢
    cases hw : d.reset s with
    | error e => rw [hw] at h; cases h
    | ok s2 => rw [hw] at h; simp only at h ⊢; exact runDigest_append d a b s2 s1 xs h
  | .checksum :: a, b, s, s1, xs, h => by
    simp only [runDigest, List.cons_append, bind, Except.bind] at h ⊢
    cases hw : d.checksum s with
    | error e => rw [hw] at h; cases h
    | ok r =>
      obtain ⟨s2, y⟩ := r
      rw [hw] at h
      simp only at h ⊢
      cases hr : runDigest d s2 a with
      | error e => rw [hr] at h; cases h
      | ok r =>
        obtain ⟨s3, ys⟩ := r
        rw [hr] at h
        simp only [Except.ok.injEq, Prod.mk.injEq] at h
        obtain ⟨rfl, rfl⟩ := h
        rw [runDigest_append d a b s2 s3 ys hr]
        cases runDigest d s3 b <;> simp [Except.map]

/-- C40, proved part: one `write` (of any message, also the empty one) on a new object, or right after `reset` in any history, then
`checksum`: the result is the 128-EIA3 tag. Missing: several writes, a repeated `checksum`, `checksum` without `write` (see the
refutations). -/
theorem C40_mac_partial (count : BitVec 32) (bearer : Byte) (direction : Bool) (ck : Bytes) (hk : ck.length = 16) (ops : List DOp) (m : Bytes) :
    ∃ s, ZUCMac.fromSlice count bearer direction ck = .ok s ∧
      outputs (runDigest ZUCMac.digest s [.write m, .checksum]) =
        some [Spec.ZUC.eia3 ck (Spec.ZUC.eia3Iv count (bearer.setWidth 5) (BitVec.ofBool direction)) m] ∧
      ∃ xs, outputs (runDigest ZUCMac.digest s (ops ++ [.reset, .write m, .checksum])) =
        some (xs ++ [Spec.ZUC.eia3 ck (Spec.ZUC.eia3Iv count (bearer.setWidth 5) (BitVec.ofBool direction)) m]) := by
  have hv := ZUCMac.length_eia3Iv count (bearer.setWidth 5) (BitVec.ofBool direction)
  obtain ⟨s, e, h⟩ := ZUCMac.fromSlice_fresh count bearer direction hk
  have single : ∀ s, ZUCMac.Fresh s ck (Spec.ZUC.eia3Iv count (bearer.setWidth 5) (BitVec.ofBool direction)) →
      ∃ s', runDigest ZUCMac.digest s [.write m, .checksum] =
        .ok (s', [Spec.ZUC.eia3 ck (Spec.ZUC.eia3Iv count (bearer.setWidth 5) (BitVec.ofBool direction)) m]) := by
    intro s h
    obtain ⟨s1, e1, h1⟩ := ZUCMac.write_fresh h m
    obtain ⟨s2, e2, _⟩ := ZUCMac.checksum_wrote h1
    exact ⟨s2, by simp only [runDigest, bind, Except.bind, show ZUCMac.digest.write s m = .ok s1 from e1,
      show ZUCMac.digest.checksum s1 = _ from e2]⟩
  refine ⟨s, e, ?_, ?_⟩
  · obtain ⟨s', h'⟩ := single s h
    rw [h']; rfl
  · obtain ⟨s1, xs, e1, h1⟩ := runMac_alive hk hv ops s h.alive
    obtain ⟨s2, e2, h2⟩ := ZUCMac.reset_alive h1 hk hv
    obtain ⟨s', h'⟩ := single s2 h2
    refine ⟨xs, ?_⟩
    rw [runDigest_append _ _ _ _ _ _ e1]
    rw [runDigest]
    simp only [bind, Except.bind, show ZUCMac.digest.reset s1 = _ from e2, h']
    rfl

/-- A run on an object with the zero key. -/
def zucMacRun (ops : List DOp) : Option (List Bytes) :=
  match ZUCMac.fromSlice 0#32 0#8 false (List.replicate 16 0#8) with
  | .ok s => outputs (runDigest ZUCMac.digest s ops)
  | .error _ => none

/-- Test set 1 of 128-EIA3 has one zero bit; here a whole zero byte (`z_8 ⊕ z_64` of the keystream `27bede74 018082da 87d4e5b6…`). -/
example : zucMacRun [.write [0], .checksum] = some [[0x39, 0x0a, 0x91, 0xb7]] := by decide +kernel

/-- C40 is false for messages written in two chunks. -/
theorem C40_chunks_refuted : ¬ ∀ (count : BitVec 32) (bearer : Byte) (direction : Bool) (ck : Bytes) (s : ZUCMac.State) (a b : Bytes),
    ZUCMac.fromSlice count bearer direction ck = .ok s →
      outputs (runDigest ZUCMac.digest s [.write a, .write b, .checksum]) = outputs (runDigest ZUCMac.digest s [.write (a ++ b), .checksum]) := by
  intro h
  obtain ⟨s, e, _⟩ := ZUCMac.fromSlice_fresh 0#32 0#8 false (ck := List.replicate 16 0#8) (by simp)
  have h1 := h _ _ _ _ s [1#8] [2#8] e
  have h2 : zucMacRun [.write [1#8], .write [2#8], .checksum] = zucMacRun [.write ([1#8] ++ [2#8]), .checksum] := by
    simp only [zucMacRun, e]; exact h1
  exact absurd h2 (by decide +kernel)

/-- C40 is false for `checksum` without `write`, for every key: the tag of the empty message is returned as `00000000`, whatever the key.
(`write(&[])` before `checksum` gives the right tag, `C40_mac_partial`.) -/
theorem C40_no_write_refuted (count : BitVec 32) (bearer : Byte) (direction : Bool) (ck : Bytes) (hk : ck.length = 16) :
    ∃ s, ZUCMac.fromSlice count bearer direction ck = .ok s ∧
      outputs (runDigest ZUCMac.digest s [.checksum]) = some [[0#8, 0#8, 0#8, 0#8]] := by
  obtain ⟨s, e, h⟩ := ZUCMac.fromSlice_fresh count bearer direction hk
  refine ⟨s, e, ?_⟩
  have : ∃ s', ZUCMac.digest.checksum s = .ok (s', [0#8, 0#8, 0#8, 0#8]) := by
    show ∃ s', ZUCMac.checksum s = _
    unfold ZUCMac.checksum
    simp only [h.chk, h.len, h.key0, h.key1, h.t, Bool.false_eq_true, if_false, Nat.zero_mod, if_true]
    exact ⟨_, rfl⟩
  obtain ⟨s', e'⟩ := this
  simp only [runDigest, bind, Except.bind, e']
  rfl

/-- The tag of the empty message is not constant. -/
example : zucMacRun [.write [], .checksum] = some [[0x26, 0x3e, 0x5c, 0xae]] ∧ zucMacRun [.checksum] = some [[0, 0, 0, 0]] := by decide +kernel

/-- C40 is false for a repeated `checksum`, for every key and every message whose length is a multiple of 4: the second call removes the
masks again and returns the bare universal hash, so equal tags are returned only if the mask happens to be zero. -/
theorem C40_repeat_refuted (count : BitVec 32) (bearer : Byte) (direction : Bool) (ck : Bytes) (hk : ck.length = 16) (m : Bytes) (hm : m.length % 4 = 0) :
    ∃ s, ZUCMac.fromSlice count bearer direction ck = .ok s ∧
      outputs (runDigest ZUCMac.digest s [.write m, .checksum, .checksum]) =
        some [Spec.ZUC.eia3 ck (Spec.ZUC.eia3Iv count (bearer.setWidth 5) (BitVec.ofBool direction)) m,
          be32 (Spec.ZUC.hash ck (Spec.ZUC.eia3Iv count (bearer.setWidth 5) (BitVec.ofBool direction)) m)] := by
  obtain ⟨s, e, h⟩ := ZUCMac.fromSlice_fresh count bearer direction hk
  refine ⟨s, e, ?_⟩
  obtain ⟨s1, e1, h1⟩ := ZUCMac.write_fresh h m
  obtain ⟨s2, e2, h2⟩ := ZUCMac.checksum_wrote h1
  have h3 := h2 (by omega)
  have : ∃ s3, ZUCMac.digest.checksum s2 = .ok (s3, be32 (Spec.ZUC.hash ck (Spec.ZUC.eia3Iv count (bearer.setWidth 5) (BitVec.ofBool direction)) m)) := by
    show ∃ s', ZUCMac.checksum s2 = _
    unfold ZUCMac.checksum
    have hr : 8 * m.length % 32 = 0 := by omega
    simp only [h3, h1.len, h1.key0, h1.key1, Bool.false_eq_true, if_false, hr, if_true]
    have ex : ∀ a b c : BitVec 32, a ^^^ b ^^^ c ^^^ b ^^^ c = a := by
      intro a b c
      rw [BitVec.xor_assoc a b c, BitVec.xor_assoc, BitVec.xor_assoc, BitVec.xor_self, BitVec.xor_zero]
    rw [ex]
    exact ⟨_, rfl⟩
  obtain ⟨s3, e3⟩ := this
  simp only [runDigest, bind, Except.bind, show ZUCMac.digest.write s m = .ok s1 from e1, show ZUCMac.digest.checksum s1 = _ from e2, e3]
  rfl

/-- For a message of zeros the second tag is `00000000`. -/
example : zucMacRun [.write [0, 0, 0, 0], .checksum, .checksum] = some [[0x86, 0x54, 0x67, 0x6c], [0, 0, 0, 0]] := by decide +kernel

end Verif.Props
