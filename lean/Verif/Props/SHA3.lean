import Verif.Proof.KeccakApi
import Verif.Props.MAC

/-! Properties C33 to C37, C62 and C63: Keccak, SHA-3, SHAKE -/

namespace Verif.Props
open Verif.Model
open Spec.Keccak (keccakP bitsOf bytesOf)

/-! ## SHA-3 -/

/-- C33: for every history of `write`, `write_bit`, `checksum` and `reset` calls on a new SHA3-`d` object, the digests are those of FIPS 202 of the
bits written since the last `reset` or since the first write after the last `checksum`. No bound on the length of messages. -/
theorem C33_sha3_history (d : Nat) (hd : d = 224 ∨ d = 256 ∨ d = 384 ∨ d = 512) (ops : List SOp) :
    ∃ s s', SHA3.new d = .ok s ∧ runSHA3 s ops = .ok (s', Spec.Keccak.idealSHA3 (fun M => bytesOf (Spec.Keccak.sha3 d M)) [] false ops) := by
  have hd' : 2 * d < 1600 := by omega
  obtain ⟨s, e, h⟩ := SHA3.new_inv d hd'
  obtain ⟨s', e'⟩ := SHA3.runSHA3_ok (by omega) (by omega) ops s [] false h
  exact ⟨s, s', e, e'⟩

/-- C33: chunking does not matter, and the object reports its digest length and rate. -/
theorem C33_sha3_chunks (d : Nat) (hd : d = 224 ∨ d = 256 ∨ d = 384 ∨ d = 512) (chunks : List Bytes) :
    ∃ s s' x, SHA3.new d = .ok s ∧ runDigest SHA3.digest s (chunks.map .write ++ [.checksum]) = .ok (s', [x]) ∧
      x = bytesOf (Spec.Keccak.sha3 d (bitsOf chunks.flatten)) ∧ 8 * x.length = SHA3.digest.bitsLen s ∧
      SHA3.digest.blockSize s = some ((1600 - 2 * d) / 8) := by
  obtain ⟨n, rfl⟩ : ∃ n, d = 8 * n := ⟨d / 8, by omega⟩
  have hn : 16 * n < 1600 := by omega
  obtain ⟨s, e, h⟩ := SHA3.new_inv (8 * n) (by omega)
  have key : ∀ (chunks : List Bytes) (s : SHA3.State) (m : List Bool), SHA3.Inv (1600 - 2 * (8 * n)) [false, true] (8 * n) s m false →
      ∃ s', runDigest SHA3.digest s (chunks.map .write ++ [.checksum]) =
        .ok (s', [bytesOf (Spec.Keccak.sha3 (8 * n) (m ++ bitsOf chunks.flatten))]) := by
    intro chunks
    induction chunks with
    | nil =>
      intro s m h
      obtain ⟨s', e', _⟩ := SHA3.checksum_ok (by omega) (by omega) h
      refine ⟨s', ?_⟩
      have hf : SHA3.F (1600 - 2 * (8 * n)) [false, true] (8 * n) m = bytesOf (Spec.Keccak.sha3 (8 * n) (m ++ bitsOf [])) := by
        simp [SHA3.F, Spec.Keccak.sha3, Spec.Keccak.keccak, bitsOf]
      rw [hf] at e'
      simp only [List.map_nil, List.nil_append, runDigest, bind, Except.bind, List.flatten_nil]
      rw [show SHA3.digest.checksum s = SHA3.checksum s from rfl, e']
    | cons x rest ih =>
      intro s m h
      obtain ⟨s1, e1, h1⟩ := SHA3.write_ok h x
      obtain ⟨s', e'⟩ := ih s1 _ h1
      refine ⟨s', ?_⟩
      simp only [List.map_cons, List.cons_append, runDigest, bind, Except.bind]
      rw [show SHA3.digest.write s x = SHA3.write s x from rfl, e1]
      simp only []
      rw [e', List.flatten_cons, Sponge.bitsOf_append]
      simp
  obtain ⟨s', e'⟩ := key chunks s [] h
  refine ⟨s, s', _, e, e', rfl, ?_, ?_⟩
  · have := (SHA3.lawful n hn).length chunks.flatten
    simp only [List.nil_append] at this ⊢
    rw [this]
    exact h.len.symm
  · show some ((1600 - 2 * s.bitsLen) / 8) = _
    rw [h.len]

/-- C31 for SHA3: HMAC over SHA3-224, SHA3-256, SHA3-384 and SHA3-512 is FIPS 198-1 for every key, message and chunking. -/
theorem C31_hmac_sha3 (n : Nat) (hn : n = 28 ∨ n = 32 ∨ n = 48 ∨ n = 64) (key : Bytes) (chunks : List Bytes) (hk : key.length < 2 ^ 64)
    (hl : 144 + chunks.flatten.length < 2 ^ 64) :
    ∃ df s s', SHA3.new (8 * n) = .ok df ∧ HMAC.new SHA3.digest key df = .ok s ∧
      runDigest (HMAC.digest SHA3.digest) s (chunks.map .write ++ [.checksum]) =
        .ok (s', [Spec.hmac (fun m => bytesOf (Spec.Keccak.sha3 (8 * n) (bitsOf m))) (200 - 2 * n) key chunks.flatten]) := by
  obtain ⟨df, e, h⟩ := SHA3.new_inv (8 * n) (by omega)
  obtain ⟨s, s', e1, e2⟩ := C31_hmac_history (SHA3.lawful n (by omega)) (by omega) (by omega) df [] (Or.inl h) key hk
    (chunks.map .write ++ [.checksum]) (by rw [written_chunks]; omega)
  exact ⟨df, s, s', e, e1, by rw [e2, idealTags_chunks, List.nil_append]⟩

/-! ## SHAKE -/

/-- C63: for every history of `write`, `checksum`, `reset` and `set_digest_len` calls on a new SHAKE128 or SHAKE256 object, the digests are those of
FIPS 202 for the bits written and the length in force. -/
theorem C63_shake_history (sec : Nat) (hs : sec = 128 ∨ sec = 256) (d : Nat) (ops : List XOp) :
    ∃ s s', SHA3.newShake sec d = .ok s ∧
      runSHAKE s ops = .ok (s', Spec.Keccak.idealSHAKE (fun M d => bytesOf (Spec.Keccak.shake sec M d)) d [] false ops) := by
  have hs' : 2 * sec < 1600 := by omega
  obtain ⟨s, e, h⟩ := SHA3.newShake_inv sec d hs'
  obtain ⟨s', e'⟩ := SHA3.runSHAKE_ok (by omega) (by omega) ops s d [] false h
  exact ⟨s, s', e, e'⟩

/-- C63: the same for the objects made by `to_raw_shake` from a new object. -/
theorem C63_raw_shake_history (sec : Nat) (hs : sec = 128 ∨ sec = 256) (d : Nat) (ops : List XOp) :
    ∃ s s', SHA3.newShake sec d = .ok s ∧
      runSHAKE (SHA3.toRaw s) ops = .ok (s', Spec.Keccak.idealSHAKE (fun M d => bytesOf (Spec.Keccak.rawShake sec M d)) d [] false ops) := by
  have hs' : 2 * sec < 1600 := by omega
  obtain ⟨s, e, h⟩ := SHA3.newShake_inv sec d hs'
  obtain ⟨s', e'⟩ := SHA3.runSHAKE_ok (by omega) (by omega) ops _ d [] false (SHA3.toRaw_inv h)
  exact ⟨s, s', e, e'⟩

/-- The digest of the message written in the given chunks to a new SHAKE object of output length `d` bits. -/
def shakeOutput (sec d : Nat) (chunks : List Bytes) : Option Bytes :=
  match SHA3.newShake sec d with
  | .ok s => (match runSHAKE s (chunks.map .write ++ [.checksum]) with
    | .ok (_, [x]) => some x
    | _ => none)
  | .error _ => none

theorem shakeOutput_eq (sec : Nat) (hs : sec = 128 ∨ sec = 256) (d : Nat) (chunks : List Bytes) :
    shakeOutput sec d chunks = some (bytesOf (Spec.Keccak.shake sec (bitsOf chunks.flatten) d)) := by
  obtain ⟨s, s', e, e'⟩ := C63_shake_history sec hs d (chunks.map .write ++ [.checksum])
  have h : ∀ (F : List Bool → Nat → Bytes) (chunks : List Bytes) (m : List Bool),
      Spec.Keccak.idealSHAKE F d m false (chunks.map .write ++ [.checksum]) = [F (m ++ bitsOf chunks.flatten) d] := by
    intro F chunks
    induction chunks with
    | nil => intro m; simp [Spec.Keccak.idealSHAKE, bitsOf]
    | cons x rest ih =>
      intro m
      simp only [List.map_cons, List.cons_append, Spec.Keccak.idealSHAKE, ih, List.flatten_cons, Sponge.bitsOf_append, Bool.false_eq_true,
        if_false, List.append_assoc]
  rw [h] at e'
  unfold shakeOutput
  rw [e]
  simp only [e', List.nil_append]

/-- C34: for the same message, however it was chunked, the output of `d1` bits is a prefix of the output of `d2 ≥ d1` bits; bits are numbered from the
least significant bit of the first byte. The output of `d` bits has `⌈d / 8⌉` bytes. -/
theorem C34_shake_prefix (sec : Nat) (hs : sec = 128 ∨ sec = 256) (d1 d2 : Nat) (h : d1 ≤ d2) (c1 c2 : List Bytes)
    (hc : c1.flatten = c2.flatten) :
    ∃ o1 o2, shakeOutput sec d1 c1 = some o1 ∧ shakeOutput sec d2 c2 = some o2 ∧ o1.length = (d1 + 7) / 8 ∧ o2.length = (d2 + 7) / 8 ∧
      (bitsOf o1).take d1 = (bitsOf o2).take d1 := by
  refine ⟨_, _, shakeOutput_eq sec hs d1 c1, shakeOutput_eq sec hs d2 c2, SHA3.F_length _ _ _ _, SHA3.F_length _ _ _ _, ?_⟩
  have hl : ∀ d m, (Spec.Keccak.shake sec m d).length = d := fun d m => Sponge.squeeze_length _ _ _ _
  rw [SHA3.take_bits_bytes _ _ (by rw [hl]), SHA3.take_bits_bytes _ _ (by rw [hl]; exact h), hc]
  have := Sponge.squeeze_take (keccakP 6 24) (1600 - 2 * sec) d1 d1 (Spec.Keccak.absorb (keccakP 6 24) 1600 (1600 - 2 * sec)
    ((bitsOf c2.flatten ++ [true, true, true, true]) ++
      Spec.Keccak.pad (1600 - 2 * sec) (bitsOf c2.flatten ++ [true, true, true, true]).length)
    (((bitsOf c2.flatten ++ [true, true, true, true]) ++
      Spec.Keccak.pad (1600 - 2 * sec) (bitsOf c2.flatten ++ [true, true, true, true]).length).length / (1600 - 2 * sec))) (Nat.le_refl _)
  refine Eq.trans this (Sponge.squeeze_take _ _ _ _ _ h).symm

/-- C34 for whole bytes. -/
theorem C34_shake_prefix_bytes (sec : Nat) (hs : sec = 128 ∨ sec = 256) (n1 n2 : Nat) (h : n1 ≤ n2) (chunks : List Bytes) :
    ∃ o1 o2, shakeOutput sec (8 * n1) chunks = some o1 ∧ shakeOutput sec (8 * n2) chunks = some o2 ∧ o1.length = n1 ∧ o2.length = n2 ∧ o1 <+: o2 := by
  obtain ⟨o1, o2, e1, e2, l1, l2, hp⟩ := C34_shake_prefix sec hs (8 * n1) (8 * n2) (by omega) chunks chunks rfl
  have l1' : o1.length = n1 := by omega
  have l2' : o2.length = n2 := by omega
  refine ⟨o1, o2, e1, e2, l1', l2', ?_⟩
  rw [List.prefix_iff_eq_take]
  apply List.ext_getElem
  · simp; omega
  · intro i a b
    rw [List.getElem_take]
    have hb : ∀ (o : Bytes) (hi : i < o.length) (j : Nat), j < 8 → (bitsOf o).getD (8 * i + j) false = (o[i]).getLsbD j := by
      intro o hi j hj
      rw [SHA3.bitsOf_get, show (8 * i + j) / 8 = i by omega, show (8 * i + j) % 8 = j by omega]
      simp [List.getD_eq_getElem?_getD, hi]
    apply BitVec.eq_of_getLsbD_eq
    intro j hj
    rw [← hb o1 a j hj, ← hb o2 (by omega) j hj]
    have h1 : ∀ o : Bytes, (bitsOf o).getD (8 * i + j) false = ((bitsOf o).take (8 * n1)).getD (8 * i + j) false := by
      intro o
      rw [List.getD_eq_getElem?_getD, List.getD_eq_getElem?_getD, List.getElem?_take, if_pos (by omega)]
    rw [h1 o1, h1 o2, hp]

/-! ## The sponge -/

/-- C35: `sponge_buf` pads the message to a positive multiple of the rate, for every rate it can run with. -/
theorem C35_pad_aligned (s s' : Sponge.State) (want : Nat) (out : Bytes) (h : Sponge.spongeBuf s want = .ok (s', out)) :
    ∃ tail, s'.buf = s.buf ++ tail ∧ s.rate ∣ s'.buf.length ∧ 2 ≤ tail.length ∧ tail.length < s.rate + 2 ∧ 0 < s.rate := by
  unfold Sponge.spongeBuf at h
  cases hp : Sponge.pad s.rate s.buf.length with
  | error e => simp [bind, Except.bind, hp] at h
  | ok j =>
    simp only [bind, Except.bind, hp] at h
    split at h
    · cases h
    · injection h with h
      injection h with h1 h2
      unfold Sponge.pad at hp
      split at hp
      · cases hp
      · rename_i hr
        injection hp with hp
        rw [Keccak.minusRem _ _ _ (by omega)] at hp
        refine ⟨[true] ++ List.replicate j false ++ [true], by rw [← h1]; simp, ?_, by simp, ?_, by omega⟩
        · rw [← h1]
          simp only [List.length_append, List.length_cons, List.length_nil, List.length_replicate]
          have : ((s.rate : Nat) : Int) ∣ ((s.buf.length + 1 + j + 1 : Nat) : Int) := by
            rw [← hp]
            unfold Spec.Keccak.modw
            have h0 := Int.emod_nonneg (((0 : Nat) : Int) - ((s.buf.length + 2 : Nat) : Int)) (b := (s.rate : Int)) (by omega)
            have e : ((s.buf.length + 1 + (((0 : Nat) : Int) - ((s.buf.length + 2 : Nat) : Int)).emod (s.rate : Int) |>.toNat) : Int) = 0 ∨ True :=
              Or.inr trivial
            clear e
            rw [show ((s.buf.length + 1 + ((((0 : Nat) : Int) - ((s.buf.length + 2 : Nat) : Int)) % (s.rate : Int)).toNat + 1 : Nat) : Int) =
              ((s.buf.length + 2 : Nat) : Int) + (((0 : Nat) : Int) - ((s.buf.length + 2 : Nat) : Int)) % (s.rate : Int) by omega]
            apply Int.dvd_of_emod_eq_zero
            rw [Int.add_emod_emod]
            simp
          exact_mod_cast this
        · have := Keccak.modw_lt (((0 : Nat) : Int) - ((s.buf.length + 2 : Nat) : Int)) s.rate (by omega)
          simp
          omega

theorem strip_pad : ∀ (a b : Nat) (x y : List Bool), List.replicate a false ++ true :: x = List.replicate b false ++ true :: y → x = y
  | 0, 0, x, y, h => by simpa using h
  | 0, b + 1, x, y, h => by simp [List.replicate_succ] at h
  | a + 1, 0, x, y, h => by simp [List.replicate_succ] at h
  | a + 1, b + 1, x, y, h => strip_pad a b x y (by simpa [List.replicate_succ] using h)

/-- C35: two different messages never have the same padded string, even under different rates. -/
theorem C35_pad_injective (s1 s1' s2 s2' : Sponge.State) (w1 w2 : Nat) (o1 o2 : Bytes) (h1 : Sponge.spongeBuf s1 w1 = .ok (s1', o1))
    (h2 : Sponge.spongeBuf s2 w2 = .ok (s2', o2)) (h : s1'.buf = s2'.buf) : s1.buf = s2.buf := by
  have key : ∀ (s s' : Sponge.State) (w : Nat) (o : Bytes), Sponge.spongeBuf s w = .ok (s', o) →
      ∃ j, s'.buf = s.buf ++ [true] ++ List.replicate j false ++ [true] := by
    intro s s' w o h
    unfold Sponge.spongeBuf at h
    cases hp : Sponge.pad s.rate s.buf.length with
    | error e => simp [bind, Except.bind, hp] at h
    | ok j =>
      simp only [bind, Except.bind, hp] at h
      split at h
      · cases h
      · injection h with h
        injection h with h1 h2
        exact ⟨j, by rw [← h1]⟩
  obtain ⟨a, ha⟩ := key _ _ _ _ h1
  obtain ⟨b, hb⟩ := key _ _ _ _ h2
  rw [ha, hb] at h
  have h' := congrArg List.reverse h
  simp only [List.reverse_append, List.reverse_cons, List.reverse_nil, List.nil_append, List.reverse_replicate, List.cons_append] at h'
  have := strip_pad a b _ _ (List.tail_eq_of_cons_eq h')
  exact List.reverse_injective this

/-- Non-vacuity: padding of 3 bits for rate 8. -/
example : (match (do let k ← Keccak.new 25 12; let s ← Sponge.new k 8; Sponge.spongeBuf { s with buf := [true, false, true] } 10) with
    | .ok (s, o) => (s.buf, o.length) | .error _ => ([], 0)) = ([true, false, true, true, false, false, false, true], 2) := by decide +kernel

/-- C36 is refuted: `KeccakSponge::new` accepts every rate. -/
theorem C36_rate_refuted : ∀ (k : Keccak.State) (rate : Nat), 0 < k.b → ∃ s, Sponge.new k rate = .ok s := by
  intro k rate hb
  refine ⟨{ rate := rate, keccak := k, buf := [] }, ?_⟩
  unfold Sponge.new
  rw [if_pos (by omega)]

/-- C36, consequence: a sponge with rate 0 panics for every message. -/
theorem C36_rate_zero_panics (k : Keccak.State) (hb : 0 < k.b) : ∃ s, Sponge.new k 0 = .ok s ∧
    ∀ data n want, Sponge.sponge s data n want = .error .panic := by
  refine ⟨{ rate := 0, keccak := k, buf := [] }, ?_, ?_⟩
  · unfold Sponge.new; rw [if_pos (Or.inr hb)]
  · intro data n want
    unfold Sponge.sponge
    split
    · simp [Sponge.spongeBuf, Sponge.pad, Sponge.writeToBuf, Sponge.clearBuf, bind, Except.bind]
    · rfl

/-- C36, consequence: with a rate above the width message bits are ignored: two different messages have the same output, of every length. -/
theorem C36_rate_above_width_collides : ∃ k s m1 m2, Keccak.new 25 12 = .ok k ∧ Sponge.new k 50 = .ok s ∧ m1 ≠ m2 ∧
    m1.length = 6 ∧ m2.length = 6 ∧ ∀ want, (Sponge.sponge s m1 48 want).map Prod.snd = (Sponge.sponge s m2 48 want).map Prod.snd := by
  refine ⟨_, _, [0#8, 0#8, 0#8, 0x02#8, 0#8, 0#8], [0#8, 0#8, 0#8, 0#8, 0#8, 0x70#8], rfl, rfl, by decide, rfl, rfl, ?_⟩
  intro want
  have e1 : ∀ k : Keccak.State, k.w = 1 →
      Sponge.absorb 50 ((bitsOf [0#8, 0#8, 0#8, 0x02#8, 0#8, 0#8]) ++ [true] ++ [] ++ [true]) 1 0 k =
        Sponge.absorb 50 ((bitsOf [0#8, 0#8, 0#8, 0#8, 0#8, 0x70#8]) ++ [true] ++ [] ++ [true]) 1 0 k := by
    intro k hk
    have ho : ∀ inp, Sponge.absorbOut 1 50 (0 * 50) ((bitsOf [0#8, 0#8, 0#8, 0x02#8, 0#8, 0#8]) ++ [true] ++ [] ++ [true]) inp =
        Sponge.absorbOut 1 50 (0 * 50) ((bitsOf [0#8, 0#8, 0#8, 0#8, 0#8, 0x70#8]) ++ [true] ++ [] ++ [true]) inp := by
      intro inp
      unfold Sponge.absorbOut Keccak.tab
      apply List.map_congr_left
      intro x hx
      apply List.map_congr_left
      intro y hy
      apply List.map_congr_left
      intro z hz
      have hx := List.mem_range.mp hx
      have hy := List.mem_range.mp hy
      have hz := List.mem_range.mp hz
      have hi : 1 * (5 * y + x) + z < 25 := by omega
      have ha : ∀ i < 25, ((bitsOf [0#8, 0#8, 0#8, 0x02#8, 0#8, 0#8]) ++ [true] ++ [] ++ [true]).getD (0 * 50 + i) false =
          ((bitsOf [0#8, 0#8, 0#8, 0#8, 0#8, 0x70#8]) ++ [true] ++ [] ++ [true]).getD (0 * 50 + i) false := by decide +kernel
      simp only [ha _ hi]
    unfold Sponge.absorb
    simp only []
    rw [hk, ho]
    unfold Sponge.absorb
    rfl
  have hp : Sponge.pad 50 48 = .ok 0 := rfl
  unfold Sponge.sponge
  rw [if_pos (by decide), if_pos (by decide)]
  rw [Sponge.writeToBuf_buf, Sponge.writeToBuf_buf]
  unfold Sponge.spongeBuf
  have l1 : (bitsOf [0#8, 0#8, 0#8, 0x02#8, 0#8, 0#8]).length = 48 := rfl
  have l2 : (bitsOf [0#8, 0#8, 0#8, 0#8, 0#8, 0x70#8]).length = 48 := rfl
  simp only [Sponge.clearBuf, List.nil_append, List.take_of_length_le (Nat.le_of_eq l1), List.take_of_length_le (Nat.le_of_eq l2), l1, l2, hp, bind,
    Except.bind, List.replicate_zero]
  have n1 : ((bitsOf [0#8, 0#8, 0#8, 0x02#8, 0#8, 0#8]) ++ [true] ++ [] ++ [true]).length / 50 = 1 := rfl
  have n2 : ((bitsOf [0#8, 0#8, 0#8, 0#8, 0#8, 0x70#8]) ++ [true] ++ [] ++ [true]).length / 50 = 1 := rfl
  rw [n1, n2, e1 _ rfl]
  split <;> rfl

/-- C36, what holds: for rates between 0 and the width (inclusive) and up to `12 + 2 l` rounds, `sponge` is the sponge construction of FIPS 202 over
Keccak-p[25·2^l, nr] with pad10*1, for every message of `n` bits and every output length, and again for every later call on the
same object. Missing for the full property: rates outside this range are not refused. -/
theorem C36_sponge_partial (l nr rate : Nat) (hl : l ≤ 6) (hn : nr ≤ 12 + 2 * l) (hr : 0 < rate) (hr2 : rate ≤ 25 * 2 ^ l)
    (calls : List (Bytes × Nat × Nat)) (hc : ∀ c ∈ calls, c.2.1 ≤ 8 * c.1.length) :
    ∃ k s, Keccak.new (25 * 2 ^ l) nr = .ok k ∧ Sponge.new k rate = .ok s ∧
      ∃ s', calls.foldlM (fun (st : Sponge.State × List Bytes) c => do
          let (s, o) ← Sponge.sponge st.1 c.1 c.2.1 c.2.2
          Except.ok (ε := Fault) (s, st.2 ++ [o])) (s, []) =
        .ok (s', calls.map fun c => bytesOf (Spec.Keccak.sponge (keccakP l nr) (25 * 2 ^ l) rate ((bitsOf c.1).take c.2.1) c.2.2)) := by
  obtain ⟨k, e, hk⟩ := SHA3.keccak_new_ok (b := 25 * 2 ^ l) (nr := nr) hl rfl
  refine ⟨k, { rate := rate, keccak := k, buf := [] }, e, ?_, ?_⟩
  · unfold Sponge.new; rw [if_pos (Or.inl hr)]
  · have key : ∀ (calls : List (Bytes × Nat × Nat)), (∀ c ∈ calls, c.2.1 ≤ 8 * c.1.length) → ∀ (s : Sponge.State) (acc : List Bytes),
        s.rate = rate → Keccak.Ok s.keccak l nr →
        ∃ s', calls.foldlM (fun (st : Sponge.State × List Bytes) c => do
            let (s, o) ← Sponge.sponge st.1 c.1 c.2.1 c.2.2
            Except.ok (ε := Fault) (s, st.2 ++ [o])) (s, acc) =
          .ok (s', acc ++ calls.map fun c => bytesOf (Spec.Keccak.sponge (keccakP l nr) (25 * 2 ^ l) rate ((bitsOf c.1).take c.2.1) c.2.2)) := by
      intro calls
      induction calls with
      | nil => intro _ s acc _ _; exact ⟨s, by simp [pure, Except.pure]⟩
      | cons c rest ih =>
        intro hc s acc hr' hk'
        have hc1 := hc c (by simp)
        obtain ⟨s1, e1, r1, k1⟩ := Sponge.spongeBuf_eq (l := l) (nr := nr) (Sponge.writeToBuf (Sponge.clearBuf s) c.1 c.2.1) c.2.2 hk'
          (by rw [Sponge.writeToBuf_buf]; simp only [Sponge.clearBuf, hr']; exact hr)
          (by rw [Sponge.writeToBuf_buf]; simp only [Sponge.clearBuf, hr']; exact hr2) hn
        obtain ⟨s', e'⟩ := ih (fun c h => hc c (by simp [h])) s1 (acc ++ [bytesOf (Spec.Keccak.sponge (keccakP l nr) (25 * 2 ^ l) rate ((bitsOf c.1).take c.2.1) c.2.2)])
          (by rw [r1, Sponge.writeToBuf_buf]; exact hr') k1
        refine ⟨s', ?_⟩
        have es : Sponge.sponge s c.1 c.2.1 c.2.2 =
            .ok (s1, bytesOf (Spec.Keccak.sponge (keccakP l nr) (25 * 2 ^ l) rate ((bitsOf c.1).take c.2.1) c.2.2)) := by
          unfold Sponge.sponge
          rw [if_pos (by omega), e1, Sponge.writeToBuf_buf]
          simp only [Sponge.clearBuf, List.nil_append, hr']
        rw [List.foldlM_cons]
        simp only [es, bind, Except.bind] at e' ⊢
        rw [e']
        simp
    have := key calls hc { rate := rate, keccak := k, buf := [] } [] rfl hk
    simpa using this

/-! ## Keccak-p -/

/-- The content of the state array of an object, as the string of FIPS 202, 3.1.3. -/
def content (k : Keccak.State) : List Bool := Keccak.finish k.input k.w

/-- C37: each step mapping computed on the state of an object (in its double buffer) is the one of FIPS 202, for every lane size and every state;
for `iota`, for every round index that is not negative. -/
theorem C37_steps_partial (k : Keccak.State) (l nr : Nat) (hk : Keccak.Ok k l nr) (ir : Int) (h0 : 0 ≤ ir) (h1 : ir < 2 ^ 16) :
    content (Keccak.theta k) = Spec.Keccak.toString (2 ^ l) (Spec.Keccak.theta (2 ^ l) (Spec.Keccak.ofString (2 ^ l) (content k))) ∧
    content (Keccak.rho k) = Spec.Keccak.toString (2 ^ l) (Spec.Keccak.rho (2 ^ l) (Spec.Keccak.ofString (2 ^ l) (content k))) ∧
    content (Keccak.pi k) = Spec.Keccak.toString (2 ^ l) (Spec.Keccak.pi (Spec.Keccak.ofString (2 ^ l) (content k))) ∧
    content (Keccak.chi k) = Spec.Keccak.toString (2 ^ l) (Spec.Keccak.chi (Spec.Keccak.ofString (2 ^ l) (content k))) ∧
    content (Keccak.iota ir k) = Spec.Keccak.toString (2 ^ l) (Spec.Keccak.iota l ir (Spec.Keccak.ofString (2 ^ l) (content k))) := by
  have hw : 0 < 2 ^ l := Nat.two_pow_pos l
  have hr := Keccak.rel_ofString k.input (2 ^ l) hw
  have hc : content k = Keccak.finish k.input (2 ^ l) := by unfold content; rw [hk.w_eq]
  have wo : ∀ s, (k.setOutput s).dropGuard.w = 2 ^ l := by
    intro s
    rw [← hk.w_eq]; unfold Keccak.State.setOutput Keccak.State.dropGuard; split <;> rfl
  have wi : ∀ s, (k.setInput s).dropGuard.dropGuard.w = 2 ^ l := by
    intro s
    rw [← hk.w_eq]; unfold Keccak.State.setInput Keccak.State.dropGuard; split <;> rfl
  rw [hc]
  refine ⟨?_, ?_, ?_, ?_, ?_⟩
  · unfold content Keccak.theta
    rw [Keccak.input_setOutput, wo, hk.w_eq]
    exact Keccak.finish_rel _ _ _ hw (Keccak.theta_rel _ _ _ hw hr)
  · unfold content Keccak.rho
    rw [Keccak.input_setOutput, wo, hk.w_eq]
    exact Keccak.finish_rel _ _ _ hw (Keccak.rho_rel _ _ _ _ hw hk.output hr)
  · unfold content Keccak.pi
    rw [Keccak.input_setOutput, wo, hk.w_eq]
    exact Keccak.finish_rel _ _ _ hw (Keccak.pi_rel _ _ _ hr)
  · unfold content Keccak.chi
    rw [Keccak.input_setOutput, wo, hk.w_eq]
    exact Keccak.finish_rel _ _ _ hw (Keccak.chi_rel _ _ _ hr)
  · unfold content Keccak.iota
    rw [Keccak.input_setInput, wi, hk.w_eq, hk.l_eq]
    exact Keccak.finish_rel _ _ _ hw (Keccak.iota_rel _ _ _ _ hk.hl h0 h1 hk.input hr)

/-- Non-vacuity: new objects of every width satisfy the hypothesis. -/
example (l nr : Nat) (hl : l ≤ 6) : ∃ k, Keccak.new (25 * 2 ^ l) nr = .ok k ∧ Keccak.Ok k l nr := SHA3.keccak_new_ok hl rfl

/-- `permutation` called once per input. -/
def runPermutation : Keccak.State → List Bytes → Res (List Bytes)
  | _, [] => .ok []
  | k, x :: rest => do
    let (k, y) ← Keccak.permutation k x
    let ys ← runPermutation k rest
    .ok (y :: ys)

/-- C37: for every width and every number of rounds up to `12 + 2 l`, every sequence of calls of `permutation` computes Keccak-p[b, nr] on the bits it
takes from its input (see C62 for their order). Missing for the full property: more rounds, which have negative round indices
(`C37_negative_round_refuted`). -/
theorem C37_keccak_p_partial (l nr : Nat) (hl : l ≤ 6) (hn : nr ≤ 12 + 2 * l) (inputs : List Bytes)
    (hi : ∀ x ∈ inputs, (25 * 2 ^ l + 7) / 8 ≤ x.length) :
    ∃ k, Keccak.new (25 * 2 ^ l) nr = .ok k ∧
      runPermutation k inputs = .ok (inputs.map fun x => bytesOf (keccakP l nr (((bitsOf x).reverse).take (25 * 2 ^ l)))) := by
  obtain ⟨k, e, hk⟩ := SHA3.keccak_new_ok (b := 25 * 2 ^ l) (nr := nr) hl rfl
  refine ⟨k, e, ?_⟩
  clear e
  induction inputs generalizing k with
  | nil => rfl
  | cons x rest ih =>
    obtain ⟨k', e', hk'⟩ := Keccak.permutation_ok hk hn x (hi x (by simp))
    simp only [runPermutation, bind, Except.bind, e', List.map_cons, ih (fun y hy => hi y (by simp [hy])) k' hk']

/-- C37: the round constant bit of every index `t` in `[0, 2^32)`. -/
theorem C37_rc_partial (t : Int) (h0 : 0 ≤ t) (h1 : t < 2 ^ 32) : Keccak.rc t = Spec.Keccak.rc t := Keccak.rc_eq t h0 h1

/-- C37 fails for negative indices: FIPS 202 defines `rc(-1) = rc(254) = 0`, the code computes 1. -/
theorem C37_rc_negative_refuted : ¬ ∀ t : Int, Keccak.rc t = Spec.Keccak.rc t := by
  intro h
  exact absurd (h (-1)) (by decide +kernel)

/-- C37 fails through the API: Keccak-p[25, 15] (15 rounds start with index -3) is computed wrongly. -/
theorem C37_negative_round_refuted : ¬ ∀ (l nr : Nat) (x : Bytes), l ≤ 6 → (25 * 2 ^ l + 7) / 8 ≤ x.length →
    ∃ k, Keccak.new (25 * 2 ^ l) nr = .ok k ∧ runPermutation k [x] = .ok [bytesOf (keccakP l nr (((bitsOf x).reverse).take (25 * 2 ^ l)))] := by
  intro h
  obtain ⟨k, e1, e2⟩ := h 0 15 [1#8, 2#8, 3#8, 4#8] (by omega) (by decide)
  rw [Keccak.keccakP_table] at e2
  have hk : (match Keccak.new (25 * 2 ^ 0) 15 with
    | .ok k => (match runPermutation k [[1#8, 2#8, 3#8, 4#8]] with | .ok o => o | .error _ => [])
    | .error _ => []) = [[85#8, 84#8, 45#8, 0#8]] := by decide +kernel
  rw [e1] at hk
  simp only [e2] at hk
  exact absurd hk (by decide +kernel)

/-- C62 is refuted: `permutation` takes the bits of its input in the reverse order (from the most significant bit of the last byte), not in the order of
its own output (from the least significant bit of the first byte, FIPS 202 B.1); for a concrete input the
result differs from Keccak-p[200, 2] of that input. -/
theorem C62_permutation_bit_order_refuted : ¬ ∀ (l nr : Nat) (x : Bytes), l ≤ 6 → nr ≤ 12 + 2 * l → 8 * x.length = 25 * 2 ^ l →
    ∃ k, Keccak.new (25 * 2 ^ l) nr = .ok k ∧ runPermutation k [x] = .ok [bytesOf (keccakP l nr (bitsOf x))] := by
  intro h
  obtain ⟨k, e1, e2⟩ := h 3 2 (1#8 :: List.replicate 24 0#8) (by omega) (by omega) (by decide)
  obtain ⟨k', e1', e2'⟩ := C37_keccak_p_partial 3 2 (by omega) (by omega) [1#8 :: List.replicate 24 0#8] (by decide)
  rw [e1] at e1'
  injection e1' with e1'
  subst e1'
  rw [e2'] at e2
  injection e2 with e2
  simp only [List.map_cons, List.map_nil] at e2
  rw [Keccak.keccakP_table, Keccak.keccakP_table] at e2
  exact absurd e2 (by decide +kernel)

/-- C62, what holds: the input string is the reversal of the FIPS 202 bit string of the bytes; so the result is Keccak-p of the given bits when the
caller passes them reversed, i.e. bytes in reverse order with the bits of every byte reversed. -/
theorem C62_permutation_reversed_partial (l nr : Nat) (hl : l ≤ 6) (hn : nr ≤ 12 + 2 * l) (x y : Bytes) (hx : 8 * x.length = 25 * 2 ^ l)
    (hy : bitsOf y = (bitsOf x).reverse) :
    ∃ k, Keccak.new (25 * 2 ^ l) nr = .ok k ∧ runPermutation k [y] = .ok [bytesOf (keccakP l nr (bitsOf x))] := by
  have ly : 8 * y.length = 8 * x.length := by
    have := congrArg List.length hy
    rwa [List.length_reverse, Sponge.bitsOf_length, Sponge.bitsOf_length] at this
  obtain ⟨k, e1, e2⟩ := C37_keccak_p_partial l nr hl hn [y] (by intro z hz; simp at hz; subst hz; omega)
  refine ⟨k, e1, ?_⟩
  rw [e2]
  simp only [List.map_cons, List.map_nil, hy, List.reverse_reverse]
  rw [List.take_of_length_le (by rw [Sponge.bitsOf_length]; omega)]

/-- Non-vacuity of the last theorem: `0x01, 0, ..., 0` and `0, ..., 0, 0x80`. -/
example : bitsOf (List.replicate 24 0#8 ++ [0x80#8]) = (bitsOf (1#8 :: List.replicate 24 0#8)).reverse := by decide +kernel

/-- A test of the model (by evaluation): SHA3-256 of "abc" in two chunks, again, then of "a" without `reset`. -/
def abcTest : Bool := (match SHA3.new 256 with
    | .ok s => outputs (runDigest SHA3.digest s [.write [0x61#8], .write [0x62#8, 0x63#8], .checksum, .checksum, .write [0x61#8], .checksum])
    | .error _ => none) == some [[0x3a#8, 0x98#8, 0x5d#8, 0xa7#8, 0x4f#8, 0xe2#8, 0x25#8, 0xb2#8, 0x04#8, 0x5c#8, 0x17#8, 0x2d#8, 0x6b#8, 0xd3#8, 0x90#8, 0xbd#8, 0x85#8, 0x5f#8, 0x08#8, 0x6e#8, 0x3e#8, 0x9d#8, 0x52#8, 0x5b#8, 0x46#8, 0xbf#8, 0xe2#8, 0x45#8, 0x11#8, 0x43#8, 0x15#8, 0x32#8],
      [0x3a#8, 0x98#8, 0x5d#8, 0xa7#8, 0x4f#8, 0xe2#8, 0x25#8, 0xb2#8, 0x04#8, 0x5c#8, 0x17#8, 0x2d#8, 0x6b#8, 0xd3#8, 0x90#8, 0xbd#8, 0x85#8, 0x5f#8, 0x08#8, 0x6e#8, 0x3e#8, 0x9d#8, 0x52#8, 0x5b#8, 0x46#8, 0xbf#8, 0xe2#8, 0x45#8, 0x11#8, 0x43#8, 0x15#8, 0x32#8],
      [0x80#8, 0x08#8, 0x4b#8, 0xf2#8, 0xfb#8, 0xa0#8, 0x24#8, 0x75#8, 0x72#8, 0x6f#8, 0xeb#8, 0x2c#8, 0xab#8, 0x2d#8, 0x82#8, 0x15#8, 0xea#8, 0xb1#8, 0x4b#8, 0xc6#8, 0xbd#8, 0xd8#8, 0xbf#8, 0xb2#8, 0xc8#8, 0x15#8, 0x12#8, 0x57#8, 0x03#8, 0x2e#8, 0xcd#8, 0x8b#8]]

#guard abcTest

/-- Non-vacuity: the sponge over Keccak-p[25, 12] with rate 8, two blocks absorbed, several squeezed, two calls. -/
example : (match (do let k ← Keccak.new 25 12; let s ← Sponge.new k 8; let (s, a) ← Sponge.sponge s [0xa3#8] 8 20; let (_, b) ← Sponge.sponge s [0xa3#8] 8 10; Except.ok (ε := Fault) (a, b)) with
    | .ok (a, b) => (a.length, b.length, decide (a.take 1 = b.take 1)) | .error _ => (0, 0, false)) = (3, 2, true) := by decide +kernel

end Verif.Props
