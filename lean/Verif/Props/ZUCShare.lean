import Verif.Proof.ZUCInj
import Verif.Spec.ZUCShare
import Verif.Props.ZUC

/-! Property C101: what ZUC objects with different parameters have in common -/

namespace Verif.Props
open Verif.Model

/-- C101: for keys and initial vectors of 16 bytes and any number of words taken, two generators are in the same state only if they were
made with the same key and the same initial vector: the initialisation forgets nothing, and two generators never run together. -/
theorem C101_state (key iv key' iv' : Bytes) (hk : key.length = 16) (hv : iv.length = 16) (hk' : key'.length = 16) (hv' : iv'.length = 16)
    (s s' : ZUC.State) (e : ZUC.fromSlice key iv = .ok s) (e' : ZUC.fromSlice key' iv' = .ok s') (n : Nat) :
    (zucWords n s).2 = (zucWords n s').2 ↔ key = key' ∧ iv = iv' := by
  constructor
  · intro h
    obtain ⟨t, et, ht⟩ := ZUC.fromSlice_R hk hv
    obtain ⟨t', et', ht'⟩ := ZUC.fromSlice_R hk' hv'
    obtain rfl : t = s := by rw [e] at et; exact (Except.ok.inj et).symm
    obtain rfl : t' = s' := by rw [e'] at et'; exact (Except.ok.inj et').symm
    have h1 := (zucWords_R n 0 t ht).2
    have h2 := (zucWords_R n 0 t' ht').2
    rw [← h] at h2
    refine Spec.ZUC.stateAt_inj hk hv hk' hv' (0 + n) ?_
    have a := h1.s.trans h2.s.symm
    have b := h1.r1.symm.trans h2.r1
    have c := h1.r2.symm.trans h2.r2
    generalize Spec.ZUC.stateAt key iv (0 + n) = x at a b c
    generalize Spec.ZUC.stateAt key' iv' (0 + n) = y at a b c
    cases x; cases y
    simp_all
  · rintro ⟨rfl, rfl⟩
    rw [Except.ok.inj (e.symm.trans e')]

/-- Two keys that differ in one bit. -/
example : ∃ s s', ZUC.fromSlice (List.replicate 16 0#8) (List.replicate 16 0#8) = .ok s ∧
    ZUC.fromSlice (1#8 :: List.replicate 15 0#8) (List.replicate 16 0#8) = .ok s' ∧ ∀ n, (zucWords n s).2 ≠ (zucWords n s').2 := by
  obtain ⟨s, e, _⟩ := ZUC.fromSlice_R (key := List.replicate 16 0#8) (iv := List.replicate 16 0#8) (by simp) (by simp)
  obtain ⟨s', e', _⟩ := ZUC.fromSlice_R (key := 1#8 :: List.replicate 15 0#8) (iv := List.replicate 16 0#8) (by simp) (by simp)
  refine ⟨s, s', e, e', fun n h => ?_⟩
  have := (C101_state _ _ _ _ (by simp) (by simp) (by simp) (by simp) s s' e e' n).1 h
  exact absurd this.1 (by decide)

/-- C101: the words of a generator come back from the first on, after at most `(2^31 - 1)^16 · 2^64` words: there is no part before the
period. -/
theorem C101_period (key iv : Bytes) (hk : key.length = 16) (hv : iv.length = 16) (s : ZUC.State) (e : ZUC.fromSlice key iv = .ok s) :
    ∃ T, 0 < T ∧ T ≤ (2 ^ 31 - 1) ^ 16 * 2 ^ 64 ∧ ∀ n, (zucWords n (zucWords T s).2).1 = (zucWords n s).1 := by
  obtain ⟨t, et, ht⟩ := ZUC.fromSlice_R hk hv
  obtain rfl : t = s := by rw [e] at et; exact (Except.ok.inj et).symm
  obtain ⟨T, h0, hT, h⟩ := Spec.ZUC.stateAt_period key iv
  refine ⟨T, h0, hT, fun n => ?_⟩
  have h1 := (zucWords_R T 0 t ht).2
  rw [(zucWords_R n (0 + T) _ h1).1, (zucWords_R n 0 t ht).1]
  refine List.map_congr_left fun i _ => ?_
  have : 0 + T + i = i + T := by omega
  rw [this, Nat.zero_add, Spec.ZUC.word, Spec.ZUC.word, h]

example : ∃ s, ZUC.fromSlice (List.replicate 16 0#8) (List.replicate 16 0#8) = .ok s :=
  let ⟨s, e, _⟩ := ZUC.fromSlice_R (key := List.replicate 16 0#8) (iv := List.replicate 16 0#8) (by simp) (by simp)
  ⟨s, e⟩

theorem gen_eq {key iv key' iv' : Bytes} (hk : key.length = 16) (hv : iv.length = 16) (hk' : key'.length = 16) (hv' : iv'.length = 16)
    {s s' : ZUC.State} (e : ZUC.fromSlice key iv = .ok s) (e' : ZUC.fromSlice key' iv' = .ok s') : s = s' ↔ key = key' ∧ iv = iv' := by
  have := C101_state key iv key' iv' hk hv hk' hv' s s' e e' 0
  exact this

theorem cipher_gen {count : BitVec 32} {bearer : Byte} {direction : Bool} {ck : Bytes} (hk : ck.length = 16) {s : ZUCCipher.State}
    (e : ZUCCipher.fromSlice count bearer direction ck = .ok s) :
    ZUC.fromSlice ck (Spec.ZUC.eea3Iv count (bearer.setWidth 5) (BitVec.ofBool direction)) = .ok s.zuc := by
  rw [ZUCCipher.fromSlice, if_neg (by omega)] at e
  obtain ⟨z, ez, _⟩ := ZUC.fromSlice_R hk (ZUCCipher.length_mkIv count bearer direction)
  simp only [bind, Except.bind, ez, Except.ok.injEq] at e
  rw [← ZUCCipher.mkIv_eq, ez, ← e]

theorem mac_gen {count : BitVec 32} {bearer : Byte} {direction : Bool} {ck : Bytes} (hk : ck.length = 16) {s : ZUCMac.State}
    (e : ZUCMac.fromSlice count bearer direction ck = .ok s) :
    ZUC.fromSlice ck (Spec.ZUC.eia3Iv count (bearer.setWidth 5) (BitVec.ofBool direction)) = .ok s.zuc := by
  have hl := ZUCMac.length_eia3Iv count (bearer.setWidth 5) (BitVec.ofBool direction)
  rw [ZUCMac.fromSlice, if_neg (by omega), ZUCMac.mkIv_eq] at e
  obtain ⟨z, ez, _⟩ := ZUC.fromSlice_R hk hl
  simp only [bind, Except.bind, ez, Except.ok.injEq] at e
  rw [ez, ← e]

theorem ofBool_inj {a b : Bool} : BitVec.ofBool a = BitVec.ofBool b ↔ a = b := by cases a <;> cases b <;> decide

/-- C101: two new cipher objects hold the same generator exactly if key, count and direction are equal and the bearers are equal modulo
32, and the same for two new MAC objects. A cipher object and a MAC object hold the same generator exactly if key, count, bearer modulo 32
are equal and both directions are `false`. -/
theorem C101_params (ck ck' : Bytes) (hk : ck.length = 16) (hk' : ck'.length = 16) (count count' : BitVec 32) (bearer bearer' : Byte)
    (direction direction' : Bool) (s s' : ZUCCipher.State) (t t' : ZUCMac.State)
    (es : ZUCCipher.fromSlice count bearer direction ck = .ok s) (es' : ZUCCipher.fromSlice count' bearer' direction' ck' = .ok s')
    (et : ZUCMac.fromSlice count bearer direction ck = .ok t) (et' : ZUCMac.fromSlice count' bearer' direction' ck' = .ok t') :
    (s.zuc = s'.zuc ↔ ck = ck' ∧ count = count' ∧ bearer.toNat % 32 = bearer'.toNat % 32 ∧ direction = direction') ∧
    (t.zuc = t'.zuc ↔ ck = ck' ∧ count = count' ∧ bearer.toNat % 32 = bearer'.toNat % 32 ∧ direction = direction') ∧
    (s.zuc = t'.zuc ↔ ck = ck' ∧ count = count' ∧ bearer.toNat % 32 = bearer'.toNat % 32 ∧ direction = false ∧ direction' = false) := by
  have gs := cipher_gen hk es
  have gs' := cipher_gen hk' es'
  have gt := mac_gen hk et
  have gt' := mac_gen hk' et'
  have l1 := length_eea3Iv count (bearer.setWidth 5) (BitVec.ofBool direction)
  have l1' := length_eea3Iv count' (bearer'.setWidth 5) (BitVec.ofBool direction')
  have l2 := ZUCMac.length_eia3Iv count (bearer.setWidth 5) (BitVec.ofBool direction)
  have l2' := ZUCMac.length_eia3Iv count' (bearer'.setWidth 5) (BitVec.ofBool direction')
  have f0 : ∀ b : Bool, BitVec.ofBool b = 0#1 ↔ b = false := by decide
  refine ⟨?_, ?_, ?_⟩
  · rw [gen_eq hk l1 hk' l1' gs gs']
    constructor
    · rintro ⟨rfl, h⟩
      obtain ⟨h1, h2, h3⟩ := Spec.ZUC.eea3Iv_inj h
      exact ⟨rfl, h1, Spec.ZUC.setWidth5.1 h2, ofBool_inj.1 h3⟩
    · rintro ⟨rfl, rfl, h2, rfl⟩
      rw [Spec.ZUC.setWidth5.2 h2]
      exact ⟨rfl, rfl⟩
  · rw [gen_eq hk l2 hk' l2' gt gt']
    constructor
    · rintro ⟨rfl, h⟩
      obtain ⟨h1, h2, h3⟩ := Spec.ZUC.eia3Iv_inj h
      exact ⟨rfl, h1, Spec.ZUC.setWidth5.1 h2, ofBool_inj.1 h3⟩
    · rintro ⟨rfl, rfl, h2, rfl⟩
      rw [Spec.ZUC.setWidth5.2 h2]
      exact ⟨rfl, rfl⟩
  · rw [gen_eq hk l1 hk' l2' gs gt', Spec.ZUC.eea3Iv_eia3Iv, f0, f0, Spec.ZUC.setWidth5]

/-- The hypotheses are met by two objects with bearers 1 and 33, which hold the same generator. -/
example : ∃ s s' : ZUCCipher.State, ZUCCipher.fromSlice 7#32 1#8 true (List.replicate 16 9#8) = .ok s ∧
    ZUCCipher.fromSlice 7#32 33#8 true (List.replicate 16 9#8) = .ok s' ∧ s.zuc = s'.zuc := by
  obtain ⟨s, e, _⟩ := ZUCCipher.fromSlice_at 7#32 1#8 true (ck := List.replicate 16 9#8) (by simp)
  obtain ⟨s', e', _⟩ := ZUCCipher.fromSlice_at 7#32 33#8 true (ck := List.replicate 16 9#8) (by simp)
  obtain ⟨t, f, _⟩ := ZUCMac.fromSlice_fresh 7#32 1#8 true (ck := List.replicate 16 9#8) (by simp)
  obtain ⟨t', f', _⟩ := ZUCMac.fromSlice_fresh 7#32 33#8 true (ck := List.replicate 16 9#8) (by simp)
  exact ⟨s, s', e, e', (C101_params _ _ (by simp) (by simp) _ _ _ _ _ _ s s' t t' e e' f f').1.2 (by decide)⟩

/-- C101, "a MAC object stays unforgeable if a cipher object with the same parameters is used" is false for direction `false`: from any
plaintext and its ciphertext anybody computes, without the key, the tag of every message at least 16 bytes shorter. -/
theorem C101_cipher_mac_refuted (ck : Bytes) (hk : ck.length = 16) (count : BitVec 32) (bearer : Byte) (p m : Bytes)
    (hl : m.length + 16 ≤ p.length) :
    ∃ s t c k, ZUCCipher.fromSlice count bearer false ck = .ok s ∧ ZUCMac.fromSlice count bearer false ck = .ok t ∧
      runCipher s [.encrypt p] = .ok [(c, k)] ∧
      outputs (runDigest ZUCMac.digest t [.write m, .checksum]) = some [Spec.ZUC.tagFrom (xorBytes p c) m] := by
  obtain ⟨s, e, h⟩ := ZUCCipher.fromSlice_at count bearer false hk
  obtain ⟨h1, -⟩ := runCipher_at hk (length_eea3Iv _ _ _) [.encrypt p] 0 s h
  obtain ⟨t, e', h2, -⟩ := C40_mac_partial count bearer false ck hk [] m
  refine ⟨s, t, _, _, e, e', h1, ?_⟩
  have hx : xorBytes p (Spec.ZUC.xorFrom ck (Spec.ZUC.eea3Iv count (bearer.setWidth 5) (BitVec.ofBool false)) 0 p) =
      ZUCCipher.ks ck (Spec.ZUC.eea3Iv count (bearer.setWidth 5) (BitVec.ofBool false)) 0 p.length := by
    apply List.ext_getElem
    · simp [xorBytes, length_xorFrom]
    · intro i g1 g2
      have hi : i < p.length := by simpa using g2
      simp only [xorBytes, List.getElem_zipWith, getElem_xorFrom _ _ _ _ _ hi, ZUCCipher.ks, List.getElem_map, List.getElem_range]
      rw [← BitVec.xor_assoc, BitVec.xor_self, BitVec.zero_xor]
  have hi : Spec.ZUC.eea3Iv count (bearer.setWidth 5) (BitVec.ofBool false) = Spec.ZUC.eia3Iv count (bearer.setWidth 5) (BitVec.ofBool false) :=
    Spec.ZUC.eea3Iv_eia3Iv.2 ⟨rfl, rfl, rfl, rfl⟩
  rw [hx, hi, Spec.ZUC.tagFrom_ks _ _ _ hl, h2]

/-- The tag of one zero byte under the zero key (`zucMacRun` in `Verif.Props.ZUC`), computed from 20 known key stream bytes. -/
example : Spec.ZUC.tagFrom [0x27, 0xbe, 0xde, 0x74, 0x01, 0x80, 0x82, 0xda, 0x87, 0xd4, 0xe5, 0xb6, 0x9f, 0x18, 0xbf, 0x66, 0x32, 0x07, 0x0e, 0x0f] [0] =
    [0x39, 0x0a, 0x91, 0xb7] := by decide +kernel

end Verif.Props
