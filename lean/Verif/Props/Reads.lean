import Verif.Proof.ReadsMore

/-!
Property C99: what the table reads of the block ciphers tell about key and block

`(encryptAES a b).evs` and the like are the lists of the reads (table and index) that the key schedules and block functions make at indices that
depend on data (`Model/Reads`).
-/

namespace Verif.Props
open Verif.Model Verif.Model.Reads

/-- C99: the computations that are observed are the computations of the other theorems: they have the same results. -/
theorem C99_values (key b : Bytes) :
    ((newAES key).map Log.val = (AES.new key).toOption ∧ (newSM4 key).map Log.val = (SM4.fromSlice key).toOption) ∧
    (b.length = 16 → (∀ a, AES.new key = .ok a → (AES.cipher a).encrypt b = .ok (encryptAES a b).val ∧ (AES.cipher a).decrypt b = .ok (decryptAES a b).val) ∧
      ∀ s, SM4.fromSlice key = .ok s → (SM4.cipher s).encrypt b = .ok (encryptSM4 s b).val ∧ (SM4.cipher s).decrypt b = .ok (decryptSM4 s b).val) ∧
    (b.length = 8 → (DES.cipher (DES.new key)).encrypt b = .ok (cryptDES (DES.new key) b true).val ∧
      (DES.cipher (DES.new key)).decrypt b = .ok (cryptDES (DES.new key) b false).val) := by
  refine ⟨⟨?_, ?_⟩, fun hb => ⟨fun a _ => ⟨?_, ?_⟩, fun s _ => ⟨?_, ?_⟩⟩, fun hb => ⟨?_, ?_⟩⟩
  · unfold newAES AES.new
    split
    · next e => rw [e, Option.map_some, keyScheduleL_val]; rfl
    · next e => rw [e]; rfl
  · unfold newSM4 SM4.fromSlice
    split
    · rfl
    · rw [Option.map_some, val_bind, val_pure, sm4SchedL_val]; rfl
  · rw [encryptAES_val]; exact if_pos hb
  · rw [decryptAES_val]; exact if_pos hb
  · exact edInnerL_val b _ hb
  · exact edInnerL_val b _ hb
  · rw [cryptDES_val]; exact if_pos hb
  · rw [cryptDES_val]; exact if_pos hb

/-- C99, the part that holds: which tables are read, how often and in which order does not depend on the key (only on its length) and the block. Full
statement: the same of the entries that are read; that is false, see below. -/
theorem C99_tables_partial :
    (∀ (k k' b b' : Bytes) (a a' : AES), AES.new k = .ok a → AES.new k' = .ok a' → k.length = k'.length →
      (encryptAES a b).evs.map Read.tab = (encryptAES a' b').evs.map Read.tab ∧ (decryptAES a b).evs.map Read.tab = (decryptAES a' b').evs.map Read.tab) ∧
    (∀ (k k' : Bytes) (l l' : Log AES), newAES k = some l → newAES k' = some l' → k.length = k'.length → l.evs.map Read.tab = l'.evs.map Read.tab) ∧
    (∀ (k k' : Bytes) (l l' : Log SM4), newSM4 k = some l → newSM4 k' = some l' → l.evs.map Read.tab = l'.evs.map Read.tab) ∧
    (∀ (s s' : SM4) (b b' : Bytes), (encryptSM4 s b).evs.map Read.tab = (encryptSM4 s' b').evs.map Read.tab ∧
      (decryptSM4 s b).evs.map Read.tab = (decryptSM4 s' b').evs.map Read.tab) ∧
    ∀ (d d' : DES) (b b' : Bytes) (e e' : Bool), (cryptDES d b e).evs.map Read.tab = (cryptDES d' b' e').evs.map Read.tab := by
  refine ⟨?_, ?_, ?_, ?_, ?_⟩
  · intro k k' b b' a a' h h' hl
    have : a.nr = a'.nr := by
      have := (AES.new_spec k a h).2.1
      have := (AES.new_spec k' a' h').2.1
      omega
    rw [encryptAES_tab, encryptAES_tab, decryptAES_tab, decryptAES_tab, this]
    exact ⟨rfl, rfl⟩
  · intro k k' l l' h h' hl
    obtain ⟨-, nk, nr, e, rfl⟩ := newAES_some h
    obtain ⟨-, nk', nr', e', rfl⟩ := newAES_some h'
    rw [hl, e'] at e
    injection e with e
    injection e with e1 e2
    subst e1 e2
    rw [keyScheduleL_tab, keyScheduleL_tab]
  · intro k k' l l' h h'
    rw [(newSM4_some h).2.2, (newSM4_some h').2.2, sm4SchedL_tab, sm4SchedL_tab]
  · intro s s' b b'
    simp only [encryptSM4, decryptSM4, edInnerL_tab, and_self]
  · intro d d' b b' e e'
    rw [cryptDES_tab, cryptDES_tab]

/-- Objects to which this applies. -/
example : (AES.new (List.replicate 24 7#8)).isOk ∧ (newAES (List.replicate 32 9#8)).isSome ∧ (newSM4 (List.replicate 16 1#8)).isSome := by decide +kernel

/-- C99: the first sixteen indices of an AES encryption are the bytes of the block, each combined with the byte of the key at its place. -/
theorem C99_aes_first (key b : Bytes) (a : AES) (h : AES.new key = .ok a) (hb : b.length = 16) :
    (encryptAES a b).evs.take 16 = (List.range 16).map fun i => ⟨.te (i % 4), (b.getD (5 * i % 16) 0#8 ^^^ key.getD (5 * i % 16) 0#8).toNat⟩ :=
  first_reads h hb

/-- C99 is false for AES: someone who sees which table entries one encryption reads knows the key and the block, whatever they are. -/
theorem C99_aes_encrypt_refuted (key key' b b' : Bytes) (a a' : AES) (h : AES.new key = .ok a) (h' : AES.new key' = .ok a')
    (hb : b.length = 16) (hb' : b'.length = 16) : (encryptAES a b).evs = (encryptAES a' b').evs ↔ key = key' ∧ b = b' := by
  refine ⟨encrypt_keys h h' hb hb', ?_⟩
  rintro ⟨rfl, rfl⟩
  rw [h] at h'
  injection h' with h'
  rw [h']

/-- The same for one decryption. -/
theorem C99_aes_decrypt_refuted (key key' b b' : Bytes) (a a' : AES) (h : AES.new key = .ok a) (h' : AES.new key' = .ok a')
    (hb : b.length = 16) (hb' : b'.length = 16) : (decryptAES a b).evs = (decryptAES a' b').evs ↔ key = key' ∧ b = b' := by
  refine ⟨decrypt_keys h h' hb hb', ?_⟩
  rintro ⟨rfl, rfl⟩
  rw [h] at h'
  injection h' with h'
  rw [h']

/-- And making the object gives the key away. -/
theorem C99_aes_new_refuted (key key' : Bytes) (l l' : Log AES) (h : newAES key = some l) (h' : newAES key' = some l') : l.evs = l'.evs ↔ key = key' := by
  refine ⟨new_keys h h', ?_⟩
  rintro rfl
  rw [h] at h'
  injection h' with h'
  rw [h']

/-- C99 is false for AES even if only blocks of `2^m` neighbouring entries can be told apart (cache lines of 64 bytes: `m = 4`): one encryption of a known
block gives the upper `8 - m` bits of each of the first sixteen bytes of the key away. -/
theorem C99_aes_lines_refuted (m : ℕ) (key key' b : Bytes) (a a' : AES) (h : AES.new key = .ok a) (h' : AES.new key' = .ok a') (hb : b.length = 16)
    (e : (encryptAES a b).evs.map (fun r => (r.tab, r.idx / 2 ^ m)) = (encryptAES a' b).evs.map fun r => (r.tab, r.idx / 2 ^ m)) :
    ∀ i < 16, key.getD i 0#8 >>> m = key'.getD i 0#8 >>> m := by
  have e := congrArg (List.take 16) e
  rw [← List.map_take, ← List.map_take, C99_aes_first key b a h hb, C99_aes_first key' b a' h' hb, List.map_map, List.map_map, List.map_inj_left] at e
  intro i hi
  have := e (13 * i % 16) (by simp; omega)
  simp only [Function.comp, show 5 * (13 * i % 16) % 16 = i by omega, Prod.mk.injEq, true_and, ← Nat.shiftRight_eq_div_pow, ← BitVec.toNat_ushiftRight] at this
  have := BitVec.eq_of_toNat_eq this
  rw [BitVec.ushiftRight_xor_distrib, BitVec.ushiftRight_xor_distrib] at this
  have := congrArg (b.getD i 0#8 >>> m ^^^ ·) this
  simpa [← BitVec.xor_assoc] using this

/-- Two keys that differ in one bit are told apart by the lines, whatever the block is. -/
example (b : Bytes) (hb : b.length = 16) (a a' : AES) (h : AES.new (List.replicate 16 0x10#8) = .ok a) (h' : AES.new (0x30#8 :: List.replicate 15 0x10#8) = .ok a') :
    (encryptAES a b).evs.map (fun r => (r.tab, r.idx / 2 ^ 4)) ≠ (encryptAES a' b).evs.map fun r => (r.tab, r.idx / 2 ^ 4) := by
  intro e
  have := C99_aes_lines_refuted 4 _ _ b a a' h h' hb e 0 (by decide)
  revert this
  decide

/-- There are such objects. -/
example : (AES.new (List.replicate 16 0x10#8)).isOk ∧ (AES.new (0x30#8 :: List.replicate 15 0x10#8)).isOk := by decide +kernel

/-- C99 is false for SM4: making the object gives the key away. -/
theorem C99_sm4_new_refuted (key key' : Bytes) (l l' : Log SM4) (h : newSM4 key = some l) (h' : newSM4 key' = some l') : l.evs = l'.evs ↔ key = key' := by
  refine ⟨newSM4_inj h h', ?_⟩
  rintro rfl
  rw [h] at h'
  injection h' with h'
  rw [h']

/-- And so does one encryption or decryption of a known block. -/
theorem C99_sm4_refuted (key key' b : Bytes) (s s' : SM4) (h : SM4.fromSlice key = .ok s) (h' : SM4.fromSlice key' = .ok s') :
    ((encryptSM4 s b).evs = (encryptSM4 s' b).evs ↔ key = key') ∧ ((decryptSM4 s b).evs = (decryptSM4 s' b).evs ↔ key = key') := by
  obtain ⟨hl, hk⟩ := fromSlice_ok h
  obtain ⟨hl', hk'⟩ := fromSlice_ok h'
  have back : key = key' → s = s' := by
    rintro rfl
    rw [h] at h'
    injection h'
  refine ⟨⟨fun e => ?_, fun e => by rw [back e]⟩, ⟨fun e => ?_, fun e => by rw [back e]⟩⟩
  · have e := edInnerL_inj e
    refine roundKey_key hl hl' fun i hi => ?_
    rw [← hk i (by omega), ← hk' i (by omega)]
    exact e i (by omega)
  · have e := edInnerL_inj e
    refine roundKey_key hl hl' fun i hi => ?_
    have := e (31 - i) (by omega)
    simp only [show 31 - (31 - i) = i by omega] at this
    rw [← hk i (by omega), ← hk' i (by omega), this]

/-- Two keys that differ in one bit. -/
example (b : Bytes) (s s' : SM4) (h : SM4.fromSlice (List.replicate 16 0#8) = .ok s) (h' : SM4.fromSlice (1#8 :: List.replicate 15 0#8) = .ok s') :
    (encryptSM4 s b).evs ≠ (encryptSM4 s' b).evs := by
  rw [Ne, (C99_sm4_refuted _ _ b s s' h h').1]
  decide

/-- C99 is false for DES: one encryption or decryption of a known block gives the key away, all but the parity bits that are not used (C61). -/
theorem C99_des_refuted (key key' b : Bytes) (enc : Bool) : (cryptDES (DES.new key) b enc).evs = (cryptDES (DES.new key') b enc).evs ↔
    ∀ i < 8, key.getD i 0#8 >>> 1 = key'.getD i 0#8 >>> 1 :=
  des_reads key key' b enc

/-- Two keys that differ in one bit, and two that differ in a parity bit. -/
example (b : Bytes) : (cryptDES (DES.new (List.replicate 8 0#8)) b true).evs ≠ (cryptDES (DES.new (2#8 :: List.replicate 7 0#8)) b true).evs ∧
    (cryptDES (DES.new (List.replicate 8 0#8)) b true).evs = (cryptDES (DES.new (1#8 :: List.replicate 7 0#8)) b true).evs := by
  rw [Ne, C99_des_refuted, C99_des_refuted]
  decide

end Verif.Props
