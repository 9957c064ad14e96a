import Verif.Proof.Lengths
import Verif.Props.Facade
import Verif.Props.MAC
import Verif.Props.ZUC

/-! # The length an object reports is the length of what it returns: C70 -/

namespace Verif.Props
open Verif.Model Verif.Model.Facade

/-- After every history of calls that does not fail, `checksum` returns as many bytes as needed for the number of bits which the object
reports at that moment. -/
def ReportsLength {S : Type} (d : Digest S) (s : S) : Prop :=
  ∀ ops s' xs s'' x, runDigest d s ops = .ok (s', xs) → d.checksum s' = .ok (s'', x) → x.length = (d.bitsLen s' + 7) / 8

/-- C70 for MD5, SHA-1, SHA-2 and SM3, in every state (whatever its history). -/
theorem C70_iterated : (∀ s, ReportsLength MD5.digest s) ∧ (∀ s, ReportsLength SHA1.digest s) ∧ (∀ s, ReportsLength SHA2.sha224 s) ∧
    (∀ s, ReportsLength SHA2.sha256 s) ∧ (∀ s, ReportsLength SHA2.sha384 s) ∧ (∀ s, ReportsLength SHA2.sha512 s) ∧
    (∀ s, ReportsLength SHA2.sha512t224 s) ∧ (∀ s, ReportsLength SHA2.sha512t256 s) ∧ (∀ s, ReportsLength SM3.digest s) :=
  ⟨fun _ _ _ _ _ _ _ e => (MD5.len _ _ _ e).trans (show 16 = (128 + 7) / 8 by decide),
    fun _ _ _ _ _ _ _ e => (SHA1.len _ _ _ e).trans (show 20 = (160 + 7) / 8 by decide),
    fun _ _ _ _ _ _ _ e => (SHA2.len256 _ 28 (by decide) _ _ _ e).trans (show 28 = (28 * 8 + 7) / 8 by decide),
    fun _ _ _ _ _ _ _ e => (SHA2.len256 _ 32 (by decide) _ _ _ e).trans (show 32 = (32 * 8 + 7) / 8 by decide),
    fun _ _ _ _ _ _ _ e => (SHA2.len512 _ 48 (by decide) _ _ _ e).trans (show 48 = (48 * 8 + 7) / 8 by decide),
    fun _ _ _ _ _ _ _ e => (SHA2.len512 _ 64 (by decide) _ _ _ e).trans (show 64 = (64 * 8 + 7) / 8 by decide),
    fun _ _ _ _ _ _ _ e => (SHA2.len512 _ 28 (by decide) _ _ _ e).trans (show 28 = (28 * 8 + 7) / 8 by decide),
    fun _ _ _ _ _ _ _ e => (SHA2.len512 _ 32 (by decide) _ _ _ e).trans (show 32 = (32 * 8 + 7) / 8 by decide),
    fun _ _ _ _ _ _ _ e => (SM3.len _ _ _ e).trans (show 32 = (256 + 7) / 8 by decide)⟩

/-- C70 for SHA-512/t with any `t`, also when `t` is not a multiple of 8. -/
theorem C70_sha512t (t : Nat) (n : SHA2.T) (h : SHA2.newT t = .ok (some n)) : SHA2.digestT.bitsLen n = t ∧ ReportsLength SHA2.digestT n := by
  have ht : t ≤ 512 := by
    by_contra hb
    unfold SHA2.newT at h
    rw [if_neg hb] at h
    cases h
  obtain ⟨q, e, -⟩ := SHA2.newT_eq t ht
  rw [e] at h
  simp only [Except.ok.injEq, Option.some.injEq] at h
  subst h
  refine ⟨rfl, fun ops s' xs s'' x h1 h2 => ?_⟩
  have hb : s'.bitsLen = t := SHA2.runT_bits t ops _ s' xs rfl h1
  have := SHA2.lenT t ht s' s'' hb x h2
  rw [this.1, ← hb]; rfl

/-- C70 for SHA-3, histories with `write_bit` included. -/
theorem C70_sha3 (d : Nat) (hd : d = 224 ∨ d = 256 ∨ d = 384 ∨ d = 512) :
    ∃ s, SHA3.new d = .ok s ∧ SHA3.digest.bitsLen s = d ∧ ∀ ops s' xs s'' x, runSHA3 s ops = .ok (s', xs) → SHA3.checksum s' = .ok (s'', x) →
      SHA3.digest.bitsLen s' = d ∧ x.length = (d + 7) / 8 := by
  obtain ⟨s, e, i⟩ := SHA3.new_inv d (by omega)
  refine ⟨s, e, i.len, fun ops s' xs s'' x h1 h2 => ?_⟩
  obtain ⟨m, dn, i'⟩ := SHA3.runSHA3_inv (by omega) (by omega) ops s s' xs _ _ i h1
  obtain ⟨q, e', -⟩ := SHA3.checksum_ok (by omega) (by omega) i'
  rw [e'] at h2
  simp only [Except.ok.injEq, Prod.mk.injEq] at h2
  rw [← h2.2, SHA3.F_length]
  exact ⟨i'.len, rfl⟩

/-- C70 for SHAKE and RawSHAKE: after any history, changes of the output length included, the output has the reported length. -/
theorem C70_shake (sec : Nat) (hs : sec = 128 ∨ sec = 256) (d : Nat) :
    ∃ s, SHA3.newShake sec d = .ok s ∧ ∀ s0, s0 = s ∨ s0 = SHA3.toRaw s → SHA3.digestShake.bitsLen s0 = d ∧
      ∀ ops s' xs s'' x, runSHAKE s0 ops = .ok (s', xs) → SHA3.checksum s' = .ok (s'', x) → x.length = (SHA3.digestShake.bitsLen s' + 7) / 8 := by
  obtain ⟨s, e, i⟩ := SHA3.newShake_inv sec d (by omega)
  refine ⟨s, e, fun s0 h0 => ?_⟩
  have : ∃ sfx, SHA3.Inv (1600 - 2 * sec) sfx d s0 [] false := by
    rcases h0 with rfl | rfl
    · exact ⟨_, i⟩
    · exact ⟨_, SHA3.toRaw_inv i⟩
  obtain ⟨sfx, i0⟩ := this
  refine ⟨i0.len, fun ops s' xs s'' x h1 h2 => ?_⟩
  obtain ⟨d', m, dn, i'⟩ := SHA3.runSHAKE_inv (by omega) (by omega) ops s0 s' xs _ _ _ i0 h1
  obtain ⟨q, e', -⟩ := SHA3.checksum_ok (by omega) (by omega) i'
  rw [e'] at h2
  simp only [Except.ok.injEq, Prod.mk.injEq] at h2
  rw [← h2.2, SHA3.F_length, ← i'.len]; rfl

/-- C70: after `set_digest_len(n)` a SHAKE object reports `n`. -/
theorem C70_shake_set (s s' : SHA3.State) (n : Nat) (h : SHA3.setDigestLen s n = .ok s') : SHA3.digestShake.bitsLen s' = n := by
  simp only [SHA3.setDigestLen, SHA3.reset, Except.ok.injEq] at h
  rw [← h]; rfl

/-- C70 for HMAC over any hash object that implements a hash function: the tag has the reported length. -/
theorem C70_hmac {S : Type} {d : Digest S} {H : Bytes → Bytes} {b size : Nat} {Abs Chk : S → Bytes → Prop}
    (L : LawfulDigest d H (some b) size Abs Chk) (hs : size ≤ b) (hb : b < 2 ^ 63) (df : S) (x : Bytes) (hdf : Abs df x ∨ Chk df x)
    (key : Bytes) (hk : key.length < 2 ^ 64) (ops : List DOp) (hl : b + written ops < 2 ^ 64) :
    ∃ s s' xs, HMAC.new d key df = .ok s ∧ (HMAC.digest d).bitsLen s = 8 * size ∧ runDigest (HMAC.digest d) s ops = .ok (s', xs) ∧
      (HMAC.digest d).bitsLen s' = 8 * size ∧ ∀ y ∈ xs, y.length = size := by
  obtain ⟨s, e, i⟩ := HMAC.new_ok L hs key hk df x hdf
  obtain ⟨s', m, dn, e', i'⟩ := (HMAC.lawful L hs hb key).run ops s [] false i (by simp; omega)
  have hlen : ∀ (ops : List DOp) (m : Bytes) (dn : Bool), ∀ y ∈ Spec.idealTags (Spec.hmac H b key) m dn ops, y.length = size := by
    intro ops
    induction ops with
    | nil => intro m dn y hy; cases hy
    | cons op rest ih =>
      intro m dn y hy
      cases op with
      | write z => exact ih _ _ y hy
      | reset => exact ih _ _ y hy
      | checksum =>
        simp only [Spec.idealTags, List.mem_cons] at hy
        rcases hy with rfl | hy
        · exact L.length _
        · exact ih _ _ y hy
  obtain ⟨z, hz⟩ := i.any
  obtain ⟨z', hz'⟩ := i'.any
  exact ⟨s, s', _, e, L.bitsLen _ _ hz, e', L.bitsLen _ _ hz', hlen ops [] false⟩

/-- C70 for CMAC over any lawful block cipher of an accepted block size: the tag is one block, as reported. -/
theorem C70_cmac (c : BlockCipher) (E D : Bytes → Bytes) (L : Lawful c E D) (b : Nat) (hcb : c.blockSize = some b) (s : CMAC.State)
    (hn : CMAC.new c = .ok s) (ops : List DOp) :
    CMAC.digest.bitsLen s = 8 * b ∧ ∃ s' xs, runDigest CMAC.digest s ops = .ok (s', xs) ∧ CMAC.digest.bitsLen s' = 8 * b ∧ ∀ y ∈ xs, y.length = b := by
  have hbs : c.bs = b := by rw [BlockCipher.bs, hcb]; rfl
  subst hbs
  obtain ⟨rb, hrb⟩ : ∃ rb, CMAC.blockSizeToRb c.bs = some rb := by
    cases h : CMAC.blockSizeToRb c.bs with
    | some rb => exact ⟨rb, rfl⟩
    | none =>
      unfold CMAC.new at hn
      rw [hcb] at hn
      simp only [h] at hn
      cases hn
  obtain ⟨s0, e, i⟩ := CMAC.new_ok L hcb rb hrb
  rw [hn] at e
  simp only [Except.ok.injEq] at e
  subst e
  obtain ⟨s', m, dn, e', i'⟩ := (CMAC.lawful L hcb rb.toNat (written ops + 1)).run ops s [] false i (by simp)
  have hlen : ∀ (ops : List DOp) (m : Bytes) (dn : Bool), ∀ y ∈ Spec.idealTags (Spec.CMAC.mac E c.bs rb.toNat) m dn ops, y.length = c.bs := by
    intro ops
    induction ops with
    | nil => intro m dn y hy; cases hy
    | cons op rest ih =>
      intro m dn y hy
      cases op with
      | write z => exact ih _ _ y hy
      | reset => exact ih _ _ y hy
      | checksum =>
        simp only [Spec.idealTags, List.mem_cons] at hy
        rcases hy with rfl | hy
        · exact CMAC.mac_length L _ _
        · exact ih _ _ y hy
  have hbits : ∀ s : CMAC.State, s.cipher = c → CMAC.digest.bitsLen s = 8 * c.bs := by
    intro s h
    show s.cipher.blockSize.getD 0 * 8 = _
    rw [h, hcb]; simp only [Option.getD_some]; omega
  exact ⟨hbits s i.1, s', _, e', hbits s' i'.1, hlen ops [] false⟩

/-- C70 for the ZUC MAC, in every state. -/
theorem C70_zuc (s : ZUCMac.State) : ReportsLength ZUCMac.digest s := by
  intro ops s' xs s'' x _ e
  simp only [ZUCMac.digest, ZUCMac.checksum, Except.ok.injEq, Prod.mk.injEq] at e
  rw [← e.2]; exact (show 4 = (32 + 7) / 8 by decide)

/-- C70 for the enumeration `SHA`: SHA-512/t is the only member for which the length depends on the object. -/
theorem C70_sha_facade (o : SHA) (H : Bytes → Bytes) (bs size : Nat) (hm : (o, H, bs, size) ∈ shaTable) : ReportsLength sha o := by
  have key : ∀ {S : Type} (d : Digest S) (f : S → SHA) (s : S), (∀ ops s, runDigest sha (f s) ops = lift f (runDigest d s ops)) →
      (∀ s, sha.bitsLen (f s) = d.bitsLen s) → (∀ s, sha.checksum (f s) = (d.checksum s).map fun p => (f p.1, p.2)) → ReportsLength d s →
      ReportsLength sha (f s) := by
    intro S d f s h1 h2 h3 h4 ops s' xs s'' x e1 e2
    rw [h1] at e1
    cases hr : runDigest d s ops with
    | error e => rw [hr] at e1; cases e1
    | ok p =>
      obtain ⟨q, ys⟩ := p
      rw [hr] at e1
      simp only [lift, Except.map, Except.ok.injEq, Prod.mk.injEq] at e1
      rw [← e1.1, h3] at e2
      rw [← e1.1, h2]
      cases hc : d.checksum q with
      | error e => rw [hc] at e2; cases e2
      | ok p =>
        obtain ⟨q', y⟩ := p
        rw [hc] at e2
        simp only [Except.map, Except.ok.injEq, Prod.mk.injEq] at e2
        rw [← e2.2]
        exact h4 ops q ys q' y hr hc
  obtain ⟨-, c1, c224, c256, c384, c512, t224, t256, -⟩ := C70_iterated
  simp only [shaTable, List.mem_cons, Prod.mk.injEq, List.not_mem_nil, or_false] at hm
  rcases hm with ⟨rfl, -⟩ | ⟨rfl, -⟩ | ⟨rfl, -⟩ | ⟨rfl, -⟩ | ⟨rfl, -⟩ | ⟨rfl, -⟩ | ⟨rfl, -⟩
  · exact key SHA1.digest .sha1 _ (fun ops s => run_sha1 ops s) (fun _ => rfl) (fun s => by simp only [sha]; cases SHA1.digest.checksum s <;> rfl) (c1 _)
  · exact key SHA2.sha224 .sha224 _ (fun ops s => run_sha224 ops s) (fun _ => rfl) (fun s => by simp only [sha]; cases SHA2.sha224.checksum s <;> rfl) (c224 _)
  · exact key SHA2.sha256 .sha256 _ (fun ops s => run_sha256 ops s) (fun _ => rfl) (fun s => by simp only [sha]; cases SHA2.sha256.checksum s <;> rfl) (c256 _)
  · exact key SHA2.sha384 .sha384 _ (fun ops s => run_sha384 ops s) (fun _ => rfl) (fun s => by simp only [sha]; cases SHA2.sha384.checksum s <;> rfl) (c384 _)
  · exact key SHA2.sha512 .sha512 _ (fun ops s => run_sha512 ops s) (fun _ => rfl) (fun s => by simp only [sha]; cases SHA2.sha512.checksum s <;> rfl) (c512 _)
  · exact key SHA2.sha512t224 .sha512t224 _ (fun ops s => run_sha512t224 ops s) (fun _ => rfl)
      (fun s => by simp only [sha]; cases SHA2.sha512t224.checksum s <;> rfl) (t224 _)
  · exact key SHA2.sha512t256 .sha512t256 _ (fun ops s => run_sha512t256 ops s) (fun _ => rfl)
      (fun s => by simp only [sha]; cases SHA2.sha512t256.checksum s <;> rfl) (t256 _)

/-- Non-vacuity: SHA-512/9 returns two bytes; a SHAKE128 object set to 13 bits returns two bytes; the MAC of ZUC four. -/
example : (match SHA2.newT 9 with
    | .ok (some n) => (outputs (runDigest SHA2.digestT n [.write [0x61#8], .checksum])).map fun l => l.map List.length
    | _ => none) = some [2] := by decide +kernel
example : (match ZUCMac.fromSlice 0#32 0#8 false (List.replicate 16 0#8) with
    | .ok s => (outputs (runDigest ZUCMac.digest s [.write [0x61#8], .checksum])).map fun l => l.map List.length
    | _ => none) = some [4] := by decide +kernel

end Verif.Props
