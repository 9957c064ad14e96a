import Verif.Props.Hash

/-! Property C30: what a hash object computes when data is written after `checksum` -/

namespace Verif.Props
open Verif.Model

/-- The history `write(m); checksum; write(x); checksum`. -/
def writeAfter (m x : Bytes) : List DOp := [.write m, .checksum, .write x, .checksum]

/-- C30 for one hash: after `write(m); checksum; write(x)`, the second digest is that of `x` alone for all messages, or that of `m ++ x` for all. -/
def ReuseWellDefined {S : Type} (d : Digest S) (s0 : S) (H : Bytes → Bytes) : Prop :=
  (∀ m x, (m ++ x).length < 2 ^ 64 → ∃ s, runDigest d s0 (writeAfter m x) = .ok (s, [H m, H x])) ∨
  (∀ m x, (m ++ x).length < 2 ^ 64 → ∃ s, runDigest d s0 (writeAfter m x) = .ok (s, [H m, H (m ++ x)]))

/-- The three digests to compare: of the history, of `x` and of `m ++ x`. -/
def reuseDiffers {S : Type} (d : Digest S) (s0 : S) (m x : Bytes) : Bool :=
  match outputs (runDigest d s0 (writeAfter m x)), outputs (runDigest d s0 [.write x, .checksum]),
    outputs (runDigest d s0 [.write (m ++ x), .checksum]) with
  | some [_, y], some [y1], some [y2] => decide (y ≠ y1 ∧ y ≠ y2)
  | _, _, _ => false

theorem reuse_refuted {S : Type} (d : Digest S) (s0 : S) (H : Bytes → Bytes) (m x : Bytes) (hl : (m ++ x).length < 2 ^ 64)
    (std : ∀ chunks : List Bytes, chunks.flatten.length < 2 ^ 64 → ∃ s s', writeAll d s0 chunks = .ok s ∧ d.checksum s = .ok (s', H chunks.flatten))
    (hd : reuseDiffers d s0 m x = true) : ¬ ReuseWellDefined d s0 H := by
  have one : ∀ a : Bytes, a.length < 2 ^ 64 → outputs (runDigest d s0 [.write a, .checksum]) = some [H a] := by
    intro a ha
    obtain ⟨s, s', e1, e2⟩ := std [a] (by simpa using ha)
    simp only [writeAll, bind, Except.bind] at e1
    revert e1
    cases h3 : d.write s0 a
    · intro e1; cases e1
    · intro e1
      simp only [Except.ok.injEq] at e1
      simp only [runDigest, bind, Except.bind, h3, e1, e2, outputs, List.flatten_cons, List.flatten_nil, List.append_nil]
  have hx := one x (by rw [List.length_append] at hl; omega)
  have hmx := one (m ++ x) hl
  unfold reuseDiffers at hd
  rw [hx, hmx] at hd
  intro h
  rcases h with h | h
  · obtain ⟨s, e⟩ := h m x hl
    rw [e] at hd
    simp [outputs] at hd
  · obtain ⟨s, e⟩ := h m x hl
    rw [e] at hd
    simp [outputs] at hd

/-- C30 is false of MD5: neither convention holds. Witness `m = "a"`, `x = "b"`. -/
theorem C30_md5_refuted : ¬ ReuseWellDefined MD5.digest MD5.new Spec.MD5.hash :=
  reuse_refuted MD5.digest MD5.new Spec.MD5.hash [0x61#8] [0x62#8] (by decide) C23_md5_standard (by decide +kernel)

/-- C30 is false of SHA-1: neither convention holds. Witness `m = "a"`, `x = "b"`. -/
theorem C30_sha1_refuted : ¬ ReuseWellDefined SHA1.digest SHA1.new Spec.SHA.sha1 :=
  reuse_refuted SHA1.digest SHA1.new Spec.SHA.sha1 [0x61#8] [0x62#8] (by decide) C24_sha1_standard (by decide +kernel)

/-- C30 is false of SHA-256: neither convention holds. Witness `m = "a"`, `x = "b"`. -/
theorem C30_sha256_refuted : ¬ ReuseWellDefined SHA2.sha256 (SHA2.new256 SHA2.init256) Spec.SHA.sha256 :=
  reuse_refuted SHA2.sha256 (SHA2.new256 SHA2.init256) Spec.SHA.sha256 [0x61#8] [0x62#8] (by decide) C25_sha256_standard (by decide +kernel)

/-- C30 is false of SHA-224: neither convention holds. Witness `m = "a"`, `x = "b"`. -/
theorem C30_sha224_refuted : ¬ ReuseWellDefined SHA2.sha224 (SHA2.new256 SHA2.init224) Spec.SHA.sha224 :=
  reuse_refuted SHA2.sha224 (SHA2.new256 SHA2.init224) Spec.SHA.sha224 [0x61#8] [0x62#8] (by decide) C25_sha224_standard (by decide +kernel)

/-- C30 is false of SHA-512: neither convention holds. Witness `m = "a"`, `x = "b"`. -/
theorem C30_sha512_refuted : ¬ ReuseWellDefined SHA2.sha512 (SHA2.new512 SHA2.init512) Spec.SHA.sha512 :=
  reuse_refuted SHA2.sha512 (SHA2.new512 SHA2.init512) Spec.SHA.sha512 [0x61#8] [0x62#8] (by decide) C26_sha512_standard (by decide +kernel)

/-- C30 is false of SHA-384: neither convention holds. Witness `m = "a"`, `x = "b"`. -/
theorem C30_sha384_refuted : ¬ ReuseWellDefined SHA2.sha384 (SHA2.new512 SHA2.init384) Spec.SHA.sha384 :=
  reuse_refuted SHA2.sha384 (SHA2.new512 SHA2.init384) Spec.SHA.sha384 [0x61#8] [0x62#8] (by decide) C26_sha384_standard (by decide +kernel)

/-- C30 is false of SHA-512/256: neither convention holds. Witness `m = "a"`, `x = "b"`. -/
theorem C30_sha512t256_refuted : ¬ ReuseWellDefined SHA2.sha512t256 (SHA2.new512 SHA2.init512t256) (Spec.SHA.sha512t 256) :=
  reuse_refuted SHA2.sha512t256 (SHA2.new512 SHA2.init512t256) (Spec.SHA.sha512t 256) [0x61#8] [0x62#8] (by decide) C26_sha512t256_standard (by decide +kernel)

/-- C30 is false of SHA-512/224: neither convention holds. Witness `m = "a"`, `x = "b"`. -/
theorem C30_sha512t224_refuted : ¬ ReuseWellDefined SHA2.sha512t224 (SHA2.new512 SHA2.init512t224) (Spec.SHA.sha512t 224) :=
  reuse_refuted SHA2.sha512t224 (SHA2.new512 SHA2.init512t224) (Spec.SHA.sha512t 224) [0x61#8] [0x62#8] (by decide) C26_sha512t224_standard (by decide +kernel)

/-- C30 is false of SM3: neither convention holds. Witness `m = "a"`, `x = "b"`. -/
theorem C30_sm3_refuted : ¬ ReuseWellDefined SM3.digest SM3.new Spec.SM3.hash :=
  reuse_refuted SM3.digest SM3.new Spec.SM3.hash [0x61#8] [0x62#8] (by decide) C28_sm3_standard (by decide +kernel)

/-- C30 for MD5, what does hold (full statement: `ReuseWellDefined`): the second digest is what the compression function gives, from the initial
value, over the padding of `m` followed by the padding of `x`; it is the standard digest neither of `x` nor of `m ++ x`. -/
theorem C30_md5_partial (m x : Bytes) (hm : m.length < 2 ^ 64) (hx : x.length < 2 ^ 64) :
    ∃ s, runDigest MD5.digest MD5.new (writeAfter m x) = .ok (s, [Spec.MD5.hash m, Spec.MD5.out (Spec.MD.iterate Spec.MD5.compress 64 Spec.MD5.init (Spec.MD.pad 64 (Spec.MD.le 8) m ++ Spec.MD.pad 64 (Spec.MD.le 8) x))]) := by
  obtain ⟨s, e⟩ := MD.second MD5.params (by decide) MD5.init MD5.finish MD5.out
    (fun h m => Spec.MD.iterate MD5.compress 64 h (Spec.MD.pad 64 (Spec.MD.le 8) m)) MD5.digest rfl (fun _ => rfl)
    (fun h0 m s h1 h2 h3 _ => MD5.finish_inv h1 h2 h3) m x hm hx
  refine ⟨s, e.trans ?_⟩
  simp only [MD5.out_hash]
  rw [← SHA2.iterate_append _ 64 (by decide) _ _ _ (SHA2.pad_length 64 8 (by decide) _ (fun n => by simp [Spec.MD.le]) m)]
  rw [show ∀ q, MD5.out q = Spec.MD5.out (MD5.regs q) from fun _ => rfl, MD.iterate_map MD5.regs MD5.compress Spec.MD5.compress MD5.compress_eq]
  rfl

/-- The digest of SHA-1 from the words of the hash value (6.1.2). -/
def reg5Bytes (r : Spec.SHA.Regs5) : Bytes :=
  Spec.SHA.bytes r.a ++ Spec.SHA.bytes r.b ++ Spec.SHA.bytes r.c ++ Spec.SHA.bytes r.d ++ Spec.SHA.bytes r.e

/-- C30 for SHA-1, what does hold (full statement: `ReuseWellDefined`): the second digest is what the compression function gives, from the initial
value, over the padding of `m` followed by the padding of `x`; it is the standard digest neither of `x` nor of `m ++ x`. -/
theorem C30_sha1_partial (m x : Bytes) (hm : m.length < 2 ^ 64) (hx : x.length < 2 ^ 64) :
    ∃ s, runDigest SHA1.digest SHA1.new (writeAfter m x) = .ok (s, [Spec.SHA.sha1 m, reg5Bytes (Spec.MD.iterate Spec.SHA.compress1 64 Spec.SHA.init1 (Spec.MD.pad 64 (Spec.MD.be 8) m ++ Spec.MD.pad 64 (Spec.MD.be 8) x))]) := by
  obtain ⟨s, e⟩ := MD.second SHA1.params (by decide) SHA1.init (MD.finish SHA1.params 56 (fun len => be64 (len <<< 3)) true) SHA1.out
    (fun h m => Spec.MD.iterate SHA1.compress 64 h (Spec.MD.pad 64 (Spec.MD.be 8) m)) SHA1.digest rfl (fun _ => rfl)
    (fun h0 m s h1 h2 h3 _ => fin64 SHA1.params rfl h1 h2 h3) m x hm hx
  refine ⟨s, e.trans ?_⟩
  simp only [SHA1.out_hash]
  rw [← SHA2.iterate_append _ 64 (by decide) _ _ _ (SHA2.pad_length 64 8 (by decide) _ (be_length 8) m),
    show ∀ q, SHA1.out q = reg5Bytes (SHA1.regs q) from fun q => SHA1.out_eq q, MD.iterate_map SHA1.regs SHA1.compress Spec.SHA.compress1 SHA1.compress_eq]
  rfl

/-- C30 for SM3, what does hold (full statement: `ReuseWellDefined`): the second digest is what the compression function gives, from the initial
value, over the padding of `m` followed by the padding of `x`; it is the standard digest neither of `x` nor of `m ++ x`. -/
theorem C30_sm3_partial (m x : Bytes) (hm : m.length < 2 ^ 64) (hx : x.length < 2 ^ 64) :
    ∃ s, runDigest SM3.digest SM3.new (writeAfter m x) = .ok (s, [Spec.SM3.hash m, Spec.SHA.regBytes (Spec.MD.iterate Spec.SM3.compress 64 Spec.SM3.iv (Spec.MD.pad 64 (Spec.MD.be 8) m ++ Spec.MD.pad 64 (Spec.MD.be 8) x))]) := by
  obtain ⟨s, e⟩ := MD.second SM3.params (by decide) SM3.init (MD.finish SM3.params 56 (fun len => be64 (len <<< 3)) true) SHA2.out256
    (fun h m => Spec.MD.iterate SM3.compress 64 h (Spec.MD.pad 64 (Spec.MD.be 8) m)) SM3.digest rfl (fun _ => rfl)
    (fun h0 m s h1 h2 h3 _ => fin64 SM3.params rfl h1 h2 h3) m x hm hx
  refine ⟨s, e.trans ?_⟩
  simp only [SM3.out_hash]
  rw [← SHA2.iterate_append _ 64 (by decide) _ _ _ (SHA2.pad_length 64 8 (by decide) _ (be_length 8) m), SHA2.out256_eq,
    MD.iterate_map' SHA2.regs SM3.compress Spec.SM3.compress 64 (fun d b h => SM3.compress_eq d b h), SM3.iv_eq]

/-- C30 for SHA-256, what does hold (full statement: `ReuseWellDefined`): the second digest is what the compression function gives, from the initial
value, over the padding of `m` followed by the padding of `x`; it is the standard digest neither of `x` nor of `m ++ x`. -/
theorem C30_sha256_partial (m x : Bytes) (hm : m.length < 2 ^ 64) (hx : x.length < 2 ^ 64) :
    ∃ s, runDigest SHA2.sha256 (SHA2.new256 SHA2.init256) (writeAfter m x) = .ok (s, [Spec.SHA.sha256 m, Spec.SHA.regBytes (Spec.MD.iterate (Spec.SHA.compress2 Spec.SHA.alg256) 64 Spec.SHA.iv256 (Spec.MD.pad 64 (Spec.MD.be 8) m ++ Spec.MD.pad 64 (Spec.MD.be 8) x))]) := by
  obtain ⟨s, e⟩ := MD.second SHA2.params256 (by decide) SHA2.init256 (MD.finish SHA2.params256 56 (fun len => be64 (len <<< 3)) true)
    (fun q => (SHA2.out256 q).take 32) (fun h m => Spec.MD.iterate (SHA2.compress SHA2.core256) 64 h (Spec.MD.pad 64 (Spec.MD.be 8) m))
    SHA2.sha256 rfl (fun s => by
      simp only [SHA2.sha256, SHA2.digest256, SHA2.checksum256, bind, Except.bind]
      cases MD.finish SHA2.params256 56 (fun len => be64 (len <<< 3)) true s <;> rfl)
    (fun h0 m s h1 h2 h3 _ => fin64 SHA2.params256 rfl h1 h2 h3) m x hm hx
  refine ⟨s, e.trans ?_⟩
  rw [← SHA2.iterate_append _ 64 (by decide) _ _ _ (SHA2.pad_length 64 8 (by decide) _ (be_length 8) m), SHA2.out256_eq, SHA2.out256_eq,
    MD.iterate_map SHA2.regs _ _ (SHA2.compress_eq SHA2.agree256), MD.iterate_map SHA2.regs _ _ (SHA2.compress_eq SHA2.agree256), SHA2.iv256_eq]
  rw [List.take_of_length_le (Nat.le_of_eq (regBytes32_length _)), List.take_of_length_le (Nat.le_of_eq (regBytes32_length _))]
  rfl

/-- C30 for SHA-224, what does hold (full statement: `ReuseWellDefined`): the second digest is what the compression function gives, from the initial
value, over the padding of `m` followed by the padding of `x`; it is the standard digest neither of `x` nor of `m ++ x`. -/
theorem C30_sha224_partial (m x : Bytes) (hm : m.length < 2 ^ 64) (hx : x.length < 2 ^ 64) :
    ∃ s, runDigest SHA2.sha224 (SHA2.new256 SHA2.init224) (writeAfter m x) = .ok (s, [Spec.SHA.sha224 m, (Spec.SHA.regBytes (Spec.MD.iterate (Spec.SHA.compress2 Spec.SHA.alg256) 64 Spec.SHA.iv224 (Spec.MD.pad 64 (Spec.MD.be 8) m ++ Spec.MD.pad 64 (Spec.MD.be 8) x))).take 28]) := by
  obtain ⟨s, e⟩ := MD.second SHA2.params256 (by decide) SHA2.init224 (MD.finish SHA2.params256 56 (fun len => be64 (len <<< 3)) true)
    (fun q => (SHA2.out256 q).take 28) (fun h m => Spec.MD.iterate (SHA2.compress SHA2.core256) 64 h (Spec.MD.pad 64 (Spec.MD.be 8) m))
    SHA2.sha224 rfl (fun s => by
      simp only [SHA2.sha224, SHA2.digest256, SHA2.checksum256, bind, Except.bind]
      cases MD.finish SHA2.params256 56 (fun len => be64 (len <<< 3)) true s <;> rfl)
    (fun h0 m s h1 h2 h3 _ => fin64 SHA2.params256 rfl h1 h2 h3) m x hm hx
  refine ⟨s, e.trans ?_⟩
  rw [← SHA2.iterate_append _ 64 (by decide) _ _ _ (SHA2.pad_length 64 8 (by decide) _ (be_length 8) m), SHA2.out256_eq, SHA2.out256_eq,
    MD.iterate_map SHA2.regs _ _ (SHA2.compress_eq SHA2.agree256), MD.iterate_map SHA2.regs _ _ (SHA2.compress_eq SHA2.agree256), SHA2.iv224_eq]
  rfl

/-- C30 for SHA-512, what does hold (full statement: `ReuseWellDefined`): the second digest is the standard digest of `pad(m) ++ x`, where `pad(m)` is
the padded message `m`. -/
theorem C30_sha512_partial (m x : Bytes) (h : (Spec.MD.pad 128 (Spec.MD.be 16) m ++ x).length < 2 ^ 64) :
    ∃ s, runDigest SHA2.sha512 (SHA2.new512 SHA2.init512) (writeAfter m x) = .ok (s, [Spec.SHA.sha512 m, Spec.SHA.sha512 (Spec.MD.pad 128 (Spec.MD.be 16) m ++ x)]) := by
  obtain ⟨s, e⟩ := SHA2.second512 SHA2.init512 64 m x h
  refine ⟨s, e.trans ?_⟩
  rw [SHA2.iv512_eq, List.take_of_length_le (Nat.le_of_eq (regBytes64_length _)), List.take_of_length_le (Nat.le_of_eq (regBytes64_length _))]
  rfl

/-- C30 for SHA-384, what does hold (full statement: `ReuseWellDefined`): the second digest is the standard digest of `pad(m) ++ x`, where `pad(m)` is
the padded message `m`. -/
theorem C30_sha384_partial (m x : Bytes) (h : (Spec.MD.pad 128 (Spec.MD.be 16) m ++ x).length < 2 ^ 64) :
    ∃ s, runDigest SHA2.sha384 (SHA2.new512 SHA2.init384) (writeAfter m x) = .ok (s, [Spec.SHA.sha384 m, Spec.SHA.sha384 (Spec.MD.pad 128 (Spec.MD.be 16) m ++ x)]) := by
  obtain ⟨s, e⟩ := SHA2.second512 SHA2.init384 48 m x h
  refine ⟨s, e.trans ?_⟩
  rw [SHA2.iv384_eq]
  rfl

/-- C30 for SHA-512/256, what does hold (full statement: `ReuseWellDefined`): the second digest is the standard digest of `pad(m) ++ x`, where `pad(m)` is
the padded message `m`. -/
theorem C30_sha512t256_partial (m x : Bytes) (h : (Spec.MD.pad 128 (Spec.MD.be 16) m ++ x).length < 2 ^ 64) :
    ∃ s, runDigest SHA2.sha512t256 (SHA2.new512 SHA2.init512t256) (writeAfter m x) = .ok (s, [Spec.SHA.sha512t 256 m, Spec.SHA.sha512t 256 (Spec.MD.pad 128 (Spec.MD.be 16) m ++ x)]) := by
  obtain ⟨s, e⟩ := SHA2.second512 SHA2.init512t256 32 m x h
  refine ⟨s, e.trans ?_⟩
  rw [SHA2.iv512t_eq.1]
  rfl

/-- C30 for SHA-512/224, what does hold (full statement: `ReuseWellDefined`): the second digest is the standard digest of `pad(m) ++ x`, where `pad(m)` is
the padded message `m`. -/
theorem C30_sha512t224_partial (m x : Bytes) (h : (Spec.MD.pad 128 (Spec.MD.be 16) m ++ x).length < 2 ^ 64) :
    ∃ s, runDigest SHA2.sha512t224 (SHA2.new512 SHA2.init512t224) (writeAfter m x) = .ok (s, [Spec.SHA.sha512t 224 m, Spec.SHA.sha512t 224 (Spec.MD.pad 128 (Spec.MD.be 16) m ++ x)]) := by
  obtain ⟨s, e⟩ := SHA2.second512 SHA2.init512t224 28 m x h
  refine ⟨s, e.trans ?_⟩
  rw [SHA2.iv512t_eq.2]
  rfl

/-- Non-vacuity of the bounds. -/
example : (Spec.MD.pad 128 (Spec.MD.be 16) [0x61#8] ++ [0x62#8]).length < 2 ^ 64 := by decide +kernel

end Verif.Props
