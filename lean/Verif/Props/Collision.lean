import Verif.Proof.Collision
import Verif.Proof.Counter
import Mathlib.Data.Fintype.Pigeonhole
import Mathlib.Data.Fintype.BigOperators
import Verif.Props.Hash

/-!
# C83: a collision of a hash function is a collision of its compression function

If two different messages, written in any chunks, get the same digest, then among the applications of the standard's compression function made while the two
are hashed there are two with different inputs and the same output. For the truncated functions the two full results may differ instead, in the cut-off part.
-/

namespace Verif.Props
open Verif.Model Verif.Spec

/-- The digest of a message written in chunks to a new object. -/
def digestOf {S : Type} (d : Digest S) (new : S) (chunks : List Bytes) : Res Bytes := do
  let s ← writeAll d new chunks
  let (_, x) ← d.checksum s
  .ok x

theorem digestOf_eq {S : Type} {d : Digest S} {new : S} {chunks : List Bytes} {x : Bytes}
    (h : ∃ s s', writeAll d new chunks = .ok s ∧ d.checksum s = .ok (s', x)) : digestOf d new chunks = .ok x := by
  obtain ⟨s, s', e1, e2⟩ := h
  simp [digestOf, e1, e2, bind, Except.bind]

theorem be_inj {n x y : Nat} (hx : x < 256 ^ n) (hy : y < 256 ^ n) (h : MD.be n x = MD.be n y) : x = y := by
  have e : beNat (toBE n x) = beNat (toBE n y) := congrArg beNat h
  rw [beNat_toBE, beNat_toBE, Nat.mod_eq_of_lt hx, Nat.mod_eq_of_lt hy] at e
  exact e

theorem le_eq_reverse (n x : Nat) : MD.le n x = (MD.be n x).reverse := by
  apply List.ext_getElem
  · simp [MD.le, MD.be]
  · intro i h1 h2
    simp only [MD.le, List.length_map, List.length_range] at h1
    simp only [MD.le, MD.be, List.getElem_map, List.getElem_range, List.getElem_reverse, List.length_map, List.length_range]
    congr 3; omega

theorem le_inj {n x y : Nat} (hx : x < 256 ^ n) (hy : y < 256 ^ n) (h : MD.le n x = MD.le n y) : x = y := by
  rw [le_eq_reverse, le_eq_reverse, List.reverse_inj] at h
  exact be_inj hx hy h

theorem bytes32_inj {x y : BitVec 32} (h : SHA.bytes x = SHA.bytes y) : x = y :=
  BitVec.eq_of_toNat_eq (be_inj x.isLt y.isLt h)

theorem bytes64_inj {x y : BitVec 64} (h : SHA.bytes x = SHA.bytes y) : x = y :=
  BitVec.eq_of_toNat_eq (be_inj x.isLt y.isLt h)

theorem le32_inj {x y : BitVec 32} (h : le32 x = le32 y) : x = y := by
  simp only [le32, List.cons.injEq] at h
  obtain ⟨h0, h1, h2, h3, -⟩ := h
  apply BitVec.eq_of_getLsbD_eq
  intro i hi
  have g : ∀ k, x.extractLsb' k 8 = y.extractLsb' k 8 → k ≤ i → i < k + 8 → x.getLsbD i = y.getLsbD i := by
    intro k hk h1 h2
    have := congrArg (fun z => z.getLsbD (i - k)) hk
    simp only [BitVec.getLsbD_extractLsb', show i - k < 8 by omega, decide_true, Bool.true_and, show k + (i - k) = i by omega] at this
    exact this
  by_cases i1 : i < 8
  · exact g 0 h0 (by omega) (by omega)
  by_cases i2 : i < 16
  · exact g 8 h1 (by omega) (by omega)
  by_cases i3 : i < 24
  · exact g 16 h2 (by omega) (by omega)
  · exact g 24 h3 (by omega) (by omega)

theorem field64 {m m' : Bytes} (h : m.length < 2 ^ 61) (h' : m'.length < 2 ^ 61) (hne : m.length ≠ m'.length) :
    MD.be 8 (8 * m.length) ≠ MD.be 8 (8 * m'.length) := fun e => hne (by
  have := be_inj (by show 8 * m.length < 2 ^ 64; omega) (by show 8 * m'.length < 2 ^ 64; omega) e
  omega)

theorem field128 {m m' : Bytes} (h : m.length < 2 ^ 64) (h' : m'.length < 2 ^ 64) (hne : m.length ≠ m'.length) :
    MD.be 16 (8 * m.length) ≠ MD.be 16 (8 * m'.length) := fun e => hne (by
  have := be_inj (by show 8 * m.length < 2 ^ 128; omega) (by show 8 * m'.length < 2 ^ 128; omega) e
  omega)

theorem md5_out_inj {p q : Spec.MD5.Regs} (he : Spec.MD5.out p = Spec.MD5.out q) : p = q := by
  simp only [Spec.MD5.out] at he
  obtain ⟨he, hd⟩ := List.append_inj' he rfl
  obtain ⟨he, hc⟩ := List.append_inj' he rfl
  obtain ⟨ha, hb⟩ := List.append_inj' he rfl
  have ha := le32_inj ha
  have hb := le32_inj hb
  have hc := le32_inj hc
  have hd := le32_inj hd
  cases p; cases q; simp_all

theorem length_bytes {w : Nat} (x : BitVec w) : (SHA.bytes x).length = w / 8 := by simp [SHA.bytes, MD.be]

theorem sha1_out_inj {p q : SHA.Regs5} (he : SHA.bytes p.a ++ SHA.bytes p.b ++ SHA.bytes p.c ++ SHA.bytes p.d ++ SHA.bytes p.e =
    SHA.bytes q.a ++ SHA.bytes q.b ++ SHA.bytes q.c ++ SHA.bytes q.d ++ SHA.bytes q.e) : p = q := by
  obtain ⟨he, h5⟩ := List.append_inj' he (by simp only [length_bytes])
  obtain ⟨he, h4⟩ := List.append_inj' he (by simp only [length_bytes])
  obtain ⟨he, h3⟩ := List.append_inj' he (by simp only [length_bytes])
  obtain ⟨h1, h2⟩ := List.append_inj' he (by simp only [length_bytes])
  have h1 := bytes32_inj h1
  have h2 := bytes32_inj h2
  have h3 := bytes32_inj h3
  have h4 := bytes32_inj h4
  have h5 := bytes32_inj h5
  cases p; cases q; simp_all

theorem regBytes_inj {w : Nat} (hw : ∀ x y : BitVec w, SHA.bytes x = SHA.bytes y → x = y) {p q : SHA.Regs w} (he : SHA.regBytes p = SHA.regBytes q) :
    p = q := by
  simp only [SHA.regBytes] at he
  obtain ⟨he, h8⟩ := List.append_inj' he (by simp only [length_bytes])
  obtain ⟨he, h7⟩ := List.append_inj' he (by simp only [length_bytes])
  obtain ⟨he, h6⟩ := List.append_inj' he (by simp only [length_bytes])
  obtain ⟨he, h5⟩ := List.append_inj' he (by simp only [length_bytes])
  obtain ⟨he, h4⟩ := List.append_inj' he (by simp only [length_bytes])
  obtain ⟨he, h3⟩ := List.append_inj' he (by simp only [length_bytes])
  obtain ⟨h1, h2⟩ := List.append_inj' he (by simp only [length_bytes])
  have h1 := hw _ _ h1
  have h2 := hw _ _ h2
  have h3 := hw _ _ h3
  have h4 := hw _ _ h4
  have h5 := hw _ _ h5
  have h6 := hw _ _ h6
  have h7 := hw _ _ h7
  have h8 := hw _ _ h8
  cases p; cases q; simp_all

/-- Every function to `n` bytes has a collision between messages of `n + 1` bytes. -/
theorem pigeon (H : Bytes → Bytes) (n : Nat) (hn : ∀ m, (H m).length = n) :
    ∃ m m' : Bytes, m.length = n + 1 ∧ m'.length = n + 1 ∧ m ≠ m' ∧ H m = H m' := by
  let dec : (Fin (n + 1) → Fin 256) → Bytes := fun v => List.ofFn fun i => BitVec.ofFin (v i)
  let enc : (Fin (n + 1) → Fin 256) → (Fin n → Fin 256) := fun v i => ((H (dec v)).getD i 0#8).toFin
  obtain ⟨x, y, hne, he⟩ := Fintype.exists_ne_map_eq_of_card_lt enc (by
     simp only [Fintype.card_fun, Fintype.card_fin]; exact Nat.pow_lt_pow_right (by decide) (Nat.lt_succ_self n))
  refine ⟨dec x, dec y, by simp [dec], by simp [dec], fun e => hne ?_, ?_⟩
  · funext i
    have := List.ofFn_injective e
    have := congrFun this i
    simpa using this
  · apply List.ext_getElem (by rw [hn, hn])
    intro i h1 h2
    have := congrFun he ⟨i, by rw [hn] at h1; exact h1⟩
    simp only [enc] at this
    have e := congrArg BitVec.ofFin this
    simpa [List.getElem?_eq_getElem h1, List.getElem?_eq_getElem h2] using e

/-- C83 (MD5). -/
theorem C83_md5 (x y : List Bytes) (hx : x.flatten.length < 2 ^ 61) (hy : y.flatten.length < 2 ^ 61) (hne : x.flatten ≠ y.flatten)
    (he : digestOf MD5.digest MD5.new x = digestOf MD5.digest MD5.new y) :
    MD.Collide Spec.MD5.compress 64 Spec.MD5.init (MD.pad 64 (MD.le 8) x.flatten) (MD.pad 64 (MD.le 8) y.flatten) := by
  rw [digestOf_eq (C23_md5_standard x (by omega)), digestOf_eq (C23_md5_standard y (by omega))] at he
  injection he with he
  refine MD.collision _ 64 _ (by decide) (MD.le 8) 8 (fun n => by simp [MD.le]) (by decide) _ _ hne (fun hl e => hl ?_) (md5_out_inj he)
  have := le_inj (by show 8 * x.flatten.length < 2 ^ 64; omega) (by show 8 * y.flatten.length < 2 ^ 64; omega) e
  omega

/-- The hypotheses are met by the MD5 collision of Wang and Yu (2004). -/
def wangYu₀ : Bytes := [
    0xd1, 0x31, 0xdd, 0x02, 0xc5, 0xe6, 0xee, 0xc4, 0x69, 0x3d, 0x9a, 0x06, 0x98, 0xaf, 0xf9, 0x5c, 0x2f, 0xca, 0xb5, 0x87, 0x12, 0x46,
    0x7e, 0xab, 0x40, 0x04, 0x58, 0x3e, 0xb8, 0xfb, 0x7f, 0x89, 0x55, 0xad, 0x34, 0x06, 0x09, 0xf4, 0xb3, 0x02, 0x83, 0xe4, 0x88, 0x83,
    0x25, 0x71, 0x41, 0x5a, 0x08, 0x51, 0x25, 0xe8, 0xf7, 0xcd, 0xc9, 0x9f, 0xd9, 0x1d, 0xbd, 0xf2, 0x80, 0x37, 0x3c, 0x5b, 0xd8, 0x82,
    0x3e, 0x31, 0x56, 0x34, 0x8f, 0x5b, 0xae, 0x6d, 0xac, 0xd4, 0x36, 0xc9, 0x19, 0xc6, 0xdd, 0x53, 0xe2, 0xb4, 0x87, 0xda, 0x03, 0xfd,
    0x02, 0x39, 0x63, 0x06, 0xd2, 0x48, 0xcd, 0xa0, 0xe9, 0x9f, 0x33, 0x42, 0x0f, 0x57, 0x7e, 0xe8, 0xce, 0x54, 0xb6, 0x70, 0x80, 0xa8,
    0x0d, 0x1e, 0xc6, 0x98, 0x21, 0xbc, 0xb6, 0xa8, 0x83, 0x93, 0x96, 0xf9, 0x65, 0x2b, 0x6f, 0xf7, 0x2a, 0x70]
@[inherit_doc wangYu₀] def wangYu₁ : Bytes := [
    0xd1, 0x31, 0xdd, 0x02, 0xc5, 0xe6, 0xee, 0xc4, 0x69, 0x3d, 0x9a, 0x06, 0x98, 0xaf, 0xf9, 0x5c, 0x2f, 0xca, 0xb5, 0x07, 0x12, 0x46,
    0x7e, 0xab, 0x40, 0x04, 0x58, 0x3e, 0xb8, 0xfb, 0x7f, 0x89, 0x55, 0xad, 0x34, 0x06, 0x09, 0xf4, 0xb3, 0x02, 0x83, 0xe4, 0x88, 0x83,
    0x25, 0xf1, 0x41, 0x5a, 0x08, 0x51, 0x25, 0xe8, 0xf7, 0xcd, 0xc9, 0x9f, 0xd9, 0x1d, 0xbd, 0x72, 0x80, 0x37, 0x3c, 0x5b, 0xd8, 0x82,
    0x3e, 0x31, 0x56, 0x34, 0x8f, 0x5b, 0xae, 0x6d, 0xac, 0xd4, 0x36, 0xc9, 0x19, 0xc6, 0xdd, 0x53, 0xe2, 0x34, 0x87, 0xda, 0x03, 0xfd,
    0x02, 0x39, 0x63, 0x06, 0xd2, 0x48, 0xcd, 0xa0, 0xe9, 0x9f, 0x33, 0x42, 0x0f, 0x57, 0x7e, 0xe8, 0xce, 0x54, 0xb6, 0x70, 0x80, 0x28,
    0x0d, 0x1e, 0xc6, 0x98, 0x21, 0xbc, 0xb6, 0xa8, 0x83, 0x93, 0x96, 0xf9, 0x65, 0xab, 0x6f, 0xf7, 0x2a, 0x70]

example : wangYu₀ ≠ wangYu₁ ∧ (digestOf MD5.digest MD5.new [wangYu₀.take 5, wangYu₀.drop 5]).toOption = (digestOf MD5.digest MD5.new [wangYu₁]).toOption ∧
    (digestOf MD5.digest MD5.new [wangYu₁]).toOption.isSome = true := by decide +kernel

/-- C83 (SHA-1). -/
theorem C83_sha1 (x y : List Bytes) (hx : x.flatten.length < 2 ^ 61) (hy : y.flatten.length < 2 ^ 61) (hne : x.flatten ≠ y.flatten)
    (he : digestOf SHA1.digest SHA1.new x = digestOf SHA1.digest SHA1.new y) :
    MD.Collide SHA.compress1 64 SHA.init1 (MD.pad 64 (MD.be 8) x.flatten) (MD.pad 64 (MD.be 8) y.flatten) := by
  rw [digestOf_eq (C24_sha1_standard x (by omega)), digestOf_eq (C24_sha1_standard y (by omega))] at he
  injection he with he
  exact MD.collision _ 64 _ (by decide) (MD.be 8) 8 (fun n => by simp [MD.be]) (by decide) _ _ hne (field64 hx hy) (sha1_out_inj he)

/-- C83 (SHA-256). -/
theorem C83_sha256 (x y : List Bytes) (hx : x.flatten.length < 2 ^ 61) (hy : y.flatten.length < 2 ^ 61) (hne : x.flatten ≠ y.flatten)
    (he : digestOf SHA2.sha256 (SHA2.new256 SHA2.init256) x = digestOf SHA2.sha256 (SHA2.new256 SHA2.init256) y) :
    MD.Collide (SHA.compress2 SHA.alg256) 64 SHA.iv256 (MD.pad 64 (MD.be 8) x.flatten) (MD.pad 64 (MD.be 8) y.flatten) := by
  rw [digestOf_eq (C25_sha256_standard x (by omega)), digestOf_eq (C25_sha256_standard y (by omega))] at he
  injection he with he
  exact MD.collision _ 64 _ (by decide) (MD.be 8) 8 (fun n => by simp [MD.be]) (by decide) _ _ hne (field64 hx hy)
    (regBytes_inj (fun _ _ => bytes32_inj) he)

/-- C83 (SM3). -/
theorem C83_sm3 (x y : List Bytes) (hx : x.flatten.length < 2 ^ 61) (hy : y.flatten.length < 2 ^ 61) (hne : x.flatten ≠ y.flatten)
    (he : digestOf SM3.digest SM3.new x = digestOf SM3.digest SM3.new y) :
    MD.Collide Spec.SM3.compress 64 Spec.SM3.iv (MD.pad 64 (MD.be 8) x.flatten) (MD.pad 64 (MD.be 8) y.flatten) := by
  rw [digestOf_eq (C28_sm3_standard x (by omega)), digestOf_eq (C28_sm3_standard y (by omega))] at he
  injection he with he
  exact MD.collision _ 64 _ (by decide) (MD.be 8) 8 (fun n => by simp [MD.be]) (by decide) _ _ hne (field64 hx hy)
    (regBytes_inj (fun _ _ => bytes32_inj) he)

/-- C83 (SHA-512). -/
theorem C83_sha512 (x y : List Bytes) (hx : x.flatten.length < 2 ^ 64) (hy : y.flatten.length < 2 ^ 64) (hne : x.flatten ≠ y.flatten)
    (he : digestOf SHA2.sha512 (SHA2.new512 SHA2.init512) x = digestOf SHA2.sha512 (SHA2.new512 SHA2.init512) y) :
    MD.Collide (SHA.compress2 SHA.alg512) 128 SHA.iv512 (MD.pad 128 (MD.be 16) x.flatten) (MD.pad 128 (MD.be 16) y.flatten) := by
  rw [digestOf_eq (C26_sha512_standard x hx), digestOf_eq (C26_sha512_standard y hy)] at he
  injection he with he
  exact MD.collision _ 128 _ (by decide) (MD.be 16) 16 (fun n => by simp [MD.be]) (by decide) _ _ hne (field128 hx hy)
    (regBytes_inj (fun _ _ => bytes64_inj) he)

/-- Two different results that agree after truncation to `n` bytes. -/
def TruncationCollides {w : Nat} (n : Nat) (p q : SHA.Regs w) : Prop :=
  SHA.regBytes p ≠ SHA.regBytes q ∧ (SHA.regBytes p).take n = (SHA.regBytes q).take n

/-- C83 (SHA-224). -/
theorem C83_sha224 (x y : List Bytes) (hx : x.flatten.length < 2 ^ 61) (hy : y.flatten.length < 2 ^ 61) (hne : x.flatten ≠ y.flatten)
    (he : digestOf SHA2.sha224 (SHA2.new256 SHA2.init224) x = digestOf SHA2.sha224 (SHA2.new256 SHA2.init224) y) :
    MD.Collide (SHA.compress2 SHA.alg256) 64 SHA.iv224 (MD.pad 64 (MD.be 8) x.flatten) (MD.pad 64 (MD.be 8) y.flatten) ∨
      TruncationCollides 28 (SHA.hashRegs SHA.alg256 SHA.iv224 x.flatten) (SHA.hashRegs SHA.alg256 SHA.iv224 y.flatten) := by
  rw [digestOf_eq (C25_sha224_standard x (by omega)), digestOf_eq (C25_sha224_standard y (by omega))] at he
  injection he with he
  by_cases hr : SHA.regBytes (SHA.hashRegs SHA.alg256 SHA.iv224 x.flatten) = SHA.regBytes (SHA.hashRegs SHA.alg256 SHA.iv224 y.flatten)
  · exact .inl (MD.collision _ 64 _ (by decide) (MD.be 8) 8 (fun n => by simp [MD.be]) (by decide) _ _ hne (field64 hx hy)
      (regBytes_inj (fun _ _ => bytes32_inj) hr))
  · exact .inr ⟨hr, he⟩

theorem wide_truncated (iv : SHA.Regs 64) (n : Nat) (m m' : Bytes) (hx : m.length < 2 ^ 64) (hy : m'.length < 2 ^ 64) (hne : m ≠ m')
    (he : (SHA.regBytes (SHA.hashRegs SHA.alg512 iv m)).take n = (SHA.regBytes (SHA.hashRegs SHA.alg512 iv m')).take n) :
    MD.Collide (SHA.compress2 SHA.alg512) 128 iv (MD.pad 128 (MD.be 16) m) (MD.pad 128 (MD.be 16) m') ∨
      TruncationCollides n (SHA.hashRegs SHA.alg512 iv m) (SHA.hashRegs SHA.alg512 iv m') := by
  by_cases hr : SHA.regBytes (SHA.hashRegs SHA.alg512 iv m) = SHA.regBytes (SHA.hashRegs SHA.alg512 iv m')
  · exact .inl (MD.collision _ 128 _ (by decide) (MD.be 16) 16 (fun n => by simp [MD.be]) (by decide) _ _ hne (field128 hx hy)
      (regBytes_inj (fun _ _ => bytes64_inj) hr))
  · exact .inr ⟨hr, he⟩

/-- C83 (SHA-384). -/
theorem C83_sha384 (x y : List Bytes) (hx : x.flatten.length < 2 ^ 64) (hy : y.flatten.length < 2 ^ 64) (hne : x.flatten ≠ y.flatten)
    (he : digestOf SHA2.sha384 (SHA2.new512 SHA2.init384) x = digestOf SHA2.sha384 (SHA2.new512 SHA2.init384) y) :
    MD.Collide (SHA.compress2 SHA.alg512) 128 SHA.iv384 (MD.pad 128 (MD.be 16) x.flatten) (MD.pad 128 (MD.be 16) y.flatten) ∨
      TruncationCollides 48 (SHA.hashRegs SHA.alg512 SHA.iv384 x.flatten) (SHA.hashRegs SHA.alg512 SHA.iv384 y.flatten) := by
  rw [digestOf_eq (C26_sha384_standard x hx), digestOf_eq (C26_sha384_standard y hy)] at he
  injection he with he
  exact wide_truncated _ _ _ _ hx hy hne he

/-- C83 (SHA-512/256). -/
theorem C83_sha512t256 (x y : List Bytes) (hx : x.flatten.length < 2 ^ 64) (hy : y.flatten.length < 2 ^ 64) (hne : x.flatten ≠ y.flatten)
    (he : digestOf SHA2.sha512t256 (SHA2.new512 SHA2.init512t256) x = digestOf SHA2.sha512t256 (SHA2.new512 SHA2.init512t256) y) :
    MD.Collide (SHA.compress2 SHA.alg512) 128 (SHA.ivT 256) (MD.pad 128 (MD.be 16) x.flatten) (MD.pad 128 (MD.be 16) y.flatten) ∨
      TruncationCollides 32 (SHA.hashRegs SHA.alg512 (SHA.ivT 256) x.flatten) (SHA.hashRegs SHA.alg512 (SHA.ivT 256) y.flatten) := by
  rw [digestOf_eq (C26_sha512t256_standard x hx), digestOf_eq (C26_sha512t256_standard y hy)] at he
  injection he with he
  exact wide_truncated _ _ _ _ hx hy hne he

/-- C83 (SHA-512/224). -/
theorem C83_sha512t224 (x y : List Bytes) (hx : x.flatten.length < 2 ^ 64) (hy : y.flatten.length < 2 ^ 64) (hne : x.flatten ≠ y.flatten)
    (he : digestOf SHA2.sha512t224 (SHA2.new512 SHA2.init512t224) x = digestOf SHA2.sha512t224 (SHA2.new512 SHA2.init512t224) y) :
    MD.Collide (SHA.compress2 SHA.alg512) 128 (SHA.ivT 224) (MD.pad 128 (MD.be 16) x.flatten) (MD.pad 128 (MD.be 16) y.flatten) ∨
      TruncationCollides 28 (SHA.hashRegs SHA.alg512 (SHA.ivT 224) x.flatten) (SHA.hashRegs SHA.alg512 (SHA.ivT 224) y.flatten) := by
  rw [digestOf_eq (C26_sha512t224_standard x hx), digestOf_eq (C26_sha512t224_standard y hy)] at he
  injection he with he
  exact wide_truncated _ _ _ _ hx hy hne he

/-- The hypotheses of the SHA-2 and SM3 statements are met by some messages of 33 or 49 bytes. -/
example : ∃ x y : List Bytes, x.flatten.length < 2 ^ 61 ∧ y.flatten.length < 2 ^ 61 ∧ x.flatten ≠ y.flatten ∧
    digestOf SHA2.sha256 (SHA2.new256 SHA2.init256) x = digestOf SHA2.sha256 (SHA2.new256 SHA2.init256) y := by
  obtain ⟨m, m', h1, h2, h3, h4⟩ := pigeon SHA.sha256 32 SHA2.law256.length
  refine ⟨[m], [m'], by simp [h1], by simp [h2], by simpa using h3, ?_⟩
  rw [digestOf_eq (C25_sha256_standard [m] (by simp [h1])), digestOf_eq (C25_sha256_standard [m'] (by simp [h2]))]
  simp [h4]

example : ∃ x y : List Bytes, x.flatten.length < 2 ^ 61 ∧ y.flatten.length < 2 ^ 61 ∧ x.flatten ≠ y.flatten ∧
    digestOf SM3.digest SM3.new x = digestOf SM3.digest SM3.new y := by
  obtain ⟨m, m', h1, h2, h3, h4⟩ := pigeon Spec.SM3.hash 32 SM3.lawful.length
  refine ⟨[m], [m'], by simp [h1], by simp [h2], by simpa using h3, ?_⟩
  rw [digestOf_eq (C28_sm3_standard [m] (by simp [h1])), digestOf_eq (C28_sm3_standard [m'] (by simp [h2]))]
  simp [h4]

example : ∃ x y : List Bytes, x.flatten.length < 2 ^ 64 ∧ y.flatten.length < 2 ^ 64 ∧ x.flatten ≠ y.flatten ∧
    digestOf SHA2.sha384 (SHA2.new512 SHA2.init384) x = digestOf SHA2.sha384 (SHA2.new512 SHA2.init384) y := by
  obtain ⟨m, m', h1, h2, h3, h4⟩ := pigeon SHA.sha384 48 SHA2.law384.length
  refine ⟨[m], [m'], by simp [h1], by simp [h2], by simpa using h3, ?_⟩
  rw [digestOf_eq (C26_sha384_standard [m] (by simp [h1])), digestOf_eq (C26_sha384_standard [m'] (by simp [h2]))]
  simp [h4]

end Verif.Props
