import Verif.Props.Truncate
import Verif.Props.ECB

/-! C129: what happens to a ciphertext with something appended to it. -/

namespace Verif.Props
open Model Spec
variable {c : BlockCipher} {E D : Bytes → Bytes}

private theorem ok_of_isOk {α : Type} {r : Res α} (h : r.isOk = true) : ∃ x, r = .ok x := by
  cases r with
  | ok x => exact ⟨x, rfl⟩
  | error e => cases h

private theorem unpad_more {n : Nat} {d m : Bytes} (h : (Padding.default n).unpad d = .ok m) (d' : Bytes) : ∃ m', (Padding.default n).unpad (d ++ d') = .ok m' :=
  ok_of_isOk ((unpad_isOk n _).2 (List.mem_append_left _ ((unpad_isOk n d).1 (by rw [h]; rfl))))

private theorem whole_of_ok {n : Nat} {ct m : Bytes} {r : Res Bytes} (h : (if ct.length % n ≠ 0 then (.error (.err .invalidParameter) : Res Bytes) else r) = .ok m) :
    ct.length % n = 0 := by
  by_contra hc
  rw [if_pos hc] at h
  cases h

/-- C129, ECB with the default padding: whatever whole blocks are appended to an accepted ciphertext, it is still accepted. -/
theorem C129_ecb_accepts (h : Lawful c E D) (ct m x : Bytes) (hm : ECB.decrypt c (.default c.bs) ct = .ok m) (hx : x.length % c.bs = 0) :
    ∃ m', ECB.decrypt c (.default c.bs) (ct ++ x) = .ok m' := by
  obtain ⟨cb, h1, rfl⟩ := whole_blocks h.pos (a := ct) (whole_of_ok hm)
  obtain ⟨xb, h2, rfl⟩ := whole_blocks h.pos hx
  rw [ECB.decrypt_eq h h1] at hm
  rw [← List.flatten_append, ECB.decrypt_eq h (h1.append h2), ecb, List.map_append, List.flatten_append]
  exact unpad_more hm _

/-- C129, CBC with the default padding: the same. -/
theorem C129_cbc_accepts (h : Lawful c E D) (iv : Bytes) (hiv : iv.length = c.bs) (ct m x : Bytes) (hm : CBC.decrypt c (.default c.bs) iv ct = .ok m)
    (hx : x.length % c.bs = 0) : ∃ m', CBC.decrypt c (.default c.bs) iv (ct ++ x) = .ok m' := by
  obtain ⟨cb, h1, rfl⟩ := whole_blocks h.pos (a := ct) (whole_of_ok hm)
  obtain ⟨xb, h2, rfl⟩ := whole_blocks h.pos hx
  rw [CBC.decrypt_eq h hiv h1] at hm
  rw [← List.flatten_append, CBC.decrypt_eq h hiv (h1.append h2), CBC.cbcDec_append, List.flatten_append]
  exact unpad_more hm _

/-- C129, CFB with the default padding: the same, with segments. -/
theorem C129_cfb_accepts (h : Lawful c E D) (s : Nat) (hs0 : 0 < s) (hs : s ≤ c.bs) (iv : Bytes) (hiv : iv.length = c.bs) (ct m x : Bytes)
    (hm : CFB.decrypt c (.default c.bs) s iv ct = .ok m) (hx : x.length % s = 0) : ∃ m', CFB.decrypt c (.default c.bs) s iv (ct ++ x) = .ok m' := by
  obtain ⟨cb, h1, rfl⟩ := whole_blocks hs0 (a := ct) (whole_of_ok hm)
  obtain ⟨xb, h2, rfl⟩ := whole_blocks hs0 hx
  rw [CFB.decrypt_eq h hs0 hs hiv h1] at hm
  rw [← List.flatten_append, CFB.decrypt_eq h hs0 hs hiv (h1.append h2), CFB.cfbDec_append, List.flatten_append]
  exact unpad_more hm _

/-- C129, OFB: the message, followed by as many bytes as were appended. -/
theorem C129_ofb_accepts (h : Lawful c E D) (iv : Bytes) (hiv : iv.length = c.bs) (ct m x : Bytes) (hm : OFB.decrypt c iv ct = .ok m) :
    ∃ y, OFB.decrypt c iv (ct ++ x) = .ok (m ++ y) ∧ y.length = x.length := by
  have hl := OFB.length_ofbBlock h hiv
  have e : OFB.decrypt c iv (ct ++ x) = .ok (ofb E c.bs iv (ct ++ x)) := OFB.encrypt_eq h hiv _
  have em : OFB.decrypt c iv ct = .ok (ofb E c.bs iv ct) := OFB.encrypt_eq h hiv _
  rw [em] at hm
  cases hm
  have hp : (ofb E c.bs iv (ct ++ x)).take ct.length = ofb E c.bs iv ct := by
    rw [ofb, ofb, streamXor_take h.pos hl, List.take_left]
  refine ⟨(ofb E c.bs iv (ct ++ x)).drop ct.length, by rw [e, ← hp, List.take_append_drop], ?_⟩
  rw [List.length_drop, ofb, length_streamXor _ h.pos hl, List.length_append]; omega

/-- C129, CTR: the same. -/
theorem C129_ctr_accepts {κ : Type} {ops : CounterOps κ} (h : Lawful c E D) (k : κ) (v : Nat → Bytes)
    (hv : ∀ i, ops.value k i = some (v i) ∧ c.bs ≤ (v i).length) (ct m x : Bytes) (k1 : κ) (hm : CTR.decrypt c ops k ct = .ok (k1, m)) :
    ∃ k2 y, CTR.decrypt c ops k (ct ++ x) = .ok (k2, m ++ y) ∧ y.length = x.length := by
  have hk : CTR.Good c ops k := fun i => ⟨v i, hv i⟩
  have hl := fun i => h.lenE _ (CTR.length_input hk i)
  have e := CTR.encryptInner_eq h hk [] (ct ++ x)
  have em : CTR.decrypt c ops k ct = _ := CTR.encryptInner_eq h hk [] ct
  rw [em] at hm
  cases hm
  have hp : (ctr E c.bs (CTR.input c ops k) (ct ++ x)).take ct.length = ctr E c.bs (CTR.input c ops k) ct := by
    rw [ctr, ctr, streamXor_take h.pos hl, List.take_left]
  refine ⟨ops.after k (CTR.calls c.bs (ct ++ x).length), (ctr E c.bs (CTR.input c ops k) (ct ++ x)).drop ct.length, e.trans ?_, ?_⟩
  · rw [List.nil_append, List.nil_append, ← hp, List.take_append_drop]
  · rw [List.length_drop, ctr, length_streamXor _ h.pos hl, List.length_append]; omega

/-- C129, what holds: anything appended that is not whole blocks (segments) is refused. -/
theorem C129_partial (c : BlockCipher) (s : Nat) (p : Padding) (iv ct x : Bytes) :
    (∀ m, ECB.decrypt c p ct = .ok m → x.length % c.bs ≠ 0 → ECB.decrypt c p (ct ++ x) = .error (.err .invalidParameter)) ∧
    (∀ m, CBC.decrypt c p iv ct = .ok m → x.length % c.bs ≠ 0 → CBC.decrypt c p iv (ct ++ x) = .error (.err .invalidParameter)) ∧
    (∀ m, CFB.decrypt c p s iv ct = .ok m → x.length % s ≠ 0 → CFB.decrypt c p s iv (ct ++ x) = .error (.err .invalidParameter)) := by
  have key : ∀ n, ct.length % n = 0 → x.length % n ≠ 0 → (ct ++ x).length % n ≠ 0 := fun n h1 h2 => by
    rw [List.length_append, Nat.add_mod, h1, Nat.zero_add, Nat.mod_mod]; exact h2
  refine ⟨fun m hm hx => ?_, fun m hm hx => ?_, fun m hm hx => ?_⟩
  · rw [ECB.decrypt, if_pos (key _ (whole_of_ok hm) hx)]
  · rw [CBC.decrypt, if_pos (key _ (whole_of_ok hm) hx)]
  · rw [CFB.decrypt, if_pos (key _ (whole_of_ok hm) hx)]

private theorem more {n : Nat} (hn : 0 < n) {dec : Bytes → Res Bytes} {ct m : Bytes} (hm : dec ct = .ok m)
    (h : ∀ x, x.length % n = 0 → ∃ m', dec (ct ++ x) = .ok m') : ¬ ExtensionRefused dec := by
  intro hr
  obtain ⟨m', h3⟩ := h (List.replicate n 0#8) (by simp)
  obtain ⟨e, h4⟩ := hr _ _ (List.replicate n 0#8) hm (by intro hc; have := congrArg List.length hc; simp at this; omega)
  exact absurd (h3.symm.trans h4) (by simp)

private theorem markers (b : Nat) {n : Nat} (hn : 0 < n) : ∃ x, (Padding.default b).unpad (List.replicate n 0x80#8) = .ok x :=
  ok_of_isOk ((unpad_isOk b _).2 (List.mem_replicate.2 ⟨by omega, rfl⟩))

/-- C129 is false of ECB, for every cipher. -/
theorem C129_ecb_refuted (h : Lawful c E D) : ¬ ExtensionRefused (ECB.decrypt c (.default c.bs)) := by
  obtain ⟨r, -, -, -, h2⟩ := C04_ecb_roundtrip_default h [1]
  exact more h.pos h2 fun x hx => C129_ecb_accepts h _ _ x h2 hx

/-- C129 is false of CBC, for every cipher and IV. -/
theorem C129_cbc_refuted (h : Lawful c E D) (iv : Bytes) (hiv : iv.length = c.bs) : ¬ ExtensionRefused (CBC.decrypt c (.default c.bs) iv) := by
  have hb : IsBlocks c.bs [List.replicate c.bs 0x80#8] := .cons (by simp) .nil
  obtain ⟨pb, g1, g2, -⟩ := padOk_blocks (p := .default c.bs) (t := []) h.pos (Nat.dvd_refl _) h.pos hb h.pos (.inl rfl)
  have he := CBC.encrypt_eq (t := []) h hiv hb h.pos g1 g2
  simp only [List.flatten_cons, List.flatten_nil, List.append_nil] at he
  have h1 := C128_cbc_exact h iv hiv _ _ he 1 (by simp)
  rw [Nat.mul_one, List.take_of_length_le (l := List.replicate c.bs 0x80#8) (by simp)] at h1
  obtain ⟨x, hx⟩ := markers c.bs h.pos
  rw [hx] at h1
  exact more h.pos h1 fun y hy => C129_cbc_accepts h iv hiv _ _ y h1 hy

/-- C129 is false of CFB, for every cipher, segment size and IV. -/
theorem C129_cfb_refuted (h : Lawful c E D) (s : Nat) (hs0 : 0 < s) (hs : s ≤ c.bs) (iv : Bytes) (hiv : iv.length = c.bs) :
    ¬ ExtensionRefused (CFB.decrypt c (.default c.bs) s iv) := by
  have hb : IsBlocks s [List.replicate s 0x80#8] := .cons (by simp) .nil
  obtain ⟨pb, rem, g1, g2, g3⟩ := exists_blocks hs0 ((Padding.default c.bs).padding [])
  have he := CFB.encrypt_eq (t := []) h hs0 hs hiv hb hs0 g1 g2 g3
  simp only [List.flatten_cons, List.flatten_nil, List.append_nil] at he
  have h1 := C128_cfb_exact h s hs0 hs iv hiv _ _ he 1 (by simp)
  rw [Nat.mul_one, List.take_of_length_le (l := List.replicate s 0x80#8) (by simp)] at h1
  obtain ⟨x, hx⟩ := markers c.bs hs0
  rw [hx] at h1
  exact more hs0 h1 fun y hy => C129_cfb_accepts h s hs0 hs iv hiv _ _ y h1 hy

/-- C129 is false of OFB, for every cipher and IV. -/
theorem C129_ofb_refuted (h : Lawful c E D) (iv : Bytes) (hiv : iv.length = c.bs) : ¬ ExtensionRefused (OFB.decrypt c iv) := by
  have h1 : OFB.decrypt c iv [1] = _ := OFB.encrypt_eq h hiv _
  refine more h.pos h1 fun x _ => ?_
  obtain ⟨y, hy, -⟩ := C129_ofb_accepts h iv hiv _ _ x h1
  exact ⟨_, hy⟩

example : ECB.decrypt (Toy.cipher 2) (.default 2) [0x81, 4, 1, 1] = .ok [3] ∧ ECB.decrypt (Toy.cipher 2) (.default 2) ([0x81, 4, 1, 1] ++ [9, 9]) = .ok [3, 0x80, 0] := by
  decide
example : CBC.decrypt (Toy.cipher 2) (.default 2) [5, 6] [7, 0x86] = .ok [] ∧ CBC.decrypt (Toy.cipher 2) (.default 2) [5, 6] ([7, 0x86] ++ [9, 9]) = .ok [0x80, 0] ∧
    CFB.decrypt (Toy.cipher 2) (.default 2) 1 [5, 6] [0x87] = .ok [] ∧ CFB.decrypt (Toy.cipher 2) (.default 2) 1 [5, 6] ([0x87] ++ [9]) = .ok [0x80] ∧
    ECB.decrypt (Toy.cipher 2) (.default 2) ([0x81, 4, 1, 1] ++ [9]) = .error (.err .invalidParameter) := by decide
example : OFB.decrypt (Toy.cipher 2) [5, 6] [6, 4, 4] = .ok [1, 2, 3] ∧ OFB.decrypt (Toy.cipher 2) [5, 6] ([6, 4, 4] ++ [9]) = .ok ([1, 2, 3] ++ [1]) := by decide

end Verif.Props
