import Verif.Proof.DigestLaw
import Verif.Proof.SHA1
import Verif.Proof.SHA2
import Verif.Proof.SM3

/-! Helper lemmas: MD5, SHA-1, SHA-2 and SM3 satisfy `LawfulDigest` -/

namespace Verif.Model

theorem be_length (n x : Nat) : (Spec.MD.be n x).length = n := by simp [Spec.MD.be]

/-- `checksum` with a 64-bit length field (SHA-1, SHA-256, SM3). -/
theorem fin64 {D : Type} (p : MD.Params D) (hbs : p.bs = 64) {h0 : D} {m : Bytes} {s : MD.State D} (h : MD.Inv p h0 m s)
    (hc : s.isChecked = false) (hl : s.len = BitVec.ofNat 64 m.length) :
    ∃ s', MD.finish p 56 (fun len => be64 (len <<< 3)) true s = .ok s' ∧ s'.isChecked = true ∧ s'.idx = 0 ∧ s'.buf.length = p.bs ∧
      s'.len = 0#64 ∧ s'.digest = Spec.MD.iterate p.compress 64 h0 (Spec.MD.pad 64 (Spec.MD.be 8) m) := by
  obtain ⟨s', e, c, i, b, g, l⟩ := MD.finish_inv p 56 (fun len => be64 (len <<< 3)) true (Spec.MD.be 8) (by omega) (by omega)
    (by rw [be_length]; omega) (by rw [be_length]; omega) (by rw [hbs]; decide) (fun n => by rw [be_length, be_length]) h hc 0 (by simp)
    (by rw [hl, Nat.zero_add]) (by rw [hl, Nat.zero_add]; exact len64 _)
  refine ⟨s', e, c, i, b, by simpa using l, ?_⟩
  rw [hbs] at g
  simpa using g

/-- `checksum` with a 128-bit length field (SHA-512). -/
theorem fin128 {D : Type} (p : MD.Params D) (hbs : p.bs = 128) {h0 : D} {m : Bytes} {s : MD.State D} (h : MD.Inv p h0 m s)
    (hc : s.isChecked = false) (base : Nat) (hb : base % 128 = 0) (hl : s.len = BitVec.ofNat 64 (base + m.length)) (hm : base + m.length < 2 ^ 64) :
    ∃ s', MD.finish p 112 (fun len => be128 (len.setWidth 128 <<< 3)) false s = .ok s' ∧ s'.isChecked = true ∧ s'.idx = 0 ∧ s'.buf.length = p.bs ∧
      s'.len = s.len + BitVec.ofNat 64 ((Spec.MD.pad 128 (fun n => Spec.MD.be 16 (8 * base + n)) m).length - m.length) ∧
      s'.digest = Spec.MD.iterate p.compress 128 h0 (Spec.MD.pad 128 (fun n => Spec.MD.be 16 (8 * base + n)) m) := by
  obtain ⟨s', e, c, i, b, g, l⟩ := MD.finish_inv p 112 (fun len => be128 (len.setWidth 128 <<< 3)) false (Spec.MD.be 16) (by omega) (by omega)
    (by rw [be_length]; omega) (by rw [be_length]; omega) (by rw [hbs]; decide) (fun n => by rw [be_length, be_length]) h hc base
    (by rw [hbs]; exact hb) hl (by rw [hl]; exact len128 _ hm)
  refine ⟨s', e, c, i, b, ?_, ?_⟩
  · rw [hbs] at l; simpa using l
  · rw [hbs] at g; exact g

theorem le32_length (x : BitVec 32) : (le32 x).length = 4 := rfl
theorem bytes32_length (x : BitVec 32) : (Spec.SHA.bytes x).length = 4 := be_length _ _
theorem bytes64_length (x : BitVec 64) : (Spec.SHA.bytes x).length = 8 := be_length _ _
theorem regBytes32_length (r : Spec.SHA.Regs 32) : (Spec.SHA.regBytes r).length = 32 := by
  simp only [Spec.SHA.regBytes, List.length_append, bytes32_length]
theorem regBytes64_length (r : Spec.SHA.Regs 64) : (Spec.SHA.regBytes r).length = 64 := by
  simp only [Spec.SHA.regBytes, List.length_append, bytes64_length]

/-! ## MD5 -/

namespace MD5

theorem out_hash (m : Bytes) : out (Spec.MD.iterate compress 64 init (Spec.MD.pad 64 (Spec.MD.le 8) m)) = Spec.MD5.hash m := by
  have := MD.iterate_map regs compress Spec.MD5.compress compress_eq 64 init (Spec.MD.pad 64 (Spec.MD.le 8) m)
  rw [Spec.MD5.hash, show Spec.MD5.init = regs init from rfl, ← this]; rfl

theorem lawful : LawfulDigest digest Spec.MD5.hash (some 64) 16 (MD.Abs params init) (MD.Chk out Spec.MD5.hash) := by
  refine MD.lawful params (by decide) init finish out Spec.MD5.hash 16 digest rfl (fun _ => rfl) (fun _ => rfl) (fun _ => rfl) (fun _ => rfl)
    (fun m => by simp [Spec.MD5.hash, Spec.MD5.out, le32_length]) ?_ (fun s h => by rw [finish, if_pos h])
  intro m s h1 h2 h3 _
  obtain ⟨s', e, c, _, _, _, g⟩ := finish_inv h1 h2 h3
  exact ⟨s', e, c, by rw [g]; exact out_hash m⟩

theorem finish_ok {h0 : Quad} {m : Bytes} {s : MD.State Quad} (h : MD.Inv params h0 m s) :
    ∃ s' m', finish s = .ok s' ∧ MD.Inv params h0 m' s' ∧ s'.isChecked = true := by
  by_cases hc : s.isChecked
  · exact ⟨s, m, by rw [finish, if_pos hc], h, hc⟩
  · unfold finish
    rw [if_neg hc]
    simp only
    obtain ⟨s1, e1, i1, _⟩ := MD.write_inv params (by decide) h
      (0x80#8 :: List.replicate ((55#64 - s.len).toNat % 64) 0#8 ++ le64 (s.len <<< 3))
    refine ⟨{ s1 with len := 0#64, isChecked := true }, _, ?_, ⟨i1.bufLen, i1.idxLe, i1.idxLt, i1.split⟩, rfl⟩
    simp only [bind, Except.bind, e1]

end MD5

/-! ## SHA-1 -/

namespace SHA1

theorem out_hash (m : Bytes) : out (Spec.MD.iterate compress 64 init (Spec.MD.pad 64 (Spec.MD.be 8) m)) = Spec.SHA.sha1 m := by
  have := MD.iterate_map regs compress Spec.SHA.compress1 compress_eq 64 init (Spec.MD.pad 64 (Spec.MD.be 8) m)
  rw [Spec.SHA.sha1, show Spec.SHA.init1 = regs init from rfl, ← this, out_eq]; rfl

theorem lawful : LawfulDigest digest Spec.SHA.sha1 (some 64) 20 (MD.Abs params init) (MD.Chk out Spec.SHA.sha1) := by
  refine MD.lawful params (by decide) init _ out Spec.SHA.sha1 20 digest rfl (fun _ => rfl) (fun _ => rfl) (fun _ => rfl) (fun _ => rfl)
    (fun m => by simp only [Spec.SHA.sha1, List.length_append, bytes32_length]) ?_ (fun s h => MD.finish_checked params 56 _ true s h)
  intro m s h1 h2 h3 _
  obtain ⟨s', e, c, _, _, _, g⟩ := fin64 params rfl h1 h2 h3
  exact ⟨s', e, c, by rw [g]; exact out_hash m⟩

end SHA1

/-! ## SM3 -/

namespace SM3

theorem out_hash (m : Bytes) : SHA2.out256 (Spec.MD.iterate compress 64 init (Spec.MD.pad 64 (Spec.MD.be 8) m)) = Spec.SM3.hash m := by
  have := MD.iterate_map' SHA2.regs compress Spec.SM3.compress 64 (fun d b h => compress_eq d b h) init (Spec.MD.pad 64 (Spec.MD.be 8) m)
  rw [Spec.SM3.hash, ← iv_eq, ← this, SHA2.out256_eq]

theorem lawful : LawfulDigest digest Spec.SM3.hash (some 64) 32 (MD.Abs params init) (MD.Chk SHA2.out256 Spec.SM3.hash) := by
  refine MD.lawful params (by decide) init _ SHA2.out256 Spec.SM3.hash 32 digest rfl (fun _ => rfl) (fun _ => rfl) (fun _ => rfl) (fun _ => rfl)
    (fun m => regBytes32_length _) ?_ (fun s h => MD.finish_checked params 56 _ true s h)
  intro m s h1 h2 h3 _
  obtain ⟨s', e, c, _, _, _, g⟩ := fin64 params rfl h1 h2 h3
  exact ⟨s', e, c, by rw [g]; exact out_hash m⟩

end SM3

/-! ## SHA-2 -/

namespace SHA2

theorem regs_hash256 (iv : Eight 32) (m : Bytes) :
    regs (Spec.MD.iterate (compress core256) 64 iv (Spec.MD.pad 64 (Spec.MD.be 8) m)) = Spec.SHA.hashRegs Spec.SHA.alg256 (regs iv) m :=
  MD.iterate_map regs _ _ (compress_eq agree256) 64 iv _
theorem regs_hash512 (iv : Eight 64) (m : Bytes) :
    regs (Spec.MD.iterate (compress core512) 128 iv (Spec.MD.pad 128 (Spec.MD.be 16) m)) = Spec.SHA.hashRegs Spec.SHA.alg512 (regs iv) m :=
  MD.iterate_map regs _ _ (compress_eq agree512) 128 iv _

theorem lawful256 (iv : Eight 32) (size : Nat) (hs : size ≤ 32) (H : Bytes → Bytes)
    (hH : ∀ m, H m = (Spec.SHA.regBytes (Spec.SHA.hashRegs Spec.SHA.alg256 (regs iv) m)).take size) :
    LawfulDigest (digest256 iv size) H (some 64) size (MD.Abs params256 iv) (MD.Chk (fun q => (out256 q).take size) H) := by
  refine MD.lawful params256 (by decide) iv (MD.finish params256 56 (fun len => be64 (len <<< 3)) true) (fun q => (out256 q).take size) H size
    (digest256 iv size) rfl (fun s => ?_) (fun _ => rfl) (fun _ => rfl) (fun _ => Nat.mul_comm _ _)
    (fun m => by rw [hH, List.length_take, regBytes32_length]; omega) ?_ (fun s h => MD.finish_checked params256 56 _ true s h)
  · simp only [digest256, checksum256, bind, Except.bind]
    cases MD.finish params256 56 (fun len => be64 (len <<< 3)) true s <;> rfl
  · intro m s h1 h2 h3 _
    obtain ⟨s', e, c, _, _, _, g⟩ := fin64 params256 rfl h1 h2 h3
    exact ⟨s', e, c, by rw [hH, ← regs_hash256, ← out256_eq, g]; rfl⟩

theorem lawful512 (iv : Eight 64) (size : Nat) (hs : size ≤ 64) (H : Bytes → Bytes)
    (hH : ∀ m, H m = (Spec.SHA.regBytes (Spec.SHA.hashRegs Spec.SHA.alg512 (regs iv) m)).take size) :
    LawfulDigest (digest512 iv size) H (some 128) size (MD.Abs params512 iv) (MD.Chk (fun q => (out512 q).take size) H) := by
  refine MD.lawful params512 (by decide) iv (MD.finish params512 112 (fun len => be128 (len.setWidth 128 <<< 3)) false)
    (fun q => (out512 q).take size) H size
    (digest512 iv size) rfl (fun s => ?_) (fun _ => rfl) (fun _ => rfl) (fun _ => Nat.mul_comm _ _)
    (fun m => by rw [hH, List.length_take, regBytes64_length]; omega) ?_ (fun s h => MD.finish_checked params512 112 _ false s h)
  · simp only [digest512, checksum512, bind, Except.bind]
    cases MD.finish params512 112 (fun len => be128 (len.setWidth 128 <<< 3)) false s <;> rfl
  · intro m s h1 h2 h3 h4
    obtain ⟨s', e, c, _, _, _, g⟩ := fin128 params512 rfl h1 h2 0 rfl (by rw [Nat.zero_add]; exact h3) (by omega)
    simp only [Nat.mul_zero, Nat.zero_add] at g
    exact ⟨s', e, c, by rw [hH, ← regs_hash512, ← out512_eq, g]; rfl⟩

theorem label_eq (t : Nat) : label t = Spec.SHA.prefixT ++ Spec.SHA.decimal t := by
  unfold label
  rw [String.toList_append, List.map_append]
  have : (toString t).toList = Nat.toDigits 10 t := by
    show (Nat.repr t).toList = _
    simp [Nat.repr]
  rw [this]
  rfl

theorem regs_xorA5 (q : Eight 64) : regs (xorA5 q) = (regs q).map fun x => x ^^^ 0xa5a5a5a5a5a5a5a5#64 := rfl

/-- The constructor of SHA-512/t generates the right initial value, and leaves the length of the padded label in the length counter. -/
theorem newT_eq (t : Nat) (ht : t ≤ 512) : ∃ s, newT t = .ok (some { sha := s, bitsLen := t }) ∧ MD.Inv params512 s.digest [] s ∧
    s.isChecked = false ∧ s.len = 128#64 ∧ regs s.digest = Spec.SHA.ivT t := by
  have hlen : (label t).length ≤ 11 := by
    rw [label_eq, List.length_append]
    have : (Spec.SHA.decimal t).length ≤ 3 := by
      rw [Spec.SHA.decimal, List.length_map]
      have h : ∀ t, t < 513 → (Nat.toDigits 10 t).length ≤ 3 := by decide +kernel
      exact h t (by omega)
    have : Spec.SHA.prefixT.length = 8 := rfl
    omega
  obtain ⟨s1, e1, i1, l1, c1, _⟩ := MD.write_inv params512 (by decide) (MD.inv_init params512 (by decide) (xorA5 init512) 0#64 false) (label t)
  rw [List.nil_append] at i1
  obtain ⟨s2, e2, c2, x2, b2, l2, g2⟩ := fin128 params512 rfl i1 c1 0 rfl (by rw [l1]; simp) (by omega)
  simp only [Nat.mul_zero, Nat.zero_add] at g2 l2
  refine ⟨{ s2 with isChecked := false }, ?_, ?_, rfl, ?_, ?_⟩
  · unfold newT
    rw [if_pos ht]
    have e1' : MD.write params512 (new512 (xorA5 init512)) (label t) = .ok s1 := e1
    simp only [checksum512, e1', e2, bind, Except.bind]
  · exact ⟨b2, by simp [x2], fun _ => by simp [x2, params512], 0, [], by simp, by simp [x2], rfl⟩
  · have hp : (Spec.MD.pad 128 (Spec.MD.be 16) (label t)).length = 128 := by
      simp only [Spec.MD.pad, List.length_append, be_length, List.length_replicate, List.length_singleton, Spec.MD.zeros]
      omega
    show s2.len = _
    rw [l2, l1, hp]
    have : ∀ n, n ≤ 11 → 0#64 + BitVec.ofNat 64 n + BitVec.ofNat 64 (128 - n) = 128#64 := by decide
    exact this _ hlen
  · show regs s2.digest = _
    rw [g2]
    have := regs_hash512 (xorA5 init512) (label t)
    rw [regs_xorA5, iv512_eq, label_eq] at this
    rw [Spec.SHA.ivT, ← this, label_eq]
    rfl

/-! ## Histories -/

theorem history256 (iv : Eight 32) (size : Nat) (ops : List DOp) :
    ∃ s1 xs s2 x, runDigest (digest256 iv size) (new256 iv) ops = .ok (s1, xs) ∧ (digest256 iv size).checksum s1 = .ok (s2, x) ∧
      (digest256 iv size).checksum s2 = .ok (s2, x) ∧ (digest256 iv size).reset s1 = .ok (new256 iv) ∧
      (digest256 iv size).reset s2 = .ok (new256 iv) := by
  refine MD.history params256 (by decide) iv (MD.finish params256 56 (fun len => be64 (len <<< 3)) true) (fun q => (out256 q).take size)
    (digest256 iv size) rfl (fun s => ?_) (fun _ => rfl) (fun h0 m s h => MD.finish_ok params256 56 _ true (by decide) (by decide) h)
    (fun s h => MD.finish_checked params256 56 _ true s h) ops _ ⟨iv, [], MD.inv_init params256 (by decide) iv _ _⟩
  simp only [digest256, checksum256, bind, Except.bind]
  cases MD.finish params256 56 (fun len => be64 (len <<< 3)) true s <;> rfl

theorem history512 (iv : Eight 64) (size : Nat) (ops : List DOp) :
    ∃ s1 xs s2 x, runDigest (digest512 iv size) (new512 iv) ops = .ok (s1, xs) ∧ (digest512 iv size).checksum s1 = .ok (s2, x) ∧
      (digest512 iv size).checksum s2 = .ok (s2, x) ∧ (digest512 iv size).reset s1 = .ok (new512 iv) ∧
      (digest512 iv size).reset s2 = .ok (new512 iv) := by
  refine MD.history params512 (by decide) iv (MD.finish params512 112 (fun len => be128 (len.setWidth 128 <<< 3)) false)
    (fun q => (out512 q).take size)
    (digest512 iv size) rfl (fun s => ?_) (fun _ => rfl) (fun h0 m s h => MD.finish_ok params512 112 _ false (by decide) (by decide) h)
    (fun s h => MD.finish_checked params512 112 _ false s h) ops _ ⟨iv, [], MD.inv_init params512 (by decide) iv _ _⟩
  simp only [digest512, checksum512, bind, Except.bind]
  cases MD.finish params512 112 (fun len => be128 (len.setWidth 128 <<< 3)) false s <;> rfl

theorem historyT (t : Nat) (ops : List DOp) (s : T) (hs : (∃ h0 m, MD.Inv params512 h0 m s.sha) ∧ s.bitsLen = t) (n : T)
    (hn : newT t = .ok (some n)) (hi : ∃ h0 m, MD.Inv params512 h0 m n.sha) (hnt : n.bitsLen = t) :
    ∃ s1 xs s2 x, runDigest digestT s ops = .ok (s1, xs) ∧ digestT.checksum s1 = .ok (s2, x) ∧ digestT.checksum s2 = .ok (s2, x) ∧
      digestT.reset s1 = .ok n ∧ digestT.reset s2 = .ok n := by
  have hr : ∀ s : T, s.bitsLen = t → digestT.reset s = .ok n := by
    intro s h
    simp only [digestT, h, hn, bind, Except.bind]
  have hc : ∀ s : T, (∃ h0 m, MD.Inv params512 h0 m s.sha) → ∃ s' x, digestT.checksum s = .ok (s', x) ∧
      (∃ h0 m, MD.Inv params512 h0 m s'.sha) ∧ s'.bitsLen = s.bitsLen ∧ digestT.checksum s' = .ok (s', x) := by
    rintro s ⟨h0, m, h⟩
    obtain ⟨u, m', e, i, c⟩ := MD.finish_ok params512 112 (fun len => be128 (len.setWidth 128 <<< 3)) false (by decide) (by decide) h
    refine ⟨{ s with sha := u }, truncT s.bitsLen (out512 u.digest), ?_, ⟨h0, m', i⟩, rfl, ?_⟩
    · simp only [digestT, checksum512, e, bind, Except.bind]
    · simp only [digestT, checksum512, MD.finish_checked params512 112 _ false u c, bind, Except.bind]
  induction ops generalizing s with
  | nil =>
    obtain ⟨s', x, e, i, b, e'⟩ := hc s hs.1
    exact ⟨s, [], s', x, rfl, e, e', hr s hs.2, hr s' (b.trans hs.2)⟩
  | cons op rest ih =>
    cases op with
    | write x =>
      obtain ⟨⟨h0, m, h⟩, hb⟩ := hs
      obtain ⟨u, e, i, _⟩ := MD.write_inv params512 (by decide) h x
      obtain ⟨s1, xs, s2, x', e1, r⟩ := ih { s with sha := u } ⟨⟨h0, _, i⟩, hb⟩
      have ew : digestT.write s x = .ok { s with sha := u } := by simp only [digestT, e, bind, Except.bind]
      exact ⟨s1, xs, s2, x', by simp only [runDigest, ew, bind, Except.bind, e1], r⟩
    | checksum =>
      obtain ⟨s', x, e, i, b, e'⟩ := hc s hs.1
      obtain ⟨s1, xs, s2, x', e1, r⟩ := ih s' ⟨i, b.trans hs.2⟩
      exact ⟨s1, _, s2, x', by simp only [runDigest, e, bind, Except.bind, e1]; rfl, r⟩
    | reset =>
      obtain ⟨s1, xs, s2, x', e1, r⟩ := ih n ⟨hi, hnt⟩
      exact ⟨s1, xs, s2, x', by simp only [runDigest, hr s hs.2, bind, Except.bind, e1], r⟩

/-! ## SHA-512/t -/

/-- SHA-512 with an initial value and a length counter that starts at 128: what `SHA512T` computes. -/
theorem hashT (t : Nat) (ht : t ≤ 512) (chunks : List Bytes) (hl : 128 + chunks.flatten.length < 2 ^ 64) :
    ∃ n s s' q, newT t = .ok (some n) ∧ writeAll digestT n chunks = .ok s ∧ digestT.checksum s = .ok (s', truncT t (out512 q)) ∧
      regs q = Spec.MD.iterate (Spec.SHA.compress2 Spec.SHA.alg512) 128 (Spec.SHA.ivT t)
        (Spec.MD.pad 128 (fun n => Spec.MD.be 16 (1024 + n)) chunks.flatten) := by
  obtain ⟨s0, e0, i0, c0, l0, g0⟩ := newT_eq t ht
  have hw : ∀ (chunks : List Bytes) (s : MD.State (Eight 64)) (m : Bytes), MD.Inv params512 s0.digest m s → s.isChecked = false →
      s.len = BitVec.ofNat 64 (128 + m.length) → ∃ s', writeAll digestT { sha := s, bitsLen := t } chunks = .ok { sha := s', bitsLen := t } ∧
      MD.Inv params512 s0.digest (m ++ chunks.flatten) s' ∧ s'.isChecked = false ∧ s'.len = BitVec.ofNat 64 (128 + (m ++ chunks.flatten).length) := by
    intro chunks
    induction chunks with
    | nil => intro s m h1 h2 h3; exact ⟨s, rfl, by simpa using h1, h2, by simpa using h3⟩
    | cons x rest ih =>
      intro s m h1 h2 h3
      obtain ⟨s1, e1, i1, l1, c1, _⟩ := MD.write_inv params512 (by decide) h1 x
      obtain ⟨s2, e2, i2, c2, l2⟩ := ih s1 (m ++ x) i1 c1 (by rw [l1, h3, List.length_append, ← BitVec.ofNat_add]; congr 1; omega)
      refine ⟨s2, ?_, by simpa using i2, c2, by simpa using l2⟩
      have ew : digestT.write { sha := s, bitsLen := t } x = .ok { sha := s1, bitsLen := t } := by simp only [digestT, e1, bind, Except.bind]
      simp only [writeAll, ew, bind, Except.bind, e2]
  obtain ⟨s1, e1, i1, c1, l1⟩ := hw chunks s0 [] i0 c0 (by simpa using l0)
  rw [List.nil_append] at i1 l1
  obtain ⟨s2, e2, _, _, _, _, g2⟩ := fin128 params512 rfl i1 c1 128 rfl l1 hl
  refine ⟨_, _, { sha := s2, bitsLen := t }, s2.digest, e0, e1, ?_, ?_⟩
  · simp only [digestT, checksum512, e2, bind, Except.bind]
  · rw [g2, ← g0]
    exact MD.iterate_map regs _ _ (compress_eq agree512) 128 s0.digest _

theorem truncT_length (t : Nat) (ht : t ≤ 512) (d : Bytes) (hd : d.length = 64) : (truncT t d).length = (t + 7) / 8 := by
  have hl : (d.take ((t + 7) / 8)).length = (t + 7) / 8 := by rw [List.length_take]; omega
  unfold truncT
  simp only
  split
  · rename_i x hx
    have : (d.take ((t + 7) / 8)) ≠ [] := by intro h; rw [h] at hx; cases hx
    have := List.length_pos_iff.2 this
    rw [List.length_append, List.length_dropLast, hl, List.length_singleton]; omega
  · exact hl

theorem truncT_eq (t : Nat) (ht : t ≤ 512) (d : Bytes) (hd : d.length = 64) (h0 : 0 < t) :
    truncT t d = d.take ((t + 7) / 8 - 1) ++ [if t % 8 > 0 then (d.getD ((t + 7) / 8 - 1) 0#8 >>> (8 - t % 8)) <<< (t % 8) else
      d.getD ((t + 7) / 8 - 1) 0#8] := by
  have hl : (d.take ((t + 7) / 8)).length = (t + 7) / 8 := by rw [List.length_take]; omega
  have hx : (d.take ((t + 7) / 8)).getLast? = some (d.getD ((t + 7) / 8 - 1) 0#8) := by
    rw [List.getLast?_eq_getElem?, hl, List.getElem?_take_of_lt (by omega), List.getD_eq_getElem?_getD,
      List.getElem?_eq_getElem (by omega)]
    rfl
  unfold truncT
  simp only [hx]
  rw [List.dropLast_eq_take, hl, List.take_take, Nat.min_eq_left (by omega)]

theorem truncT_take (t : Nat) (ht : t ≤ 512) (d : Bytes) (hd : d.length = 64) : (truncT t d).take (t / 8) = d.take (t / 8) := by
  by_cases h0 : t = 0
  · subst h0; rfl
  · rw [truncT_eq t ht d hd (by omega)]
    by_cases h8 : t % 8 = 0
    · rw [if_neg (by omega), List.take_of_length_le (by simp; omega), show t / 8 = (t + 7) / 8 - 1 + 1 by omega,
        List.take_add_one, List.getD_eq_getElem?_getD, List.getElem?_eq_getElem (by omega)]
      rfl
    · rw [List.take_append_of_le_length (by simp; omega), List.take_take, Nat.min_eq_left (by omega)]

theorem truncT_last (t : Nat) (ht : t ≤ 512) (d : Bytes) (hd : d.length = 64) (h8 : t % 8 ≠ 0) :
    (truncT t d).getD (t / 8) 0#8 = (d.getD (t / 8) 0#8 >>> (8 - t % 8)) <<< (t % 8) := by
  rw [truncT_eq t ht d hd (by omega), if_pos (by omega), show (t + 7) / 8 - 1 = t / 8 by omega, List.getD_eq_getElem?_getD,
    List.getElem?_append_right (by simp; omega)]
  simp [show min (t / 8) d.length = t / 8 by omega]

theorem iv512t_eq : regs init512t256 = Spec.SHA.ivT 256 ∧ regs init512t224 = Spec.SHA.ivT 224 := by
  have h : ∀ t q, t ≤ 512 → (match newT t with | .ok (some n) => decide (n.sha.digest = q) | _ => false) = true → regs q = Spec.SHA.ivT t := by
    intro t q ht h
    obtain ⟨s, e, _, _, _, g⟩ := newT_eq t ht
    rw [e] at h
    simp only [decide_eq_true_eq] at h
    rw [← h, g]
  exact ⟨h 256 _ (by decide) (by decide +kernel), h 224 _ (by decide) (by decide +kernel)⟩

/-! ## A second message after `checksum` -/

theorem iterate_append {D : Type} (f : D → Bytes → D) (bs : Nat) (hb : 0 < bs) (h : D) (a b : Bytes) (ha : a.length % bs = 0) :
    Spec.MD.iterate f bs h (a ++ b) = Spec.MD.iterate f bs (Spec.MD.iterate f bs h a) b := by
  obtain ⟨k, hk⟩ := Nat.dvd_of_mod_eq_zero ha
  let p : MD.Params D := ⟨bs, true, f⟩
  have e := MD.blocks_add p k (b.length / bs) h a b (by rw [hk, Nat.mul_comm])
  rw [MD.blocks_eq, MD.blocks_eq, MD.blocks_eq] at e
  unfold Spec.MD.iterate
  rw [List.length_append, hk, Nat.mul_add_div hb, Nat.mul_div_cancel_left _ hb]
  exact e

theorem pad_append (bs l : Nat) (field : Nat → Bytes) (hf : ∀ n, (field n).length = l) (a x : Bytes) (ha : a.length % bs = 0) :
    Spec.MD.pad bs field (a ++ x) = a ++ Spec.MD.pad bs (fun n => field (8 * a.length + n)) x := by
  unfold Spec.MD.pad
  simp only [hf, List.length_append, List.append_assoc]
  have e : Spec.MD.zeros bs l (a.length + x.length) = Spec.MD.zeros bs l x.length := by
    unfold Spec.MD.zeros
    rw [show a.length + x.length + 1 + l = a.length + (x.length + 1 + l) by omega, Nat.add_mod, ha, Nat.zero_add, Nat.mod_mod]
  rw [e, Nat.mul_add]

theorem pad_length (bs l : Nat) (hb : 0 < bs) (field : Nat → Bytes) (hf : ∀ n, (field n).length = l) (x : Bytes) :
    (Spec.MD.pad bs field x).length % bs = 0 := by
  unfold Spec.MD.pad
  simp only [hf, List.length_append, List.length_singleton, List.length_replicate, Spec.MD.zeros]
  have := Nat.mod_lt (x.length + 1 + l) hb
  rw [show x.length + 1 + (bs - (x.length + 1 + l) % bs) % bs + l = x.length + 1 + l + (bs - (x.length + 1 + l) % bs) % bs by omega, Nat.add_mod,
    Nat.mod_mod]
  generalize (x.length + 1 + l) % bs = r at *
  by_cases h : r = 0
  · subst h; simp
  · rw [Nat.mod_eq_of_lt (show bs - r < bs by omega), show r + (bs - r) = bs by omega, Nat.mod_self]

theorem second512 (iv : Eight 64) (size : Nat) (m x : Bytes) (h : (Spec.MD.pad 128 (Spec.MD.be 16) m ++ x).length < 2 ^ 64) :
    ∃ s, runDigest (digest512 iv size) (new512 iv) [.write m, .checksum, .write x, .checksum] =
      .ok (s, [(Spec.SHA.regBytes (Spec.SHA.hashRegs Spec.SHA.alg512 (regs iv) m)).take size,
        (Spec.SHA.regBytes (Spec.SHA.hashRegs Spec.SHA.alg512 (regs iv) (Spec.MD.pad 128 (Spec.MD.be 16) m ++ x))).take size]) := by
  have hpm : m.length ≤ (Spec.MD.pad 128 (Spec.MD.be 16) m).length := by
    unfold Spec.MD.pad; simp only [List.length_append]; omega
  rw [List.length_append] at h
  obtain ⟨s1, e1, i1, l1, c1, _⟩ := MD.write_inv params512 (by decide) (MD.inv_init params512 (by decide) iv 0#64 false) m
  obtain ⟨s2, e2, c2, x2, b2, l2, d2⟩ := fin128 params512 rfl i1 c1 0 rfl (by rw [l1]; simp) (by rw [List.nil_append]; omega)
  simp only [List.nil_append, Nat.mul_zero, Nat.zero_add] at l2 d2
  have i2 : MD.Inv params512 s2.digest [] s2 := ⟨b2, by omega, fun _ => by rw [x2]; decide, 0, [], by simp, by simp [x2], rfl⟩
  obtain ⟨s3, e3, i3, l3, c3, _⟩ := MD.write_inv params512 (by decide) i2 x
  rw [List.nil_append] at i3
  have hmod := pad_length 128 16 (by decide) (Spec.MD.be 16) (be_length 16) m
  obtain ⟨s4, e4, _, _, _, _, d4⟩ := fin128 params512 rfl i3 c3 (Spec.MD.pad 128 (Spec.MD.be 16) m).length hmod
    (by rw [l3, l2, l1, BitVec.ofNat_add]; congr 1
        show 0#64 + BitVec.ofNat 64 m.length + _ = _
        rw [BitVec.zero_add, ← BitVec.ofNat_add]; congr 1; exact Nat.add_sub_cancel' hpm) h
  refine ⟨s4, ?_⟩
  have e1' : MD.write params512 (new512 iv) m = .ok s1 := e1
  simp only [runDigest, digest512, checksum512, e1', e2, e3, e4, bind, Except.bind]
  rw [out512_eq, out512_eq, d4, d2, ← regs_hash512, ← regs_hash512, pad_append 128 16 _ (be_length 16) _ x hmod,
    iterate_append _ 128 (by decide) _ _ _ hmod]
  rfl

end SHA2
end Verif.Model
