import Verif.Model.LongHash
import Verif.Proof.HashLaw

/-! Helper lemmas: the iterated hashes on a machine with `W`-bit `usize`, in both kinds of build -/

namespace Verif.Model.LongHash

open Verif.Spec.LongHash (Name)

variable {D : Type} (W : Nat) (debug : Bool) (p : MD.Params D)

theorem addLen_ok (len : BitVec 64) (n : Nat) (h : debug = false ∨ len.toNat + n < 2 ^ W) :
    addLen W debug len n = .ok (BitVec.ofNat 64 ((len.toNat + n) % 2 ^ W)) := by
  rw [addLen, if_neg]
  rintro ⟨h1, h2⟩
  rcases h with h | h
  · rw [h] at h1; cases h1
  · omega

theorem write_panic (s : MD.State D) (x : Bytes) (h : 2 ^ W ≤ s.len.toNat + x.length) : write W true p s x = .error .panic := by
  rw [write, addLen, if_pos ⟨rfl, h⟩]; rfl

theorem write_inv (hb : 0 < p.bs) {h0 : D} {m : Bytes} {s : MD.State D} (h : MD.Inv p h0 m s) (x : Bytes)
    (hd : debug = false ∨ s.len.toNat + x.length < 2 ^ W) :
    ∃ s', write W debug p s x = .ok s' ∧ MD.Inv p h0 (m ++ x) s' ∧ s'.len = BitVec.ofNat 64 ((s.len.toNat + x.length) % 2 ^ W) ∧
      s'.isChecked = false ∧ (0 < s.idx → s.idx + x.length = p.bs → s'.idx = 0) := by
  have h0' : MD.Inv p h0 m { s with len := BitVec.ofNat 64 ((s.len.toNat + x.length) % 2 ^ W) } := ⟨h.bufLen, h.idxLe, h.idxLt, h.split⟩
  obtain ⟨s1, x1, e1, l1, c1, d1, y1, hy1, i1⟩ := MD.fill_inv p hb h0' x
  obtain ⟨s2, x2, e2, l2, c2, n2, m2, d2, y2, hy2, i2⟩ := MD.bulk_inv p hb i1 x1 c1
  have c3 : s2.idx = 0 ∨ x2 = [] := by
    rcases c1 with h1 | h1
    · exact Or.inl (by rw [c2, h1])
    · exact Or.inr (d2 h1)
  obtain ⟨s3, e3, l3, d3, i3⟩ := MD.keep_inv p i2 x2 c3 n2 m2
  refine ⟨{ s3 with isChecked := false }, ?_, ?_, ?_, rfl, ?_⟩
  · unfold write
    rw [addLen_ok W debug _ _ hd]
    simp only [bind, Except.bind, e1, e2, e3]
  · have : m ++ x = m ++ y1 ++ y2 ++ x2 := by rw [hy1, hy2]; simp only [List.append_assoc]
    rw [this]
    exact ⟨i3.bufLen, i3.idxLe, i3.idxLt, i3.split⟩
  · simp only [l3, l2, l1]
  · intro h1 h2
    obtain ⟨h3, h4⟩ := d1 h1 h2
    have h5 := d2 h4
    have h6 := d3 h5
    simp only [h6, c2, h3]

theorem toNat_mod (hW : W ≤ 64) (n : Nat) : (BitVec.ofNat 64 (n % 2 ^ W)).toNat = n % 2 ^ W := by
  rw [BitVec.toNat_ofNat]
  exact Nat.mod_eq_of_lt (Nat.lt_of_lt_of_le (Nat.mod_lt _ (Nat.two_pow_pos W)) (Nat.pow_le_pow_right (by decide) hW))

/-- Any number of writes. -/
theorem writes_inv (hW : W ≤ 64) (hb : 0 < p.bs) {h0 : D} (ms : List Bytes) {m : Bytes} {s : MD.State D} (h : MD.Inv p h0 m s)
    (hc : s.isChecked = false) (hl : s.len.toNat = m.length % 2 ^ W) (hd : debug = false ∨ (m ++ ms.flatten).length < 2 ^ W) :
    ∃ s', ms.foldlM (write W debug p) s = .ok s' ∧ MD.Inv p h0 (m ++ ms.flatten) s' ∧
      s'.len.toNat = (m ++ ms.flatten).length % 2 ^ W ∧ s'.isChecked = false := by
  induction ms generalizing m s with
  | nil => exact ⟨s, rfl, by simpa using h, by simpa using hl, hc⟩
  | cons x ms ih =>
    have hd1 : debug = false ∨ s.len.toNat + x.length < 2 ^ W := by
      refine hd.imp_right fun h1 => ?_
      have := Nat.mod_le m.length (2 ^ W)
      rw [List.flatten_cons] at h1; simp only [List.length_append] at h1
      omega
    obtain ⟨s1, e1, i1, l1, c1, _⟩ := write_inv W debug p hb h x hd1
    have l1' : s1.len.toNat = (m ++ x).length % 2 ^ W := by
      rw [l1, toNat_mod W hW, hl, Nat.mod_add_mod, List.length_append]
    obtain ⟨s2, e2, i2, l2, c2⟩ := ih i1 c1 l1' (by rw [List.flatten_cons] at hd; simpa only [List.append_assoc] using hd)
    refine ⟨s2, ?_, by simpa only [List.flatten_cons, List.append_assoc] using i2, by
      simpa only [List.flatten_cons, List.append_assoc] using l2, c2⟩
    rw [List.foldlM_cons, e1]
    exact e2

/-- In a debug build the writes panic once the total reaches `2^W`. -/
theorem writes_panic (hW : W ≤ 64) (hb : 0 < p.bs) {h0 : D} (ms : List Bytes) {m : Bytes} {s : MD.State D} (h : MD.Inv p h0 m s)
    (hl : s.len.toNat = m.length) (hm : m.length < 2 ^ W) (ho : 2 ^ W ≤ (m ++ ms.flatten).length) :
    ms.foldlM (write W true p) s = .error .panic := by
  induction ms generalizing m s with
  | nil => simp only [List.flatten_nil, List.append_nil] at ho; omega
  | cons x ms ih =>
    rw [List.foldlM_cons]
    by_cases hx : 2 ^ W ≤ s.len.toNat + x.length
    · rw [write_panic W p s x hx]; rfl
    · obtain ⟨s1, e1, i1, l1, c1, _⟩ := write_inv W true p hb h x (Or.inr (by omega))
      rw [e1]
      refine ih i1 ?_ (by rw [List.length_append]; omega) (by simpa only [List.flatten_cons, List.append_assoc] using ho)
      rw [l1, toNat_mod W hW, hl, List.length_append, Nat.mod_eq_of_lt (by omega)]

/-- The number of zero bytes, as `checksum` of SHA-1, SHA-2 and SM3 computes it. -/
theorem zeros_eq (bs off l n : Nat) (ho : 0 < off) (hl0 : 0 < l) (hol : off + l = bs) :
    (if n % bs < off then off - n % bs else bs + off - n % bs) = Spec.MD.zeros bs l n + 1 ∧ Spec.MD.zeros bs l n + 1 ≤ bs := by
  have hlt := Nat.mod_lt n (show 0 < bs by omega)
  unfold Spec.MD.zeros
  have e : (n + 1 + l) % bs = (n % bs + (1 + l)) % bs := by
    rw [Nat.add_assoc]; exact (Nat.mod_add_mod _ _ _).symm
  rw [e]
  generalize n % bs = r at *
  split
  · rename_i h1
    by_cases h2 : r + (1 + l) = bs
    · rw [h2, Nat.mod_self, Nat.sub_zero, Nat.mod_self]; omega
    · rw [Nat.mod_eq_of_lt (show r + (1 + l) < bs by omega), Nat.mod_eq_of_lt (by omega)]; omega
  · rename_i h1
    have : (r + (1 + l)) % bs = r + (1 + l) - bs := by
      rw [Nat.mod_eq_sub_mod (by omega), Nat.mod_eq_of_lt (by omega)]
    rw [this, Nat.mod_eq_of_lt (by omega)]; omega

/-- The length of the padded message. -/
theorem total_len (bs l n : Nat) (hb : 0 < bs) : n + 1 + Spec.MD.zeros bs l n + l = ((n + l) / bs + 1) * bs := by
  unfold Spec.MD.zeros
  have e1 := Nat.div_add_mod (n + l) bs
  have e2 := Nat.mod_lt (n + l) hb
  have e3 : (n + 1 + l) % bs = ((n + l) % bs + 1) % bs := by
    rw [show n + 1 + l = n + l + 1 by omega]; exact (Nat.mod_add_mod _ _ _).symm
  rw [e3, Nat.add_mul, Nat.one_mul, Nat.mul_comm]
  by_cases h : (n + l) % bs + 1 = bs
  · rw [h, Nat.mod_self, Nat.sub_zero, Nat.mod_self]; omega
  · rw [Nat.mod_eq_of_lt (show (n + l) % bs + 1 < bs by omega), Nat.mod_eq_of_lt (by omega)]; omega

/-- `checksum` of SHA-1, SHA-2 and SM3. -/
theorem finish_inv (hW : W ≤ 64) (off : Nat) (lenEnc : BitVec 64 → Bytes) (clear : Bool) (l : Nat) (hdvd : p.bs ∣ 2 ^ W)
    (ho : 0 < off) (hl0 : 0 < l) (hol : off + l = p.bs) (hfl : ∀ x, (lenEnc x).length = l)
    {h0 : D} {m : Bytes} {s : MD.State D} (h : MD.Inv p h0 m s) (hc : s.isChecked = false) (hl : s.len.toNat = m.length % 2 ^ W)
    (hd : debug = false ∨ ((m.length + l) / p.bs + 1) * p.bs < 2 ^ W) :
    ∃ s', finish W debug p off lenEnc clear s = .ok s' ∧
      s'.digest = Spec.MD.iterate p.compress p.bs h0
        (m ++ [0x80#8] ++ List.replicate (Spec.MD.zeros p.bs l m.length) 0#8 ++ lenEnc s.len) := by
  have hb : 0 < p.bs := by omega
  have hmod : s.len.toNat % p.bs = m.length % p.bs := by rw [hl, Nat.mod_mod_of_dvd _ hdvd]
  obtain ⟨hz, hzs⟩ := zeros_eq p.bs off l m.length ho hl0 hol
  have htot := total_len p.bs l m.length hb
  have hmle := Nat.mod_le m.length (2 ^ W)
  generalize Spec.MD.zeros p.bs l m.length = z at *
  have hslice : sliceTo (0x80#8 :: List.replicate (p.bs - 1) 0#8) (z + 1) = .ok (0x80#8 :: List.replicate z 0#8) := by
    unfold sliceTo
    rw [if_pos (by simp only [List.length_cons, List.length_replicate]; omega), List.take_succ_cons, List.take_replicate,
      Nat.min_eq_left (by omega)]
  obtain ⟨s1, e1, i1, l1, c1, _⟩ := write_inv W debug p hb h (0x80#8 :: List.replicate z 0#8)
    (hd.imp_right fun h1 => by simp only [List.length_cons, List.length_replicate]; omega)
  have hidx : s1.idx = off := by
    have h1 := i1.mod
    have h2 := i1.idxLe
    have hlt := Nat.mod_lt m.length hb
    have h3 : (m ++ 0x80#8 :: List.replicate z 0#8).length % p.bs = off := by
      simp only [List.length_append, List.length_cons, List.length_replicate]
      rw [← Nat.mod_add_mod]
      split at hz
      · rw [Nat.mod_eq_of_lt (by omega)]; omega
      · rw [Nat.mod_eq_sub_mod (by omega), Nat.mod_eq_of_lt (by omega)]; omega
    rw [h3] at h1
    by_cases h4 : s1.idx = p.bs
    · rw [h4, Nat.mod_self] at h1; omega
    · rw [Nat.mod_eq_of_lt (by omega)] at h1; exact h1.symm
  have hl1 : s1.len.toNat ≤ s.len.toNat + (z + 1) := by
    rw [l1, toNat_mod W hW]
    refine Nat.le_trans (Nat.mod_le _ _) ?_
    simp
  obtain ⟨s2, e2, i2, l2, c2, d2⟩ := write_inv W debug p hb i1 (lenEnc s.len)
    (hd.imp_right fun h1 => by rw [hfl]; omega)
  have hi2 : s2.idx = 0 := d2 (by omega) (by rw [hfl]; omega)
  refine ⟨{ s2 with len := if clear then 0#64 else s2.len, isChecked := true }, ?_, ?_⟩
  · unfold finish
    simp only [hc, Bool.false_eq_true, if_false, hmod, hz, bind, Except.bind]
    rw [hslice]
    simp only [e1, e2]
  · have := MD.inv_digest p hb i2 hi2
    simpa only [List.append_assoc, List.cons_append, List.nil_append, List.singleton_append] using this

/-- In a debug build `checksum` panics when the padding takes the counter to `2^W`. -/
theorem finish_panic (hW : W ≤ 64) (off : Nat) (lenEnc : BitVec 64 → Bytes) (clear : Bool) (l : Nat)
    (ho : 0 < off) (hl0 : 0 < l) (hol : off + l = p.bs) (hfl : ∀ x, (lenEnc x).length = l)
    {h0 : D} {m : Bytes} {s : MD.State D} (h : MD.Inv p h0 m s) (hc : s.isChecked = false) (hl : s.len.toNat = m.length)
    (hm : 2 ^ W ≤ ((m.length + l) / p.bs + 1) * p.bs) :
    finish W true p off lenEnc clear s = .error .panic := by
  have hb : 0 < p.bs := by omega
  obtain ⟨hz, hzs⟩ := zeros_eq p.bs off l m.length ho hl0 hol
  have htot := total_len p.bs l m.length hb
  generalize Spec.MD.zeros p.bs l m.length = z at *
  have hslice : sliceTo (0x80#8 :: List.replicate (p.bs - 1) 0#8) (z + 1) = .ok (0x80#8 :: List.replicate z 0#8) := by
    unfold sliceTo
    rw [if_pos (by simp only [List.length_cons, List.length_replicate]; omega), List.take_succ_cons, List.take_replicate,
      Nat.min_eq_left (by omega)]
  unfold finish
  simp only [hc, Bool.false_eq_true, if_false, hl, hz, bind, Except.bind]
  rw [hslice]
  simp only
  by_cases h1 : 2 ^ W ≤ s.len.toNat + (0x80#8 :: List.replicate z 0#8).length
  · rw [write_panic W p s _ h1]
  · obtain ⟨s1, e1, i1, l1, c1, _⟩ := write_inv W true p hb h (0x80#8 :: List.replicate z 0#8) (Or.inr (by omega))
    rw [e1]
    simp only
    rw [write_panic W p s1]
    rw [l1, toNat_mod W hW, Nat.mod_eq_of_lt (by omega), hfl, hl]
    simp only [List.length_cons, List.length_replicate]
    omega

/-- Everything about a hash object of SHA-1, SHA-2 or SM3. -/
theorem hash_eq (hW : W ≤ 64) (off : Nat) (lenEnc : BitVec 64 → Bytes) (clear : Bool) (l : Nat) (hdvd : p.bs ∣ 2 ^ W)
    (ho : 0 < off) (hl0 : 0 < l) (hol : off + l = p.bs) (hfl : ∀ x, (lenEnc x).length = l) (iv : D) (out : D → Bytes) (ms : List Bytes) :
    hash W debug p ⟨iv, List.replicate p.bs 0#8, 0, 0#64, false⟩ (finish W debug p off lenEnc clear) out ms =
      if debug = true ∧ 2 ^ W ≤ ((ms.flatten.length + l) / p.bs + 1) * p.bs then .error .panic
      else .ok (out (Spec.MD.iterate p.compress p.bs iv (ms.flatten ++ [0x80#8] ++
        List.replicate (Spec.MD.zeros p.bs l ms.flatten.length) 0#8 ++ lenEnc (BitVec.ofNat 64 (ms.flatten.length % 2 ^ W))))) := by
  have hb : 0 < p.bs := by omega
  have hi := MD.inv_init p hb iv 0#64 false
  have htot := total_len p.bs l ms.flatten.length hb
  have h0 : (0#64).toNat = ([] : Bytes).length % 2 ^ W := by simp
  unfold hash
  by_cases hd : debug = true ∧ 2 ^ W ≤ ((ms.flatten.length + l) / p.bs + 1) * p.bs
  · rw [if_pos hd]
    obtain ⟨hd1, hd2⟩ := hd
    subst hd1
    by_cases hn : 2 ^ W ≤ ms.flatten.length
    · rw [writes_panic W p hW hb ms hi rfl (Nat.two_pow_pos W) (by simpa using hn)]; rfl
    · obtain ⟨s1, e1, i1, l1, c1⟩ := writes_inv W true p hW hb ms hi rfl h0 (Or.inr (by simpa using hn))
      rw [List.nil_append] at i1 l1
      rw [e1]
      simp only [bind, Except.bind]
      rw [finish_panic W p hW off lenEnc clear l ho hl0 hol hfl i1 c1 (by rw [l1, Nat.mod_eq_of_lt (by omega)]) hd2]
  · rw [if_neg hd]
    have hd' : debug = false ∨ ((ms.flatten.length + l) / p.bs + 1) * p.bs < 2 ^ W := by
      cases debug
      · exact Or.inl rfl
      · exact Or.inr (Nat.lt_of_not_le fun h => hd ⟨rfl, h⟩)
    obtain ⟨s1, e1, i1, l1, c1⟩ := writes_inv W debug p hW hb ms hi rfl h0 (hd'.imp_right fun h => by
      rw [List.nil_append]; omega)
    rw [List.nil_append] at i1 l1
    obtain ⟨s2, e2, g2⟩ := finish_inv W debug p hW off lenEnc clear l hdvd ho hl0 hol hfl i1 c1 l1 hd'
    rw [e1]
    simp only [bind, Except.bind]
    rw [e2]
    simp only
    rw [g2]
    have : s1.len = BitVec.ofNat 64 (ms.flatten.length % 2 ^ W) := by
      apply BitVec.eq_of_toNat_eq; rw [l1, toNat_mod W hW]
    rw [this]

theorem padLen_md5 (hW : 6 ≤ W) (n : Nat) : ((55 + 2 ^ W - n % 2 ^ W) % 2 ^ W) % 64 = Spec.MD.zeros 64 8 n := by
  have hdvd : 64 ∣ 2 ^ W := by rw [show 64 = 2 ^ 6 from rfl]; exact Nat.pow_dvd_pow 2 hW
  have h1 : n % 2 ^ W % 64 = n % 64 := Nat.mod_mod_of_dvd _ hdvd
  have h2 := Nat.mod_lt n (Nat.two_pow_pos W)
  obtain ⟨c, hc⟩ := hdvd
  rw [Nat.mod_mod_of_dvd _ ⟨c, hc⟩, Spec.MD.zeros]
  omega

/-- Everything about a hash object of MD5. -/
theorem hash_md5 (hW6 : 6 ≤ W) (hW : W ≤ 64) (ms : List Bytes) :
    hash W debug MD5.params MD5.new (finishMD5 W debug) MD5.out ms =
      if debug = true ∧ 2 ^ W ≤ ((ms.flatten.length + 8) / 64 + 1) * 64 then .error .panic
      else .ok (MD5.out (Spec.MD.iterate MD5.compress 64 MD5.init (ms.flatten ++ [0x80#8] ++
        List.replicate (Spec.MD.zeros 64 8 ms.flatten.length) 0#8 ++ Spec.MD.le 8 ((8 * ms.flatten.length) % 2 ^ W)))) := by
  have hi := MD.inv_init MD5.params (by decide) MD5.init 0#64 false
  have htot := total_len 64 8 ms.flatten.length (by decide)
  have h0 : (0#64).toNat = ([] : Bytes).length % 2 ^ W := by simp
  have hfin : ∀ (m : Bytes) (s : MD.State MD5.Quad), s.isChecked = false → s.len.toNat = m.length % 2 ^ W →
      finishMD5 W debug s = (write W debug MD5.params s (0x80#8 :: List.replicate (Spec.MD.zeros 64 8 m.length) 0#8 ++
        Spec.MD.le 8 ((8 * m.length) % 2 ^ W)) >>= fun s => .ok { s with len := 0#64, isChecked := true }) := by
    intro m s hc hl
    rw [finishMD5, if_neg (by rw [hc]; exact Bool.false_ne_true)]
    simp only
    rw [hl, padLen_md5 W hW6, show (m.length % 2 ^ W * 2 ^ 3) % 2 ^ W = (8 * m.length) % 2 ^ W by
      rw [Nat.mod_mul_mod, Nat.mul_comm], MD.le64_field]
  have hlen : ∀ m : Bytes, (0x80#8 :: List.replicate (Spec.MD.zeros 64 8 m.length) 0#8 ++ Spec.MD.le 8 ((8 * m.length) % 2 ^ W)).length =
      1 + Spec.MD.zeros 64 8 m.length + 8 := by
    intro m; simp [Spec.MD.le]; omega
  unfold hash
  by_cases hd : debug = true ∧ 2 ^ W ≤ ((ms.flatten.length + 8) / 64 + 1) * 64
  · rw [if_pos hd]
    obtain ⟨hd1, hd2⟩ := hd
    subst hd1
    by_cases hn : 2 ^ W ≤ ms.flatten.length
    · rw [show MD5.new = ⟨MD5.init, List.replicate MD5.params.bs 0#8, 0, 0#64, false⟩ from rfl,
        writes_panic W MD5.params hW (by decide) ms hi rfl (Nat.two_pow_pos W) (by simpa using hn)]; rfl
    · obtain ⟨s1, e1, i1, l1, c1⟩ := writes_inv W true MD5.params hW (by decide) ms hi rfl h0 (Or.inr (by simpa using hn))
      rw [List.nil_append] at i1 l1
      rw [show MD5.new = ⟨MD5.init, List.replicate MD5.params.bs 0#8, 0, 0#64, false⟩ from rfl, e1]
      simp only [bind, Except.bind]
      rw [hfin _ _ c1 l1, write_panic W MD5.params s1]
      · rfl
      · rw [l1, Nat.mod_eq_of_lt (by omega), hlen]; omega
  · rw [if_neg hd]
    have hd' : debug = false ∨ ((ms.flatten.length + 8) / 64 + 1) * 64 < 2 ^ W := by
      cases debug
      · exact Or.inl rfl
      · exact Or.inr (Nat.lt_of_not_le fun h => hd ⟨rfl, h⟩)
    obtain ⟨s1, e1, i1, l1, c1⟩ := writes_inv W debug MD5.params hW (by decide) ms hi rfl h0 (hd'.imp_right fun h => by
      rw [List.nil_append]; omega)
    rw [List.nil_append] at i1 l1
    rw [show MD5.new = ⟨MD5.init, List.replicate MD5.params.bs 0#8, 0, 0#64, false⟩ from rfl, e1]
    simp only [bind, Except.bind]
    rw [hfin _ _ c1 l1]
    obtain ⟨s2, e2, i2, l2, c2, _⟩ := write_inv W debug MD5.params (by decide) i1 (0x80#8 ::
      List.replicate (Spec.MD.zeros 64 8 ms.flatten.length) 0#8 ++ Spec.MD.le 8 ((8 * ms.flatten.length) % 2 ^ W))
      (hd'.imp_right fun h => by
        have := Nat.mod_le ms.flatten.length (2 ^ W)
        rw [hlen, l1]; omega)
    have hi2 : s2.idx = 0 := by
      have h1 := i2.mod
      have h2 := i2.idxLt rfl
      rw [List.length_append, hlen, show MD5.params.bs = 64 from rfl] at h1
      rw [show MD5.params.bs = 64 from rfl] at h2
      omega
    rw [e2]
    simp only [bind, Except.bind]
    have := MD.inv_digest MD5.params (by decide) i2 hi2
    rw [this]
    simp only [MD5.params, List.append_assoc, List.cons_append, List.nil_append]

/-- The length in bits which ends up in the length field. -/
def claimed (a : Name) (n : Nat) : Nat := if a = .md5 then (8 * n) % 2 ^ W else 8 * (n % 2 ^ W)

theorem dvd_pow (hW : 7 ≤ W) : 64 ∣ 2 ^ W ∧ 128 ∣ 2 ^ W :=
  ⟨by rw [show 64 = 2 ^ 6 from rfl]; exact Nat.pow_dvd_pow 2 (by omega), by rw [show 128 = 2 ^ 7 from rfl]; exact Nat.pow_dvd_pow 2 hW⟩

theorem mod_lt64 (hW : W ≤ 64) (n : Nat) : n % 2 ^ W < 2 ^ 64 :=
  Nat.lt_of_lt_of_le (Nat.mod_lt _ (Nat.two_pow_pos W)) (Nat.pow_le_pow_right (by decide) hW)

theorem run256 (hW7 : 7 ≤ W) (hW : W ≤ 64) (iv : SHA2.Eight 32) (size : Nat) (ms : List Bytes) :
    hash W debug SHA2.params256 (SHA2.new256 iv) (finish W debug SHA2.params256 56 (fun len => be64 (len <<< 3)) true)
      (fun q => (SHA2.out256 q).take size) ms =
      if debug = true ∧ 2 ^ W ≤ ((ms.flatten.length + 8) / 64 + 1) * 64 then .error .panic
      else .ok ((Spec.SHA.regBytes (Spec.MD.iterate (Spec.SHA.compress2 Spec.SHA.alg256) 64 (SHA2.regs iv) (ms.flatten ++ [0x80#8] ++
        List.replicate (Spec.MD.zeros 64 8 ms.flatten.length) 0#8 ++ Spec.MD.be 8 (8 * (ms.flatten.length % 2 ^ W))))).take size) := by
  have := hash_eq W debug SHA2.params256 hW 56 (fun len => be64 (len <<< 3)) true 8 (dvd_pow W hW7).1 (by decide) (by decide) (by decide)
    (fun _ => rfl) iv (fun q => (SHA2.out256 q).take size) ms
  simp only [len64] at this
  refine this.trans ?_
  have e : ∀ t, SHA2.regs (Spec.MD.iterate SHA2.params256.compress SHA2.params256.bs iv t) =
      Spec.MD.iterate (Spec.SHA.compress2 Spec.SHA.alg256) 64 (SHA2.regs iv) t :=
    fun t => MD.iterate_map SHA2.regs _ _ (SHA2.compress_eq SHA2.agree256) 64 iv t
  simp only [SHA2.out256_eq, e]; rfl

theorem run512 (hW7 : 7 ≤ W) (hW : W ≤ 64) (iv : SHA2.Eight 64) (size : Nat) (ms : List Bytes) :
    hash W debug SHA2.params512 (SHA2.new512 iv) (finish W debug SHA2.params512 112 (fun len => be128 (len.setWidth 128 <<< 3)) false)
      (fun q => (SHA2.out512 q).take size) ms =
      if debug = true ∧ 2 ^ W ≤ ((ms.flatten.length + 16) / 128 + 1) * 128 then .error .panic
      else .ok ((Spec.SHA.regBytes (Spec.MD.iterate (Spec.SHA.compress2 Spec.SHA.alg512) 128 (SHA2.regs iv) (ms.flatten ++ [0x80#8] ++
        List.replicate (Spec.MD.zeros 128 16 ms.flatten.length) 0#8 ++ Spec.MD.be 16 (8 * (ms.flatten.length % 2 ^ W))))).take size) := by
  have := hash_eq W debug SHA2.params512 hW 112 (fun len => be128 (len.setWidth 128 <<< 3)) false 16 (dvd_pow W hW7).2 (by decide) (by decide)
    (by decide) (fun _ => rfl) iv (fun q => (SHA2.out512 q).take size) ms
  rw [len128 _ (mod_lt64 W hW _)] at this
  refine this.trans ?_
  have e : ∀ t, SHA2.regs (Spec.MD.iterate SHA2.params512.compress SHA2.params512.bs iv t) =
      Spec.MD.iterate (Spec.SHA.compress2 Spec.SHA.alg512) 128 (SHA2.regs iv) t :=
    fun t => MD.iterate_map SHA2.regs _ _ (SHA2.compress_eq SHA2.agree512) 128 iv t
  simp only [SHA2.out512_eq, e]; rfl

theorem take_regs32 (r : Spec.SHA.Regs 32) : (Spec.SHA.regBytes r).take 32 = Spec.SHA.regBytes r :=
  List.take_of_length_le (by rw [regBytes32_length]; exact Nat.le_refl _)
theorem take_regs64 (r : Spec.SHA.Regs 64) : (Spec.SHA.regBytes r).take 64 = Spec.SHA.regBytes r :=
  List.take_of_length_le (by rw [regBytes64_length]; exact Nat.le_refl _)

/-- What the objects return. -/
theorem run_eq (hW7 : 7 ≤ W) (hW : W ≤ 64) (a : Name) (ms : List Bytes) :
    run W debug a ms = if debug = true ∧ 2 ^ W ≤ Spec.LongHash.paddedLen a ms.flatten.length then .error .panic
      else .ok (Spec.LongHash.core a (Spec.LongHash.padded a (claimed W a ms.flatten.length) ms.flatten)) := by
  cases a with
  | md5 =>
    refine (hash_md5 W debug (by omega) hW ms).trans ?_
    have := fun t => MD.iterate_map MD5.regs MD5.compress Spec.MD5.compress MD5.compress_eq 64 MD5.init t
    simp only [Spec.LongHash.core, show Spec.MD5.init = MD5.regs MD5.init from rfl, ← this]
    rfl
  | sha1 =>
    have := hash_eq W debug SHA1.params hW 56 (fun len => be64 (len <<< 3)) true 8 (dvd_pow W hW7).1 (by decide) (by decide) (by decide)
      (fun _ => rfl) SHA1.init SHA1.out ms
    simp only [len64, SHA1.out_eq] at this
    refine this.trans ?_
    have e := fun t => MD.iterate_map SHA1.regs SHA1.compress Spec.SHA.compress1 SHA1.compress_eq 64 SHA1.init t
    simp only [Spec.LongHash.core, show Spec.SHA.init1 = SHA1.regs SHA1.init from rfl, ← e]
    rfl
  | sha224 =>
    refine (run256 W debug hW7 hW SHA2.init224 28 ms).trans ?_
    rw [SHA2.iv224_eq]
    rfl
  | sha256 =>
    refine (run256 W debug hW7 hW SHA2.init256 32 ms).trans ?_
    rw [take_regs32]
    rw [SHA2.iv256_eq]
    rfl
  | sha384 =>
    refine (run512 W debug hW7 hW SHA2.init384 48 ms).trans ?_
    rw [SHA2.iv384_eq]
    rfl
  | sha512 =>
    refine (run512 W debug hW7 hW SHA2.init512 64 ms).trans ?_
    rw [take_regs64]
    rw [SHA2.iv512_eq]
    rfl
  | sha512t224 =>
    refine (run512 W debug hW7 hW SHA2.init512t224 28 ms).trans ?_
    rw [SHA2.iv512t_eq.2]
    rfl
  | sha512t256 =>
    refine (run512 W debug hW7 hW SHA2.init512t256 32 ms).trans ?_
    rw [SHA2.iv512t_eq.1]
    rfl
  | sm3 =>
    have := hash_eq W debug SM3.params hW 56 (fun len => be64 (len <<< 3)) true 8 (dvd_pow W hW7).1 (by decide) (by decide) (by decide)
      (fun _ => rfl) SM3.init SHA2.out256 ms
    simp only [len64, SHA2.out256_eq] at this
    refine this.trans ?_
    have e := fun t => MD.iterate_map' SHA2.regs SM3.compress Spec.SM3.compress 64 (fun d b h => SM3.compress_eq d b h) SM3.init t
    simp only [Spec.LongHash.core, ← SM3.iv_eq, ← e]
    rfl

end Verif.Model.LongHash
